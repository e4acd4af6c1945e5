import Verif.Model.Stat
import Verif.Spec.StatSpec

/-!
# Specification of counting, on any float type

The verdict of one evaluation is observed from outside: what the counters of a new object are after this evaluation alone.
-/

namespace Snn.CountSpec

open StatSpec (Cell)

variable {F : Type} [Add F] [Sub F] [Flt F] [DecidableEq F]

/-- The counter of a cell of the confusion matrix. -/
def counter (c : Cluster F) : Cell → F
  | .tp => c.truePositive
  | .tn => c.trueNegative
  | .fp => c.falsePositive
  | .fn => c.falseNegative

/-- A new object with n labels, after the evaluation e alone. -/
def alone (n : Nat) (e : Ev F) : Res (Stats F) := (Stats.init n).evaluateOnce e

/-- Alone, the example is counted as well classified. -/
def well (n : Nat) (e : Ev F) : Bool :=
  match alone n e with
  | .ok s => decide (s.wellClassified ≠ lit 0)
  | _ => false

/-- Alone, the example is counted as misclassified. -/
def mis (n : Nat) (e : Ev F) : Bool :=
  match alone n e with
  | .ok s => decide (s.misclassified ≠ lit 0)
  | _ => false

/-- Alone, the example is counted in this cell of label i. -/
def inCell (n i : Nat) (cell : Cell) (e : Ev F) : Bool :=
  match alone n e with
  | .ok s => match s.clusters[i]? with
    | some c => decide (counter c cell ≠ lit 0)
    | none => false
  | _ => false

end Snn.CountSpec
