import Verif.Spec.HiddenSpec
import Verif.Spec.MapSimSpec

/-!
# Specification: the outputs of a network in another order
-/

namespace Snn.Spec

open Snn.HistoryProps

variable {F : Type} [Flt F]

/-- The layers with the neurons of the last one in the order `p`. -/
def lastInOrder (p : List Nat) : List (Layer F) → List (Layer F)
  | [] => []
  | [l] => [neuronsInOrder p l]
  | l :: ls => l :: lastInOrder p ls

/-- The data object with every expected output in the order `p`; inputs, order of the examples, flags and settings are the same. -/
def labelsInOrder (p : List Nat) (d : Data F) : Data F :=
  { d with
    training := { d.training with labels := d.training.labels.map (inOrder p) }
    testing := { d.testing with labels := d.testing.labels.map (inOrder p) } }

/-- The same call with the expected outputs in the order `p`. -/
def callInOrder (p : List Nat) : Call F → Call F
  | .evaluate env d => .evaluate env (labelsInOrder p d)
  | .train env d wait b ef fuel => .train env (labelsInOrder p d) wait b ef fuel
  | c => c

/-- The data object is for a regression or a multiple classification, with `w` values and `m` expected outputs for each example. -/
def OutData (w m : Nat) (d : Data F) : Prop :=
  d.typeOfProblem ≠ .classification ∧ d.sizeOfData = w ∧ d.numberOfLabels = m ∧
    (∀ x ∈ d.training.inputs, x.length = w) ∧ (∀ x ∈ d.testing.inputs, x.length = w) ∧
    (∀ y ∈ d.training.labels, y.length = m) ∧ (∀ y ∈ d.testing.labels, y.length = m)

/-- Every input of the call has `w` values, and its data are as above. -/
def OutCall (w m : Nat) : Call F → Prop
  | .computeOutput x _ => x.length = w
  | .computeCluster x _ => x.length = w
  | .evaluate _ d => OutData w m d
  | .train _ d _ _ _ _ => OutData w m d
  | .saveAs _ => True
  | .autoSave _ _ => True

/-- The statistics with the counters of the outputs in the order `p`; all the rates, errors and flags are the same. -/
def statsInOrder (p : List Nat) (s : Stats F) : Stats F := { s with clusters := picked p s.clusters }

end Snn.Spec
