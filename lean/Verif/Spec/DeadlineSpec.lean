import Verif.Model.Training
import Mathlib.Order.Interval.Finset.Nat

/-!
# Specification: a time limit
-/

namespace Snn.Spec

section
variable {F : Type}

/-- A training step: an example or a batch is presented to the network. -/
def isStep : Event F → Bool
  | .trained .. => true
  | .skipped _ => true
  | _ => false

/-- The number of training steps of a run. -/
def stepsMade (trace : List (Event F)) : Nat := trace.countP isStep

/-- `elapsed i` are the milliseconds since the beginning of the training at the check number i of the criterion; what the program sees of
them is an `int` (Wait.cpp:67). -/
def shownClock (elapsed : Nat → Nat) : Nat → Int := fun i => toInt32 (elapsed i)

/-- The number of checks, from the check a to the check b (excluded), made before N milliseconds. -/
def checksInTime (elapsed : Nat → Nat) (N a b : Nat) : Nat := ((Finset.Ico a b).filter fun i => elapsed i < N).card

variable [Flt F]

/-- The criterion is over, whatever the epoch and the results, when N milliseconds have passed. -/
def LimitedTo (wait : Wait F) (N : Nat) : Prop := ∀ t e a m, (N : Int) ≤ t → wait.isOver t e a m = true

end

end Snn.Spec
