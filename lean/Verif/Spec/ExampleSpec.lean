import Verif.Spec.DeadlineSpec
import Mathlib.Order.Monotone.Defs

/-!
# Specification: the time during which an example program runs
-/

namespace Snn.Spec

section
variable {F : Type} [Flt F]

/-- The clock that the checks of a training read never goes back, one check comes N milliseconds or more after the start, and the
next one comes before 2^31 milliseconds (about 25 days). -/
def ClockPasses (env : Env F) (N : Nat) : Prop :=
  ∃ (elapsed : Nat → Nat) (k : Nat), env.clock = shownClock elapsed ∧ Monotone elapsed ∧ N ≤ elapsed k ∧ elapsed (k + 1) < 2 ^ 31

end

end Snn.Spec
