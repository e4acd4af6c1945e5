import Verif.Basic.Flt
import Mathlib.Algebra.Order.Field.Rat

/-!
# Rational numbers as a witness carrier

Used only for concrete examples that the kernel computes: exact rational arithmetic; the three transcendental functions are
placeholders and the examples use activations that do not call `fexp` and `ftanh`.
-/

namespace Snn

/-- Placeholder transcendental functions for the witness carrier (no theorem depends on them). -/
instance instFTransRat : FTrans ℚ := ⟨id, id, id⟩

end Snn
