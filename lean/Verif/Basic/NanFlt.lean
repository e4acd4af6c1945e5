import Verif.Basic.Flt
import Mathlib.Algebra.Order.Field.Rat

/-!
# A small float carrier with NaN

Used only as a *witness* carrier: rational numbers plus a NaN that propagates and compares false with
everything (IEEE 754 comparison rules). Division by zero yields NaN (infinities are not represented).
-/

namespace Snn

/-- Rationals with a NaN. -/
inductive NF where
  | nan
  | num (q : ℚ)
  deriving DecidableEq, Repr

namespace NF
/-- Lift a binary operation, NaN propagates. -/
def lift2 (f : ℚ → ℚ → ℚ) : NF → NF → NF
  | num a, num b => num (f a b)
  | _, _ => nan
/-- Lift a comparison, false with NaN. -/
def cmp (f : ℚ → ℚ → Bool) : NF → NF → Bool
  | num a, num b => f a b
  | _, _ => false
instance : Add NF := ⟨lift2 (· + ·)⟩
instance : Sub NF := ⟨lift2 (· - ·)⟩
instance : Mul NF := ⟨lift2 (· * ·)⟩
instance : Div NF := ⟨fun a b => if b = num 0 then nan else lift2 (· / ·) a b⟩
instance : Neg NF := ⟨fun a => lift2 (· - ·) (num 0) a⟩
instance : Flt NF where
  flt := cmp fun a b => decide (a < b)
  fle := cmp fun a b => decide (a ≤ b)
  feq := cmp fun a b => decide (a = b)
  fabs
    | nan => nan
    | num q => num (if q < 0 then -q else q)
  lit := num
  isNormalOrZero
    | nan => false
    | num _ => true
/-- Placeholder transcendental functions for the witness carrier (no theorem depends on them). -/
instance : FTrans NF := ⟨id, id, id⟩
end NF

end Snn
