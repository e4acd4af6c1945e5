import Mathlib.Algebra.Order.Field.Basic
import Mathlib.Data.Rat.Cast.Order

/-!
# The float interface

Not a model of a particular file: the operations of C++ `float` used by `/repo`.
`+ - * /` and unary `-` come from the standard Lean classes; the rest from `Flt`.
The model is generic in the carrier, so a theorem without algebraic hypotheses holds in
particular for IEEE binary32 with any rounding.
-/

namespace Snn

/-- Comparisons, literals and classification of a float type. -/
class Flt (F : Type) where
  /-- `a < b` -/
  flt : F → F → Bool
  /-- `a <= b` -/
  fle : F → F → Bool
  /-- `a == b` -/
  feq : F → F → Bool
  /-- `std::abs` -/
  fabs : F → F
  /-- a literal, or the conversion of an integer -/
  lit : Rat → F
  /-- `fpclassify(x) == FP_NORMAL || fpclassify(x) == FP_ZERO` -/
  isNormalOrZero : F → Bool

/-- Transcendental functions of `<cmath>`. -/
class FTrans (F : Type) where
  fsqrt : F → F
  fexp : F → F
  ftanh : F → F

export Flt (flt fle feq fabs lit isNormalOrZero)
export FTrans (fsqrt fexp ftanh)

/-- Exact arithmetic: every linearly ordered field is a carrier (no NaN, no rounding,
no subnormal numbers). -/
instance (priority := low) instFltField {F : Type} [Field F] [LinearOrder F] : Flt F where
  flt a b := decide (a < b)
  fle a b := decide (a ≤ b)
  feq a b := decide (a = b)
  fabs a := max a (-a)
  lit q := (q : F)
  isNormalOrZero _ := true

section
variable {F : Type} [Field F] [LinearOrder F]
@[simp] theorem flt_iff (a b : F) : flt a b = true ↔ a < b := by simp [flt]
@[simp] theorem fle_iff (a b : F) : fle a b = true ↔ a ≤ b := by simp [fle]
@[simp] theorem feq_iff (a b : F) : feq a b = true ↔ a = b := by simp [feq]
@[simp] theorem flt_false_iff (a b : F) : flt a b = false ↔ b ≤ a := by simp [flt]
@[simp] theorem fle_false_iff (a b : F) : fle a b = false ↔ b < a := by simp [fle]
@[simp] theorem feq_false_iff (a b : F) : feq a b = false ↔ a ≠ b := by simp [feq]
@[simp] theorem fabs_eq (a : F) : fabs a = |a| := rfl
@[simp] theorem lit_eq (q : Rat) : (lit q : F) = (q : F) := rfl
@[simp] theorem isNormalOrZero_field (a : F) : isNormalOrZero a = true := rfl
end

end Snn
