import Verif.Basic.Flt
import Mathlib.Analysis.SpecialFunctions.Trigonometric.Deriv
import Mathlib.Analysis.SpecialFunctions.Sqrt

/-!
# Real numbers as a float carrier (exact arithmetic and exact `<cmath>` functions)
-/

namespace Snn

noncomputable instance instFTransReal : FTrans ℝ where
  fsqrt := Real.sqrt
  fexp := Real.exp
  ftanh := Real.tanh

@[simp] theorem fsqrt_real (x : ℝ) : fsqrt x = Real.sqrt x := rfl
@[simp] theorem fexp_real (x : ℝ) : fexp x = Real.exp x := rfl
@[simp] theorem ftanh_real (x : ℝ) : ftanh x = Real.tanh x := rfl

end Snn
