import Verif.Model.Activation
import Verif.Basic.RealFlt
import Mathlib.Analysis.SpecialFunctions.Trigonometric.DerivHyp

set_option linter.all false

namespace Snn

theorem hasDerivAt_tanh (x : ℝ) : HasDerivAt Real.tanh (1 - Real.tanh x * Real.tanh x) x := by
  have h : Real.tanh = fun y => Real.sinh y / Real.cosh y := by
    funext y; exact Real.tanh_eq_sinh_div_cosh y
  have hc : Real.cosh x ≠ 0 := (Real.cosh_pos x).ne'
  have := (Real.hasDerivAt_sinh x).div (Real.hasDerivAt_cosh x) hc
  have e : (Real.cosh x * Real.cosh x - Real.sinh x * Real.sinh x) / Real.cosh x ^ 2
      = 1 - Real.tanh x * Real.tanh x := by
    rw [Real.tanh_eq_sinh_div_cosh]; field_simp
  rw [e] at this
  rw [h]; simpa [h, Pi.div_def] using this

theorem abs_tanh_lt (x : ℝ) : -1 < Real.tanh x ∧ Real.tanh x < 1 := by
  have hc := Real.cosh_pos x
  have h2 := Real.cosh_sq x
  rw [Real.tanh_eq_sinh_div_cosh]
  constructor
  · rw [lt_div_iff₀ hc]; nlinarith [Real.cosh_sq x, sq_nonneg (Real.cosh x - Real.sinh x), Real.exp_pos x, Real.cosh_add_sinh x]
  · rw [div_lt_one hc]; nlinarith [Real.exp_pos (-x), Real.cosh_sub_sinh x]

theorem HasDerivAt.congr' {f g : ℝ → ℝ} {a b x : ℝ} (h : HasDerivAt f a x) (hf : g = f) (ha : b = a) :
    HasDerivAt g b x := by subst hf; subst ha; exact h

end Snn
