import Verif.Proofs.ActivationProofs

/-!
# C44: activation functions and their derivatives (exact real arithmetic)
-/

set_option linter.all false

namespace Snn.ActivationSpec

/-- `v` is inside the declared interval; an infinite bound (`none`) allows everything. -/
def InRange (r : Option Rat × Option Rat) (v : ℝ) : Prop :=
  (∀ lo, r.1 = some lo → (lo : ℝ) ≤ v) ∧ (∀ hi, r.2 = some hi → v ≤ (hi : ℝ))

/-- The activation object installed in a neuron (`ActivationFunction::get`) exists and is the one
of the requested type. -/
theorem C44_get (a : Act) : ∃ o, a.get = .ok o ∧ o.getType = a := by
  cases a <;> exact ⟨_, rfl, rfl⟩

/-- The sigmoid, written with `tanh`, is the logistic function, and the derived activations are what
their names say. -/
theorem C44_functions (x : ℝ) :
    ActObj.Sigmoid.function x = 1 / (1 + Real.exp (-x)) ∧
    ActObj.ImprovedSigmoid.function x = 1 / (1 + Real.exp (-x)) + x / 20 ∧
    ActObj.Tanh.function x = Real.tanh x ∧
    ActObj.RectifiedLinearUnit.function x = max x 0 ∧
    ActObj.GaussianErrorLinearUnit.function x = x * (1 / (1 + Real.exp (-(1.702 * x)))) ∧
    ActObj.Gaussian.function x = Real.exp (-x ^ 2) ∧
    ActObj.Identity.function x = x := by
  have key : ∀ y : ℝ, (Real.tanh (y / 2) + 1) / 2 = 1 / (1 + Real.exp (-y)) := by
    intro y
    rw [Real.tanh_eq_sinh_div_cosh, Real.sinh_eq, Real.cosh_eq]
    have h1 : Real.exp (-y) = Real.exp (-(y/2)) * Real.exp (-(y/2)) := by rw [← Real.exp_add]; ring_nf
    have h2 : Real.exp (y/2) * Real.exp (-(y/2)) = 1 := by rw [← Real.exp_add]; simp
    have p1 := Real.exp_pos (y/2)
    have p2 := Real.exp_pos (-(y/2))
    rw [h1]
    generalize Real.exp (y/2) = a at *
    generalize Real.exp (-(y/2)) = b at *
    have : a + b ≠ 0 := by positivity
    have : 1 + b * b ≠ 0 := by positivity
    field_simp
    nlinarith
  refine ⟨?_, ?_, rfl, ?_, ?_, ?_, rfl⟩
  · simpa [ActObj.function] using key x
  · simp only [ActObj.function, lit_eq, fexp_real]; push_cast; ring
  · simp only [ActObj.function, flt]
    rcases lt_or_ge (0:ℝ) x with h | h
    · simp [h, h.le]
    · simp [h]
  · simp only [ActObj.function, lit_eq, ftanh_real, ← key (1.702 * x)]
    push_cast
    rw [show (851 / 500 * x / 2 : ℝ) = 1.702 * x / 2 by norm_num]
    ring
  · simp [ActObj.function, sq, pow_two]

/-- The reported derivative of every activation except the improved sigmoid is the derivative of its
function; ReLU has none at 0. The improved sigmoid is refuted below. -/
theorem C44_derivative_partial (a : ActObj) (ha : a ≠ .ImprovedSigmoid) (x : ℝ)
    (hx : a = .RectifiedLinearUnit → x ≠ 0) :
    HasDerivAt a.function (a.derivative x) x := by
  cases a with
  | ImprovedSigmoid => exact absurd rfl ha
  | Sigmoid =>
    have h0 : HasDerivAt (fun y : ℝ => y / 2) (1/2) x := (hasDerivAt_id x).div_const 2
    have h1 := (hasDerivAt_tanh (x/2)).comp x h0
    have h2 := (h1.add_const (1:ℝ)).div_const 2
    refine HasDerivAt.congr' h2 ?_ ?_
    · funext y; simp [ActObj.function]
    · simp only [ActObj.derivative, sq, lit_eq, ftanh_real]; push_cast; ring
  | Tanh =>
    refine HasDerivAt.congr' (hasDerivAt_tanh x) rfl ?_
    simp [ActObj.derivative, sq]
  | RectifiedLinearUnit =>
    have hx0 := hx rfl
    rcases lt_or_gt_of_ne hx0 with h | h
    · have e : (ActObj.RectifiedLinearUnit.function : ℝ → ℝ) =ᶠ[nhds x] fun _ => 0 := by
        filter_upwards [eventually_lt_nhds h] with y hy
        simp [ActObj.function, flt, not_lt.2 hy.le]
      have : ActObj.RectifiedLinearUnit.derivative x = 0 := by
        simp [ActObj.derivative, flt, not_lt.2 h.le]
      rw [this]
      exact (hasDerivAt_const x (0:ℝ)).congr_of_eventuallyEq e
    · have e : (ActObj.RectifiedLinearUnit.function : ℝ → ℝ) =ᶠ[nhds x] id := by
        filter_upwards [eventually_gt_nhds h] with y hy
        simp [ActObj.function, flt, hy]
      have : ActObj.RectifiedLinearUnit.derivative x = 1 := by
        simp [ActObj.derivative, flt, h]
      rw [this]
      exact (hasDerivAt_id x).congr_of_eventuallyEq e
  | GaussianErrorLinearUnit =>
    have h0 : HasDerivAt (fun y : ℝ => 851/500 * y / 2) (851/500 * 1 / 2) x :=
      ((hasDerivAt_id x).const_mul (851/500 : ℝ)).div_const 2
    have h1 := (hasDerivAt_tanh (851/500 * x / 2)).comp x h0
    have h2 := ((hasDerivAt_id x).mul (h1.add_const (1:ℝ))).div_const 2
    refine HasDerivAt.congr' h2 ?_ ?_
    · funext y; simp [ActObj.function]
    · simp only [ActObj.derivative, sq, lit_eq, ftanh_real, id, Function.comp]; push_cast; ring
  | Gaussian =>
    have h0 : HasDerivAt (fun y : ℝ => -(y * y)) (-(1 * x + x * 1)) x :=
      ((hasDerivAt_id x).mul (hasDerivAt_id x)).neg
    have h1 := h0.exp
    refine HasDerivAt.congr' h1 ?_ ?_
    · funext y; simp [ActObj.function, sq]
    · simp only [ActObj.derivative, sq, lit_eq, fexp_real]; push_cast; ring
  | Identity =>
    refine HasDerivAt.congr' (hasDerivAt_id x) rfl ?_
    simp [ActObj.derivative]

/-- The improved sigmoid reports the derivative of the plain sigmoid: at every point it misses the
slope 0.05 of its linear term. -/
theorem C44_iSigmoid_refuted (x : ℝ) :
    HasDerivAt ActObj.ImprovedSigmoid.function (ActObj.ImprovedSigmoid.derivative x + 1/20) x ∧
    ¬ HasDerivAt ActObj.ImprovedSigmoid.function (ActObj.ImprovedSigmoid.derivative x) x := by
  have main : HasDerivAt ActObj.ImprovedSigmoid.function
      (ActObj.ImprovedSigmoid.derivative x + 1/20) x := by
    have h0 : HasDerivAt (fun y : ℝ => 1 + Real.exp (-y)) (Real.exp (-x) * (-1)) x := by
      simpa using ((hasDerivAt_id x).neg.exp).const_add (1:ℝ)
    have hne : (1 + Real.exp (-x) : ℝ) ≠ 0 := by positivity
    have h1 := (hasDerivAt_const x (1:ℝ)).div h0 hne
    have h2 := h1.add ((hasDerivAt_id x).mul_const (1/20 : ℝ))
    refine HasDerivAt.congr' h2 ?_ ?_
    · funext y; simp [ActObj.function]
    · simp only [ActObj.derivative, sq, lit_eq, fexp_real]
      have h3 : Real.exp x * Real.exp (-x) = 1 := by rw [← Real.exp_add]; simp
      have p1 := Real.exp_pos x
      have p2 := Real.exp_pos (-x)
      generalize Real.exp x = a at *
      generalize Real.exp (-x) = b at *
      have : a + 1 ≠ 0 := by positivity
      have hb : b = 1 / a := by field_simp; linarith
      subst hb
      push_cast
      have : (1 + 1 / a) ≠ 0 := by positivity
      field_simp
      ring
  refine ⟨main, fun h => ?_⟩
  have := h.unique main
  norm_num at this

/-- Every activation except GELU stays in the interval it declares. -/
theorem C44_range_partial (a : ActObj) (ha : a ≠ .GaussianErrorLinearUnit) (x : ℝ) :
    InRange a.range (a.function x) := by
  cases a with
  | GaussianErrorLinearUnit => exact absurd rfl ha
  | Sigmoid =>
    have h := abs_tanh_lt (x/2)
    simp [InRange, ActObj.range, ActObj.function]
    constructor <;> linarith
  | ImprovedSigmoid => simp [InRange, ActObj.range]
  | Tanh =>
    have h := abs_tanh_lt x
    simp [InRange, ActObj.range, ActObj.function]
    constructor <;> linarith
  | RectifiedLinearUnit =>
    simp only [InRange, ActObj.range, ActObj.function, flt]
    refine ⟨fun lo h => ?_, by simp⟩
    cases h
    by_cases hx : (0:ℝ) < x
    · simp [hx, hx.le]
    · simp [hx]
  | Gaussian =>
    simp [InRange, ActObj.range, ActObj.function, sq]
    exact ⟨(Real.exp_pos _).le, mul_self_nonneg x⟩
  | Identity => simp [InRange, ActObj.range]

/-- GELU declares the interval [0, inf) but is negative for every negative input. -/
theorem C44_gelu_range_refuted (x : ℝ) (hx : x < 0) :
    ActObj.GaussianErrorLinearUnit.function x < 0 ∧
    ¬ InRange ActObj.GaussianErrorLinearUnit.range (ActObj.GaussianErrorLinearUnit.function x) := by
  have h : ActObj.GaussianErrorLinearUnit.function x < 0 := by
    have h := abs_tanh_lt (851/500 * x / 2)
    simp only [ActObj.function, lit_eq, ftanh_real]
    push_cast
    have : x * (Real.tanh (851/500 * x / 2) + 1) < 0 := mul_neg_of_neg_of_pos hx (by linarith)
    linarith
  refine ⟨h, fun hr => ?_⟩
  have := hr.1 0 rfl
  push_cast at this
  linarith

/-- The hypotheses are met: e.g. ReLU at 3, and GELU at -1. -/
example : (ActObj.RectifiedLinearUnit ≠ .ImprovedSigmoid) ∧ ((3:ℝ) ≠ 0) ∧ ((-1:ℝ) < 0) := by
  refine ⟨by decide, by norm_num, by norm_num⟩

end Snn.ActivationSpec
