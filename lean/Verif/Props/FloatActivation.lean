import Verif.Props.FloatSoftmax
import Verif.Model.Activation

/-! C44 on IEEE binary32: the range of the activation functions. -/

set_option linter.all false

namespace Snn.FloatProps

open B32 FloatProofs

/-- What is assumed of `tanh`: on everything but NaN its result is a binary32 value between -1 and 1. -/
def TanhLaw [FTrans B32] : Prop := ∀ v : B32, v ≠ nan → ∃ t : ℚ, (ftanh v : B32) = num t ∧ Rep t ∧ -1 ≤ t ∧ t ≤ 1

/-- The value is between the two bounds of the range that a class declares; infinity is greater than every number. -/
def InRange (r : Option Rat × Option Rat) (v : B32) : Prop :=
  v ≠ nan ∧ (∀ m, r.1 = some m → fle (lit m) v = true) ∧ (∀ m, r.2 = some m → fle v (lit m) = true)

variable [FTrans B32]

theorem fle_num (a b : ℚ) : fle (num a) (num b) = true ↔ a ≤ b := by
  simp only [fle, less, Bool.or_eq_true, decide_eq_true_eq, Bool.and_eq_true]
  constructor
  · rintro (h | ⟨h, _⟩)
    · exact h.le
    · injection h with h; exact h.le
  · intro h
    rcases lt_or_eq_of_le h with h | h
    · exact .inl h
    · exact .inr ⟨by rw [h], by simp⟩

theorem lit_one : (lit 1 : B32) = num 1 := CountProps.lit_one
theorem lit_minus : (lit (-1) : B32) = num (-1) := by
  show ofRat (-1) = _
  rw [ofRat_num (y := 1) (by norm_num) rep_one (by norm_num), rnd_rep rep_one.neg]

/-- **C44, on IEEE binary32**: for the activation functions whose range is right (all but GELU, `C44_gelu_range_refuted`, and the improved sigmoid,
which declares no bound), on every value that is not NaN, infinities and tiny values included, the result is not NaN and is in the
declared range. -/
theorem C44_float_range_partial (hT : TanhLaw) (hE : ExpLaws) (a : ActObj) (ha : a ≠ .GaussianErrorLinearUnit) (ha' : a ≠ .ImprovedSigmoid) (x : B32)
    (hx : x ≠ nan) : InRange a.range (a.function x) := by
  cases a with
  | GaussianErrorLinearUnit => exact absurd rfl ha
  | ImprovedSigmoid => exact absurd rfl ha'
  | Identity => exact ⟨hx, by simp [ActObj.range], by simp [ActObj.range]⟩
  | Tanh =>
    obtain ⟨t, h1, _, h3, h4⟩ := hT x hx
    show InRange _ (ftanh x)
    rw [h1]
    refine ⟨by simp, ?_, ?_⟩
    · intro m hm
      have : m = -1 := by simpa [ActObj.range] using hm.symm
      subst this
      rw [lit_minus, fle_num]; exact h3
    · intro m hm
      have : m = 1 := by simpa [ActObj.range] using hm.symm
      subst this
      rw [lit_one, fle_num]; exact h4
  | Sigmoid =>
    have hd : (x / lit 2 : B32) ≠ nan := by
      rw [lit_two]
      cases x with
      | nan => exact absurd rfl hx
      | inf s => show inf _ ≠ nan; simp
      | num q =>
        show (if (2 : ℚ) = 0 then _ else ofRat _) ≠ nan
        rw [if_neg (by norm_num), ofRat_rnd]
        split <;> simp
    obtain ⟨t, h1, h2, h3, h4⟩ := hT _ hd
    have rep2 : Rep 2 := by have := rep_nat (k := 2) (by norm_num); simpa using this
    have e : (ActObj.Sigmoid.function x : B32) = num (rnd (rnd (t + 1) / 2)) := by
      show (ftanh (x / lit 2) + lit 1) / lit 2 = _
      rw [h1, lit_one, lit_two, num_add, ofRat_num (y := 2) (by rw [abs_le]; constructor <;> linarith) rep2 (by norm_num)]
      show (if (2 : ℚ) = 0 then _ else ofRat _) = _
      rw [if_neg (by norm_num)]
      have u1 : rnd (t + 1) ≤ 2 := rnd_le (by linarith) rep2
      have u0 : 0 ≤ rnd (t + 1) := rnd_nonneg (by linarith)
      exact ofRat_num (y := 1) (by rw [abs_le]; constructor <;> linarith) rep_one (by norm_num)
    rw [e]
    have u1 : rnd (t + 1) ≤ 2 := rnd_le (by linarith) rep2
    have u0 : 0 ≤ rnd (t + 1) := rnd_nonneg (by linarith)
    refine ⟨by simp, ?_, ?_⟩
    · intro m hm
      have : m = 0 := by simpa [ActObj.range] using hm.symm
      subst this
      rw [CountProps.lit_zero, fle_num]; exact rnd_nonneg (by linarith)
    · intro m hm
      have : m = 1 := by simpa [ActObj.range] using hm.symm
      subst this
      rw [lit_one, fle_num]; exact rnd_le (by linarith) rep_one
  | RectifiedLinearUnit =>
    show InRange _ (if flt (lit 0) x then x else lit 0)
    rw [CountProps.lit_zero]
    split
    · rename_i h
      refine ⟨hx, ?_, by simp [ActObj.range]⟩
      intro m hm
      have : m = 0 := by simpa [ActObj.range] using hm.symm
      subst this
      rw [CountProps.lit_zero]
      have h' : less (num 0) x = true := h
      simp [fle, h']
    · refine ⟨by simp, ?_, by simp [ActObj.range]⟩
      intro m hm
      have : m = 0 := by simpa [ActObj.range] using hm.symm
      subst this
      rw [CountProps.lit_zero, fle_num]
  | Gaussian =>
    have h : ∃ p : ℚ, (fexp (-(sq x)) : B32) = num p ∧ 0 ≤ p ∧ p ≤ 1 := by
      unfold sq
      cases x with
      | nan => exact absurd rfl hx
      | inf s =>
        have : (-(inf s * inf s) : B32) = inf true := by cases s <;> rfl
        rw [this]; exact ⟨0, hE.minusInf, le_refl _, zero_le_one⟩
      | num q =>
        have : (num q * num q : B32) = ofRat (q * q) := rfl
        rw [this, ofRat_rnd]
        have hr : 0 ≤ rnd (q * q) := rnd_nonneg (mul_self_nonneg q)
        split
        · have e : (-(inf (decide (rnd (q * q) < 0))) : B32) = inf true := by
            rw [decide_eq_false (by linarith)]; rfl
          rw [e]; exact ⟨0, hE.minusInf, le_refl _, zero_le_one⟩
        · show ∃ p : ℚ, (fexp (num (-rnd (q * q))) : B32) = num p ∧ _
          obtain ⟨p, p1, _, p2, p3⟩ := hE.value (-rnd (q * q)) (by linarith)
          exact ⟨p, p1, p2, p3⟩
    obtain ⟨p, e, h0, h1⟩ := h
    show InRange _ (fexp (-(sq x)))
    rw [e]
    refine ⟨by simp, ?_, ?_⟩
    · intro m hm
      have : m = 0 := by simpa [ActObj.range] using hm.symm
      subst this
      rw [CountProps.lit_zero, fle_num]; exact h0
    · intro m hm
      have : m = 1 := by simpa [ActObj.range] using hm.symm
      subst this
      rw [lit_one, fle_num]; exact h1

omit [FTrans B32] in
/-- The laws can be met. -/
example : ∃ i : FTrans B32, TanhLaw ∧ InRange (ActObj.Sigmoid.range) (ActObj.Sigmoid.function (lit 3 : B32)) := by
  letI i : FTrans B32 := ⟨id, fun v => match v with | .num q => num (rnd (1 / (1 - q))) | .inf true => num 0 | _ => nan,
    fun v => match v with | .num q => num (if q < 0 then -1 else if q = 0 then 0 else 1) | .inf true => num (-1) | .inf false => num 1 | .nan => nan⟩
  have hE : ExpLaws := by
    refine ⟨?_, ?_, ?_, rfl⟩
    · intro q hq
      refine ⟨rnd (1 / (1 - q)), rfl, rep_rnd _, rnd_nonneg (div_nonneg zero_le_one (by linarith)), rnd_le ?_ rep_one⟩
      rw [div_le_one (by linarith)]; linarith
    · intro q q' p p' h h' hp hp'
      have e1 : p = rnd (1 / (1 - q)) := by injection hp with h; exact h.symm
      have e2 : p' = rnd (1 / (1 - q')) := by injection hp' with h; exact h.symm
      rw [e1, e2]
      apply rnd_mono
      apply one_div_le_one_div_of_le <;> linarith
    · show num (rnd (1 / (1 - 0))) = _
      rw [sub_zero, div_one, rnd_rep rep_one]
  have hT : TanhLaw := by
    intro v hv
    cases v with
    | nan => exact absurd rfl hv
    | inf s => cases s
               · exact ⟨1, rfl, rep_one, by norm_num, le_refl _⟩
               · exact ⟨-1, rfl, rep_one.neg, le_refl _, by norm_num⟩
    | num q =>
      refine ⟨if q < 0 then -1 else if q = 0 then 0 else 1, rfl, ?_⟩
      split
      · exact ⟨rep_one.neg, le_refl _, by norm_num⟩
      · split
        · exact ⟨rep_zero, by norm_num, by norm_num⟩
        · exact ⟨rep_one, by norm_num, le_refl _⟩
  refine ⟨i, hT, C44_float_range_partial hT hE _ (by simp) (by simp) _ ?_⟩
  show ofRat 3 ≠ nan
  rw [ofRat_rnd]; split <;> simp

end Snn.FloatProps
