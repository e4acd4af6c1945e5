import Verif.Spec.ChanceSpec
import Mathlib.MeasureTheory.Integral.IntegrableOn
import Mathlib.Tactic.Linarith
import Mathlib.Tactic.Ring
import Mathlib.Algebra.BigOperators.Ring.List

/-! Lemmas about independent uniform draws. -/

set_option linter.all false

namespace Snn.Spec

open MeasureTheory

instance : IsProbabilityMeasure uniform01 := ⟨by simp [uniform01]⟩

instance : IsProbabilityMeasure drawsLaw := by unfold drawsLaw; infer_instance

theorem uniform01_ge {p : ℝ} (h0 : 0 ≤ p) (h1 : p ≤ 1) : uniform01 {u | p ≤ u} = ENNReal.ofReal (1 - p) := by
  unfold uniform01
  rw [Measure.restrict_apply (show MeasurableSet {u : ℝ | p ≤ u} from measurableSet_Ici)]
  have : {u : ℝ | p ≤ u} ∩ Set.Ico 0 1 = Set.Ico p 1 := by
    ext u
    simp only [Set.mem_inter_iff, Set.mem_setOf_eq, Set.mem_Ico]
    constructor
    · rintro ⟨a, b, c⟩; exact ⟨a, c⟩
    · rintro ⟨a, b⟩; exact ⟨a, by linarith, b⟩
  rw [this, Real.volume_Ico]

theorem uniform01_lt {p : ℝ} (h0 : 0 ≤ p) (h1 : p ≤ 1) : uniform01 {u | u < p} = ENNReal.ofReal p := by
  unfold uniform01
  rw [Measure.restrict_apply (show MeasurableSet {u : ℝ | u < p} from measurableSet_Iio)]
  have : {u : ℝ | u < p} ∩ Set.Ico 0 1 = Set.Ico 0 p := by
    ext u
    simp only [Set.mem_inter_iff, Set.mem_setOf_eq, Set.mem_Ico]
    constructor
    · rintro ⟨a, b, c⟩; exact ⟨b, a⟩
    · rintro ⟨a, b⟩; exact ⟨b, a, by linarith⟩
  rw [this, Real.volume_Ico, sub_zero]

theorem measurable_draw (i : ℕ) : Measurable fun d : ℕ → ℝ => d i := measurable_pi_apply i

/-- What is kept of a value with probability 1 - p. -/
theorem keep_integrable (p c : ℝ) (i : ℕ) : Integrable (fun d : ℕ → ℝ => if p ≤ d i then c else 0) drawsLaw := by
  have hm : MeasurableSet {d : ℕ → ℝ | p ≤ d i} := measurableSet_le measurable_const (measurable_draw i)
  have e : (fun d : ℕ → ℝ => if p ≤ d i then c else 0) = Set.indicator {d : ℕ → ℝ | p ≤ d i} (fun _ => c) := by
    funext d
    simp [Set.indicator]
  rw [e]
  exact (integrable_const c).indicator hm

theorem keep_mean {p : ℝ} (h0 : 0 ≤ p) (h1 : p ≤ 1) (c : ℝ) (i : ℕ) : mean (fun d : ℕ → ℝ => if p ≤ d i then c else 0) = c * (1 - p) := by
  have hm : MeasurableSet {d : ℕ → ℝ | p ≤ d i} := measurableSet_le measurable_const (measurable_draw i)
  have e : (fun d : ℕ → ℝ => if p ≤ d i then c else 0) = Set.indicator {d : ℕ → ℝ | p ≤ d i} (fun _ => c) := by
    funext d
    simp [Set.indicator]
  have hp : drawsLaw {d : ℕ → ℝ | p ≤ d i} = ENNReal.ofReal (1 - p) := by
    have := (measurePreserving_eval_infinitePi (fun _ : ℕ => uniform01) i).measure_preimage
      (s := {u : ℝ | p ≤ u}) (measurableSet_Ici (a := p)).nullMeasurableSet
    rw [uniform01_ge h0 h1] at this
    exact this
  unfold mean
  rw [e, integral_indicator hm, setIntegral_const, Measure.real, hp, ENNReal.toReal_ofReal (by linarith)]
  simp [mul_comm]

/-- The draws are independent. -/
theorem draws_independent (s : Finset ℕ) (A : ℕ → Set ℝ) (hA : ∀ i ∈ s, MeasurableSet (A i)) :
    drawsLaw {d | ∀ i ∈ s, d i ∈ A i} = ∏ i ∈ s, uniform01 (A i) := by
  have := Measure.infinitePi_pi (fun _ : ℕ => uniform01) (s := s) (t := A) hA
  rw [← this]
  rfl

/-! ### Functions that are affine in each of finitely many bits -/

/-- A sum of products of distinct bits. -/
noncomputable def evalTerms (l : List (ℝ × Finset ℕ)) (b : ℕ → ℝ) : ℝ := (l.map fun t => t.1 * ∏ k ∈ t.2, b k).sum

/-- A sum of products of distinct bits below n. -/
def MA (n : ℕ) (f : (ℕ → ℝ) → ℝ) : Prop := ∃ l : List (ℝ × Finset ℕ), (∀ t ∈ l, ∀ k ∈ t.2, k < n) ∧ ∀ b, f b = evalTerms l b

theorem MA.const (n : ℕ) (c : ℝ) : MA n (fun _ => c) := ⟨[(c, ∅)], by simp, by simp [evalTerms]⟩

theorem MA.add {n : ℕ} {f g : (ℕ → ℝ) → ℝ} (hf : MA n f) (hg : MA n g) : MA n (fun b => f b + g b) := by
  obtain ⟨l, h1, h2⟩ := hf
  obtain ⟨m, h3, h4⟩ := hg
  refine ⟨l ++ m, ?_, fun b => by simp [evalTerms, h2, h4]⟩
  intro t ht
  rcases List.mem_append.1 ht with ht | ht
  · exact h1 t ht
  · exact h3 t ht

theorem MA.mul_const {n : ℕ} {f : (ℕ → ℝ) → ℝ} (hf : MA n f) (c : ℝ) : MA n (fun b => f b * c) := by
  obtain ⟨l, h1, h2⟩ := hf
  refine ⟨l.map fun t => (t.1 * c, t.2), ?_, fun b => ?_⟩
  · intro t ht
    obtain ⟨t', h3, rfl⟩ := List.mem_map.1 ht
    exact h1 t' h3
  · beta_reduce
    rw [h2]
    unfold evalTerms
    rw [List.map_map, ← List.sum_map_mul_right]
    congr 1
    refine List.map_congr_left fun t _ => ?_
    simp only [Function.comp]
    ring

theorem MA.mono {n m : ℕ} {f : (ℕ → ℝ) → ℝ} (hf : MA n f) (h : n ≤ m) : MA m f := by
  obtain ⟨l, h1, h2⟩ := hf
  exact ⟨l, fun t ht k hk => lt_of_lt_of_le (h1 t ht k hk) h, h2⟩

theorem MA.mul_bit {n m i : ℕ} {f : (ℕ → ℝ) → ℝ} (hf : MA n f) (h : n ≤ i) (hm : i < m) : MA m (fun b => f b * b i) := by
  obtain ⟨l, h1, h2⟩ := hf
  refine ⟨l.map fun t => (t.1, insert i t.2), ?_, fun b => ?_⟩
  · intro t ht k hk
    obtain ⟨t', h3, rfl⟩ := List.mem_map.1 ht
    rcases Finset.mem_insert.1 hk with rfl | hk
    · exact hm
    · have := h1 t' h3 k hk
      omega
  · beta_reduce
    rw [h2]
    unfold evalTerms
    rw [List.map_map, ← List.sum_map_mul_right]
    congr 1
    refine List.map_congr_left fun t ht => ?_
    simp only [Function.comp]
    rw [Finset.prod_insert (fun hi => by have := h1 t ht i hi; omega)]
    ring

theorem MA.congr {n : ℕ} {f : (ℕ → ℝ) → ℝ} (hf : MA n f) {b b' : ℕ → ℝ} (h : ∀ k < n, b k = b' k) : f b = f b' := by
  obtain ⟨l, h1, h2⟩ := hf
  rw [h2, h2]
  unfold evalTerms
  congr 1
  refine List.map_congr_left fun t ht => ?_
  rw [Finset.prod_congr rfl fun k hk => h k (h1 t ht k hk)]

/-- The bits that tell which draws are at least the rates q. -/
noncomputable def keepBits (q : ℕ → ℝ) (d : ℕ → ℝ) : ℕ → ℝ := fun k => if q k ≤ d k then 1 else 0

theorem prod_keepBits (q d : ℕ → ℝ) (S : Finset ℕ) : ∏ k ∈ S, keepBits q d k = Set.indicator {d : ℕ → ℝ | ∀ k ∈ S, d k ∈ Set.Ici (q k)} (fun _ => (1 : ℝ)) d := by
  by_cases h : ∀ k ∈ S, q k ≤ d k
  · rw [Set.indicator_of_mem (show d ∈ {d : ℕ → ℝ | ∀ k ∈ S, d k ∈ Set.Ici (q k)} from h)]
    exact Finset.prod_eq_one fun k hk => by simp [keepBits, h k hk]
  · rw [Set.indicator_of_notMem (show d ∉ {d : ℕ → ℝ | ∀ k ∈ S, d k ∈ Set.Ici (q k)} from h)]
    push Not at h
    obtain ⟨k, hk, h⟩ := h
    exact Finset.prod_eq_zero hk (by simp [keepBits, not_le.2 h])

theorem measurable_keep (q : ℕ → ℝ) (S : Finset ℕ) : MeasurableSet {d : ℕ → ℝ | ∀ k ∈ S, d k ∈ Set.Ici (q k)} := by
  have : {d : ℕ → ℝ | ∀ k ∈ S, d k ∈ Set.Ici (q k)} = ⋂ k ∈ S, {d : ℕ → ℝ | q k ≤ d k} := by
    ext d; simp
  rw [this]
  exact Finset.measurableSet_biInter S fun k _ => measurableSet_le measurable_const (measurable_draw k)

theorem prod_integrable (q : ℕ → ℝ) (S : Finset ℕ) : Integrable (fun d => ∏ k ∈ S, keepBits q d k) drawsLaw := by
  simp only [prod_keepBits]
  exact (integrable_const (1 : ℝ)).indicator (measurable_keep q S)

theorem prod_mean {q : ℕ → ℝ} (h0 : ∀ k, 0 ≤ q k) (h1 : ∀ k, q k ≤ 1) (S : Finset ℕ) : ∫ d, ∏ k ∈ S, keepBits q d k ∂drawsLaw = ∏ k ∈ S, (1 - q k) := by
  simp only [prod_keepBits]
  rw [integral_indicator (measurable_keep q S), setIntegral_const, Measure.real, draws_independent S (fun k => Set.Ici (q k)) (fun k _ => measurableSet_Ici)]
  have : ∀ k ∈ S, uniform01 (Set.Ici (q k)) = ENNReal.ofReal (1 - q k) := fun k _ => uniform01_ge (h0 k) (h1 k)
  rw [Finset.prod_congr rfl this, ENNReal.toReal_prod]
  simp only [smul_eq_mul, mul_one]
  exact Finset.prod_congr rfl fun k _ => ENNReal.toReal_ofReal (by linarith [h1 k])

theorem MA.integrable {n : ℕ} {f : (ℕ → ℝ) → ℝ} (hf : MA n f) (q : ℕ → ℝ) : Integrable (fun d => f (keepBits q d)) drawsLaw := by
  obtain ⟨l, _, h2⟩ := hf
  simp only [h2]
  clear h2
  induction l with
  | nil => simp [evalTerms]
  | cons t l ih =>
    simp only [evalTerms, List.map_cons, List.sum_cons]
    exact ((prod_integrable q t.2).const_mul _).add (ih (fun t ht => by rename_i h; exact h t (by simp [ht])))

/-- The mean of a function that is affine in each bit is its value at the means of the bits. -/
theorem MA.mean {n : ℕ} {f : (ℕ → ℝ) → ℝ} (hf : MA n f) {q : ℕ → ℝ} (h0 : ∀ k, 0 ≤ q k) (h1 : ∀ k, q k ≤ 1) :
    Spec.mean (fun d => f (keepBits q d)) = f (fun k => 1 - q k) := by
  obtain ⟨l, h3, h2⟩ := hf
  simp only [h2]
  clear h2
  unfold Spec.mean
  induction l with
  | nil => simp [evalTerms]
  | cons t l ih =>
    have ih := ih (fun t ht => h3 t (by simp [ht]))
    have hi : Integrable (fun d => evalTerms l (keepBits q d)) drawsLaw := MA.integrable (n := n) ⟨l, fun t ht => h3 t (by simp [ht]), fun b => rfl⟩ q
    simp only [evalTerms, List.map_cons, List.sum_cons] at ih hi ⊢
    rw [integral_add ((prod_integrable q t.2).const_mul _) hi, integral_const_mul, prod_mean h0 h1, ih]

end Snn.Spec
