import Verif.Props.FloatProps
import Verif.Model.LayerOpt

/-! C45 on IEEE binary32. -/

set_option linter.all false

namespace Snn.FloatProps

open B32 FloatProofs

/-- What is assumed of `exp` on numbers that are not positive: its result is a binary32 value between 0 and 1, it is increasing, exp 0
is 1 and exp(-infinity) is 0. -/
structure ExpLaws [FTrans B32] : Prop where
  value : ∀ q : ℚ, q ≤ 0 → ∃ p : ℚ, (fexp (num q) : B32) = num p ∧ Rep p ∧ 0 ≤ p ∧ p ≤ 1
  mono : ∀ q q' p p' : ℚ, q ≤ q' → q' ≤ 0 → (fexp (num q) : B32) = num p → (fexp (num q') : B32) = num p' → p ≤ p'
  zero : (fexp (num 0) : B32) = num 1
  minusInf : (fexp (inf true) : B32) = num 0

variable [FTrans B32]

theorem max_fold : ∀ (x : List ℚ) (m : ℚ), ∃ M : ℚ, (x.map num).foldl (fun m v => if flt m v then v else m) (num m) = num M ∧
    (M = m ∨ M ∈ x) ∧ m ≤ M ∧ ∀ a ∈ x, a ≤ M
  | [], m => ⟨m, rfl, .inl rfl, le_refl _, by simp⟩
  | a :: x, m => by
    rw [List.map_cons, List.foldl_cons]
    by_cases h : m < a
    · have e : flt (num m) (num a) = true := by simp [flt, less, h]
      rw [if_pos e]
      obtain ⟨M, h1, h2, h3, h4⟩ := max_fold x a
      refine ⟨M, h1, .inr (by rcases h2 with h2 | h2 <;> simp [h2]), by linarith, ?_⟩
      intro b hb
      rcases List.mem_cons.1 hb with rfl | hb
      · exact h3
      · exact h4 b hb
    · have e : ¬ flt (num m) (num a) = true := by simp [flt, less]; linarith
      rw [if_neg e]
      obtain ⟨M, h1, h2, h3, h4⟩ := max_fold x m
      refine ⟨M, h1, by rcases h2 with h2 | h2 <;> simp [h2], h3, ?_⟩
      intro b hb
      rcases List.mem_cons.1 hb with rfl | hb
      · linarith
      · exact h4 b hb

/-- The difference with a greater number, exponentiated. -/
theorem exp_shift (hE : ExpLaws) {a M : ℚ} (h : a ≤ M) :
    ∃ p : ℚ, (fexp (num a - num M) : B32) = num p ∧ Rep p ∧ 0 ≤ p ∧ p ≤ 1 := by
  show ∃ p : ℚ, fexp (ofRat (a + -M)) = num p ∧ _
  rw [ofRat_rnd]
  have hr : rnd (a + -M) ≤ 0 := rnd_le (by linarith) rep_zero
  split
  · rename_i h2
    have : rnd (a + -M) < 0 := by
      rcases lt_or_eq_of_le hr with h | h
      · exact h
      · rw [h] at h2; norm_num at h2
    rw [decide_eq_true this]
    exact ⟨0, hE.minusInf, rep_zero, le_refl _, zero_le_one⟩
  · exact hE.value _ hr

theorem exp_shift_mono (hE : ExpLaws) {a b M p p' : ℚ} (hab : a ≤ b) (h : b ≤ M) (hp : (fexp (num a - num M) : B32) = num p)
    (hp' : (fexp (num b - num M) : B32) = num p') : p ≤ p' := by
  change fexp (ofRat (a + -M)) = _ at hp
  change fexp (ofRat (b + -M)) = _ at hp'
  obtain ⟨q, q1, q2, q3, q4⟩ := exp_shift hE h
  change fexp (ofRat (b + -M)) = _ at q1
  rw [hp'] at q1
  cases q1
  have hm : rnd (a + -M) ≤ rnd (b + -M) := rnd_mono (by linarith)
  have hr : rnd (b + -M) ≤ 0 := rnd_le (by linarith) rep_zero
  rw [ofRat_rnd] at hp hp'
  split at hp
  · rename_i h2
    have : rnd (a + -M) < 0 := by
      rcases lt_or_eq_of_le (le_trans hm hr) with h | h
      · exact h
      · rw [h] at h2; norm_num at h2
    rw [decide_eq_true this, hE.minusInf] at hp
    cases hp
    exact q3
  · rename_i h2
    rw [if_neg] at hp'
    · exact hE.mono _ _ _ _ hm hr hp hp'
    · intro h3
      apply h2
      rw [abs_of_nonpos hr] at h3
      rw [abs_of_nonpos (le_trans hm hr)]
      linarith

/-- The sum of the exponentials is a number at least as great as each of them. -/
theorem sum_exp (f : B32 → B32) : ∀ (l : List B32) (k : Nat) (s : ℚ), k + l.length ≤ 2 ^ 24 → Rep s → 0 ≤ s → s ≤ k →
    (∀ v ∈ l, ∃ p : ℚ, f v = num p ∧ Rep p ∧ 0 ≤ p ∧ p ≤ 1) →
    ∃ S : ℚ, l.foldl (fun s v => s + f v) (num s) = num S ∧ s ≤ S ∧ ∀ v ∈ l, ∀ p : ℚ, f v = num p → p ≤ S
  | [], k, s, _, _, _, _, _ => ⟨s, rfl, le_refl _, by simp⟩
  | v :: l, k, s, hk, hs, h0, h1, hf => by
    obtain ⟨p, p1, p2, p3, p4⟩ := hf v (by simp)
    rw [List.length_cons] at hk
    have hb : s + p ≤ ((k + 1 : ℕ) : ℚ) := by push_cast; linarith
    have hrp : Rep ((k + 1 : ℕ) : ℚ) := rep_nat (by omega)
    have hsm : ((k + 1 : ℕ) : ℚ) < 2 ^ 128 := by
      have : ((k + 1 : ℕ) : ℚ) ≤ 2 ^ 24 := by exact_mod_cast (by omega : k + 1 ≤ 2 ^ 24)
      linarith [show (2 : ℚ) ^ 24 < 2 ^ 128 by norm_num]
    obtain ⟨S, h2, h3, h4⟩ := sum_exp f l (k + 1) (rnd (s + p)) (by omega) (rep_rnd _) (rnd_nonneg (by linarith)) (rnd_le hb hrp)
      (fun w hw => hf w (by simp [hw]))
    have e1 : s ≤ rnd (s + p) := le_rnd (by linarith) hs
    have e2 : p ≤ rnd (s + p) := le_rnd (by linarith) p2
    refine ⟨S, ?_, by linarith, ?_⟩
    · rw [List.foldl_cons, p1, num_add, ofRat_num (by rw [abs_of_nonneg (by linarith)]; exact hb) hrp hsm]
      exact h2
    · intro w hw q hq
      rcases List.mem_cons.1 hw with rfl | hw
      · rw [p1] at hq; cases hq; linarith
      · exact h4 w hw q hq

/-- The quotient, with the tiny values replaced by zero. -/
def share (p S : ℚ) : ℚ := if rnd (p / S) = 0 ∨ (2 : ℚ) ^ (-126 : ℤ) ≤ |rnd (p / S)| then rnd (p / S) else 0

theorem share_eq {p S : ℚ} (hS : 1 ≤ S) (h0 : 0 ≤ p) (h1 : p ≤ S) :
    (if !isNormalOrZero (num p / num S : B32) then (lit 0 : B32) else num p / num S) = num (share p S) := by
  have hS0 : S ≠ 0 := by linarith
  have q1 : p / S ≤ 1 := by rw [div_le_one (by linarith)]; exact h1
  have q0 : 0 ≤ p / S := div_nonneg h0 (by linarith)
  have e : (num p / num S : B32) = num (rnd (p / S)) := by
    show (if S = 0 then _ else ofRat _) = _
    rw [if_neg hS0]
    exact ofRat_num (y := 1) (by rw [abs_of_nonneg q0]; exact q1) rep_one (by norm_num)
  rw [e]
  unfold share
  by_cases h : rnd (p / S) = 0 ∨ (2 : ℚ) ^ (-126 : ℤ) ≤ |rnd (p / S)|
  · rw [if_pos h, if_neg]
    simp only [isNormalOrZero, h, decide_true, Bool.not_true, Bool.false_eq_true, not_false_eq_true]
  · rw [if_neg h, if_pos, CountProps.lit_zero]
    simp only [isNormalOrZero, h, decide_false, Bool.not_false]

theorem share_unit {p S : ℚ} (hS : 1 ≤ S) (h0 : 0 ≤ p) (h1 : p ≤ S) : 0 ≤ share p S ∧ share p S ≤ 1 := by
  have q1 : p / S ≤ 1 := by rw [div_le_one (by linarith)]; exact h1
  have q0 : 0 ≤ p / S := div_nonneg h0 (by linarith)
  unfold share
  split
  · exact ⟨rnd_nonneg q0, rnd_le q1 rep_one⟩
  · exact ⟨le_refl _, zero_le_one⟩

theorem share_mono {p p' S : ℚ} (hS : 1 ≤ S) (h0 : 0 ≤ p) (h : p ≤ p') : share p S ≤ share p' S := by
  have q : p / S ≤ p' / S := div_le_div_of_nonneg_right h (by linarith)
  have q0 : 0 ≤ p / S := div_nonneg h0 (by linarith)
  have r0 := rnd_nonneg q0
  have r0' := rnd_nonneg (le_trans q0 q)
  have hm := rnd_mono q
  unfold share
  rw [abs_of_nonneg r0, abs_of_nonneg r0']
  by_cases h1 : rnd (p / S) = 0 ∨ (2 : ℚ) ^ (-126 : ℤ) ≤ rnd (p / S)
  · rw [if_pos h1]
    rcases h1 with h1 | h1
    · rw [h1]; split
      · exact r0'
      · exact le_refl _
    · rw [if_pos (.inr (le_trans h1 hm))]; exact hm
  · rw [if_neg h1]; split
    · exact r0'
    · exact le_refl _

/-- **C45, on IEEE binary32**: for at least one and at most 2^24 raw outputs that are numbers, whatever their size (the differences may
overflow), every output of Softmax is a number between 0 and 1, and the order of the raw outputs is kept (two different raw outputs
may become equal). -/
theorem C45_float (hE : ExpLaws) (x : List ℚ) (hne : x ≠ []) (hlen : x.length ≤ 2 ^ 24) :
    ∃ y : List ℚ, computeSoftmax (x.map num) = .ok (y.map num) ∧ y.length = x.length ∧ (∀ v ∈ y, 0 ≤ v ∧ v ≤ 1) ∧
      ∀ (i j : Nat) a b u v, x[i]? = some a → x[j]? = some b → y[i]? = some u → y[j]? = some v → a ≤ b → u ≤ v := by
  obtain ⟨a0, xs, rfl⟩ : ∃ a xs, x = a :: xs := by cases x with | nil => exact absurd rfl hne | cons a xs => exact ⟨a, xs, rfl⟩
  obtain ⟨M, h1, h2, h3, h4⟩ := max_fold xs a0
  have hmem : M ∈ a0 :: xs := by rcases h2 with h2 | h2 <;> simp [h2]
  have hle : ∀ a ∈ a0 :: xs, a ≤ M := by
    intro a ha
    rcases List.mem_cons.1 ha with rfl | ha
    · exact h3
    · exact h4 a ha
  have hmax : rangesMax ((a0 :: xs).map num) = .ok (num M) := by
    rw [List.map_cons]
    show Res.ok _ = _
    rw [h1]
  obtain ⟨S, s1, s2, s3⟩ := sum_exp fexp (((a0 :: xs).map num).map fun v => v - num M) 0 0 (by simpa using hlen) rep_zero (le_refl _) (by simp)
    (by
      intro v hv
      simp only [List.mem_map] at hv
      obtain ⟨w, ⟨a, ha, rfl⟩, rfl⟩ := hv
      exact exp_shift hE (hle a ha))
  have key : ∀ a ∈ a0 :: xs, ∃ p : ℚ, (fexp (num a - num M) : B32) = num p ∧ 0 ≤ p ∧ p ≤ S := by
    intro a ha
    obtain ⟨p, p1, p2, p3, p4⟩ := exp_shift hE (hle a ha)
    refine ⟨p, p1, p3, s3 _ ?_ p p1⟩
    simp only [List.mem_map]
    exact ⟨num a, ⟨a, ha, rfl⟩, rfl⟩
  have hS : 1 ≤ S := by
    apply s3 (num M - num M) (by simp only [List.mem_map]; exact ⟨num M, ⟨M, hmem, rfl⟩, rfl⟩)
    have : (num M - num M : B32) = num 0 := by
      show ofRat (M + -M) = _
      rw [add_neg_cancel]; simp [ofRat]
    rw [this]; exact hE.zero
  -- the value of the exponential
  let g : ℚ → ℚ := fun a => match (fexp (num a - num M) : B32) with | .num p => p | _ => 0
  have hg : ∀ a ∈ a0 :: xs, (fexp (num a - num M) : B32) = num (g a) ∧ 0 ≤ g a ∧ g a ≤ S := by
    intro a ha
    obtain ⟨p, p1, p2, p3⟩ := key a ha
    have : g a = p := by simp only [g, p1]
    rw [this]; exact ⟨p1, p2, p3⟩
  refine ⟨(a0 :: xs).map fun a => share (g a) S, ?_, by simp, ?_, ?_⟩
  · unfold computeSoftmax
    rw [hmax, Res.ok_bind]
    rw [CountProps.lit_zero]
    simp only [s1]
    rw [← CountProps.lit_zero]
    show Res.ok _ = Res.ok _
    congr 1
    rw [List.map_map, List.map_map, List.map_map]
    apply List.map_congr_left
    intro a ha
    obtain ⟨e1, e2, e3⟩ := hg a ha
    simp only [Function.comp, e1]
    exact share_eq hS e2 e3
  · intro v hv
    obtain ⟨a, ha, rfl⟩ := List.mem_map.1 hv
    obtain ⟨e1, e2, e3⟩ := hg a ha
    exact share_unit hS e2 e3
  · intro i j a b u v ha hb hu hv hab
    rw [List.getElem?_map, ha] at hu
    rw [List.getElem?_map, hb] at hv
    cases hu
    cases hv
    have ma := List.mem_of_getElem? ha
    have mb := List.mem_of_getElem? hb
    obtain ⟨e1, e2, e3⟩ := hg a ma
    obtain ⟨f1, f2, f3⟩ := hg b mb
    exact share_mono hS e2 (exp_shift_mono hE hab (hle b mb) e1 f1)

omit [FTrans B32] in
/-- The laws assumed of `exp` can be met (here by the rounding of 1/(1-x)), and `C45_float` then gives the outputs for three raw outputs
whose differences overflow. -/
example : ∃ i : FTrans B32, ExpLaws ∧
    ∃ y : List ℚ, computeSoftmax ([2 ^ 127, -2 ^ 127, 1].map num : List B32) = .ok (y.map num) ∧ ∀ v ∈ y, 0 ≤ v ∧ v ≤ 1 := by
  letI i : FTrans B32 := ⟨id, fun v => match v with | .num q => num (rnd (1 / (1 - q))) | .inf true => num 0 | _ => nan, id⟩
  have hE : ExpLaws := by
    refine ⟨?_, ?_, ?_, rfl⟩
    · intro q hq
      refine ⟨rnd (1 / (1 - q)), rfl, rep_rnd _, rnd_nonneg (div_nonneg zero_le_one (by linarith)), rnd_le ?_ rep_one⟩
      rw [div_le_one (by linarith)]; linarith
    · intro q q' p p' h h' hp hp'
      have e1 : p = rnd (1 / (1 - q)) := by injection hp with h; exact h.symm
      have e2 : p' = rnd (1 / (1 - q')) := by injection hp' with h; exact h.symm
      rw [e1, e2]
      apply rnd_mono
      apply one_div_le_one_div_of_le <;> linarith
    · show num (rnd (1 / (1 - 0))) = _
      rw [sub_zero, div_one, rnd_rep rep_one]
  obtain ⟨y, h1, _, h2, _⟩ := C45_float hE [2 ^ 127, -2 ^ 127, 1] (by simp) (by simp)
  exact ⟨i, hE, y, h1, h2⟩

end Snn.FloatProps
