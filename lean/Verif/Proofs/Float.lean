import Verif.Basic.Round32
import Verif.Props.CountProps

/-! Bounds of the rates computed on binary32. -/

set_option linter.all false

namespace Snn.FloatProofs

open B32 CountProps CountSpec
open StatSpec (Cell)

/-- A quotient of two counters, the first not zero. -/
theorem ratio {t f : Nat} (ht : 0 < t) (ht2 : t ≤ 2 ^ 24) (hf : f ≤ 2 ^ 24) :
    ∃ p : ℚ, (num (t : ℚ) / (num (t : ℚ) + num (f : ℚ)) : B32) = num p ∧ Rep p ∧ 0 < p ∧ p ≤ 1 := by
  have ht' : (1 : ℚ) ≤ t := by exact_mod_cast ht
  have ht2' : (t : ℚ) ≤ 2 ^ 24 := by exact_mod_cast ht2
  have hf' : (f : ℚ) ≤ 2 ^ 24 := by exact_mod_cast hf
  have hf0 : (0 : ℚ) ≤ f := by positivity
  have rep25 : Rep (2 ^ 25) := ⟨2 ^ 24, 1, by norm_num, by norm_num, by norm_num⟩
  have hs : (num (t : ℚ) + num (f : ℚ) : B32) = num (rnd (t + f)) := by
    rw [num_add]
    exact ofRat_num (y := 2 ^ 25) (by rw [abs_of_nonneg (by linarith)]; linarith) rep25 (by norm_num)
  have l1 : (t : ℚ) ≤ rnd (t + f) := le_rnd (by linarith) (rep_nat ht2)
  have l2 : rnd (t + f : ℚ) ≤ 2 ^ 25 := rnd_le (by linarith) rep25
  have hpos : (0 : ℚ) < rnd (t + f) := by linarith
  have q1 : (t : ℚ) / rnd (t + f) ≤ 1 := by rw [div_le_one hpos]; exact l1
  have q0 : (2 : ℚ) ^ (-25 : ℤ) ≤ (t : ℚ) / rnd (t + f) := by
    rw [le_div_iff₀ hpos]
    calc (2 : ℚ) ^ (-25 : ℤ) * rnd (t + f) ≤ 2 ^ (-25 : ℤ) * 2 ^ 25 := mul_le_mul_of_nonneg_left l2 (zpow_pos (by norm_num) _).le
      _ = 1 := by norm_num
      _ ≤ t := ht'
  have qp : (0 : ℚ) < (t : ℚ) / rnd (t + f) := lt_of_lt_of_le (zpow_pos (by norm_num) _) q0
  have repm : Rep ((2 : ℚ) ^ (-25 : ℤ)) := ⟨1, -25, by norm_num, by norm_num, by simp⟩
  refine ⟨rnd (t / rnd (t + f)), ?_, rep_rnd _, lt_of_lt_of_le (zpow_pos (by norm_num) _) (le_rnd q0 repm), rnd_le q1 rep_one⟩
  rw [hs]
  show (if rnd (t + f : ℚ) = 0 then _ else ofRat _) = _
  rw [if_neg hpos.ne']
  exact ofRat_num (y := 1) (by rw [abs_of_pos qp]; exact q1) rep_one (by norm_num)

/-- The term of the F1 score. -/
theorem f1_term {p r : ℚ} (hp : Rep p) (hr : Rep r) (p0 : 0 < p) (r0 : 0 < r) (p1 : p ≤ 1) (r1 : r ≤ 1) :
    ∃ x : ℚ, (num p * num r / (num p + num r) : B32) = num x ∧ 0 ≤ x ∧ x ≤ 1 / 2 := by
  wlog hle : p ≤ r generalizing p r
  · obtain ⟨x, h1, h2⟩ := this hr hp r0 p0 r1 p1 (by linarith)
    refine ⟨x, ?_, h2⟩
    rw [← h1]
    have a : (num p * num r : B32) = num r * num p := by show ofRat _ = ofRat _; rw [mul_comm]
    have b : (num p + num r : B32) = num r + num p := by show ofRat _ = ofRat _; rw [add_comm]
    rw [a, b]
  have rep2 : Rep 2 := by have := rep_nat (k := 2) (by norm_num); simpa using this
  have hm : (num p * num r : B32) = num (rnd (p * r)) := by
    show ofRat _ = _
    exact ofRat_num (y := 1) (by rw [abs_of_pos (by positivity)]; nlinarith) rep_one (by norm_num)
  have ha : (num p + num r : B32) = num (rnd (p + r)) := by
    rw [num_add]
    exact ofRat_num (y := 2) (by rw [abs_of_pos (by positivity)]; linarith) rep2 (by norm_num)
  have m1 : rnd (p * r) ≤ p := rnd_le (by nlinarith) hp
  have m0 : 0 ≤ rnd (p * r) := rnd_nonneg (by positivity)
  have a1 : 2 * p ≤ rnd (p + r) := le_rnd (by linarith) hp.double
  have apos : 0 < rnd (p + r) := by linarith
  have q : rnd (p * r) / rnd (p + r) ≤ 1 / 2 := by rw [div_le_iff₀ apos]; linarith
  have q0 : 0 ≤ rnd (p * r) / rnd (p + r) := div_nonneg m0 apos.le
  have reph : Rep (1 / 2) := by have := rep_half (k := 1) (by norm_num); simpa using this
  refine ⟨rnd (rnd (p * r) / rnd (p + r)), ?_, rnd_nonneg q0, rnd_le q reph⟩
  rw [hm, ha]
  show (if rnd (p + r) = 0 then _ else ofRat _) = _
  rw [if_neg apos.ne']
  exact ofRat_num (y := 1) (by rw [abs_of_nonneg q0]; linarith) rep_one (by norm_num)

/-- A running sum of terms that are at most b, b being 1 or 1/2. -/
theorem fold_bound {α : Type} (b : ℚ) (hb0 : 0 ≤ b) (hb1 : b ≤ 1) (hrep : ∀ k : Nat, k ≤ 2 ^ 24 → Rep (k * b)) (step : B32 → α → B32) :
    ∀ (l : List α), (∀ a ∈ l, ∀ x, step x a = x ∨ ∃ t : ℚ, step x a = x + num t ∧ 0 ≤ t ∧ t ≤ b) →
    ∀ (k : Nat) (x : ℚ), k + l.length ≤ 2 ^ 24 → 0 ≤ x → x ≤ k * b → Rep x →
    ∃ y : ℚ, l.foldl step (num x) = num y ∧ 0 ≤ y ∧ y ≤ ((k + l.length : ℕ) : ℚ) * b ∧ Rep y := by
  intro l
  induction l with
  | nil => intro _ k x hk h0 h1 hx; exact ⟨x, rfl, h0, by simpa using h1, hx⟩
  | cons a l ih =>
    intro h k x hk h0 h1 hx
    rw [List.length_cons] at hk
    have hl : ((k + (a :: l).length : ℕ) : ℚ) = ((k + 1 + l.length : ℕ) : ℚ) := by rw [List.length_cons]; congr 1; omega
    rw [List.foldl_cons, hl]
    rcases h a (by simp) (num x) with e | ⟨t, e, t0, t1⟩
    · rw [e]
      exact ih (fun a' ha' => h a' (by simp [ha'])) (k + 1) x (by omega) h0 (le_trans h1 (by push_cast; nlinarith)) hx
    · rw [e, num_add]
      have hb : x + t ≤ ((k + 1 : ℕ) : ℚ) * b := by push_cast; nlinarith
      have hrp := hrep (k + 1) (by omega)
      have hsm : (((k + 1 : ℕ) : ℚ) * b) < 2 ^ 128 := by
        have : ((k + 1 : ℕ) : ℚ) ≤ 2 ^ 24 := by exact_mod_cast (by omega : k + 1 ≤ 2 ^ 24)
        calc (((k + 1 : ℕ) : ℚ) * b) ≤ 2 ^ 24 * 1 := mul_le_mul this hb1 hb0 (by norm_num)
          _ < 2 ^ 128 := by norm_num
      rw [ofRat_num (by rw [abs_of_nonneg (by linarith)]; exact hb) hrp hsm]
      exact ih (fun a' ha' => h a' (by simp [ha'])) (k + 1) _ (by omega) (rnd_nonneg (by linarith)) (rnd_le hb hrp) (rep_rnd _)

/-- Dividing a number between 0 and n by n. -/
theorem over {n : Nat} (hn : 0 < n) (hn2 : n ≤ 2 ^ 24) {y : ℚ} (h0 : 0 ≤ y) (h1 : y ≤ n) :
    ∃ q : ℚ, (num y / lit n : B32) = num q ∧ 0 ≤ q ∧ q ≤ 1 := by
  have hn' : (0 : ℚ) < n := by exact_mod_cast hn
  have e : (lit (n : ℚ) : B32) = num n := ofRat_nat hn2
  rw [e]
  have q1 : y / n ≤ 1 := by rw [div_le_one hn']; exact h1
  refine ⟨rnd (y / n), ?_, rnd_nonneg (by positivity), rnd_le q1 rep_one⟩
  show (if (n : ℚ) = 0 then _ else ofRat _) = _
  rw [if_neg hn'.ne']
  exact ofRat_num (y := 1) (by rw [abs_of_nonneg (by positivity)]; exact q1) rep_one (by norm_num)

theorem holds_num (k : Nat) : ∃ m : Nat, holds k = num (m : ℚ) ∧ m ≤ 2 ^ 24 ∧ (k = 0 ↔ m = 0) := ⟨min k (2 ^ 24), rfl, by omega, by omega⟩

theorem lit_two : (lit 2 : B32) = num 2 := by
  show ofRat 2 = _
  have := ofRat_nat (k := 2) (by norm_num)
  simpa using this

end Snn.FloatProofs
