import Verif.Basic.B32

/-!
# Rounding to binary32 is monotone

`rnd` is the rounding of `B32.ofRat` without the overflow. The representable numbers are the `k * 2^e` with `|k| ≤ 2^24` and `-149 ≤ e`.
-/

namespace Snn.B32

/-- The rounding of `ofRat`, before the overflow. -/
def rnd (q : ℚ) : ℚ := if q = 0 then 0 else nearest (q / ulp q) * ulp q

theorem ofRat_rnd (q : ℚ) : ofRat q = if (2 : ℚ) ^ 128 ≤ |rnd q| then inf (decide (rnd q < 0)) else num (rnd q) := by
  unfold ofRat rnd
  by_cases h : q = 0
  · simp [h]
  · simp [h]

/-- A number with 24 bits. -/
def Rep (x : ℚ) : Prop := ∃ k e : ℤ, |k| ≤ 2 ^ 24 ∧ -149 ≤ e ∧ x = k * (2 : ℚ) ^ e

theorem nearest_le (m : ℚ) (z : ℤ) : |(nearest m : ℚ) - m| ≤ |(z : ℚ) - m| := by
  have f1 := Int.floor_le m
  have f2 := Int.lt_floor_add_one m
  have hz : z ≤ ⌊m⌋ ∨ ⌊m⌋ + 1 ≤ z := by omega
  have hz' : (z : ℚ) ≤ ⌊m⌋ ∨ (⌊m⌋ : ℚ) + 1 ≤ z := by
    rcases hz with h | h
    · left; exact_mod_cast h
    · right; exact_mod_cast h
  have lo : |((⌊m⌋ : ℤ) : ℚ) - m| = m - ⌊m⌋ := by rw [abs_of_nonpos (by linarith)]; ring
  have hi : |(((⌊m⌋ + 1 : ℤ)) : ℚ) - m| = ⌊m⌋ + 1 - m := by rw [abs_of_nonneg (by push_cast; linarith)]; push_cast; ring
  have gz : m - ⌊m⌋ ≤ |(z : ℚ) - m| ∨ ⌊m⌋ + 1 - m ≤ |(z : ℚ) - m| := by
    rcases hz' with h | h
    · left; rw [abs_of_nonpos (by linarith)]; linarith
    · right; rw [abs_of_nonneg (by linarith)]; linarith
  unfold nearest
  split
  · rw [lo]; rcases gz with h | h <;> linarith
  · split
    · rw [hi]; rcases gz with h | h <;> linarith
    · split
      · rw [lo]; rcases gz with h | h <;> linarith
      · rw [hi]; rcases gz with h | h <;> linarith

theorem ulp_pos (q : ℚ) : 0 < ulp q := by unfold ulp; exact zpow_pos (by norm_num) _

theorem pow_le_abs {q : ℚ} (h : q ≠ 0) : (2 : ℚ) ^ Int.log 2 |q| ≤ |q| := Int.zpow_log_le_self (by norm_num) (abs_pos.2 h)
theorem abs_lt_pow (q : ℚ) : |q| < (2 : ℚ) ^ (Int.log 2 |q| + 1) := Int.lt_zpow_succ_log_self (by norm_num) _

theorem rep_rnd (q : ℚ) : Rep (rnd q) := by
  unfold rnd
  split
  · exact ⟨0, 0, by norm_num, by norm_num, by simp⟩
  · rename_i h
    refine ⟨nearest (q / ulp q), max (Int.log 2 |q| - 23) (-149), ?_, le_max_right _ _, rfl⟩
    have hu := ulp_pos q
    have h1 : |q / ulp q| < 2 ^ 24 := by
      rw [abs_div, abs_of_pos hu, div_lt_iff₀ hu]
      refine lt_of_lt_of_le (abs_lt_pow q) ?_
      unfold ulp
      have : (2 : ℚ) ^ (Int.log 2 |q| + 1) = 2 ^ 24 * 2 ^ (Int.log 2 |q| - 23) := by
        rw [show Int.log 2 |q| + 1 = 24 + (Int.log 2 |q| - 23) by ring, zpow_add₀ (by norm_num)]
        norm_num
      rw [this]
      exact mul_le_mul_of_nonneg_left (zpow_le_zpow_right₀ (by norm_num) (le_max_left _ _)) (by norm_num)
    have a := abs_lt.1 h1
    have b1 := nearest_le (q / ulp q) (2 ^ 24)
    have b2 := nearest_le (q / ulp q) (-2 ^ 24)
    rw [abs_of_pos (a := ((2 ^ 24 : ℤ) : ℚ) - q / ulp q) (by push_cast; linarith)] at b1
    rw [abs_of_neg (a := ((-2 ^ 24 : ℤ) : ℚ) - q / ulp q) (by push_cast; linarith)] at b2
    push_cast at b1 b2
    have c1 := (abs_le.1 b1).2
    have c2 := (abs_le.1 b2).1
    rw [abs_le]
    constructor
    · have : (-2 ^ 24 : ℚ) ≤ nearest (q / ulp q) := by linarith
      exact_mod_cast this
    · have : (nearest (q / ulp q) : ℚ) ≤ 2 ^ 24 := by linarith
      exact_mod_cast this

/-- No representable number is nearer. -/
theorem rnd_nearest {g : ℚ} (hg : Rep g) (q : ℚ) : |rnd q - q| ≤ |g - q| := by
  unfold rnd
  split
  · rename_i h; rw [h]; simp
  · rename_i h
    have hu := ulp_pos q
    have mult : ∀ z : ℤ, |(nearest (q / ulp q) : ℚ) * ulp q - q| ≤ |z * ulp q - q| := by
      intro z
      have := nearest_le (q / ulp q) z
      have e : ∀ w : ℚ, |w * ulp q - q| = |w - q / ulp q| * ulp q := by
        intro w
        rw [← abs_of_pos hu, ← abs_mul, abs_of_pos hu]
        congr 1
        field_simp
      rw [e, e]
      exact mul_le_mul_of_nonneg_right this hu.le
    obtain ⟨k, e, hk, he, rfl⟩ := hg
    by_cases hE : max (Int.log 2 |q| - 23) (-149) ≤ e
    · have := mult (k * 2 ^ (e - max (Int.log 2 |q| - 23) (-149)).toNat)
      refine le_trans this (le_of_eq ?_)
      congr 2
      push_cast
      unfold ulp
      rw [mul_assoc, ← zpow_natCast, ← zpow_add₀ (by norm_num)]
      congr 2
      omega
    · have hL : e ≤ Int.log 2 |q| - 24 := by omega
      have hE2 : max (Int.log 2 |q| - 23) (-149) = Int.log 2 |q| - 23 := by omega
      have hg : |(k : ℚ) * 2 ^ e| ≤ 2 ^ Int.log 2 |q| := by
        rw [abs_mul, abs_of_pos (zpow_pos (by norm_num) e : (0 : ℚ) < 2 ^ e)]
        have hk' : |(k : ℚ)| ≤ 2 ^ 24 := by exact_mod_cast hk
        calc |(k : ℚ)| * 2 ^ e ≤ 2 ^ 24 * 2 ^ (Int.log 2 |q| - 24) :=
              mul_le_mul hk' (zpow_le_zpow_right₀ (by norm_num) hL) (zpow_pos (by norm_num) _).le (by norm_num)
          _ = 2 ^ Int.log 2 |q| := by
              rw [show (2 : ℚ) ^ 24 = 2 ^ (24 : ℤ) by norm_num, ← zpow_add₀ (by norm_num)]
              congr 1; ring
      have hp : (2 : ℚ) ^ Int.log 2 |q| = ((2 ^ 23 : ℤ) : ℚ) * ulp q := by
        unfold ulp
        rw [hE2]
        rw [show ((2 ^ 23 : ℤ) : ℚ) = 2 ^ (23 : ℤ) by norm_num, ← zpow_add₀ (by norm_num)]
        congr 1; ring
      have hq := pow_le_abs h
      rcases lt_or_gt_of_ne h with hneg | hpos
      · refine le_trans (mult (-(2 ^ 23))) ?_
        rw [abs_of_neg hneg] at hq hg hp
        push_cast at hp ⊢
        rw [neg_mul, ← hp]
        have := (abs_le.1 hg).1
        rw [abs_of_nonneg (by linarith), abs_of_nonneg (by linarith)]
        linarith
      · refine le_trans (mult (2 ^ 23)) ?_
        rw [abs_of_pos hpos] at hq hg hp
        rw [← hp]
        have := (abs_le.1 hg).2
        rw [abs_of_nonpos (by linarith), abs_of_nonpos (by linarith)]
        linarith

theorem rnd_rep {x : ℚ} (h : Rep x) : rnd x = x := by
  have := rnd_nearest h x
  rw [sub_self, abs_zero] at this
  have := abs_eq_zero.1 (le_antisymm this (abs_nonneg _))
  linarith

theorem rnd_mono {a b : ℚ} (h : a ≤ b) : rnd a ≤ rnd b := by
  by_contra hc
  push Not at hc
  have h1 := rnd_nearest (rep_rnd b) a
  have h2 := rnd_nearest (rep_rnd a) b
  have hne : a ≠ b := by rintro rfl; exact lt_irrefl _ hc
  have hlt := lt_of_le_of_ne h hne
  -- the middle of the two roundings is below a and above b
  have m1 : rnd b + rnd a ≤ 2 * a := by
    by_contra hm
    push Not at hm
    rw [abs_le] at h1
    rcases le_total a (rnd b) with hb | hb
    · rw [abs_of_nonneg (by linarith)] at h1; linarith
    · rw [abs_of_nonpos (by linarith)] at h1; linarith
  have m2 : 2 * b ≤ rnd b + rnd a := by
    by_contra hm
    push Not at hm
    rw [abs_le] at h2
    rcases le_total (rnd a) b with hb | hb
    · rw [abs_of_nonpos (by linarith)] at h2; linarith
    · rw [abs_of_nonneg (by linarith)] at h2; linarith
  linarith

theorem rep_nat {k : Nat} (h : k ≤ 2 ^ 24) : Rep (k : ℚ) := ⟨k, 0, by rw [abs_of_nonneg (by omega)]; omega, by norm_num, by simp⟩
theorem rep_zero : Rep 0 := by simpa using rep_nat (k := 0) (by norm_num)
theorem rep_one : Rep 1 := by simpa using rep_nat (k := 1) (by norm_num)
theorem Rep.double {x : ℚ} (h : Rep x) : Rep (2 * x) := by
  obtain ⟨k, e, h1, h2, rfl⟩ := h
  exact ⟨k, e + 1, h1, by omega, by rw [zpow_add₀ (by norm_num)]; ring⟩
theorem Rep.neg {x : ℚ} (h : Rep x) : Rep (-x) := by
  obtain ⟨k, e, h1, h2, rfl⟩ := h
  exact ⟨-k, e, by rwa [abs_neg], h2, by push_cast; ring⟩
theorem rep_half {k : Nat} (h : k ≤ 2 ^ 24) : Rep ((k : ℚ) / 2) :=
  ⟨k, -1, by rw [abs_of_nonneg (by omega)]; omega, by norm_num, by rw [zpow_neg_one]; push_cast; ring⟩

theorem rnd_zero : rnd 0 = 0 := rnd_rep rep_zero
theorem rnd_nonneg {x : ℚ} (h : 0 ≤ x) : 0 ≤ rnd x := by have := rnd_mono h; rwa [rnd_zero] at this
theorem rnd_le {x y : ℚ} (h : x ≤ y) (hy : Rep y) : rnd x ≤ y := by have := rnd_mono h; rwa [rnd_rep hy] at this
theorem le_rnd {x y : ℚ} (h : y ≤ x) (hy : Rep y) : y ≤ rnd x := by have := rnd_mono h; rwa [rnd_rep hy] at this

/-- No overflow below a representable number smaller than 2^128. -/
theorem ofRat_num {x y : ℚ} (h : |x| ≤ y) (hy : Rep y) (hs : y < 2 ^ 128) : ofRat x = num (rnd x) := by
  rw [ofRat_rnd, if_neg]
  rw [not_le]
  refine lt_of_le_of_lt ?_ hs
  have := abs_le.1 h
  rw [abs_le]
  exact ⟨le_rnd this.1 hy.neg, rnd_le this.2 hy⟩

end Snn.B32
