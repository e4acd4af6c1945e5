import Verif.Spec.PrecisionSpec
import Verif.Basic.Round32
import Verif.Proofs.GradArch

/-! Rounding errors of an affine form and of layers of simple neurons. -/

set_option linter.all false

namespace Snn.Precision

open Finset Snn.Spec Snn.B32

/-- The relative and the absolute error of a rounding. -/
def u : ℚ := 2 ^ (-24 : ℤ)
def η : ℚ := 2 ^ (-150 : ℤ)

theorem u_pos : 0 < u := by unfold u; positivity
theorem η_pos : 0 < η := by unfold η; positivity

theorem nearest_half (m : ℚ) : |(nearest m : ℚ) - m| ≤ 1 / 2 := by
  have h1 := nearest_le m ⌊m⌋
  have h2 := nearest_le m (⌊m⌋ + 1)
  have f1 := Int.floor_le m
  have f2 := Int.lt_floor_add_one m
  rw [abs_of_nonpos (a := (⌊m⌋ : ℚ) - m) (by linarith)] at h1
  rw [abs_of_nonneg (a := ((⌊m⌋ + 1 : ℤ) : ℚ) - m) (by push_cast; linarith)] at h2
  push_cast at h2
  linarith

theorem rnd_error (q : ℚ) : |rnd q - q| ≤ u * |q| + η := by
  by_cases hq : q = 0
  · subst hq; rw [rnd_zero]; simpa using η_pos.le
  have hu := ulp_pos q
  have h1 := nearest_half (q / ulp q)
  have e : rnd q - q = (nearest (q / ulp q) - q / ulp q) * ulp q := by
    rw [rnd, if_neg hq, sub_mul, div_mul_cancel₀ _ hu.ne']
  rw [e, abs_mul, abs_of_pos hu]
  have h2 : ulp q ≤ 2 * (u * |q| + η) := by
    unfold ulp
    rcases le_total (Int.log 2 |q| - 23) (-149) with h | h
    · rw [max_eq_right h]
      have : (2 : ℚ) ^ (-149 : ℤ) = 2 * η := by unfold η; rw [show (-149 : ℤ) = 1 + -150 by norm_num, zpow_add₀ (by norm_num)]; norm_num
      rw [this]
      have := mul_nonneg u_pos.le (abs_nonneg q)
      linarith
    · rw [max_eq_left h]
      have h3 := pow_le_abs hq
      have : (2 : ℚ) ^ (Int.log 2 |q| - 23) = 2 * (u * 2 ^ Int.log 2 |q|) := by
        unfold u
        rw [show Int.log 2 |q| - 23 = 1 + (-24) + Int.log 2 |q| by ring, zpow_add₀ (by norm_num), zpow_add₀ (by norm_num)]
        norm_num
        ring
      rw [this]
      have := mul_le_mul_of_nonneg_left h3 u_pos.le
      have := η_pos
      linarith
  calc _ ≤ 1 / 2 * ulp q := mul_le_mul_of_nonneg_right h1 hu.le
    _ ≤ _ := by linarith

theorem rep_127 : Rep (2 ^ 127) := ⟨1, 127, by norm_num, by norm_num, by norm_num⟩

theorem ofRat_error {q : ℚ} (h : |q| ≤ 2 ^ 127) : ∃ r, ofRat q = num r ∧ |r - q| ≤ u * |q| + η :=
  ⟨rnd q, ofRat_num h rep_127 (by norm_num), rnd_error q⟩

theorem num_mul (a b : ℚ) : (num a * num b : B32) = ofRat (a * b) := rfl

/-- One term more. -/
theorem term_step {j : Nat} {S A s a b : ℚ} (hA : |S| ≤ A) (hs : |s - S| ≤ ((1 + u) ^ (j + 1) - 1) * A + 2 * j * (1 + u) ^ j * η)
    (hbig : (1 + u) ^ (j + 2) * (A + |a * b|) + 2 * (j + 1) * (1 + u) ^ (j + 1) * η ≤ 2 ^ 127) :
    ∃ s', (num s + num a * num b : B32) = num s' ∧ |S + a * b| ≤ A + |a * b| ∧
      |s' - (S + a * b)| ≤ ((1 + u) ^ (j + 1 + 1) - 1) * (A + |a * b|) + 2 * ((j + 1 : Nat) : ℚ) * (1 + u) ^ (j + 1) * η := by
  have hu := u_pos
  have hη := η_pos
  have hA0 : 0 ≤ A := (abs_nonneg _).trans hA
  have hab := abs_nonneg (a * b)
  have p1 : (1 : ℚ) ≤ 1 + u := by linarith
  have pj : (1 : ℚ) ≤ (1 + u) ^ j := one_le_pow₀ p1
  have e1 : (1 + u) ^ (j + 1) = (1 + u) ^ j * (1 + u) := pow_succ _ _
  have e2 : (1 + u) ^ (j + 2) = (1 + u) ^ j * (1 + u) * (1 + u) := by rw [pow_succ, pow_succ]
  have e3 : (1 + u) ^ (j + 1 + 1) = (1 + u) ^ j * (1 + u) * (1 + u) := by rw [pow_succ, pow_succ]
  obtain ⟨P, hP⟩ : ∃ P, P = (1 + u) ^ j := ⟨_, rfl⟩
  rw [e1, ← hP] at hs
  rw [e1, e2, ← hP] at hbig
  rw [e1, e3, ← hP]
  rw [← hP] at pj
  have hj : (0 : ℚ) ≤ j := Nat.cast_nonneg j
  have q1 : 1 + u ≤ P * (1 + u) := le_mul_of_one_le_left (by linarith) pj
  have q2 : P * (1 + u) ≤ P * (1 + u) * (1 + u) := le_mul_of_one_le_right (by positivity) p1
  have q3 : (1 + u) * (1 + u) ≤ P * (1 + u) * (1 + u) := mul_le_mul_of_nonneg_right q1 (by linarith)
  have k0 : 2 * (j : ℚ) * P * η ≤ 2 * j * (P * (1 + u)) * η := by
    have : P ≤ P * (1 + u) := le_mul_of_one_le_right (by positivity) p1
    have h0 : 2 * (j : ℚ) * P ≤ 2 * j * (P * (1 + u)) := mul_le_mul_of_nonneg_left this (by positivity)
    exact mul_le_mul_of_nonneg_right h0 hη.le
  -- the product
  have hq1 : |a * b| ≤ 2 ^ 127 := by
    have : |a * b| ≤ P * (1 + u) * (1 + u) * (A + |a * b|) := by
      have h1 : (1 : ℚ) ≤ P * (1 + u) * (1 + u) := by nlinarith
      calc |a * b| ≤ A + |a * b| := by linarith
        _ ≤ _ := le_mul_of_one_le_left (by linarith) h1
    have h2 : 0 ≤ 2 * ((j : ℚ) + 1) * (P * (1 + u)) * η := by positivity
    linarith
  obtain ⟨p, ep, hp⟩ := ofRat_error hq1
  have hsb : |s| ≤ P * (1 + u) * A + 2 * j * P * η := by
    have : |s| ≤ |s - S| + |S| := by simpa using abs_add_le (s - S) S
    linarith
  have hpb : |p| ≤ (1 + u) * |a * b| + η := by
    have : |p| ≤ |p - a * b| + |a * b| := by simpa using abs_add_le (p - a * b) (a * b)
    linarith
  -- the sum
  have hq2 : |s + p| ≤ 2 ^ 127 := by
    have h1 := abs_add_le s p
    have h3 : P * (1 + u) * A ≤ P * (1 + u) * (1 + u) * A := mul_le_mul_of_nonneg_right q2 hA0
    have h4 : (1 + u) * |a * b| ≤ P * (1 + u) * (1 + u) * |a * b| := mul_le_mul_of_nonneg_right (by linarith) hab
    have h5 : η ≤ 2 * (P * (1 + u)) * η := by
      have : (1 : ℚ) ≤ 2 * (P * (1 + u)) := by linarith
      exact le_mul_of_one_le_left hη.le this
    have h6 : P * (1 + u) * (1 + u) * (A + |a * b|) = P * (1 + u) * (1 + u) * A + P * (1 + u) * (1 + u) * |a * b| := by ring
    have h7 : 2 * ((j : ℚ) + 1) * (P * (1 + u)) * η = 2 * j * (P * (1 + u)) * η + 2 * (P * (1 + u)) * η := by ring
    linarith
  obtain ⟨r, er, hr⟩ := ofRat_error hq2
  refine ⟨r, by rw [num_mul, ep, num_add, er], (abs_add_le _ _).trans (by linarith), ?_⟩
  have t1 : |r - (S + a * b)| ≤ |r - (s + p)| + (|s - S| + |p - a * b|) := by
    have : r - (S + a * b) = (r - (s + p)) + ((s - S) + (p - a * b)) := by ring
    rw [this]
    refine (abs_add_le _ _).trans ?_
    have := abs_add_le (s - S) (p - a * b)
    linarith
  have t2 : |s + p| ≤ (|s - S| + |p - a * b|) + (A + |a * b|) := by
    have : s + p = ((s - S) + (p - a * b)) + (S + a * b) := by ring
    rw [this]
    refine (abs_add_le _ _).trans ?_
    have h1 := abs_add_le (s - S) (p - a * b)
    have h2 := abs_add_le S (a * b)
    linarith
  have t3 : |r - (S + a * b)| ≤ (1 + u) * (|s - S| + |p - a * b|) + u * (A + |a * b|) + η := by
    have := mul_le_mul_of_nonneg_left t2 hu.le
    nlinarith
  have t4 : |s - S| + |p - a * b| ≤ (P * (1 + u) - 1) * A + 2 * j * P * η + (u * |a * b| + η) := by linarith
  have t5 : |r - (S + a * b)| ≤ (1 + u) * ((P * (1 + u) - 1) * A + 2 * j * P * η + (u * |a * b| + η)) + u * (A + |a * b|) + η := by
    have := mul_le_mul_of_nonneg_left t4 (show (0 : ℚ) ≤ 1 + u by linarith)
    linarith
  refine t5.trans ?_
  have c1 : ((1 + u) * (1 + u) - 1) * |a * b| ≤ (P * (1 + u) * (1 + u) - 1) * |a * b| := mul_le_mul_of_nonneg_right (by linarith) hab
  have c2 : (1 + u + 1) * η ≤ 2 * (P * (1 + u)) * η := mul_le_mul_of_nonneg_right (by linarith) hη.le
  push_cast
  nlinarith

/-- Sum of the absolute values of the terms. -/
def absDot : List ℚ → List ℚ → ℚ
  | x :: xs, w :: ws => |x * w| + absDot xs ws
  | _, _ => 0

def exDot : List ℚ → List ℚ → ℚ
  | x :: xs, w :: ws => x * w + exDot xs ws
  | _, _ => 0

theorem absDot_nonneg : ∀ xs ws, 0 ≤ absDot xs ws
  | x :: xs, w :: ws => add_nonneg (abs_nonneg _) (absDot_nonneg xs ws)
  | [], _ => le_refl _
  | _ :: _, [] => le_refl _

theorem dot_error : ∀ (xs ws : List ℚ) {j : Nat} {S A s : ℚ}, xs.length ≤ ws.length → |S| ≤ A →
    |s - S| ≤ ((1 + u) ^ (j + 1) - 1) * A + 2 * j * (1 + u) ^ j * η →
    (1 + u) ^ (j + xs.length + 1) * (A + absDot xs ws) + 2 * (j + xs.length) * (1 + u) ^ (j + xs.length) * η ≤ 2 ^ 127 →
    ∃ s', dotFrom (num s) (xs.map num) (ws.map num) = num s' ∧ |S + exDot xs ws| ≤ A + absDot xs ws ∧
      |s' - (S + exDot xs ws)| ≤ ((1 + u) ^ (j + xs.length + 1) - 1) * (A + absDot xs ws) + 2 * (j + xs.length) * (1 + u) ^ (j + xs.length) * η
  | [], ws, j, S, A, s, _, hA, hs, _ => ⟨s, by simp [dotFrom], by simpa [exDot, absDot] using hA, by simpa [exDot, absDot] using hs⟩
  | x :: xs, [], j, S, A, s, h, _, _, _ => by simp at h
  | x :: xs, w :: ws, j, S, A, s, h, hA, hs, hbig => by
    have hu := u_pos
    have hη := η_pos
    have hA0 : 0 ≤ A := (abs_nonneg _).trans hA
    have hd := absDot_nonneg xs ws
    have p1 : (1 : ℚ) ≤ 1 + u := by linarith
    have hlen : ((x :: xs).length : ℚ) = xs.length + 1 := by simp
    rw [hlen] at hbig
    have hstep : (1 + u) ^ (j + 2) * (A + |x * w|) + 2 * (j + 1) * (1 + u) ^ (j + 1) * η ≤ 2 ^ 127 := by
      refine le_trans ?_ hbig
      have h1 : (1 + u) ^ (j + 2) ≤ (1 + u) ^ (j + (x :: xs).length + 1) := pow_le_pow_right₀ p1 (by simp)
      have h2 : (1 + u) ^ (j + 1) ≤ (1 + u) ^ (j + (x :: xs).length) := pow_le_pow_right₀ p1 (by simp)
      have h3 : A + |x * w| ≤ A + absDot (x :: xs) (w :: ws) := by simp only [absDot]; linarith
      have h4 : (2 * ((j : ℚ) + 1)) ≤ 2 * (j + (xs.length + 1)) := by have : (0 : ℚ) ≤ xs.length := Nat.cast_nonneg _; linarith
      apply add_le_add
      · exact mul_le_mul h1 h3 (by positivity) (by positivity)
      · apply mul_le_mul_of_nonneg_right _ hη.le
        exact mul_le_mul h4 h2 (by positivity) (by positivity)
    obtain ⟨s', e1, e2, e3⟩ := term_step hA hs hstep
    have hl : j + 1 + xs.length = j + (x :: xs).length := by simp; omega
    obtain ⟨s2, f1, f2, f3⟩ := dot_error xs ws (j := j + 1) (S := S + x * w) (A := A + |x * w|) (s := s') (by simpa using h) e2
      (by simpa using e3) (by
        rw [hl]
        push_cast
        simp only [absDot] at hbig
        have : A + |x * w| + absDot xs ws = A + (|x * w| + absDot xs ws) := by ring
        rw [this, show (j : ℚ) + 1 + xs.length = j + (xs.length + 1) by ring]
        exact hbig)
    refine ⟨s2, ?_, ?_, ?_⟩
    · simp only [List.map_cons, dotFrom, List.zip_cons_cons, List.foldl_cons]
      rw [e1]
      simpa only [dotFrom] using f1
    · simp only [exDot, absDot, ← add_assoc]; exact f2
    · rw [hl] at f3
      push_cast at f3
      simp only [exDot, absDot, ← add_assoc]
      rw [hlen, show (j : ℚ) + (xs.length + 1) = j + 1 + xs.length by ring] at *
      simpa [add_assoc] using f3

/-! ### One neuron -/

theorem exDot_eq : ∀ xs ws : List ℚ, xs.length ≤ ws.length → exDot xs ws = ∑ i ∈ range xs.length, ws.getD i 0 * xs.getD i 0
  | [], ws, _ => by simp [exDot]
  | x :: xs, [], h => by simp at h
  | x :: xs, w :: ws, h => by
    rw [exDot, exDot_eq xs ws (by simpa using h), List.length_cons, Finset.sum_range_succ']
    simp [add_comm, mul_comm]

theorem absDot_eq : ∀ xs ws : List ℚ, xs.length ≤ ws.length → absDot xs ws = ∑ i ∈ range xs.length, |ws.getD i 0| * |xs.getD i 0|
  | [], ws, _ => by simp [absDot]
  | x :: xs, [], h => by simp at h
  | x :: xs, w :: ws, h => by
    rw [absDot, absDot_eq xs ws (by simpa using h), List.length_cons, Finset.sum_range_succ', abs_mul]
    simp [add_comm, mul_comm]

/-- `(1 + u)^k ≤ 1 + 2 k u` while `k u ≤ 1/2`. -/
theorem pow_bound : ∀ k : Nat, k ≤ 2 ^ 23 → (1 + u) ^ k ≤ 1 + 2 * k * u
  | 0, _ => by simp
  | k + 1, h => by
    have ih := pow_bound k (by omega)
    have hu := u_pos
    have hk : (k : ℚ) * u ≤ 1 / 2 := by
      have h1 : (k : ℚ) ≤ 2 ^ 23 := by exact_mod_cast (by omega : k ≤ 2 ^ 23)
      have h2 := mul_le_mul_of_nonneg_right h1 hu.le
      have h3 : (2 : ℚ) ^ 23 * u = 1 / 2 := by unfold u; norm_num
      linarith
    rw [pow_succ]
    have h1 : (1 + u) ^ k * (1 + u) ≤ (1 + 2 * k * u) * (1 + u) := mul_le_mul_of_nonneg_right ih (by linarith)
    have h2 : 2 * ((k : ℚ) * u) * u ≤ u := by nlinarith
    push_cast
    nlinarith

/-- The approximations x̂ of x have at most the errors δ. -/
def Close (x' x δ : List ℚ) : Prop := x'.length = x.length ∧ δ.length = x.length ∧ ∀ i, |x'.getD i 0 - x.getD i 0| ≤ δ.getD i 0

theorem affine_error {w x' x δ : List ℚ} (hw : w.length = x.length + 1) (hx : Close x' x δ) (hn : x.length + 2 ≤ 2 ^ 23)
    (hm : magnitude w x δ ≤ 2 ^ 125) :
    ∃ y, (dotFrom (num 0) (x'.map num) (w.map num) + num (w.getD x.length 0) * num 1 : B32) = num y ∧
      |y - affine w x 1| ≤ (x.length + 2) * 2 ^ (-23 : ℤ) * magnitude w x δ + (x.length + 1) * 2 ^ (-148 : ℤ) + spread w δ := by
  obtain ⟨hl, hl', hc⟩ := hx
  have hu := u_pos
  have hη := η_pos
  have hwl : x'.length ≤ w.length := by omega
  -- the sum of the absolute values
  have hD0 := absDot_nonneg x' w
  have hmag : absDot x' w + |w.getD x.length 0| ≤ magnitude w x δ := by
    rw [absDot_eq _ _ hwl, magnitude, hl]
    apply add_le_add_left
    apply Finset.sum_le_sum
    intro i _
    apply mul_le_mul_of_nonneg_left _ (abs_nonneg _)
    have h1 := hc i
    have h2 : |x'.getD i 0| ≤ |x'.getD i 0 - x.getD i 0| + |x.getD i 0| := by simpa using abs_add_le (x'.getD i 0 - x.getD i 0) (x.getD i 0)
    linarith
  have hb0 := abs_nonneg (w.getD x.length 0)
  have hm0 : 0 ≤ magnitude w x δ := by linarith
  have hk := pow_bound (x.length + 2) hn
  have hnu : ((x.length + 2 : Nat) : ℚ) * u ≤ 1 / 2 := by
    have h1 : ((x.length + 2 : Nat) : ℚ) ≤ 2 ^ 23 := by exact_mod_cast hn
    have h2 := mul_le_mul_of_nonneg_right h1 hu.le
    have h3 : (2 : ℚ) ^ 23 * u = 1 / 2 := by unfold u; norm_num
    linarith
  have hk2 : (1 + u) ^ (x.length + 2) ≤ 2 := by linarith
  have hp1 : (1 + u) ^ (x.length + 1) ≤ 2 := le_trans (pow_le_pow_right₀ (by linarith) (by omega)) hk2
  have hp0 : (1 + u) ^ x.length ≤ 2 := le_trans (pow_le_pow_right₀ (by linarith) (by omega)) hk2
  have hn0 : (0 : ℚ) ≤ x.length := Nat.cast_nonneg _
  have hnη : ((x.length : ℚ) + 1) * η ≤ 1 := by
    have h1 : ((x.length : ℚ) + 1) ≤ 2 ^ 23 := by exact_mod_cast (by omega : x.length + 1 ≤ 2 ^ 23)
    have h2 : (2 : ℚ) ^ 23 * η ≤ 1 := by
      unfold η
      rw [show (2 : ℚ) ^ 23 = 2 ^ (23 : ℤ) by norm_num, ← zpow_add₀ (by norm_num)]
      exact zpow_le_one_of_nonpos₀ (by norm_num) (by norm_num)
    exact le_trans (mul_le_mul_of_nonneg_right h1 hη.le) h2
  have hfin : 2 * ((x.length : ℚ) + 1) * (1 + u) ^ (x.length + 1) * η ≤ 4 * (((x.length : ℚ) + 1) * η) := by
    have h1 : 2 * ((x.length : ℚ) + 1) * (1 + u) ^ (x.length + 1) ≤ 2 * ((x.length : ℚ) + 1) * 2 := mul_le_mul_of_nonneg_left hp1 (by positivity)
    have h2 := mul_le_mul_of_nonneg_right h1 hη.le
    linarith
  have hfin0 : 2 * (x.length : ℚ) * (1 + u) ^ x.length * η ≤ 4 * (((x.length : ℚ) + 1) * η) := by
    have h1 : 2 * (x.length : ℚ) * (1 + u) ^ x.length ≤ 2 * (x.length : ℚ) * 2 := mul_le_mul_of_nonneg_left hp0 (by positivity)
    have h2 := mul_le_mul_of_nonneg_right h1 hη.le
    nlinarith
  have hbig : (2 : ℚ) * 2 ^ 125 + 4 ≤ 2 ^ 127 := by norm_num
  obtain ⟨s1, e1, e2, e3⟩ := dot_error x' w (j := 0) (S := 0) (A := 0) (s := 0) hwl (by simp) (by simp) (by
    rw [hl]
    simp only [Nat.zero_add, Nat.cast_zero, zero_add]
    have h1 : (1 + u) ^ (x.length + 1) * absDot x' w ≤ 2 * absDot x' w := mul_le_mul_of_nonneg_right hp1 hD0
    have h2 : absDot x' w ≤ 2 ^ 125 := by linarith
    linarith)
  simp only [hl, Nat.zero_add, Nat.cast_zero, zero_add] at e2 e3
  obtain ⟨y, f1, f2, f3⟩ := term_step (j := x.length) (S := exDot x' w) (A := absDot x' w) (s := s1) (a := w.getD x.length 0) (b := 1) e2 e3 (by
    rw [mul_one]
    have h1 : (1 + u) ^ (x.length + 2) * (absDot x' w + |w.getD x.length 0|) ≤ 2 * (absDot x' w + |w.getD x.length 0|) :=
      mul_le_mul_of_nonneg_right hk2 (by linarith)
    linarith)
  refine ⟨y, by rw [e1, f1], ?_⟩
  rw [mul_one] at f3
  push_cast at f3
  -- from the approximate inputs to the exact ones
  have hs : |exDot x' w + w.getD x.length 0 - affine w x 1| ≤ spread w δ := by
    rw [exDot_eq _ _ hwl, affine, hl, mul_one, spread, hl']
    have : (∑ i ∈ range x.length, w.getD i 0 * x'.getD i 0) + w.getD x.length 0 - ((∑ i ∈ range x.length, w.getD i 0 * x.getD i 0) + w.getD x.length 0)
        = ∑ i ∈ range x.length, w.getD i 0 * (x'.getD i 0 - x.getD i 0) := by
      simp only [mul_sub, Finset.sum_sub_distrib]; ring
    rw [this]
    refine (Finset.abs_sum_le_sum_abs _ _).trans (Finset.sum_le_sum fun i _ => ?_)
    rw [abs_mul]
    exact mul_le_mul_of_nonneg_left (hc i) (abs_nonneg _)
  have e23 : (2 : ℚ) ^ (-23 : ℤ) = 2 * u := by unfold u; rw [show (-23 : ℤ) = 1 + -24 by norm_num, zpow_add₀ (by norm_num)]; norm_num
  have e148 : (2 : ℚ) ^ (-148 : ℤ) = 4 * η := by
    unfold η; rw [show (-148 : ℤ) = 2 + -150 by norm_num, zpow_add₀ (by norm_num)]; norm_num
  have hr : ((1 + u) ^ (x.length + 1 + 1) - 1) * (absDot x' w + |w.getD x.length 0|) ≤ (x.length + 2) * (2 * u) * magnitude w x δ := by
    push_cast at hk
    have h1 : (1 + u) ^ (x.length + 1 + 1) - 1 ≤ (x.length + 2) * (2 * u) := by
      have : x.length + 1 + 1 = x.length + 2 := by omega
      rw [this]; linarith
    exact mul_le_mul h1 hmag (by positivity) (by positivity)
  have t : |y - affine w x 1| ≤ |y - (exDot x' w + w.getD x.length 0)| + |exDot x' w + w.getD x.length 0 - affine w x 1| := by
    simpa using abs_sub_le y (exDot x' w + w.getD x.length 0) (affine w x 1)
  rw [e23, e148]
  linarith

variable [FTrans B32]

theorem lit_zero : (lit 0 : B32) = num 0 := by
  show ofRat 0 = num 0
  simp [ofRat]

theorem lit_one : (lit 1 : B32) = num 1 := by
  show ofRat 1 = num 1
  have := ofRat_nat (k := 1) (by norm_num)
  simpa using this

theorem relu_num (y : ℚ) : ActObj.function .RectifiedLinearUnit (num y : B32) = num (max 0 y) := by
  have h : flt (num 0 : B32) (num y) = decide (0 < y) := rfl
  simp only [ActObj.function, lit_zero, h, decide_eq_true_eq]
  split
  · rename_i h; rw [max_eq_right h.le]
  · rename_i h; rw [max_eq_left (not_lt.1 h)]

theorem value_error {n : Neuron B32} {a : Act} {w x' x δ : List ℚ} (ha : n.activationFunction = a) (ha' : a = .relu ∨ a = .identity) (hb : n.bias = num 1)
    (hnw : n.weights = w.map num) (hw : w.length = x.length + 1) (hx : Close x' x δ) (hn : x.length + 2 ≤ 2 ^ 23) (hm : magnitude w x δ ≤ 2 ^ 125) :
    ∃ y, n.value (x'.map num) = num y ∧
      |y - exactAct a (affine w x 1)| ≤ (x.length + 2) * 2 ^ (-23 : ℤ) * magnitude w x δ + (x.length + 1) * 2 ^ (-148 : ℤ) + spread w δ := by
  obtain ⟨y, h1, h2⟩ := affine_error hw hx hn hm
  have h0 := lit_zero
  have hg : (w.map num).getD (x'.map num).length (lit 0) = num (w.getD x.length 0) := by
    rw [List.length_map, hx.1, List.getD_eq_getElem?_getD, List.getElem?_map, List.getD_eq_getElem?_getD,
      List.getElem?_eq_getElem (by omega)]
    rfl
  have hv : n.value (x'.map num) = a.obj.function (num y) := by
    rw [Neuron.value, ha, hnw, hb, hg, h0, h1]
  rw [hv]
  rcases ha' with rfl | rfl
  · refine ⟨_, relu_num y, le_trans ?_ h2⟩
    rw [exactAct, if_pos rfl]
    have := abs_max_sub_max_le_max 0 y 0 (affine w x 1)
    simpa using this
  · refine ⟨y, by simp only [Act.obj, ActObj.function], ?_⟩
    rw [exactAct, if_neg (by decide)]
    exact h2

/-! ### Layers -/

/-- A fully connected layer without layer optimizers, with this activation function. -/
structure Dense (a : Act) (l : Layer B32) : Prop where
  simple : a = .relu ∨ a = .identity
  opts : l.optimizers = []
  neurons : ∃ ns, l.body = .fullyConnected ns ∧ ∀ n ∈ ns, n.activationFunction = a ∧ n.bias = num 1

theorem Dense.of_kin {a : Act} {l l' : Layer B32} (h : Dense a l) (hk : l.Kin l') : Dense a l' := by
  obtain ⟨h0, h1, ns, h2, h3⟩ := h
  have ho := hk.opts
  rw [h1] at ho
  have hb := hk.body
  rw [h2] at hb
  cases hl' : l'.body <;> rw [hl'] at hb <;> simp only [Body.Kin] at hb
  refine ⟨h0, List.length_eq_zero_iff.1 (by simpa using ho), _, hl', ?_⟩
  exact forall₂_forall hb h3 fun a b hk ha => by rw [hk.activation, hk.bias]; exact ha

theorem dense_of_kin {as : List Act} {ls ls' : List (Layer B32)} (h : List.Forall₂ Dense as ls) (hk : List.Forall₂ Layer.Kin ls ls') :
    List.Forall₂ Dense as ls' := by
  induction h generalizing ls' with
  | nil => cases hk; exact .nil
  | cons h hs ih =>
    cases hk with
    | cons k1 k2 => exact .cons (h.of_kin k1) (ih k2)

theorem close_cons {a b c : ℚ} {x' x δ : List ℚ} (h : |a - b| ≤ c) (hs : Close x' x δ) : Close (a :: x') (b :: x) (c :: δ) := by
  refine ⟨by simp [hs.1], by simp [hs.2.1], ?_⟩
  intro i
  cases i with
  | zero => simpa using h
  | succ i => simpa using hs.2.2 i

theorem neurons_error {a : Act} (ha' : a = .relu ∨ a = .identity) {x' x δ : List ℚ} (hx : Close x' x δ) (hn : x.length + 2 ≤ 2 ^ 23) :
    ∀ (W : List (List ℚ)) (ns : List (Neuron B32)), ns.map (·.weights) = W.map (·.map num) → (∀ n ∈ ns, n.activationFunction = a ∧ n.bias = num 1) →
      (∀ n ∈ ns, n.weights.length = x.length + 1) → (∀ w ∈ W, magnitude w x δ ≤ 2 ^ 125) →
      ∃ ys, ns.map (·.value (x'.map num)) = ys.map num ∧ Close ys (idealLayer a W x) (errorLayer W x δ)
  | [], [], _, _, _, _ => ⟨[], rfl, rfl, rfl, by simp [idealLayer, errorLayer]⟩
  | [], _ :: _, h, _, _, _ => by simp at h
  | _ :: _, [], h, _, _, _ => by simp at h
  | w :: W, n :: ns, h, h1, h2, h3 => by
    simp only [List.map_cons, List.cons.injEq] at h
    obtain ⟨ys, e1, e2⟩ := neurons_error ha' hx hn W ns h.2 (fun m hm => h1 m (by simp [hm])) (fun m hm => h2 m (by simp [hm])) (fun m hm => h3 m (by simp [hm]))
    have hl := h2 n (by simp)
    rw [h.1, List.length_map] at hl
    obtain ⟨y, f1, f2⟩ := value_error (h1 n (by simp)).1 ha' (h1 n (by simp)).2 h.1 hl hx hn (h3 w (by simp))
    refine ⟨y :: ys, by simp [e1, f1], ?_⟩
    simp only [idealLayer, errorLayer, List.map_cons]
    exact close_cons f2 e2

theorem layer_error {a : Act} {l : Layer B32} (hd : Dense a l) {ni no : Nat} (hw : l.WF ni no) {W : List (List ℚ)}
    (hW : (layerParams l).neurons.map (·.weights) = W.map (·.map num)) {x' x δ : List ℚ} (hl : x.length = ni) (hx : Close x' x δ) (hn : x.length + 2 ≤ 2 ^ 23)
    (hm : ∀ w ∈ W, magnitude w x δ ≤ 2 ^ 125) (t : Bool) :
    ∃ y l', l.output (x'.map num) t = .ok (y.map num, l') ∧ Close y (idealLayer a W x) (errorLayer W x δ) ∧ y.length = no := by
  obtain ⟨h0, h1, ns, h2, h3⟩ := hd
  have hx' : (x'.map num).length = ni := by rw [List.length_map, hx.1, hl]
  obtain ⟨out, l', ho, hlen, _⟩ := Layer.output_ok hw (x'.map num) hx' t
  have hwb := hw.body
  rw [h2] at hwb
  obtain ⟨hwn, hno⟩ := hwb
  rw [layerParams, h2] at hW
  simp only [List.map_map] at hW
  obtain ⟨ys, e1, e2⟩ := neurons_error h0 hx hn W ns hW h3 (fun n hn => by rw [hl]; exact (hwn n hn).wlen) hm
  obtain ⟨ns', r1, _⟩ := runNeurons_value (f := fun n : Neuron B32 => n.output (x'.map num)) (g := fun n => n.value (x'.map num)) (P := fun _ _ => True)
    (ns := ns) (fun n hn => by obtain ⟨n', k1, _⟩ := Neuron.output_value (hwn n hn) _ hx'; exact ⟨n', k1, trivial⟩)
  have : out = ys.map num := by
    rw [← e1]
    unfold Layer.output at ho
    rw [h1, h2] at ho
    simp only [Body.computeOutput, r1, Res.ok_bind, testingHooks, pure, Pure.pure, Res.pure_eq] at ho
    cases ho
    rfl
  subst this
  exact ⟨ys, l', ho, e2, by simpa using hlen⟩

/-- A network: the layers one after the other. -/
theorem loop_error : ∀ {as : List Act} {ls : List (Layer B32)} {ni no : Nat}, List.Forall₂ Dense as ls → LayersWF ls ni no →
    ∀ {Ws : List (List (List ℚ))}, ls.map (fun l => (layerParams l).neurons.map (·.weights)) = Ws.map (·.map (·.map num)) →
    ∀ {x' x δ : List ℚ}, x.length = ni → Close x' x δ → Moderate (as.zip Ws) x δ → ∀ t : Bool,
    ∃ y ls', outputLoop t ls (x'.map num) = .ok (y.map num, ls') ∧ Close y (ideal (as.zip Ws) x) (errorBound (as.zip Ws) x δ) ∧ y.length = no
  | _, _, ni, no, .nil, hw, Ws, hW, x', x, δ, hl, hx, _, t => by
    cases hw
    cases Ws with
    | nil => exact ⟨x', [], rfl, hx, by rw [hx.1, hl]⟩
    | cons => simp at hW
  | _, _, ni, no, .cons h hs, hw, [], hW, x', x, δ, hl, hx, hm, t => by simp at hW
  | _, _, ni, no, .cons h hs, hw, W :: Ws, hW, x', x, δ, hl, hx, hm, t => by
    cases hw with
    | cons hw1 hw2 =>
      simp only [List.map_cons, List.cons.injEq] at hW
      obtain ⟨m1, m2, m3⟩ := hm
      obtain ⟨y, l', e1, e2, e3⟩ := layer_error h hw1 hW.1 hl hx m1 m2 t
      obtain ⟨z, ls', f1, f2, f3⟩ := loop_error hs hw2 hW.2 (by rw [← e2.1, e3]) e2 m3 t
      exact ⟨z, l' :: ls', by simp [outputLoop, e1, f1], f2, f3⟩

end Snn.Precision
