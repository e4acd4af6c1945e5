import Verif.Spec.BoundedSpec
import Verif.Props.FloatActivation
import Verif.Proofs.PrecisionProofs
import Verif.Props.SafeProps

/-! Magnitudes in single precision. -/

set_option linter.all false

namespace Snn.Bounded

open B32 Spec

/-! ### Numbers -/

theorem rep_pow {z : ℤ} (h : -149 ≤ z) : Rep ((2 : ℚ) ^ z) := ⟨1, z, by norm_num, h, by simp⟩

theorem rep_mul_pow {k : Nat} {z : ℤ} (hk : k ≤ 2 ^ 24) (h : -149 ≤ z) : Rep ((k : ℚ) * (2 : ℚ) ^ z) :=
  ⟨k, z, by rw [abs_of_nonneg (by omega)]; omega, h, by simp⟩

theorem pow_lt {z : ℤ} (h : z ≤ 127) : (2 : ℚ) ^ z < 2 ^ 128 := by
  rw [← zpow_natCast]
  exact zpow_lt_zpow_right₀ (by norm_num) (by push_cast; omega)

theorem pow_le {a b : ℤ} (h : a ≤ b) : (2 : ℚ) ^ a ≤ 2 ^ b := zpow_le_zpow_right₀ (by norm_num) h

theorem pow_pos' (a : ℤ) : (0 : ℚ) < 2 ^ a := zpow_pos (by norm_num) a

theorem _root_.Snn.Spec.Within.mono {a b : ℚ} {v : B32} (h : Within a v) (hb : a ≤ b) : Within b v := by
  obtain ⟨q, h1, h2, h3⟩ := h; exact ⟨q, h1, h2, h3.trans hb⟩

theorem within_zero {b : ℚ} (hb : 0 ≤ b) : Within b (lit 0) := ⟨0, by decide +kernel, rep_zero, by simpa using hb⟩

theorem within_ofRat {C x : ℚ} (h : |x| ≤ C) (hC : Rep C) (hC' : C < 2 ^ 128) : Within C (ofRat x) := by
  refine ⟨rnd x, ofRat_num h hC hC', rep_rnd x, ?_⟩
  rw [abs_le] at h ⊢
  exact ⟨le_rnd h.1 hC.neg, rnd_le h.2 hC⟩

theorem _root_.Snn.Spec.Within.add {A B C : ℚ} {u v : B32} (hu : Within A u) (hv : Within B v) (hC : A + B ≤ C) (hr : Rep C) (hs : C < 2 ^ 128) :
    Within C (u + v) := by
  obtain ⟨a, rfl, _, h1⟩ := hu
  obtain ⟨b, rfl, _, h2⟩ := hv
  rw [num_add]
  exact within_ofRat ((abs_add_le a b).trans (by linarith)) hr hs

theorem _root_.Snn.Spec.Within.neg {A : ℚ} {u : B32} (hu : Within A u) : Within A (-u) := by
  obtain ⟨a, rfl, h0, h1⟩ := hu
  exact ⟨-a, rfl, h0.neg, by rwa [abs_neg]⟩

theorem _root_.Snn.Spec.Within.sub {A B C : ℚ} {u v : B32} (hu : Within A u) (hv : Within B v) (hC : A + B ≤ C) (hr : Rep C) (hs : C < 2 ^ 128) :
    Within C (u - v) := Within.add hu hv.neg hC hr hs

theorem _root_.Snn.Spec.Within.mul {A B C : ℚ} {u v : B32} (hu : Within A u) (hv : Within B v) (hC : A * B ≤ C) (hr : Rep C) (hs : C < 2 ^ 128) :
    Within C (u * v) := by
  obtain ⟨a, rfl, _, h1⟩ := hu
  obtain ⟨b, rfl, _, h2⟩ := hv
  rw [Precision.num_mul]
  refine within_ofRat ?_ hr hs
  rw [abs_mul]
  exact (mul_le_mul h1 h2 (abs_nonneg _) ((abs_nonneg _).trans h1)).trans hC

theorem _root_.Snn.Spec.Within.mulPow {a b c : ℤ} {u v : B32} (hu : Within (2 ^ a) u) (hv : Within (2 ^ b) v) (hC : a + b ≤ c) (h0 : -149 ≤ c) (h1 : c ≤ 127) :
    Within (2 ^ c) (u * v) := by
  refine hu.mul hv ?_ (rep_pow h0) (pow_lt h1)
  rw [← zpow_add₀ (by norm_num)]
  exact pow_le hC

/-- A value just above a power of two is rounded to it. -/
theorem rnd_above {w : ℤ} (hw : -120 ≤ w) {x : ℚ} (h0 : (2 : ℚ) ^ w < x) (h1 : x ≤ 2 ^ w + 2 ^ (w - 24)) : rnd x = 2 ^ w := by
  have hp := pow_pos' w
  have hx : 0 < x := hp.trans h0
  have hlog : Int.log 2 |x| = w := by
    rw [abs_of_pos hx]
    refine le_antisymm ?_ ?_
    · have : x < (2 : ℚ) ^ (w + 1) := by
        rw [zpow_add₀ (by norm_num), zpow_one]
        have : (2 : ℚ) ^ (w - 24) < 2 ^ w := zpow_lt_zpow_right₀ (by norm_num) (by omega)
        linarith
      have := (Int.lt_zpow_iff_log_lt (R := ℚ) (b := 2) (by norm_num) hx).1 (by exact_mod_cast this)
      omega
    · exact (Int.zpow_le_iff_le_log (R := ℚ) (b := 2) (by norm_num) hx).1 (by exact_mod_cast h0.le)
  have hu : ulp x = 2 ^ (w - 23) := by
    unfold ulp; rw [hlog, max_eq_left (by omega)]
  have hup := pow_pos' (w - 23)
  have e1 : (2 : ℚ) ^ w = 2 ^ 23 * 2 ^ (w - 23) := by
    rw [← zpow_natCast, ← zpow_add₀ (by norm_num)]; congr 1; push_cast; ring
  have e2 : (2 : ℚ) ^ (w - 24) = 1 / 2 * 2 ^ (w - 23) := by
    rw [show w - 23 = (w - 24) + 1 by ring, zpow_add₀ (by norm_num), zpow_one]; ring
  obtain ⟨f, hf⟩ : ∃ f, x = (2 ^ 23 + f) * 2 ^ (w - 23) := ⟨x / 2 ^ (w - 23) - 2 ^ 23, by field_simp; ring⟩
  have hf0 : 0 < f := by
    by_contra hc
    push Not at hc
    have : (2 ^ 23 + f) * 2 ^ (w - 23) ≤ 2 ^ 23 * (2 : ℚ) ^ (w - 23) := mul_le_mul_of_nonneg_right (by linarith) hup.le
    linarith
  have hf1 : f ≤ 1 / 2 := by
    by_contra hc
    push Not at hc
    have : (2 ^ 23 + 1 / 2) * (2 : ℚ) ^ (w - 23) < (2 ^ 23 + f) * 2 ^ (w - 23) := mul_lt_mul_of_pos_right (by linarith) hup
    have e3 : (2 ^ 23 + 1 / 2) * (2 : ℚ) ^ (w - 23) = 2 ^ w + 2 ^ (w - 24) := by rw [e1, e2]; ring
    linarith
  have hdiv : x / ulp x = 2 ^ 23 + f := by rw [hu, hf]; field_simp
  unfold rnd
  rw [if_neg hx.ne', hdiv, hu, e1]
  have hfl : ⌊(2 ^ 23 + f : ℚ)⌋ = 2 ^ 23 := by
    rw [Int.floor_eq_iff]; push_cast; constructor <;> linarith
  have hn : nearest (2 ^ 23 + f) = 2 ^ 23 := by
    unfold nearest
    rw [hfl]
    push_cast
    by_cases h : f < 1 / 2
    · rw [if_pos (by linarith)]
    · rw [if_neg (by linarith), if_neg (by linarith)]
  rw [hn]
  push_cast
  rfl

theorem nearest_neg (m : ℚ) : nearest (-m) = -nearest m := by
  by_cases hi : m = ⌊m⌋
  · rw [hi]
    have : -((⌊m⌋ : ℤ) : ℚ) = ((-⌊m⌋ : ℤ) : ℚ) := by push_cast; rfl
    rw [this, nearest_int, nearest_int]
  · have hlt : ((⌊m⌋ : ℤ) : ℚ) < m := lt_of_le_of_ne (Int.floor_le m) (Ne.symm hi)
    have hf : ⌊-m⌋ = -⌊m⌋ - 1 := by
      rw [Int.floor_eq_iff]
      push_cast
      constructor <;> linarith [Int.lt_floor_add_one m]
    unfold nearest
    rw [hf]
    push_cast
    generalize ⌊m⌋ = z at *
    by_cases h1 : m - z < 1 / 2
    · rw [if_neg (by linarith), if_pos (by linarith), if_pos h1]; ring
    · by_cases h2 : 1 / 2 < m - z
      · rw [if_pos (by linarith), if_neg h1, if_pos h2]; ring
      · rw [if_neg (by linarith), if_neg (by linarith), if_neg h1, if_neg h2]
        by_cases h3 : z % 2 = 0
        · rw [if_pos h3, if_neg (by omega)]; ring
        · rw [if_neg h3, if_pos (by omega)]; ring

theorem rnd_neg (x : ℚ) : rnd (-x) = -rnd x := by
  unfold rnd
  have hu : ulp (-x) = ulp x := by unfold ulp; rw [abs_neg]
  by_cases h : x = 0
  · simp [h]
  · rw [if_neg (by simpa using h), if_neg h, hu, neg_div, nearest_neg]
    push_cast; ring

/-- An increment 2^24 times smaller than the bound of a value does not bring it over the bound. -/
theorem _root_.Snn.Spec.Within.absorb {w : ℤ} (h0 : -120 ≤ w) (h1 : w ≤ 127) {u v : B32} (hu : Within (2 ^ w) u) (hv : Within (2 ^ (w - 24)) v) : Within (2 ^ w) (u + v) := by
  obtain ⟨a, rfl, _, ha⟩ := hu
  obtain ⟨b, rfl, _, hb⟩ := hv
  rw [num_add]
  have hr : Rep ((2 : ℚ) ^ w) := rep_pow (by omega)
  rcases le_or_gt |a + b| (2 ^ w) with h | h
  · exact within_ofRat h hr (pow_lt h1)
  have hsum : |a + b| ≤ 2 ^ w + 2 ^ (w - 24) := (abs_add_le a b).trans (by linarith)
  have hrnd : |rnd (a + b)| = 2 ^ w := by
    rcases abs_cases (a + b) with ⟨h2, h3⟩ | ⟨h2, h3⟩
    · rw [h2] at h hsum
      rw [rnd_above h0 h hsum, abs_of_pos (pow_pos' w)]
    · rw [h2] at h hsum
      have := rnd_above h0 h hsum
      rw [rnd_neg] at this
      rw [← abs_neg, this, abs_of_pos (pow_pos' w)]
  refine ⟨rnd (a + b), ?_, rep_rnd _, hrnd.le⟩
  rw [ofRat_rnd, if_neg (by rw [hrnd, not_le]; exact pow_lt h1)]

/-! ### Loops -/

section
variable [FTrans B32]

def AllWithin (b : ℚ) (l : List B32) : Prop := ∀ v ∈ l, Within b v

theorem AllWithin.mono {a b : ℚ} {l : List B32} (h : AllWithin a l) (hb : a ≤ b) : AllWithin b l := fun v hv => (h v hv).mono hb

theorem allWithin_replicate {b : ℚ} (hb : 0 ≤ b) (n : Nat) : AllWithin b (List.replicate n (lit 0)) := by
  intro v hv
  rw [(List.mem_replicate.1 hv).2]
  exact within_zero hb

theorem dot_within {z a b : ℤ} (hz0 : -149 ≤ z) (hab : a + b ≤ z) : ∀ {xs ws : List B32} {j : Nat} {t s : B32},
    AllWithin (2 ^ a) xs → AllWithin (2 ^ b) ws → j + xs.length ≤ 2 ^ 24 → ((j + xs.length : ℕ) : ℚ) * 2 ^ z < 2 ^ 128 → Within ((j : ℚ) * 2 ^ z) t →
    dotLoop t xs ws = .ok s → Within (((j + xs.length : ℕ) : ℚ) * 2 ^ z) s
  | [], ws, j, t, s, _, _, _, _, ht, h => by cases h; simpa using ht
  | x :: xs, [], j, t, s, _, _, _, _, ht, h => by cases h
  | x :: xs, w :: ws, j, t, s, hx, hw, hn, hb, ht, h => by
    rw [dotLoop] at h
    have hp := pow_pos' z
    simp only [List.length_cons] at hn hb ⊢
    have hle : ((j + 1 : ℕ) : ℚ) * 2 ^ z ≤ ((j + (xs.length + 1) : ℕ) : ℚ) * 2 ^ z :=
      mul_le_mul_of_nonneg_right (by exact_mod_cast (by omega)) hp.le
    have hlt : ((j + 1 : ℕ) : ℚ) * 2 ^ z < 2 ^ 128 := lt_of_le_of_lt hle hb
    have hz1 : z ≤ 127 := by
      by_contra hc
      push Not at hc
      have h1 : (2 : ℚ) ^ (128 : ℤ) ≤ 2 ^ z := pow_le (by omega)
      have h2 : (1 : ℚ) * 2 ^ z ≤ ((j + 1 : ℕ) : ℚ) * 2 ^ z := mul_le_mul_of_nonneg_right (by push_cast; linarith [Nat.cast_nonneg (α := ℚ) j]) hp.le
      have h3 : (2 : ℚ) ^ (128 : ℤ) = 2 ^ 128 := by norm_num
      linarith
    have ht' : Within (((j + 1 : ℕ) : ℚ) * 2 ^ z) (t + x * w) := by
      refine ht.add ((hx x (by simp)).mulPow (hw w (by simp)) hab hz0 hz1) ?_ (rep_mul_pow (by omega) hz0) hlt
      push_cast; linarith
    have e : j + (xs.length + 1) = (j + 1) + xs.length := by omega
    rw [e] at hn hb ⊢
    exact dot_within hz0 hab (fun v hv => hx v (by simp [hv])) (fun v hv => hw v (by simp [hv])) hn hb ht' h

theorem error_within {a b c : ℤ} (hc : a + b ≤ c) (h0 : -149 ≤ c) (h1 : c ≤ 127) {e : B32} (he : Within (2 ^ a) e) : ∀ {k : Nat} {es ws r : List B32},
    es.length = k → AllWithin (2 ^ b) ws → errorLoop e k es ws = .ok r → AllWithin (2 ^ c) r
  | 0, es, ws, r, hl, _, h => by
    cases h
    rw [List.length_eq_zero_iff.1 hl]
    intro v hv; cases hv
  | k + 1, [], ws, r, hl, _, h => by cases hl
  | k + 1, e0 :: es, [], r, hl, _, h => by cases h
  | k + 1, e0 :: es, w :: ws, r, hl, hw, h => by
    rw [errorLoop] at h
    obtain ⟨r1, h2, h⟩ := Res.bind_eq_ok.1 h
    cases h
    have ih := error_within hc h0 h1 he (by simpa using hl) (fun v hv => hw v (by simp [hv])) h2
    intro v hv
    rcases List.mem_cons.1 hv with rfl | hv
    · exact he.mulPow (hw w (by simp)) hc h0 h1
    · exact ih v hv

theorem addErrors_within {j : Nat} {z : ℤ} (hz0 : -149 ≤ z) (hj : j + 1 ≤ 2 ^ 24) (hb : ((j + 1 : ℕ) : ℚ) * 2 ^ z < 2 ^ 128) : ∀ {as bs r : List B32},
    AllWithin ((j : ℚ) * 2 ^ z) as → AllWithin (2 ^ z) bs → addErrors as bs = .ok r → AllWithin (((j + 1 : ℕ) : ℚ) * 2 ^ z) r
  | [], bs, r, _, _, h => by cases h; intro v hv; cases hv
  | a :: as, [], r, _, _, h => by cases h
  | a :: as, b :: bs, r, ha, hbs, h => by
    rw [addErrors] at h
    obtain ⟨r1, h2, h⟩ := Res.bind_eq_ok.1 h
    cases h
    have ih := addErrors_within hz0 hj hb (fun v hv => ha v (by simp [hv])) (fun v hv => hbs v (by simp [hv])) h2
    intro v hv
    rcases List.mem_cons.1 hv with rfl | hv
    · exact (ha a (by simp)).add (hbs b (by simp)) (by push_cast; linarith) (rep_mul_pow hj hz0) hb
    · exact ih v hv

/-- The increment of a weight: the new term, and the momentum times the previous increment. -/
theorem delta_within {c D : ℤ} {g : Nat} (hg : c + g ≤ D) (h0 : -90 ≤ c) (h1 : D ≤ 127) {t m p : B32} (ht : Within (2 ^ c) t) (hm1 : Within 1 m)
    (hm : g = 24 ∨ g < 24 ∧ Within (1 - 2 ^ (-g : ℤ)) m) (hp : Within (2 ^ D) p) : Within (2 ^ D) (t + m * p) := by
  have hD : (0 : ℚ) < 2 ^ D := pow_pos' D
  rcases hm with hg' | ⟨hg', hm⟩
  · have hmp : Within (2 ^ D) (m * p) := hm1.mul hp (by simp) (rep_pow (by omega)) (pow_lt h1)
    have h := (hmp.absorb (by omega) h1 (ht.mono (pow_le (b := D - 24) (by omega))))
    have e : t + m * p = m * p + t := by
      obtain ⟨a, ha, _⟩ := ht
      obtain ⟨b, hb, _⟩ := hmp
      rw [ha, hb, num_add, num_add, add_comm]
    rwa [e]
  · have e2 : (2 : ℚ) ^ (-g : ℤ) * 2 ^ D = 2 ^ (D - g) := by rw [← zpow_add₀ (by norm_num)]; congr 1; ring
    have e3 : (1 - (2 : ℚ) ^ (-g : ℤ)) * 2 ^ D = ((2 ^ g - 1 : ℕ) : ℚ) * 2 ^ (D - g) := by
      have e4 : (2 : ℚ) ^ D = 2 ^ g * 2 ^ (D - g) := by rw [← zpow_natCast, ← zpow_add₀ (by norm_num)]; congr 1; ring
      rw [sub_mul, e2, one_mul, e4, Nat.cast_sub Nat.one_le_two_pow]
      push_cast; ring
    have hle : (1 - (2 : ℚ) ^ (-g : ℤ)) * 2 ^ D ≤ 2 ^ D := by
      have := pow_pos' (D - g)
      rw [sub_mul, e2]; linarith
    have hpow : (2 : ℕ) ^ g ≤ 2 ^ 24 := Nat.pow_le_pow_right (by norm_num) (by omega)
    have hmp : Within ((1 - 2 ^ (-g : ℤ)) * 2 ^ D) (m * p) := by
      refine hm.mul hp le_rfl ?_ (lt_of_le_of_lt hle (pow_lt h1))
      rw [e3]
      exact rep_mul_pow (by omega) (by omega)
    refine ht.add hmp ?_ (rep_pow (by omega)) (pow_lt h1)
    have : (2 : ℚ) ^ c ≤ 2 ^ (D - g) := pow_le (by omega)
    rw [sub_mul, e2]; linarith

end

end Snn.Bounded
