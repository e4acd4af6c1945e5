import Mathlib.Analysis.Normed.Module.FiniteDimension
import Mathlib.Algebra.Order.BigOperators.Ring.Finset
import Mathlib.Tactic.Linarith
import Mathlib.Tactic.Ring
import Mathlib.Tactic.Positivity

/-! Real analysis for the linear neuron that learns one example after another. A state is (weights, weight of the bias). -/

set_option linter.all false

namespace Snn.Online

open Finset

/-- Scalar product of the first n components. -/
def dot (n : Nat) (u v : Nat → ℝ) : ℝ := ∑ i ∈ range n, u i * v i

theorem dot_sub (n : Nat) (u v x : Nat → ℝ) : dot n (fun i => u i - v i) x = dot n u x - dot n v x := by
  unfold dot; rw [← Finset.sum_sub_distrib]; exact Finset.sum_congr rfl fun i _ => by ring

theorem dot_add (n : Nat) (u v x : Nat → ℝ) : dot n (fun i => u i + v i) x = dot n u x + dot n v x := by
  unfold dot; rw [← Finset.sum_add_distrib]; exact Finset.sum_congr rfl fun i _ => by ring

theorem dot_smul (n : Nat) (c : ℝ) (u x : Nat → ℝ) : dot n (fun i => c * u i) x = c * dot n u x := by
  unfold dot; rw [Finset.mul_sum]; exact Finset.sum_congr rfl fun i _ => by ring

theorem dot_self_nonneg (n : Nat) (u : Nat → ℝ) : 0 ≤ dot n u u := Finset.sum_nonneg fun i _ => mul_self_nonneg _

theorem dot_sq_le (n : Nat) (u v : Nat → ℝ) : dot n u v ^ 2 ≤ dot n u u * dot n v v := by
  have := Finset.sum_mul_sq_le_sq_mul_sq (range n) u v
  simpa [dot, pow_two] using this

theorem dot_abs_le {n : Nat} {u v : Nat → ℝ} {R : ℝ} (hR : 0 ≤ R) (hu : dot n u u ≤ R) (hv : dot n v v ≤ R) : |dot n u v| ≤ R := by
  have h1 := dot_sq_le n u v
  have h2 : dot n u u * dot n v v ≤ R * R := mul_le_mul hu hv (dot_self_nonneg _ _) hR
  exact abs_le_of_sq_le_sq (by nlinarith) hR

/-- A state of the neuron. -/
abbrev St := (Nat → ℝ) × ℝ

/-- The error of the neuron on an example. -/
def er (n : Nat) (s : St) (p : (Nat → ℝ) × ℝ) : ℝ := p.2 - (dot n s.1 p.1 + s.2)

/-- A training step. -/
def st (ε : ℝ) (n : Nat) (s : St) (p : (Nat → ℝ) × ℝ) : St := (fun i => s.1 i + ε * er n s p * p.1 i, ε * er n s p)

/-- The distance to the rule u. -/
def gap (ε : ℝ) (n : Nat) (u : Nat → ℝ) (s : St) : ℝ := dot n (fun i => s.1 i - u i) (fun i => s.1 i - u i) + 2 * ε * s.2 ^ 2

theorem gap_st (ε : ℝ) (n : Nat) (u : Nat → ℝ) (s : St) (p : (Nat → ℝ) × ℝ) :
    gap ε n u (st ε n s p) = gap ε n u s - 2 * ε * s.2 ^ 2 + 2 * ε * er n s p * (dot n s.1 p.1 - dot n u p.1)
      + (ε * er n s p) ^ 2 * (dot n p.1 p.1 + 2 * ε) := by
  have h : dot n (fun i => s.1 i + ε * er n s p * p.1 i - u i) (fun i => s.1 i + ε * er n s p * p.1 i - u i)
      = dot n (fun i => s.1 i - u i) (fun i => s.1 i - u i) + 2 * (ε * er n s p) * (dot n s.1 p.1 - dot n u p.1)
        + (ε * er n s p) ^ 2 * dot n p.1 p.1 := by
    rw [← dot_sub]
    unfold dot
    rw [Finset.mul_sum, Finset.mul_sum, ← Finset.sum_add_distrib, ← Finset.sum_add_distrib]
    exact Finset.sum_congr rfl fun i _ => by ring
  simp only [gap, st, h]
  ring

theorem gap_le {ε : ℝ} (hε : 0 < ε) {n : Nat} {p : (Nat → ℝ) × ℝ} (hp : ε * (dot n p.1 p.1 + 2 * ε) ≤ 1 / 2) (u : Nat → ℝ) (s : St) :
    gap ε n u (st ε n s p) ≤ gap ε n u s - ε / 2 * er n s p ^ 2 + 2 * ε * (p.2 - dot n u p.1) ^ 2 := by
  rw [gap_st]
  have h1 : dot n s.1 p.1 = p.2 - er n s p - s.2 := by unfold er; ring
  rw [h1]
  set e := er n s p
  set r := p.2 - dot n u p.1 with hr
  have h2 : dot n u p.1 = p.2 - r := by rw [hr]; ring
  rw [h2]
  have h3 : (ε * e) ^ 2 * (dot n p.1 p.1 + 2 * ε) ≤ ε * e ^ 2 * (1 / 2) := by
    have : (ε * e) ^ 2 * (dot n p.1 p.1 + 2 * ε) = ε * e ^ 2 * (ε * (dot n p.1 p.1 + 2 * ε)) := by ring
    rw [this]; exact mul_le_mul_of_nonneg_left hp (by positivity)
  nlinarith [mul_nonneg hε.le (sq_nonneg (e - 2 * r)), mul_nonneg hε.le (sq_nonneg (e + 2 * s.2))]

theorem gap_exact {ε : ℝ} (hε : 0 < ε) {n : Nat} {p : (Nat → ℝ) × ℝ} (hp : ε * (dot n p.1 p.1 + 2 * ε) ≤ 1 / 2) {u : Nat → ℝ} (hu : dot n u p.1 = p.2) (s : St) :
    gap ε n u (st ε n s p) ≤ gap ε n u s - ε / 2 * er n s p ^ 2 - ε * s.2 ^ 2 := by
  rw [gap_st]
  have h1 : dot n s.1 p.1 = p.2 - er n s p - s.2 := by unfold er; ring
  rw [h1, hu]
  set e := er n s p
  have h3 : (ε * e) ^ 2 * (dot n p.1 p.1 + 2 * ε) ≤ ε * e ^ 2 * (1 / 2) := by
    have : (ε * e) ^ 2 * (dot n p.1 p.1 + 2 * ε) = ε * e ^ 2 * (ε * (dot n p.1 p.1 + 2 * ε)) := by ring
    rw [this]; exact mul_le_mul_of_nonneg_left hp (by positivity)
  nlinarith [mul_nonneg hε.le (sq_nonneg (e + s.2))]

/-- The state after a list of examples. -/
def run (ε : ℝ) (n : Nat) : St → List ((Nat → ℝ) × ℝ) → St
  | s, [] => s
  | s, p :: ps => run ε n (st ε n s p) ps

/-- The sum of the squared errors. -/
def total (ε : ℝ) (n : Nat) : St → List ((Nat → ℝ) × ℝ) → ℝ
  | _, [] => 0
  | s, p :: ps => er n s p ^ 2 + total ε n (st ε n s p) ps

/-- The sum of the absolute errors. -/
def total1 (ε : ℝ) (n : Nat) : St → List ((Nat → ℝ) × ℝ) → ℝ
  | _, [] => 0
  | s, p :: ps => |er n s p| + total1 ε n (st ε n s p) ps

theorem total_nonneg (ε : ℝ) (n : Nat) : ∀ (ps : List ((Nat → ℝ) × ℝ)) (s : St), 0 ≤ total ε n s ps
  | [], s => le_refl _
  | p :: ps, s => add_nonneg (sq_nonneg _) (total_nonneg ε n ps _)

theorem total1_nonneg (ε : ℝ) (n : Nat) : ∀ (ps : List ((Nat → ℝ) × ℝ)) (s : St), 0 ≤ total1 ε n s ps
  | [], s => le_refl _
  | p :: ps, s => add_nonneg (abs_nonneg _) (total1_nonneg ε n ps _)

theorem gap_nonneg {ε : ℝ} (hε : 0 ≤ ε) (n : Nat) (u : Nat → ℝ) (s : St) : 0 ≤ gap ε n u s :=
  add_nonneg (dot_self_nonneg _ _) (by positivity)

theorem total_le {ε : ℝ} (hε : 0 < ε) {n : Nat} (u : Nat → ℝ) : ∀ (ps : List ((Nat → ℝ) × ℝ)) (s : St),
    (∀ p ∈ ps, ε * (dot n p.1 p.1 + 2 * ε) ≤ 1 / 2) →
    gap ε n u (run ε n s ps) + ε / 2 * total ε n s ps ≤ gap ε n u s + 2 * ε * (ps.map fun p => (p.2 - dot n u p.1) ^ 2).sum
  | [], s, _ => by simp [run, total]
  | p :: ps, s, h => by
    have h1 := gap_le hε (h p (by simp)) u s
    have h2 := total_le hε u ps (st ε n s p) fun q hq => h q (by simp [hq])
    simp only [run, total, List.map_cons, List.sum_cons]
    nlinarith

theorem exact_le {ε : ℝ} (hε : 0 < ε) {n : Nat} {u : Nat → ℝ} : ∀ (ps : List ((Nat → ℝ) × ℝ)) (s : St),
    (∀ p ∈ ps, ε * (dot n p.1 p.1 + 2 * ε) ≤ 1 / 2) → (∀ p ∈ ps, dot n u p.1 = p.2) →
    gap ε n u (run ε n s ps) + ε / 2 * total ε n s ps ≤ gap ε n u s
  | [], s, _, _ => by simp [run, total]
  | p :: ps, s, h, hu => by
    have h1 := gap_exact hε (h p (by simp)) (hu p (by simp)) s
    have h2 := exact_le hε ps (st ε n s p) (fun q hq => h q (by simp [hq])) fun q hq => hu q (by simp [hq])
    simp only [run, total]
    nlinarith [mul_nonneg hε.le (sq_nonneg s.2)]

theorem exact_le' {ε : ℝ} (hε : 0 < ε) {n : Nat} {u : Nat → ℝ} {ps : List ((Nat → ℝ) × ℝ)} (hne : ps ≠ []) (s : St)
    (h : ∀ p ∈ ps, ε * (dot n p.1 p.1 + 2 * ε) ≤ 1 / 2) (hu : ∀ p ∈ ps, dot n u p.1 = p.2) :
    gap ε n u (run ε n s ps) + ε / 2 * total ε n s ps + ε * s.2 ^ 2 ≤ gap ε n u s := by
  cases ps with
  | nil => exact absurd rfl hne
  | cons p ps =>
    have h1 := gap_exact hε (h p (by simp)) (hu p (by simp)) s
    have h2 := exact_le hε ps (st ε n s p) (fun q hq => h q (by simp [hq])) fun q hq => hu q (by simp [hq])
    simp only [run, total]
    nlinarith

theorem total1_sq (ε : ℝ) (n : Nat) : ∀ (ps : List ((Nat → ℝ) × ℝ)) (s : St), total1 ε n s ps ^ 2 ≤ ps.length * total ε n s ps
  | [], s => by simp [total1, total]
  | p :: ps, s => by
    have ih := total1_sq ε n ps (st ε n s p)
    have hA := total1_nonneg ε n ps (st ε n s p)
    have hS := total_nonneg ε n ps (st ε n s p)
    simp only [total1, total, List.length_cons]
    push_cast
    set A := total1 ε n (st ε n s p) ps
    set S := total ε n (st ε n s p) ps
    set a := |er n s p| with ha
    have ha2 : er n s p ^ 2 = a ^ 2 := by rw [ha, sq_abs]
    rw [ha2]
    have ha0 : 0 ≤ a := abs_nonneg _
    rcases Nat.eq_zero_or_pos ps.length with h0 | h0
    · rw [h0] at ih ⊢
      have : A = 0 := by
        simp only [Nat.cast_zero, zero_mul] at ih
        exact pow_eq_zero_iff (two_ne_zero) |>.1 (le_antisymm ih (sq_nonneg A))
      rw [this]; push_cast; nlinarith
    · have hm : (0 : ℝ) < ps.length := by exact_mod_cast h0
      set m : ℝ := (ps.length : ℝ)
      have h2 : 2 * a * A ≤ m * a ^ 2 + S := by
        have : 0 ≤ m * (m * a ^ 2 + S - 2 * a * A) := by nlinarith [sq_nonneg (m * a - A)]
        by_contra hc
        rw [not_le] at hc
        have := mul_pos hm (sub_pos.2 hc)
        nlinarith
      nlinarith

/-- Each example of the list was nearly right at the beginning when the errors along the list are small. -/
theorem start_le {ε R : ℝ} (hε : 0 < ε) (hR : 0 ≤ R) {n : Nat} {u : Nat → ℝ} : ∀ (ps : List ((Nat → ℝ) × ℝ)) (s : St),
    (∀ p ∈ ps, dot n p.1 p.1 ≤ R) → (∀ p ∈ ps, dot n u p.1 = p.2) → ∀ p ∈ ps,
    |dot n (fun i => s.1 i - u i) p.1| ≤ |s.2| + (1 + ε + ε * R) * total1 ε n s ps
  | [], s, _, _, q, hq => by simp at hq
  | p :: ps, s, h, hu, q, hq => by
    have hA := total1_nonneg ε n ps (st ε n s p)
    have hc : 0 ≤ ε + ε * R := by positivity
    simp only [total1]
    have ha0 : 0 ≤ |er n s p| := abs_nonneg _
    rcases List.mem_cons.1 hq with rfl | hq'
    · have e1 : dot n (fun i => s.1 i - u i) q.1 = -(er n s q) - s.2 := by
        rw [dot_sub, hu q (by simp)]; unfold er; ring
      rw [e1]
      have := abs_add_le (-(er n s q)) (-s.2)
      rw [abs_neg, abs_neg] at this
      rw [sub_eq_add_neg]
      nlinarith [mul_nonneg hc ha0, mul_nonneg hc hA]
    · have ih := start_le hε hR ps (st ε n s p) (fun r hr => h r (by simp [hr])) (fun r hr => hu r (by simp [hr])) q hq'
      have e1 : dot n (fun i => s.1 i - u i) q.1 = dot n (fun i => (st ε n s p).1 i - u i) q.1 - ε * er n s p * dot n p.1 q.1 := by
        rw [dot_sub, dot_sub]
        simp only [st]
        rw [dot_add, dot_smul]; ring
      rw [e1]
      have h1 := abs_sub (dot n (fun i => (st ε n s p).1 i - u i) q.1) (ε * er n s p * dot n p.1 q.1)
      have h2 : |ε * er n s p * dot n p.1 q.1| ≤ ε * |er n s p| * R := by
        rw [abs_mul, abs_mul, abs_of_pos hε]
        exact mul_le_mul_of_nonneg_left (dot_abs_le hR (h p (by simp)) (h q hq)) (by positivity)
      have h3 : |(st ε n s p).2| = ε * |er n s p| := by
        simp only [st]; rw [abs_mul, abs_of_pos hε]
      rw [h3] at ih
      nlinarith [abs_nonneg s.2]

/-- The inputs of a finite list determine the weights up to what they do not see. -/
theorem unseen (n : Nat) (X : List (Nat → ℝ)) : ∃ κ, 0 ≤ κ ∧ ∀ (d : Nat → ℝ) (t : ℝ), (∀ x ∈ X, |dot n d x| ≤ t) → 0 ≤ t →
    ∃ u : Nat → ℝ, (∀ x ∈ X, dot n u x = 0) ∧ dot n (fun i => d i - u i) (fun i => d i - u i) ≤ κ * t ^ 2 := by
  let A : (Fin n → ℝ) →ₗ[ℝ] (Fin X.length → ℝ) :=
    { toFun := fun v j => ∑ i : Fin n, v i * X[j] i
      map_add' := by
        intro v w; funext j
        simp only [Pi.add_apply]
        rw [← Finset.sum_add_distrib]
        exact Finset.sum_congr rfl fun i _ => by ring
      map_smul' := by
        intro c v; funext j
        simp only [Pi.smul_apply, smul_eq_mul, RingHom.id_apply]
        rw [Finset.mul_sum]
        exact Finset.sum_congr rfl fun i _ => by ring }
  obtain ⟨g, hg⟩ := A.rangeRestrict.exists_rightInverse_of_surjective (LinearMap.range_eq_top.2 A.surjective_rangeRestrict)
  let G := LinearMap.toContinuousLinearMap g
  refine ⟨n * ‖G‖ ^ 2, by positivity, ?_⟩
  intro d t hd ht
  let v : Fin n → ℝ := fun i => d i
  let w := g (A.rangeRestrict v)
  have hw : A w = A v := by
    have h1 := congrArg (fun f => f (A.rangeRestrict v)) hg
    simp only [LinearMap.comp_apply, LinearMap.id_apply] at h1
    have h2 := congrArg Subtype.val h1
    simpa using h2
  have hdot : ∀ (z : Nat → ℝ) (j : Fin X.length), A (fun i => z i) j = dot n z X[j] := by
    intro z j
    show (∑ i : Fin n, z i * X[j] i) = _
    unfold dot
    rw [Finset.sum_range fun i => z i * X[j] i]
  have hnorm : ‖w‖ ≤ ‖G‖ * t := by
    have h1 : ‖w‖ ≤ ‖G‖ * ‖A.rangeRestrict v‖ := G.le_opNorm _
    refine h1.trans (mul_le_mul_of_nonneg_left ?_ G.opNorm_nonneg)
    show ‖A v‖ ≤ t
    rw [pi_norm_le_iff_of_nonneg ht]
    intro j
    rw [Real.norm_eq_abs, hdot d j]
    exact hd _ (List.getElem_mem _)
  let W : Nat → ℝ := fun i => if h : i < n then w ⟨i, h⟩ else 0
  have hW : (fun i : Fin n => W i) = w := by funext i; simp [W]
  refine ⟨fun i => d i - W i, ?_, ?_⟩
  · intro x hx
    obtain ⟨j, hj, rfl⟩ := List.mem_iff_getElem.1 hx
    rw [dot_sub]
    have h1 := hdot d ⟨j, hj⟩
    have h2 := hdot W ⟨j, hj⟩
    rw [hW, hw] at h2
    have h3 : dot n d X[j] = dot n W X[j] := by
      have := h1.symm.trans h2
      simpa using this
    rw [h3, sub_self]
  · have e : (fun i => d i - (d i - W i)) = W := by funext i; ring
    rw [e]
    unfold dot
    calc ∑ i ∈ range n, W i * W i ≤ ∑ i ∈ range n, (‖G‖ * t) ^ 2 := by
          refine Finset.sum_le_sum fun i hi => ?_
          have hi' : i < n := by simpa using hi
          have h1 : |W i| ≤ ‖G‖ * t := by
            have : W i = w ⟨i, hi'⟩ := by simp [W, hi']
            rw [this, ← Real.norm_eq_abs]
            exact (norm_le_pi_norm w _).trans hnorm
          have h2 := abs_nonneg (W i)
          rw [← pow_two, ← sq_abs]
          exact pow_le_pow_left₀ h2 h1 2
      _ = n * ‖G‖ ^ 2 * t ^ 2 := by rw [Finset.sum_const, card_range, nsmul_eq_mul]; ring

/-- The state is near a rule that explains the examples. -/
def Near (ε : ℝ) (n : Nat) (X : List ((Nat → ℝ) × ℝ)) (c : ℝ) (s : St) : Prop := ∃ u : Nat → ℝ, (∀ p ∈ X, dot n u p.1 = p.2) ∧ gap ε n u s ≤ c

/-- One pass over all the examples, in any order, makes the state nearer by a factor that depends only on the examples and the rate. -/
theorem pass {ε R : ℝ} (hε : 0 < ε) (hR : 0 ≤ R) (n m : Nat) (I : List (Nat → ℝ)) (hI : ∀ x ∈ I, dot n x x ≤ R)
    (hs : ε * (R + 2 * ε) ≤ 1 / 2) (hIne : I ≠ []) :
    ∃ ρ, 0 ≤ ρ ∧ ρ < 1 ∧ ∀ (X : List ((Nat → ℝ) × ℝ)), X.map (·.1) = I → ∀ (c : ℝ) (s : St) (ps : List ((Nat → ℝ) × ℝ)), (∀ p, p ∈ ps ↔ p ∈ X) →
      ps.length ≤ m → Near ε n X c s → Near ε n X (ρ * c) (run ε n s ps) := by
  obtain ⟨κ, hκ, hu⟩ := unseen n I
  set c1 := 1 + ε + ε * R with hc1
  have hc10 : 0 ≤ c1 := by positivity
  set K1 := 2 / ε + 4 * c1 ^ 2 * m / ε with hK1
  have hK10 : 0 ≤ K1 := by positivity
  set K := 2 * (κ * K1 + 2) with hK
  have hK0 : 0 < K := by positivity
  have hK4 : 2 ≤ K := by rw [hK]; nlinarith [mul_nonneg hκ hK10]
  refine ⟨max (1 - 1 / K) (1 / 2), le_max_of_le_right (by norm_num), max_lt (by linarith [one_div_pos.2 hK0]) (by norm_num), ?_⟩
  intro X hXI c s ps hps hm ⟨u, hux, hgap⟩
  subst hXI
  have hX : ∀ p ∈ X, dot n p.1 p.1 ≤ R := fun p hp => hI _ (List.mem_map_of_mem hp)
  have hne : X ≠ [] := fun h0 => hIne (by rw [h0]; rfl)
  have hc0 : 0 ≤ c := le_trans (gap_nonneg hε.le _ _ _) hgap
  have hpsR : ∀ p ∈ ps, dot n p.1 p.1 ≤ R := fun p hp => hX p ((hps p).1 hp)
  have hpsE : ∀ p ∈ ps, ε * (dot n p.1 p.1 + 2 * ε) ≤ 1 / 2 := fun p hp =>
    le_trans (mul_le_mul_of_nonneg_left (by linarith [hpsR p hp]) hε.le) hs
  have hpsne : ps ≠ [] := by
    intro h0
    obtain ⟨p, hp⟩ := List.exists_mem_of_ne_nil X hne
    have := (hps p).2 hp
    rw [h0] at this
    simp at this
  have key : ∀ u : Nat → ℝ, (∀ p ∈ X, dot n u p.1 = p.2) →
      gap ε n u (run ε n s ps) + (ε / 2 * total ε n s ps + ε * s.2 ^ 2) ≤ gap ε n u s := by
    intro u hu
    have := exact_le' hε hpsne s hpsE fun p hp => hu p ((hps p).1 hp)
    linarith
  set δ := ε / 2 * total ε n s ps + ε * s.2 ^ 2 with hδ
  have hS := total_nonneg ε n ps s
  have hδ0 : 0 ≤ δ := by positivity
  by_cases hcase : c / K ≤ δ
  · refine ⟨u, hux, ?_⟩
    have := key u hux
    have h1 : (1 - 1 / K) * c ≤ max (1 - 1 / K) (1 / 2) * c := mul_le_mul_of_nonneg_right (le_max_left _ _) hc0
    have h2 : (1 - 1 / K) * c = c - c / K := by ring
    linarith
  · rw [not_le] at hcase
    have hA0 := total1_nonneg ε n ps s
    have hA := total1_sq ε n ps s
    have hAm : total1 ε n s ps ^ 2 ≤ m * total ε n s ps :=
      hA.trans (mul_le_mul_of_nonneg_right (by exact_mod_cast hm) hS)
    set t := |s.2| + c1 * total1 ε n s ps with ht
    have ht0 : 0 ≤ t := by positivity
    have ht2 : t ^ 2 ≤ K1 * δ := by
      have h1 : t ^ 2 ≤ 2 * s.2 ^ 2 + 2 * c1 ^ 2 * (m * total ε n s ps) := by
        have h0 : t ^ 2 ≤ 2 * s.2 ^ 2 + 2 * c1 ^ 2 * total1 ε n s ps ^ 2 := by
          rw [ht, ← sq_abs s.2]
          nlinarith [sq_nonneg (|s.2| - c1 * total1 ε n s ps)]
        have : 2 * c1 ^ 2 * total1 ε n s ps ^ 2 ≤ 2 * c1 ^ 2 * (m * total ε n s ps) := mul_le_mul_of_nonneg_left hAm (by positivity)
        linarith
      have h2 : 2 / ε * (ε * s.2 ^ 2) = 2 * s.2 ^ 2 := by field_simp
      have h3 : 4 * c1 ^ 2 * m / ε * (ε / 2 * total ε n s ps) = 2 * c1 ^ 2 * (m * total ε n s ps) := by field_simp; ring
      have h4 : K1 * δ = 2 / ε * (ε * s.2 ^ 2) + 4 * c1 ^ 2 * m / ε * (ε / 2 * total ε n s ps)
          + (2 / ε * (ε / 2 * total ε n s ps) + 4 * c1 ^ 2 * m / ε * (ε * s.2 ^ 2)) := by rw [hK1, hδ]; ring
      have h5 : 0 ≤ 2 / ε * (ε / 2 * total ε n s ps) + 4 * c1 ^ 2 * m / ε * (ε * s.2 ^ 2) := by positivity
      rw [h4, h2, h3]
      linarith
    obtain ⟨u0, hu0, hu1⟩ := hu (fun i => s.1 i - u i) t (by
      intro x hx
      obtain ⟨p, hp, rfl⟩ := List.mem_map.1 hx
      exact start_le hε hR ps s hpsR (fun p hp => hux p ((hps p).1 hp)) p ((hps p).2 hp)) ht0
    refine ⟨fun i => u i + u0 i, ?_, ?_⟩
    · intro p hp
      rw [dot_add, hux p hp, hu0 _ (List.mem_map_of_mem hp), add_zero]
    · have h1 := key (fun i => u i + u0 i) (fun p hp => by rw [dot_add, hux p hp, hu0 _ (List.mem_map_of_mem hp), add_zero])
      have e : (fun i => s.1 i - (u i + u0 i)) = fun i => s.1 i - u i - u0 i := by funext i; ring
      have h2 : gap ε n (fun i => u i + u0 i) s ≤ (κ * K1 + 2) * δ := by
        unfold gap
        simp only [e]
        have : κ * t ^ 2 ≤ κ * (K1 * δ) := mul_le_mul_of_nonneg_left ht2 hκ
        have h5 : 2 * ε * s.2 ^ 2 ≤ 2 * δ := by
          rw [hδ]; nlinarith [mul_nonneg hε.le hS]
        nlinarith
      have h3 : (κ * K1 + 2) * δ ≤ c / 2 := by
        have : (κ * K1 + 2) * δ ≤ (κ * K1 + 2) * (c / K) := mul_le_mul_of_nonneg_left hcase.le (by positivity)
        refine this.trans (le_of_eq ?_)
        have hz : κ * K1 + 2 ≠ 0 := by positivity
        rw [hK]; field_simp
      have h4 : 1 / 2 * c ≤ max (1 - 1 / K) (1 / 2) * c := mul_le_mul_of_nonneg_right (le_max_right _ _) hc0
      linarith

/-- The errors of a state that is near. -/
theorem near_error {ε R c : ℝ} (hε : 0 < ε) {n : Nat} {X : List ((Nat → ℝ) × ℝ)} (hX : ∀ p ∈ X, dot n p.1 p.1 ≤ R) {s : St} (h : Near ε n X c s)
    {p : (Nat → ℝ) × ℝ} (hp : p ∈ X) : er n s p ^ 2 ≤ (2 * R + 1 / ε) * c := by
  obtain ⟨u, hu, hg⟩ := h
  have e1 : er n s p = -(dot n (fun i => s.1 i - u i) p.1) - s.2 := by rw [dot_sub, hu p hp]; unfold er; ring
  have h1 := dot_sq_le n (fun i => s.1 i - u i) p.1
  have h0 := dot_self_nonneg n (fun i => s.1 i - u i)
  unfold gap at hg
  have h2 : dot n (fun i => s.1 i - u i) p.1 ^ 2 ≤ dot n (fun i => s.1 i - u i) (fun i => s.1 i - u i) * R :=
    h1.trans (mul_le_mul_of_nonneg_left (hX p hp) h0)
  have hR : 0 ≤ R := (dot_self_nonneg _ _).trans (hX p hp)
  have h3 : dot n (fun i => s.1 i - u i) (fun i => s.1 i - u i) * R ≤ c * R := by
    refine mul_le_mul_of_nonneg_right ?_ hR
    nlinarith [mul_nonneg hε.le (sq_nonneg s.2)]
  have h4 : 2 * s.2 ^ 2 ≤ 1 / ε * c := by
    rw [one_div, inv_mul_eq_div, le_div_iff₀ hε]
    nlinarith
  rw [e1]
  nlinarith [sq_nonneg (dot n (fun i => s.1 i - u i) p.1 - s.2)]

end Snn.Online
