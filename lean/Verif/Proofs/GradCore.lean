import Verif.Spec.GradSpec
import Verif.Proofs.LayerProofs
import Verif.Props.NeuronProps
import Mathlib.Analysis.Calculus.Deriv.Add
import Mathlib.Analysis.Calculus.Deriv.Mul
import Mathlib.Analysis.Calculus.Deriv.Pow
import Mathlib.Analysis.Calculus.Deriv.Comp

/-! The chain rule on vectors, in the direction of backpropagation. -/

set_option linter.all false

namespace Snn.Grad

open Finset Snn.Spec

/-- Scalar product. -/
noncomputable def dot (a b : List ℝ) : ℝ := (List.zipWith (· * ·) a b).sum

theorem dot_nil (b : List ℝ) : dot [] b = 0 := by simp [dot]
theorem dot_nil' (a : List ℝ) : dot a [] = 0 := by simp [dot]
theorem dot_cons (x y : ℝ) (a b : List ℝ) : dot (x :: a) (y :: b) = x * y + dot a b := by simp [dot]

theorem dot_eq_sum : ∀ (a b : List ℝ) (n : Nat), b.length ≤ n → dot a b = ∑ j ∈ range n, a.getD j 0 * b.getD j 0
  | [], b, n, _ => by simp [dot_nil]
  | x :: a, [], n, _ => by simp [dot_nil']
  | x :: a, y :: b, 0, h => by simp at h
  | x :: a, y :: b, n + 1, h => by
    rw [dot_cons, dot_eq_sum a b n (by simpa using h), Finset.sum_range_succ']
    simp [add_comm]

theorem dot_replicate (n : Nat) (b : List ℝ) : dot (List.replicate n 0) b = 0 := by
  induction n generalizing b with
  | zero => simp [dot_nil]
  | succ n ih =>
    cases b with
    | nil => simp [dot_nil']
    | cons y b => rw [List.replicate_succ, dot_cons, ih]; simp

theorem dot_add : ∀ (a a' b : List ℝ), a.length = b.length → a'.length = b.length → dot (List.zipWith (· + ·) a a') b = dot a b + dot a' b
  | [], _, _, _, _ => by simp [dot_nil]; cases ‹List ℝ› <;> simp_all [dot]
  | x :: a, [], [], h, _ => by simp at h
  | x :: a, [], y :: b, _, h => by simp at h
  | x :: a, x' :: a', [], h, _ => by simp at h
  | x :: a, x' :: a', y :: b, h, h' => by
    rw [List.zipWith_cons_cons, dot_cons, dot_cons, dot_cons, dot_add a a' b (by simpa using h) (by simpa using h')]
    ring

theorem dot_smul (c : ℝ) : ∀ (a b : List ℝ), dot (a.map (c * ·)) b = c * dot a b
  | [], b => by simp [dot_nil]
  | x :: a, [] => by simp [dot_nil']
  | x :: a, y :: b => by rw [List.map_cons, dot_cons, dot_cons, dot_smul c a b]; ring

theorem dot_set : ∀ (a b : List ℝ) (i : Nat) (e : ℝ), i < a.length →
    dot (a.set i (a.getD i 0 + e)) b = dot a b + e * b.getD i 0
  | [], b, i, e, h => by simp at h
  | x :: a, [], i, e, h => by simp [dot_nil']
  | x :: a, y :: b, 0, e, h => by simp [dot_cons]; ring
  | x :: a, y :: b, i + 1, e, h => by
    have := dot_set a b i e (by simpa using h)
    simp only [List.set_cons_succ, List.getD_cons_succ, dot_cons, this]
    ring

/-- `c` is a curve of vectors with derivative `v` at `t0`. -/
structure Moves (c : ℝ → List ℝ) (v : List ℝ) (t0 : ℝ) : Prop where
  length : ∀ t, (c t).length = v.length
  deriv : ∀ j, HasDerivAt (fun t => (c t).getD j 0) (v.getD j 0) t0

/-- `es` is minus the gradient at `x0` of the function G of vectors of size `es.length`: along every curve through x0, the derivative
of G is minus the scalar product with the velocity. -/
def Back (es x0 : List ℝ) (G : List ℝ → ℝ) : Prop :=
  ∀ (c : ℝ → List ℝ) (v : List ℝ) (t0 : ℝ), c t0 = x0 → v.length = x0.length → Moves c v t0 →
    HasDerivAt (fun t => G (c t)) (-(dot es v)) t0

theorem moves_const (x : List ℝ) (t0 : ℝ) : Moves (fun _ => x) (List.replicate x.length 0) t0 := by
  refine ⟨by simp, ?_⟩
  intro j
  have : (List.replicate x.length (0 : ℝ)).getD j 0 = 0 := by
    simp [List.getD_eq_getElem?_getD, List.getElem?_replicate]
    split <;> rfl
  rw [this]
  exact hasDerivAt_const t0 _

theorem moves_map {α : Type} {L : List α} {f : α → ℝ → ℝ} {f' : α → ℝ} {t0 : ℝ} (h : ∀ a ∈ L, HasDerivAt (f a) (f' a) t0) :
    Moves (fun t => L.map fun a => f a t) (L.map f') t0 := by
  refine ⟨by simp, ?_⟩
  intro j
  simp only [List.getD_eq_getElem?_getD, List.getElem?_map]
  cases hj : L[j]? with
  | none => simpa using hasDerivAt_const t0 (0 : ℝ)
  | some a => simpa using h a (List.mem_of_getElem? hj)

/-- The affine form along a curve. -/
theorem affine_moves {w : List ℝ} {b : ℝ} {c : ℝ → List ℝ} {v : List ℝ} {t0 : ℝ} (h : Moves c v t0) (hl : v.length ≤ w.length) :
    HasDerivAt (fun t => affine w (c t) b) (dot (w.take v.length) v) t0 := by
  have e : (fun t => affine w (c t) b) = fun t => (∑ i ∈ range v.length, w.getD i 0 * (c t).getD i 0) + w.getD v.length 0 * b := by
    funext t
    simp [affine, h.length]
  rw [e, dot_eq_sum _ _ v.length (le_refl _)]
  have h1 : HasDerivAt (fun t => ∑ i ∈ range v.length, w.getD i 0 * (c t).getD i 0) (∑ i ∈ range v.length, w.getD i 0 * v.getD i 0) t0 := by
    apply HasDerivAt.fun_sum
    intro i _
    exact (h.deriv i).const_mul _
  have h2 : (∑ j ∈ range v.length, (w.take v.length).getD j 0 * v.getD j 0) = ∑ i ∈ range v.length, w.getD i 0 * v.getD i 0 := by
    apply Finset.sum_congr rfl
    intro i hi
    have : i < v.length := by simpa using hi
    simp [List.getD_eq_getElem?_getD, List.getElem?_take, this]
  rw [h2]
  exact h1.add_const _

/-- The affine form along one weight. -/
theorem affine_weight_input {w x : List ℝ} {b : ℝ} {i : Nat} (hi : i < x.length) (hl : x.length < w.length) (t0 : ℝ) :
    HasDerivAt (fun v => affine (w.set i v) x b) (x.getD i 0) t0 := by
  have e : (fun v => affine (w.set i v) x b) = fun v => v * x.getD i 0 +
      ((∑ j ∈ (range x.length).erase i, w.getD j 0 * x.getD j 0) + w.getD x.length 0 * b) := by
    funext v
    unfold affine
    rw [← Finset.add_sum_erase _ _ (Finset.mem_range.2 hi)]
    have h1 : (w.set i v).getD i 0 = v := by
      simp [List.getD_eq_getElem?_getD, List.getElem?_set, show i < w.length by omega]
    have h2 : ∀ j, j ≠ i → (w.set i v).getD j 0 = w.getD j 0 := by
      intro j hj
      simp [List.getD_eq_getElem?_getD, List.getElem?_set, Ne.symm hj]
    rw [h1, h2 x.length (by omega), Finset.sum_congr rfl (g := fun j => w.getD j 0 * x.getD j 0)]
    · ring
    · intro j hj
      rw [h2 j (Finset.ne_of_mem_erase hj)]
  rw [e]
  simpa using ((hasDerivAt_id t0).mul_const (x.getD i 0)).add_const
    ((∑ j ∈ (range x.length).erase i, w.getD j 0 * x.getD j 0) + w.getD x.length 0 * b)

/-- The affine form along one weight, the weight of the bias included. -/
theorem affine_weight {w x : List ℝ} {b : ℝ} {i : Nat} (hi : i ≤ x.length) (hl : x.length < w.length) (t0 : ℝ) :
    HasDerivAt (fun v => affine (w.set i v) x b) ((x ++ [b]).getD i 0) t0 := by
  rcases Nat.lt_or_ge i x.length with h | h
  · rw [List.getD_append _ _ _ _ h]
    exact affine_weight_input h hl t0
  · obtain rfl : i = x.length := by omega
    have e : (fun v => affine (w.set x.length v) x b) = fun v => v * b + ∑ j ∈ range x.length, w.getD j 0 * x.getD j 0 := by
      funext v
      unfold affine
      have h1 : (w.set x.length v).getD x.length 0 = v := by
        simp [List.getD_eq_getElem?_getD, List.getElem?_set, hl]
      rw [h1, Finset.sum_congr rfl (g := fun j => w.getD j 0 * x.getD j 0)]
      · ring
      · intro j hj
        have : j < x.length := by simpa using hj
        congr 1
        simp [List.getD_eq_getElem?_getD, List.getElem?_set, show x.length ≠ j by omega]
    rw [e, List.getD_append_right _ _ _ _ (le_refl _)]
    simpa using ((hasDerivAt_id t0).mul_const b).add_const (∑ j ∈ range x.length, w.getD j 0 * x.getD j 0)

/-- The squared error: minus its gradient is twice the difference. -/
theorem back_squaredError (d o : List ℝ) (h : o.length = d.length) : Back (List.zipWith (fun d o => 2 * (d - o)) d o) o (squaredError d) := by
  intro c v t0 hc hv hm
  unfold squaredError
  have h1 : HasDerivAt (fun t => ∑ j ∈ range d.length, (d.getD j 0 - (c t).getD j 0) ^ 2)
      (∑ j ∈ range d.length, -(2 * (d.getD j 0 - o.getD j 0) * v.getD j 0)) t0 := by
    apply HasDerivAt.fun_sum
    intro j _
    have := (((hasDerivAt_const t0 (d.getD j 0)).sub (hm.deriv j)).pow 2)
    refine HasDerivAt.congr_deriv (f' := _) this ?_
    simp [hc]
  refine h1.congr_deriv ?_
  rw [dot_eq_sum _ _ d.length (by omega), ← Finset.sum_neg_distrib]
  apply Finset.sum_congr rfl
  intro j hj
  have hj' : j < d.length := by simpa using hj
  have hj2 : j < o.length := by omega
  simp [List.getD_eq_getElem?_getD, List.getElem?_zipWith, hj', hj2]

end Snn.Grad
