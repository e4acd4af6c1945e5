import Verif.Proofs.BuildWF
import Verif.Proofs.LayerKin
import Verif.Props.NeuronProps

/-! Helpers for the values of the filter layers. -/

set_option linter.all false

namespace Snn

open Finset Snn.Spec

section
variable {F : Type} [Field F]

/-- A sum over the concatenation of `n` blocks of `m` values. -/
theorem sum_flatMap (W : Nat → F) (m : Nat) (f : Nat → List F) : ∀ (n : Nat), (∀ j < n, (f j).length = m) →
    ∑ i ∈ range (n * m), W i * ((List.range n).flatMap f).getD i 0 =
      ∑ j ∈ range n, ∑ c ∈ range m, W (j * m + c) * (f j).getD c 0 := by
  intro n
  induction n with
  | zero => intro _; simp
  | succ n ih =>
    intro h
    have hl : ((List.range n).flatMap f).length = n * m := range_mul_flatMap_length n f m (fun j hj => h j (by omega))
    rw [Nat.succ_mul, Finset.sum_range_add, Finset.sum_range_succ (fun j => ∑ c ∈ range m, W (j * m + c) * (f j).getD c 0),
      ← ih (fun j hj => h j (by omega)), List.range_succ, List.flatMap_append]
    congr 1
    · apply Finset.sum_congr rfl
      intro i hi
      rw [Finset.mem_range] at hi
      rw [List.getD_append _ _ _ _ (by rw [hl]; exact hi)]
    · apply Finset.sum_congr rfl
      intro i hi
      rw [List.getD_append_right _ _ _ _ (by rw [hl]; omega), hl]
      simp

theorem flatMap_range_mul {α : Type} (g : Nat → List α) (m : Nat) : ∀ n : Nat,
    (List.range (n * m)).flatMap g = (List.range n).flatMap fun i => (List.range m).flatMap fun j => g (i * m + j) := by
  intro n
  induction n with
  | zero => simp
  | succ n ih =>
    rw [Nat.succ_mul, List.range_add, List.flatMap_append, ih, List.range_succ, List.flatMap_append, List.flatMap_map]
    simp

theorem map_range_mul {α : Type} (g : Nat → α) (m : Nat) (n : Nat) :
    (List.range (n * m)).map g = (List.range n).flatMap fun i => (List.range m).map fun j => g (i * m + j) := by
  have := flatMap_range_mul (fun i => [g i]) m n
  have e : ∀ (f : Nat → α) (l : List Nat), l.flatMap (fun i => [f i]) = l.map f := fun f l => by
    induction l with
    | nil => rfl
    | cons a l ih => simp [ih]
  rw [e] at this
  rw [this]
  apply List.flatMap_congr
  intro i _
  exact e (fun j => g (i * m + j)) _

theorem mulAdd_div {p q N : Nat} (h : q < N) : (p * N + q) / N = p := by
  rw [Nat.mul_comm, Nat.mul_add_div (by omega), Nat.div_eq_of_lt h]; rfl

theorem mulAdd_mod {p q N : Nat} (h : q < N) : (p * N + q) % N = q := by
  rw [Nat.mul_comm, Nat.mul_add_mod, Nat.mod_eq_of_lt h]

theorem list_eq_blocks {α : Type} {os : List α} {T N : Nat} (hN : 0 < N) (hl : os.length = T * N) (g : Nat → Nat → α)
    (h : ∀ p < T, ∀ q < N, os[p * N + q]? = some (g p q)) :
    os = (List.range T).flatMap fun p => (List.range N).map (g p) := by
  have e : (List.range T).flatMap (fun p => (List.range N).map (g p)) = (List.range (T * N)).map fun i => g (i / N) (i % N) := by
    rw [map_range_mul]
    apply List.flatMap_congr
    intro p _
    apply List.map_congr_left
    intro q hq
    rw [List.mem_range] at hq
    rw [mulAdd_div hq, mulAdd_mod hq]
  rw [e]
  apply List.ext_getElem?
  intro i
  by_cases hi : i < T * N
  · have h1 : i / N < T := by rw [Nat.div_lt_iff_lt_mul hN]; exact hi
    have := h (i / N) h1 (i % N) (Nat.mod_lt _ hN)
    rw [Nat.div_add_mod'] at this
    rw [this, List.getElem?_map, List.getElem?_range hi]
    rfl
  · rw [List.getElem?_eq_none (by omega), List.getElem?_eq_none (by simp; omega)]

theorem getD_map_range {α : Type} (f : Nat → α) (n c : Nat) (d : α) (h : c < n) : ((List.range n).map f).getD c d = f c := by
  rw [List.getD_eq_getElem?_getD, List.getElem?_map, List.getElem?_range h]
  rfl

/-- The weighted sum of a tile stored position by position, channel by channel. -/
theorem sum_tile1 (W : Nat → F) (K C : Nat) (g : Nat → Nat → F) :
    ∑ i ∈ range (K * C), W i * ((List.range K).flatMap fun j => (List.range C).map fun c => g j c).getD i 0 =
      ∑ j ∈ range K, ∑ c ∈ range C, W (j * C + c) * g j c := by
  rw [sum_flatMap W C _ K (by simp)]
  apply Finset.sum_congr rfl
  intro j _
  apply Finset.sum_congr rfl
  intro c hc
  rw [getD_map_range _ _ _ _ (Finset.mem_range.1 hc)]

/-- The same for a tile of rows of pixels. -/
theorem sum_tile2 (W : Nat → F) (K C : Nat) (g : Nat → Nat → Nat → F) :
    ∑ i ∈ range (K * (K * C)), W i * ((List.range K).flatMap fun i => (List.range K).flatMap fun j =>
        (List.range C).map fun c => g i j c).getD i 0 =
      ∑ i ∈ range K, ∑ j ∈ range K, ∑ c ∈ range C, W ((i * K + j) * C + c) * g i j c := by
  rw [sum_flatMap W (K * C) _ K (fun i _ => range_mul_flatMap_length K _ C (by simp))]
  apply Finset.sum_congr rfl
  intro i _
  rw [sum_tile1 (fun c => W (i * (K * C) + c)) K C (g i)]
  apply Finset.sum_congr rfl
  intro j _
  apply Finset.sum_congr rfl
  intro c _
  congr 2; ring

end

section
variable {F : Type} [Field F] [LinearOrder F] [IsStrictOrderedRing F] [FTrans F]

theorem Neuron.value_eq {n : Neuron F} {ni b : Nat} (h : n.WF ni (ni + 1) b) (x : List F) (hx : x.length = ni) :
    n.value x = n.activationFunction.obj.function (affine n.weights x n.bias) := by
  obtain ⟨n1, h1, _⟩ := Neuron.output_value h x hx
  obtain ⟨n2, h2, _⟩ := NeuronSpec.C35_neuron h x hx
  rw [h1] at h2
  injection h2 with h3
  exact (Prod.mk.inj h3).1

theorem affine_at {W x : List F} {b : F} {n : Nat} (h : x.length = n) :
    affine W x b = (∑ i ∈ range n, W.getD i 0 * x.getD i 0) + W.getD n 0 * b := by
  subst h; rfl

theorem map_index {β : Type} (g : List F → β) (ns : List (Neuron F)) (N : Nat) (hN : ns.length = N) :
    ns.map (fun n => g n.weights) = (List.range N).map fun q => g ((ns.map Neuron.getWeights).getD q []) := by
  subst hN
  apply List.ext_getElem
  · simp
  · intro i h1 h2
    simp at h1
    simp [h1, Neuron.getWeights]

theorem used_noOptimizers {ni no : Nat} {l0 l : Layer F} (h : Used ni no l0 l) (h0 : l0.optimizers = []) : l.optimizers = [] := by
  induction h with
  | new => exact h0
  | output h hx ho ih => rw [(Layer.output_same ho).optimizers]; exact ih
  | outputForTraining h hx ho ih =>
    unfold Layer.outputForTraining at ho
    rw [ih] at ho
    obtain ⟨⟨_, b⟩, h1, ho⟩ := Res.bind_eq_ok.1 ho
    simp only [trainingHooks, Res.ok_bind] at ho
    cases ho
    rfl
  | backOutput h he ho ih => rw [(Layer.backOutput_kin ho).2.1]; exact ih
  | train h he ho ih => rw [(Layer.train_kin ho).2.1]; exact ih

end

end Snn
