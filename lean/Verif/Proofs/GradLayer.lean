import Verif.Proofs.GradCore
import Verif.Proofs.LayerWF
import Verif.Props.ActivationProps

/-! One layer of simple neurons: forward pass, errors sent back, update of the weights. -/

set_option linter.all false

namespace Snn.Grad

open Finset Snn.Spec Snn.NeuronSpec

/-! ### One neuron -/

/-- The momentum memory of a neuron with batch size 1. -/
def mem (n : Neuron ℝ) : List ℝ := n.previousDeltaWeights.queue.headD []

/-- `activation'(affine form)` at the input z. -/
noncomputable def slope (n : Neuron ℝ) (z : List ℝ) : ℝ := n.activationFunction.obj.derivative (affine n.weights z n.bias)

/-- What the update keeps of weight i: the weight, but nothing of the last one, that of the bias. -/
noncomputable def keep (w : List ℝ) (i : Nat) : ℝ := if i + 1 < w.length then w.getD i 0 else 0

/-- The neuron `n2` is `n` after a training round on z with the error e. -/
structure Stepped (size : Nat) (n n2 : Neuron ℝ) (z : List ℝ) (e : ℝ) : Prop where
  wf : n2.WF size (size + 1) 1
  weight : ∀ i ≤ size, n2.weights.getD i 0 = keep n.weights i
    + (n.optimizer.learningRate * (e * slope n z) * (z ++ [n.bias]).getD i 0 + n.optimizer.momentum * (mem n).getD i 0)
  memory : ∀ i ≤ size, (mem n2).getD i 0 = n2.weights.getD i 0 - keep n.weights i

/-- The neuron `n1` is `n` after a forward pass on z: what `backOutput` and `train` will do. -/
def Ready (size : Nat) (n n1 : Neuron ℝ) (z : List ℝ) : Prop :=
  ∀ e, (∃ n2, n1.backOutput e = .ok ((n.weights.take size).map (e * slope n z * ·), n2) ∧ Stepped size n n2 z e) ∧
    ∃ n2, n1.train e = .ok n2 ∧ Stepped size n n2 z e

theorem value_eq {n : Neuron ℝ} {size b : Nat} (h : n.WF size (size + 1) b) {z : List ℝ} (hz : z.length = size) :
    n.value z = n.activationFunction.obj.function (affine n.weights z n.bias) := by
  have hl : z.length < n.weights.length := by rw [h.wlen]; omega
  unfold Neuron.value
  rw [← affine_eq hl (List.getElem?_eq_getElem hl)]
  simp [List.getD_eq_getElem?_getD, List.getElem?_eq_getElem hl]

theorem neuron_run {n : Neuron ℝ} {size : Nat} (h : n.WF size (size + 1) 1) {z : List ℝ} (hz : z.length = size) :
    ∃ n1, n.output z = .ok (n.value z, n1) ∧ Ready size n n1 z := by
  obtain ⟨s, wb, li, hwb, hs, hpush, ho, hw⟩ := Neuron.output_ok h z hz
  have hs' : s = affine n.weights z n.bias := by
    rw [hs]; exact affine_eq (by rw [h.wlen]; omega) (by rw [hz]; exact hwb)
  clear hs
  subst hs'
  refine ⟨_, by rw [value_eq h hz, ho], ?_⟩
  have step : ∀ e back n2, round n z e back = .ok n2 → Stepped size n n2 z e := by
    intro e back n2 hr
    obtain ⟨hwf, _, _, _, p, p', hp, hp', hd, hwt, hwb⟩ := round_weight h hz hr
    have hall : ∀ i ≤ size, n2.weights.getD i 0 = keep n.weights i + p'.getD i 0 := by
      intro i hi
      unfold keep
      rw [h.wlen]
      split
      · exact hwt i (by omega)
      · obtain rfl : i = size := by omega
        rw [hwb, zero_add]
    refine ⟨hwf, ?_, ?_⟩
    · intro i hi
      rw [hall i hi, hd i (by omega)]
      simp only [mem, hp, localError, slope, List.headD_cons]
    · intro i hi
      rw [hall i hi]
      simp [mem, hp']
  intro e
  constructor
  · obtain ⟨es, n2, hb, _, hes, _⟩ := Neuron.backOutput_ok hw e
    refine ⟨n2, ?_, step e true n2 ?_⟩
    · rw [hb, hes]
      simp only [slope]
    · simp [NeuronSpec.round, ho, hb]
  · obtain ⟨n2, ht, _, _⟩ := Neuron.train_ok hw e
    refine ⟨n2, ht, step e false n2 ?_⟩
    simp [NeuronSpec.round, ho, ht]

theorem obj_iSigmoid {a : Act} (h : a ≠ .iSigmoid) : a.obj ≠ .ImprovedSigmoid := by cases a <;> simp_all [Act.obj]
theorem obj_relu {a : Act} (h : a.obj = .RectifiedLinearUnit) : a = .relu := by cases a <;> simp_all [Act.obj]

/-- The neuron is differentiable at z. -/
def SmoothAt (n : Neuron ℝ) (z : List ℝ) : Prop :=
  n.activationFunction ≠ .iSigmoid ∧ (n.activationFunction = .relu → affine n.weights z n.bias ≠ 0)

theorem act_deriv {n : Neuron ℝ} {z : List ℝ} (h : SmoothAt n z) :
    HasDerivAt n.activationFunction.obj.function (slope n z) (affine n.weights z n.bias) :=
  ActivationSpec.C44_derivative_partial _ (obj_iSigmoid h.1) _ fun hr => h.2 (obj_relu hr)

/-! ### A list of neurons, each with the row of indexes of its inputs -/

theorem window_length (x : List ℝ) (row : List Int) : (window x row).length = row.length := by simp [window]

theorem window_moves {c : ℝ → List ℝ} {v : List ℝ} {t0 : ℝ} (h : Moves c v t0) (row : List Int) :
    Moves (fun t => window (c t) row) (window v row) t0 := by
  unfold window
  apply moves_map (f := fun (i : Int) t => if 0 ≤ i then (c t).getD i.toNat 0 else 0)
  intro i _
  by_cases hi : 0 ≤ i
  · simp only [hi, if_true]; exact h.deriv _
  · simp only [hi, if_false]; exact hasDerivAt_const _ _

/-- Neurons with rows: the outputs for the inputs x. -/
noncomputable def outs (ps : List (Neuron ℝ × List Int)) (x : List ℝ) : List ℝ := ps.map fun p => p.1.value (window x p.2)

/-- Every neuron has `size` inputs, as its row, and is differentiable at its window of x. -/
def Good (size : Nat) (ps : List (Neuron ℝ × List Int)) (x : List ℝ) : Prop :=
  ∀ p ∈ ps, p.1.WF size (size + 1) 1 ∧ p.2.length = size ∧ SmoothAt p.1 (window x p.2)

/-- The velocity of the outputs when the inputs have velocity v. -/
noncomputable def vel (size : Nat) (ps : List (Neuron ℝ × List Int)) (x v : List ℝ) : List ℝ :=
  ps.map fun p => slope p.1 (window x p.2) * dot (p.1.weights.take size) (window v p.2)

theorem outs_moves {size : Nat} {ps : List (Neuron ℝ × List Int)} {x : List ℝ} (hg : Good size ps x) {c : ℝ → List ℝ} {v : List ℝ} {t0 : ℝ}
    (hc : c t0 = x) (h : Moves c v t0) : Moves (fun t => outs ps (c t)) (vel size ps x v) t0 := by
  unfold outs vel
  apply moves_map (f := fun (p : Neuron ℝ × List Int) t => p.1.value (window (c t) p.2))
  intro p hp
  obtain ⟨hw, hl, hs⟩ := hg p hp
  have e : (fun t => p.1.value (window (c t) p.2)) = fun t => p.1.activationFunction.obj.function (affine p.1.weights (window (c t) p.2) p.1.bias) := by
    funext t
    exact value_eq hw (by rw [window_length, hl])
  rw [e]
  have h1 := affine_moves (w := p.1.weights) (b := p.1.bias) (window_moves h p.2) (by rw [window_length, hl, hw.wlen]; omega)
  rw [window_length, hl] at h1
  have h2 := act_deriv hs
  have h3 := HasDerivAt.comp (h₂ := p.1.activationFunction.obj.function) (h := fun t => affine p.1.weights (window (c t) p.2) p.1.bias)
    t0 (by simp only [hc]; exact h2) h1
  exact h3

/-- If the errors `r` are the errors `es` pulled back through the velocities, they are minus the gradient before the layer. -/
theorem back_outs {size ni : Nat} {ps : List (Neuron ℝ × List Int)} {x : List ℝ} (hx : x.length = ni) (hg : Good size ps x) {es r : List ℝ}
    (hr : ∀ v : List ℝ, v.length = ni → dot r v = dot es (vel size ps x v)) {G : List ℝ → ℝ} (hG : Back es (outs ps x) G) :
    Back r x (fun y => G (outs ps y)) := by
  intro c v t0 hc hv hm
  have h1 := hG (fun t => outs ps (c t)) (vel size ps x v) t0 (by simp only [hc]) (by simp [vel, outs]) (outs_moves hg hc hm)
  rw [hr v (by omega)]
  exact h1

theorem dot_single : ∀ (es : List ℝ) (n k : Nat) (a : ℝ), k < n → dot es ((List.replicate n 0).set k a) = es.getD k 0 * a
  | [], n, k, a, _ => by simp [dot_nil]
  | e :: es, 0, k, a, h => by simp at h
  | e :: es, n + 1, 0, a, _ => by
    rw [List.replicate_succ, List.set_cons_zero, dot_cons]
    have : dot es (List.replicate n 0) = 0 := by
      rw [dot_eq_sum es _ n (by simp)]
      apply Finset.sum_eq_zero
      intro j hj
      have : (List.replicate n (0:ℝ)).getD j 0 = 0 := by
        simp only [List.getD_eq_getElem?_getD, List.getElem?_replicate]; split <;> rfl
      rw [this, mul_zero]
    simp [this]
  | e :: es, n + 1, k + 1, a, h => by
    rw [List.replicate_succ, List.set_cons_succ, dot_cons, dot_single es n k a (by omega)]
    simp

/-- The derivative with respect to weight i of neuron k. -/
theorem weight_deriv {size : Nat} {ps : List (Neuron ℝ × List Int)} {x : List ℝ} (hg : Good size ps x) {es : List ℝ}
    {G : List ℝ → ℝ} (hG : Back es (outs ps x) G) {k i : Nat} {p : Neuron ℝ × List Int} (hk : ps[k]? = some p) (hi : i ≤ size) :
    HasDerivAt (fun v => G (outs (ps.modify k fun p => (withWeight i v p.1, p.2)) x))
      (-(es.getD k 0 * (slope p.1 (window x p.2) * (window x p.2 ++ [p.1.bias]).getD i 0))) (p.1.weights.getD i 0) := by
  have hp : p ∈ ps := List.mem_of_getElem? hk
  have hkl : k < ps.length := by
    by_contra hc
    rw [List.getElem?_eq_none (by omega)] at hk; cases hk
  obtain ⟨hw, hl, hs⟩ := hg p hp
  have hil : i < p.1.weights.length := by rw [hw.wlen]; omega
  have hset : p.1.weights.set i (p.1.weights.getD i 0) = p.1.weights := by
    apply List.ext_getElem?
    intro j
    rw [List.getElem?_set]
    split
    · rename_i h; subst h
      simp [List.getD_eq_getElem?_getD, List.getElem?_eq_getElem hil]
    · rfl
  have hval : ∀ v, (withWeight i v p.1).value (window x p.2) = p.1.activationFunction.obj.function (affine (p.1.weights.set i v) (window x p.2) p.1.bias) := by
    intro v
    have hw' : (withWeight i v p.1).WF size (size + 1) 1 := ⟨hw.inputs, hw.batch, hw.pos, by simp [withWeight, hw.wlen], hw.elen, hw.last, hw.prev⟩
    rw [value_eq hw' (by rw [window_length, hl])]
    rfl
  have hm : Moves (fun v => outs (ps.modify k fun p => (withWeight i v p.1, p.2)) x)
      ((List.replicate ps.length 0).set k (slope p.1 (window x p.2) * (window x p.2 ++ [p.1.bias]).getD i 0)) (p.1.weights.getD i 0) := by
    refine ⟨by simp [outs], ?_⟩
    intro j
    by_cases hj : k = j
    · subst hj
      have e : (fun v => (outs (ps.modify k fun p => (withWeight i v p.1, p.2)) x).getD k 0)
          = fun v => p.1.activationFunction.obj.function (affine (p.1.weights.set i v) (window x p.2) p.1.bias) := by
        funext v
        simp only [outs, List.getD_eq_getElem?_getD, List.getElem?_map, List.getElem?_modify, hk, Option.map_some, if_true, Option.getD_some]
        exact hval v
      rw [e]
      have h1 := affine_weight (w := p.1.weights) (x := window x p.2) (b := p.1.bias) (i := i) (by rw [window_length, hl]; exact hi)
        (by rw [window_length, hl, hw.wlen]; omega) (p.1.weights.getD i 0)
      have h2 := act_deriv hs
      have h3 := HasDerivAt.comp (h₂ := p.1.activationFunction.obj.function)
        (h := fun v => affine (p.1.weights.set i v) (window x p.2) p.1.bias) (p.1.weights.getD i 0) (by simp only [hset]; exact h2) h1
      have hv : ((List.replicate ps.length (0 : ℝ)).set k (slope p.1 (window x p.2) * (window x p.2 ++ [p.1.bias]).getD i 0)).getD k 0
          = slope p.1 (window x p.2) * (window x p.2 ++ [p.1.bias]).getD i 0 := by
        simp [List.getD_eq_getElem?_getD, List.getElem?_set, hkl]
      rw [hv]
      exact h3
    · have e : (fun v => (outs (ps.modify k fun p => (withWeight i v p.1, p.2)) x).getD j 0) = fun _ => (outs ps x).getD j 0 := by
        funext v
        simp only [outs, List.getD_eq_getElem?_getD, List.getElem?_map, List.getElem?_modify, hj, if_false]
        simp
      rw [e]
      have : ((List.replicate ps.length (0 : ℝ)).set k (slope p.1 (window x p.2) * (window x p.2 ++ [p.1.bias]).getD i 0)).getD j 0 = 0 := by
        simp [List.getD_eq_getElem?_getD, List.getElem?_set, hj, List.getElem?_replicate]
        split <;> rfl
      rw [this]
      exact hasDerivAt_const _ _
  have h0 : outs (ps.modify k fun q => (withWeight i (p.1.weights.getD i 0) q.1, q.2)) x = outs ps x := by
    congr 1
    apply List.ext_getElem?
    intro j
    rw [List.getElem?_modify]
    split
    · rename_i h; subst h
      rw [hk]
      change some (withWeight i (p.1.weights.getD i 0) p.1, p.2) = some p
      simp only [withWeight, hset]
    · simp
  have := hG _ _ _ h0 (by simp [outs]) hm
  rw [dot_single _ _ _ _ hkl] at this
  exact this

end Snn.Grad
