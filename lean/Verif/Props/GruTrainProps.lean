import Verif.Props.GruLayerProps
import Verif.Proofs.GruFrozen
import Verif.Proofs.GradCore
import Verif.Spec.GruGradSpec
import Verif.Demo.DemoSave

/-!
# C93: how a gated recurrent unit learns
-/

set_option linter.all false

namespace Snn.GruTrainProps

open Finset Snn.Spec Snn.NeuronSpec Snn.HistoryProps

/-- The affine form of a recurrent neuron along the weight of an input. -/
theorem affineRec_weight {w x : List ℝ} {y b : ℝ} {i : Nat} (hi : i < x.length) (hl : x.length + 2 = w.length) (t0 : ℝ) :
    HasDerivAt (fun v => affineRec (w.set i v) x y b) (x.getD i 0) t0 := by
  have e : (fun v => affineRec (w.set i v) x y b) = fun v => affine (w.set i v) x y + w.getD (x.length + 1) 0 * b := by
    funext v
    unfold affineRec affine
    have : (w.set i v).getD (x.length + 1) 0 = w.getD (x.length + 1) 0 := by
      simp [List.getD_eq_getElem?_getD, List.getElem?_set, show i ≠ x.length + 1 by omega]
    rw [this]
  rw [e]
  exact (Grad.affine_weight_input hi (by omega) t0).add_const _

/-- The sums of the gates. -/
noncomputable def rSum (g : Gru ℝ) (x : List ℝ) : ℝ := affineRec g.resetGate.base.weights x g.resetGate.lastOutput g.resetGate.base.bias
noncomputable def zSum (g : Gru ℝ) (x : List ℝ) : ℝ := affineRec g.updateGate.base.weights x g.updateGate.lastOutput g.updateGate.base.bias
noncomputable def cSum (g : Gru ℝ) (x : List ℝ) : ℝ :=
  affineRec g.outputGate.base.weights x (g.outputGate.lastOutput * ActObj.Sigmoid.function (rSum g x)) g.outputGate.base.bias

theorem output_formula {g : Gru ℝ} {ni b : Nat} (h : g.WF ni b) (ha : GruActs g) (hz : g.previousOutput = 0) (x : List ℝ) (hx : x.length = ni) (t : Bool) :
    unitAnswer g x t = ActObj.Sigmoid.function (zSum g x) * ActObj.Tanh.function (cSum g x) := by
  obtain ⟨rs, zs, cs, wr, wb, vr, vb, ur, ub, g', r1, r2, r3, u1, u2, u3, o1, o2, o3, ho, _⟩ := gru_output_eq h ha x hx t
  subst hx
  have lr : g.resetGate.base.weights.length = x.length + 2 := h.r.wlen
  have lu : g.updateGate.base.weights.length = x.length + 2 := h.u.wlen
  have lo : g.outputGate.base.weights.length = x.length + 2 := h.o.wlen
  rw [affineRec_eq (by omega) r1 r2] at r3
  rw [affineRec_eq (by omega) u1 u2] at u3
  rw [affineRec_eq (by omega) o1 o2] at o3
  have e1 : rs = rSum g x := r3
  rw [e1] at o3
  have e2 : cs = cSum g x := o3
  have e3 : zs = zSum g x := u3
  rw [unitAnswer, ho, e2, e3]
  cases t <;> simp [hz]

theorem withGateWeight_wf {n : RecNeuron ℝ} {ni b i : Nat} {v : ℝ} (h : n.WF ni b) : (withGateWeight n i v).WF ni b :=
  ⟨h.inputs, h.batch, h.pos, by simp [withGateWeight, h.wlen], h.elen, h.last, h.prev⟩

theorem withWeight_wf {q : Gate} {g : Gru ℝ} {ni b i : Nat} {v : ℝ} (h : g.WF ni b) (ha : GruActs g) (hz : g.previousOutput = 0) :
    (q.withWeight g i v).WF ni b ∧ GruActs (q.withWeight g i v) ∧ (q.withWeight g i v).previousOutput = 0 := by
  cases q
  · exact ⟨⟨h.inputs, withGateWeight_wf h.r, h.u, h.o⟩, ⟨ha.r, ha.u, ha.o⟩, hz⟩
  · exact ⟨⟨h.inputs, h.r, withGateWeight_wf h.u, h.o⟩, ⟨ha.r, ha.u, ha.o⟩, hz⟩
  · exact ⟨⟨h.inputs, h.r, h.u, withGateWeight_wf h.o⟩, ⟨ha.r, ha.u, ha.o⟩, hz⟩

theorem answer_withWeight {q : Gate} {g : Gru ℝ} {ni b i : Nat} (h : g.WF ni b) (ha : GruActs g) (hz : g.previousOutput = 0) (x : List ℝ) (hx : x.length = ni)
    (t : Bool) : (fun v => unitAnswer (q.withWeight g i v) x t) = fun v =>
      ActObj.Sigmoid.function (zSum (q.withWeight g i v) x) * ActObj.Tanh.function (cSum (q.withWeight g i v) x) := by
  funext v
  obtain ⟨h1, h2, h3⟩ := withWeight_wf (q := q) (i := i) (v := v) h ha hz
  exact output_formula h1 h2 h3 x hx t

theorem sigmoid_deriv (s : ℝ) : HasDerivAt ActObj.Sigmoid.function (ActObj.Sigmoid.derivative s) s :=
  ActivationSpec.C44_derivative_partial .Sigmoid (by simp) s (by simp)

theorem tanh_deriv (s : ℝ) : HasDerivAt ActObj.Tanh.function (ActObj.Tanh.derivative s) s :=
  ActivationSpec.C44_derivative_partial .Tanh (by simp) s (by simp)

theorem set_getD {w : List ℝ} {i : Nat} (hi : i < w.length) : w.set i (w.getD i 0) = w := by
  have : w.getD i 0 = w[i] := by simp [List.getD_eq_getElem?_getD, hi]
  rw [this]
  exact List.set_getElem_self hi

/-- The derivative of the answer with respect to the weight of an input in each gate. -/
theorem deriv_output {g : Gru ℝ} {ni b i : Nat} (h : g.WF ni b) (ha : GruActs g) (hz : g.previousOutput = 0) (x : List ℝ) (hx : x.length = ni) (hi : i < ni)
    (t : Bool) : HasDerivAt (fun v => unitAnswer (Gate.output.withWeight g i v) x t)
      (ActObj.Sigmoid.function (zSum g x) * (ActObj.Tanh.derivative (cSum g x) * x.getD i 0)) (g.outputGate.base.weights.getD i 0) := by
  rw [answer_withWeight h ha hz x hx t]
  have lo : g.outputGate.base.weights.length = ni + 2 := h.o.wlen
  have h1 := affineRec_weight (y := g.outputGate.lastOutput * ActObj.Sigmoid.function (rSum g x)) (b := g.outputGate.base.bias)
    (w := g.outputGate.base.weights) (x := x) (i := i) (by omega) (by omega) (g.outputGate.base.weights.getD i 0)
  have h2 := HasDerivAt.comp (h₂ := ActObj.Tanh.function) (g.outputGate.base.weights.getD i 0) (tanh_deriv _) h1
  have h3 := h2.const_mul (ActObj.Sigmoid.function (zSum g x))
  rw [set_getD (by omega)] at h3
  exact h3

theorem deriv_update {g : Gru ℝ} {ni b i : Nat} (h : g.WF ni b) (ha : GruActs g) (hz : g.previousOutput = 0) (x : List ℝ) (hx : x.length = ni) (hi : i < ni)
    (t : Bool) : HasDerivAt (fun v => unitAnswer (Gate.update.withWeight g i v) x t)
      (ActObj.Sigmoid.derivative (zSum g x) * x.getD i 0 * ActObj.Tanh.function (cSum g x)) (g.updateGate.base.weights.getD i 0) := by
  rw [answer_withWeight h ha hz x hx t]
  have lo : g.updateGate.base.weights.length = ni + 2 := h.u.wlen
  have h1 := affineRec_weight (y := g.updateGate.lastOutput) (b := g.updateGate.base.bias)
    (w := g.updateGate.base.weights) (x := x) (i := i) (by omega) (by omega) (g.updateGate.base.weights.getD i 0)
  have h2 := HasDerivAt.comp (h₂ := ActObj.Sigmoid.function) (g.updateGate.base.weights.getD i 0) (sigmoid_deriv _) h1
  have h3 := h2.mul_const (ActObj.Tanh.function (cSum g x))
  rw [set_getD (by omega)] at h3
  exact h3

theorem affineRec_last {w x : List ℝ} {b : ℝ} (t0 : ℝ) : HasDerivAt (fun y => affineRec w x y b) (w.getD x.length 0) t0 := by
  unfold affineRec
  simpa using (((hasDerivAt_id t0).const_mul (w.getD x.length 0)).const_add (∑ i ∈ range x.length, w.getD i 0 * x.getD i 0)).add_const
    (w.getD (x.length + 1) 0 * b)

theorem deriv_reset {g : Gru ℝ} {ni b i : Nat} (h : g.WF ni b) (ha : GruActs g) (hz : g.previousOutput = 0) (x : List ℝ) (hx : x.length = ni) (hi : i < ni)
    (t : Bool) : HasDerivAt (fun v => unitAnswer (Gate.reset.withWeight g i v) x t)
      (ActObj.Sigmoid.function (zSum g x) * (ActObj.Tanh.derivative (cSum g x) * (g.outputGate.base.weights.getD ni 0 *
        (g.outputGate.lastOutput * (ActObj.Sigmoid.derivative (rSum g x) * x.getD i 0))))) (g.resetGate.base.weights.getD i 0) := by
  rw [answer_withWeight h ha hz x hx t]
  have lo : g.resetGate.base.weights.length = ni + 2 := h.r.wlen
  have h1 := affineRec_weight (y := g.resetGate.lastOutput) (b := g.resetGate.base.bias)
    (w := g.resetGate.base.weights) (x := x) (i := i) (by omega) (by omega) (g.resetGate.base.weights.getD i 0)
  have h2 := HasDerivAt.comp (h₂ := ActObj.Sigmoid.function) (g.resetGate.base.weights.getD i 0) (sigmoid_deriv _) h1
  have h3 := h2.const_mul g.outputGate.lastOutput
  have h4 := HasDerivAt.comp (h₂ := fun y => affineRec g.outputGate.base.weights x y g.outputGate.base.bias) (g.resetGate.base.weights.getD i 0)
    (affineRec_last _) h3
  have h5 := HasDerivAt.comp (h₂ := ActObj.Tanh.function) (g.resetGate.base.weights.getD i 0) (tanh_deriv _) h4
  have h6 := h5.const_mul (ActObj.Sigmoid.function (zSum g x))
  simp only [Function.comp] at h6
  rw [set_getD (by omega), hx] at h6
  exact h6

/-! ### What a round does to the gates -/

theorem updateRec_setLast {o : Sgd ℝ} {n n' : RecNeuron ℝ} {e : ℝ} (v : ℝ) (h : o.updateRec n e = .ok n') :
    o.updateRec { n with lastOutput := v } e = .ok { n' with lastOutput := v } := by
  unfold Sgd.updateRec at h ⊢
  obtain ⟨⟨_, _⟩, h1, h⟩ := Res.bind_eq_ok.1 h
  obtain ⟨⟨_, _⟩, h2, h⟩ := Res.bind_eq_ok.1 h
  obtain ⟨⟨_, _⟩, h3, h⟩ := Res.bind_eq_ok.1 h
  obtain ⟨_, h4, h⟩ := Res.bind_eq_ok.1 h
  obtain ⟨_, h5, h⟩ := Res.bind_eq_ok.1 h
  obtain ⟨_, h6, h⟩ := Res.bind_eq_ok.1 h
  obtain ⟨_, h7, h⟩ := Res.bind_eq_ok.1 h
  cases h
  dsimp only at h1 h2 h3 h4 h5 h6 h7 ⊢
  simp only [h1, h2, h3, h4, h5, h6, h7, Res.ok_bind]
  rfl

theorem backOutput_setLast {n n' : RecNeuron ℝ} {e : ℝ} {es : List ℝ} (v : ℝ) (h : n.backOutput e = .ok (es, n')) :
    ({ n with lastOutput := v } : RecNeuron ℝ).backOutput e = .ok (es, { n' with lastOutput := v }) := by
  unfold RecNeuron.backOutput at h ⊢
  obtain ⟨_, h1, h⟩ := Res.bind_eq_ok.1 h
  obtain ⟨_, h2, h⟩ := Res.bind_eq_ok.1 h
  obtain ⟨n1, h3, h⟩ := Res.bind_eq_ok.1 h
  cases h
  have h3' := updateRec_setLast v h3
  dsimp only at h1 h2 h3' ⊢
  simp only [h1, h2, h3', Res.ok_bind]
  rfl

/-- A gate answers, its last output is replaced, then it receives an error. -/
theorem gate_round {n : RecNeuron ℝ} {ni : Nat} (h : n.WF ni 1) (x : List ℝ) (hx : x.length = ni) (t : Bool) :
    ∃ n1 p, n.output x t = .ok (n.base.activationFunction.obj.function (affineRec n.base.weights x n.lastOutput n.base.bias), n1) ∧
      n.base.previousDeltaWeights.queue = [p] ∧ ∀ v e, ∃ es n2, ({ n1 with lastOutput := v } : RecNeuron ℝ).backOutput e = .ok (es, n2) ∧ es.length = ni ∧
        ∀ i < ni, n2.base.weights.getD i 0 = n.base.weights.getD i 0 + (n.base.optimizer.learningRate *
          (e * n.base.activationFunction.obj.derivative (affineRec n.base.weights x n.lastOutput n.base.bias)) * x.getD i 0
          + n.base.optimizer.momentum * p.getD i 0) := by
  obtain ⟨s, wr, wb, n1, a1, a2, a3, ho, hw, _⟩ := rec_output_frame h x hx t
  subst hx
  have hlen : n.base.weights.length = x.length + 2 := h.wlen
  rw [affineRec_eq (by omega) a1 a2] at a3
  subst a3
  obtain ⟨p, hp, _⟩ := circ_one h.prev
  refine ⟨n1, p, ho, hp, fun v e => ?_⟩
  obtain ⟨es, r', hb, _, _, hl, _⟩ := RecNeuron.backOutput_ok hw e
  obtain ⟨n', p', g, re, hround, _, hp', hg, hi, _⟩ := C42_update_partial h x rfl t e true
  rw [hp] at hp'
  cases hp'
  have : r' = n' := by
    simp only [roundRec, ho, hb, Res.ok_bind, if_true] at hround
    exact Res.ok.inj hround
  subst this
  refine ⟨es, _, backOutput_setLast v hb, hl, fun i h => ?_⟩
  rw [hg] at hi
  exact hi i h

/-- What a round does to the weights of the inputs in the output gate and the update gate. -/
theorem round_gates {g : Gru ℝ} {ni : Nat} (h : g.WF ni 1) (hni : 0 < ni) (ha : GruActs g) (hz : g.previousOutput = 0) (x : List ℝ) (hx : x.length = ni) (t : Bool)
    (e : ℝ) (back : Bool) :
    ∃ g' p q, roundGru g x t e back = .ok g' ∧ g.outputGate.base.previousDeltaWeights.queue = [p] ∧ g.updateGate.base.previousDeltaWeights.queue = [q] ∧
      (∀ i < ni, g'.outputGate.base.weights.getD i 0 = g.outputGate.base.weights.getD i 0 + (g.outputGate.base.optimizer.learningRate *
          (e * ActObj.Sigmoid.function (zSum g x) * ActObj.Tanh.derivative (cSum g x)) * x.getD i 0 + g.outputGate.base.optimizer.momentum * p.getD i 0)) ∧
      (∀ i < ni, g'.updateGate.base.weights.getD i 0 = g.updateGate.base.weights.getD i 0 + (g.updateGate.base.optimizer.learningRate *
          ((e * ActObj.Tanh.function (cSum g x) + e * ActObj.Sigmoid.function (zSum g x)) * ActObj.Sigmoid.derivative (zSum g x)) * x.getD i 0
          + g.updateGate.base.optimizer.momentum * q.getD i 0)) := by
  obtain ⟨r1, pr, hr1, _, hr2⟩ := gate_round h.r x hx t
  obtain ⟨u1, pu, hu1, hpu, hu2⟩ := gate_round h.u x hx t
  have hwo : RecNeuron.WF { g.outputGate with lastOutput := g.outputGate.lastOutput * ActObj.Sigmoid.function (rSum g x) } ni 1 := h.o
  obtain ⟨o1, po, ho1, hpo, ho2⟩ := gate_round hwo x hx t
  simp only [ha.r] at hr1 hr2
  simp only [ha.u] at hu1 hu2
  simp only [ha.o] at ho1 ho2
  simp only [Act.obj] at hr1 hr2 hu1 hu2 ho1 ho2
  have hout : ∃ y g1, g.output x t = .ok (y, g1) ∧ g1.updateGateOutput = ActObj.Sigmoid.function (zSum g x) ∧
      g1.outputGateOutput = ActObj.Tanh.function (cSum g x) ∧ g1.resetGate = { r1 with lastOutput := y } ∧ g1.updateGate = { u1 with lastOutput := y } ∧
      g1.outputGate = { o1 with lastOutput := y } := by
    unfold Gru.output
    have e1 : (if t = true then g.reset else g).resetGate = g.resetGate := by cases t <;> rfl
    have e2 : (if t = true then g.reset else g).updateGate = g.updateGate := by cases t <;> rfl
    have e3 : (if t = true then g.reset else g).outputGate = g.outputGate := by cases t <;> rfl
    unfold rSum at ho1
    simp only [e1, e2, e3, hr1, hu1, ho1, Res.ok_bind]
    exact ⟨_, _, rfl, rfl, rfl, rfl, rfl, rfl⟩
  obtain ⟨y, g1, hout, z1, c1, gr, gu, go⟩ := hout
  obtain ⟨es1, og, hbo, lo, wo⟩ := ho2 y (e * ActObj.Sigmoid.function (zSum g x))
  obtain ⟨es2, ug, hbu, lu, wu⟩ := hu2 y (e * ActObj.Tanh.function (cSum g x) + e * ActObj.Sigmoid.function (zSum g x))
  have hne : es1 ≠ [] := by rintro rfl; simp at lo; omega
  obtain ⟨es3, rg, hbr, lr, wr⟩ := hr2 y (es1.getLast hne * g1.previousOutput)
  have hd := backOf_ok hne
  have hround : ∃ g', roundGru g x t e back = .ok g' ∧ g'.outputGate = og ∧ g'.updateGate = ug := by
    cases back with
    | true =>
      simp only [roundGru, hout, Res.ok_bind, if_true, Gru.backOutput, z1, c1, gr, gu, go, hbo, hbu, hbr, hd]
      exact ⟨_, rfl, rfl, rfl⟩
    | false =>
      simp only [roundGru, hout, Res.ok_bind, Bool.false_eq_true, if_false, Gru.train, z1, c1, gr, gu, go, hbo, hbu, hbr, hd]
      exact ⟨_, rfl, rfl, rfl⟩
  obtain ⟨g', e1, e2, e3⟩ := hround
  exact ⟨g', po, pu, e1, hpo, hpu, e2 ▸ wo, e3 ▸ wu⟩

/-- **C93, the output gate**: after any calls, in every training round, each weight of an input in the output gate moves along the derivative of the answer
of the unit. Missing: the update gate (`C93_update_gate_refuted`), the reset gate (`C93_reset_gate_refuted`), and the weights of the previous output and of the
bias (C42). -/
theorem C93_output_gate_partial {ni : Nat} (hni : 0 < ni) {g : Gru ℝ} (h : GruReach ni g) (x : List ℝ) (hx : x.length = ni) (t : Bool) (e : ℝ) (back : Bool)
    {i : Nat} (hi : i < ni) : Learns .output g x t e back i := by
  obtain ⟨hw, ha, hz⟩ := gruReach_inv hni h
  have hz0 : g.previousOutput = 0 := by rw [hz]; simp
  obtain ⟨g', p, q, h1, h2, _, h3, _⟩ := round_gates hw hni ha hz0 x hx t e back
  refine ⟨g', _, p, h1, h2, deriv_output hw ha hz0 x hx hi t, ?_⟩
  simp only [Gate.of]
  rw [h3 i hi]
  ring

theorem sigmoid_derivative_pos (s : ℝ) : 0 < ActObj.Sigmoid.derivative s := by
  have h := abs_tanh_lt (s / 2)
  have : ActObj.Sigmoid.derivative s = ActObj.Sigmoid.function s * (1 - ActObj.Sigmoid.function s) := by
    simp [ActObj.derivative, ActObj.function, Snn.sq]
    try ring
  rw [this]
  obtain ⟨h1, h2⟩ := sigmoid_bounds s
  exact mul_pos h1 (by linarith)

theorem tanh_derivative_pos (s : ℝ) : 0 < ActObj.Tanh.derivative s := by
  have h := abs_tanh_lt s
  have : ActObj.Tanh.derivative s = 1 - Real.tanh s * Real.tanh s := by
    simp [ActObj.derivative, ActObj.function, Snn.sq]
    try ring
  rw [this]
  nlinarith

/-- **C93 is false of the update gate**: whatever the unit went through, whenever the learning rate, the error and the input are not 0, the weight of this
input in the update gate does not move along the derivative of the answer (the error given to the gate is `e * candidate + e * z` where the derivative
of `z * candidate` is `candidate`). -/
theorem C93_update_gate_refuted {ni : Nat} (hni : 0 < ni) {g : Gru ℝ} (h : GruReach ni g) (x : List ℝ) (hx : x.length = ni) (t : Bool) (e : ℝ) (back : Bool)
    {i : Nat} (hi : i < ni) (hl : g.updateGate.base.optimizer.learningRate ≠ 0) (he : e ≠ 0) (hxi : x.getD i 0 ≠ 0) : ¬ Learns .update g x t e back i := by
  obtain ⟨hw, ha, hz⟩ := gruReach_inv hni h
  have hz0 : g.previousOutput = 0 := by rw [hz]; simp
  obtain ⟨g', p, q, h1, _, h2, _, h3⟩ := round_gates hw hni ha hz0 x hx t e back
  rintro ⟨g2, D, q', k1, k2, k3, k4⟩
  rw [h1] at k1
  cases k1
  simp only [Gate.of] at k2 k3 k4
  rw [h2] at k2
  cases k2
  have hD := k3.unique (deriv_update hw ha hz0 x hx hi t)
  rw [h3 i hi, hD] at k4
  have : g.updateGate.base.optimizer.learningRate * e * x.getD i 0 * (ActObj.Sigmoid.function (zSum g x) * ActObj.Sigmoid.derivative (zSum g x)) = 0 := by
    linear_combination k4
  have h5 := (sigmoid_bounds (zSum g x)).1.ne'
  have h6 := (sigmoid_derivative_pos (zSum g x)).ne'
  exact mul_ne_zero (mul_ne_zero (mul_ne_zero hl he) hxi) (mul_ne_zero h5 h6) this

theorem reach_frozen {ni : Nat} {g : Gru ℝ} (h : GruReach ni g) : ∃ w, Frozen w g := by
  obtain ⟨m, o, d, g0, ops, _, _, _, h4, h5, h6⟩ := h
  clear h5
  have h0 := Gru.make_frozen h4
  refine ⟨g0.resetGate.base.weights, ?_⟩
  generalize g0.resetGate.base.weights = w at h0
  clear h4
  induction ops generalizing g0 with
  | nil => cases h6; exact h0
  | cons op ops ih =>
    rw [List.foldlM_cons] at h6
    obtain ⟨g1, h1, h6⟩ := Res.bind_eq_ok.1 h6
    refine ih g1 h6 ?_
    cases op with
    | output x t =>
      obtain ⟨⟨_, _⟩, h2, h1⟩ := Res.bind_eq_ok.1 h1
      cases h1
      exact frozen_output h0 h2
    | train e => exact frozen_train h0 h1
    | back e =>
      obtain ⟨⟨_, _⟩, h2, h1⟩ := Res.bind_eq_ok.1 h1
      cases h1
      exact frozen_back h0 h2

theorem round_frozen {w : List ℝ} {g g' : Gru ℝ} {x : List ℝ} {t : Bool} {e : ℝ} {back : Bool} (h : Frozen w g) (hr : roundGru g x t e back = .ok g') : Frozen w g' := by
  unfold roundGru at hr
  obtain ⟨⟨_, g1⟩, h1, hr⟩ := Res.bind_eq_ok.1 hr
  have h2 := frozen_output h h1
  cases back with
  | true =>
    obtain ⟨⟨_, g2⟩, h3, hr⟩ := Res.bind_eq_ok.1 hr
    cases hr
    exact frozen_back h2 h3
  | false => exact frozen_train h2 hr

/-- **C93 is false of the reset gate**: whatever the unit went through, a round does not move any weight of the reset gate, and the derivative of the answer
with respect to the weight of an input in this gate is not 0 when the input, the previous answer and the weight of the previous answer in the output gate are
not 0. -/
theorem C93_reset_gate_refuted {ni : Nat} (hni : 0 < ni) {g : Gru ℝ} (h : GruReach ni g) (x : List ℝ) (hx : x.length = ni) (t : Bool) (e : ℝ) (back : Bool)
    {i : Nat} (hi : i < ni) (hl : g.resetGate.base.optimizer.learningRate ≠ 0) (he : e ≠ 0) (hxi : x.getD i 0 ≠ 0)
    (hy : g.outputGate.lastOutput ≠ 0) (hwy : g.outputGate.base.weights.getD ni 0 ≠ 0) : ¬ Learns .reset g x t e back i := by
  obtain ⟨hw, ha, hz⟩ := gruReach_inv hni h
  have hz0 : g.previousOutput = 0 := by rw [hz]; simp
  obtain ⟨w, hf⟩ := reach_frozen h
  rintro ⟨g2, D, p, k1, k2, k3, k4⟩
  have hf2 := round_frozen hf k1
  simp only [Gate.of] at k2 k3 k4
  have hp : p.getD i 0 = 0 := by
    rw [List.getD_eq_getElem?_getD]
    cases hpi : p[i]? with
    | none => rfl
    | some y => exact hf.2.deltas p (by rw [k2]; simp) y (List.mem_of_getElem? hpi)
  have hD := k3.unique (deriv_reset hw ha hz0 x hx hi t)
  rw [hf2.2.weights, hf.2.weights, hp, hD] at k4
  have h5 := (sigmoid_bounds (zSum g x)).1.ne'
  have h6 := (sigmoid_derivative_pos (rSum g x)).ne'
  have h7 := (tanh_derivative_pos (cSum g x)).ne'
  have : g.resetGate.base.optimizer.learningRate * e * (ActObj.Sigmoid.function (zSum g x) * (ActObj.Tanh.derivative (cSum g x) *
      (g.outputGate.base.weights.getD ni 0 * (g.outputGate.lastOutput * (ActObj.Sigmoid.derivative (rSum g x) * x.getD i 0))))) = 0 := by
    linear_combination -k4
  exact mul_ne_zero (mul_ne_zero hl he) (mul_ne_zero h5 (mul_ne_zero h7 (mul_ne_zero hwy (mul_ne_zero hy (mul_ne_zero h6 hxi))))) this

/-! ### The networks -/

section
variable {F : Type} [Field F] [LinearOrder F] [IsStrictOrderedRing F] [FTrans F]

theorem buildLayers_get {o : Sgd F} : ∀ {ms : List (LayerModel F)} {shape : List Int} {d d' : Draws F} {ls : List (Layer F)} {j : Nat} {m : LayerModel F},
    buildLayers o ms shape d = .ok (ls, d') → ms[j]? = some m → ∃ l sh d1 d2, ls[j]? = some l ∧ buildLayer o m sh d1 = .ok (l, d2)
  | [], shape, d, d', ls, j, m, h, hj => by simp at hj
  | m0 :: ms, shape, d, d', ls, j, m, h, hj => by
    unfold buildLayers at h
    obtain ⟨⟨l, d1⟩, h1, h⟩ := Res.bind_eq_ok.1 h
    obtain ⟨⟨ls', d2⟩, h2, h⟩ := Res.bind_eq_ok.1 h
    cases h
    cases j with
    | zero =>
      simp only [List.getElem?_cons_zero, Option.some.injEq] at hj
      subst hj
      exact ⟨l, shape, d, d1, rfl, h1⟩
    | succ j => exact buildLayers_get (ms := ms) (j := j) h2 (by simpa using hj)

/-- Layer j of a new network is built from the model j + 1 of its architecture (the model 0 is the input). -/
theorem make_get {arch : List (LayerModel F)} {o : Sgd F} {d d' : Draws F} {snn : Snn F} (h : Snn.make arch o d = .ok (snn, d')) {j : Nat} {m : LayerModel F}
    (hj : arch[j + 1]? = some m) : ∃ l sh d1 d2, snn.net.layers[j]? = some l ∧ buildLayer o m sh d1 = .ok (l, d2) := by
  obtain ⟨⟨net, d1⟩, h1, hm⟩ := Res.bind_eq_ok.1 h
  obtain ⟨err, h2, hm⟩ := Res.bind_eq_ok.1 hm
  split at hm
  · cases hm
  cases hm
  unfold Net.make at h1
  obtain ⟨⟨ls, d2⟩, h3, h1⟩ := Res.bind_eq_ok.1 h1
  obtain ⟨last, h4, h1⟩ := Res.bind_eq_ok.1 h1
  cases h1
  unfold LayerFactory.build at h3
  split at h3
  · cases h3
  · split at h3
    · split at h3
      · cases h3
      · obtain ⟨_, _, h3⟩ := Res.bind_eq_ok.1 h3
        split at h3
        · cases h3
        · exact buildLayers_get h3 (by simpa using hj)
    · cases h3

/-- The reset weights of the units of layer j, nothing about the other layers. -/
def AtLayer (P : Body F → Prop) (j : Nat) (k : Nat) (b : Body F) : Prop := k = j → P b

theorem atLayer_kept {P : Body F → Prop} (h : KeptBody P) (j k : Nat) : KeptBody (AtLayer P j k) where
  out := by intro t b b' x y hp e hk; exact h.out (hp hk) e
  back := by intro ni b b' es r hp e hk; exact h.back (hp hk) e
  train := by intro b b' es hp e hk; exact h.train (hp hk) e

/-- **C93 is false of the reset gates of a network**, for every ordered field: take any architecture, any calls (trainings included, whatever the data, the batch
size, the epochs), any gated layer j of the network: every unit keeps the initial weights of its reset gate, which are the first `number of inputs + 2` weights of the unit. -/
theorem C93_reset_gates_of_networks_refuted {arch : List (LayerModel F)} {o : Sgd F} {d d' : Draws F} {snn : Snn F} (hm : Snn.make arch o d = .ok (snn, d'))
    {calls : List (Call F)} {r r' : Run F} (hr : r.snn = snn) (hrun : calls.foldlM Call.run r = .ok r') {j : Nat} {N : Int} {opts : List (LayerOptModel F)}
    (hj : arch[j + 1]? = some (.gru N opts)) :
    ∃ l0 l, snn.net.layers[j]? = some l0 ∧ r'.snn.net.layers[j]? = some l ∧ l.body.weights.length = l0.body.weights.length ∧
      ∀ k i, i < l0.numberOfInputs.toNat + 2 → (l.body.weights.getD k []).getD i 0 = (l0.body.weights.getD k []).getD i 0 := by
  obtain ⟨l0, sh, d1, d2, hl0, hb⟩ := make_get hm hj
  have hb' := hb
  unfold buildLayer at hb
  obtain ⟨ni, hni, hb⟩ := Res.bind_eq_ok.1 hb
  split at hb
  · cases hb
  split at hb
  · cases hb
  dsimp only at hb
  obtain ⟨hin, ns0, hbody, _, hfro, _⟩ := buildSimple_inv (P := fun g : Gru F => Frozen g.resetGate.base.weights g ∧ g.resetGate.base.weights.length = ni.toNat + 2)
    (fun d n h => by
      obtain ⟨a, a0, _⟩ := Gru.make_wf h (by simp) rfl
      exact ⟨Gru.make_frozen h, a.r.wlen⟩) hb
  have hk := keptFamily (F := F) (P := AtLayer (Body.GruEach Frozen (ns0.map fun g => g.resetGate.base.weights)) j)
    (fun k => atLayer_kept (frozen_kept _) j k) (List.range snn.net.layers.length)
  have h0 : List.Forall₂ (fun k l => AtLayer (Body.GruEach Frozen (ns0.map fun g => g.resetGate.base.weights)) j k l.body)
      (List.range snn.net.layers.length) snn.net.layers := by
    rw [List.forall₂_iff_get]
    refine ⟨by simp, fun i h1 h2 he => ?_⟩
    simp only [List.get_eq_getElem, List.getElem_range] at he
    subst he
    have hl : snn.net.layers.get ⟨i, h2⟩ = l0 := by
      rw [List.get_eq_getElem]
      exact (List.getElem?_eq_some_iff.1 hl0).2
    rw [hl, hbody]
    simp only [Body.GruEach, List.forall₂_map_left_iff, List.forall₂_same]
    exact fun g hg => (hfro g hg).1
  have h1 := hk.history (hr ▸ h0) hrun
  obtain ⟨hlt, _⟩ := List.getElem?_eq_some_iff.1 hl0
  obtain ⟨hlen, hget⟩ := List.forall₂_iff_get.1 h1
  have hlt' : j < r'.snn.net.layers.length := by rw [← hlen]; simpa using hlt
  have hP := hget j (by simpa using hlt) hlt' (by simp)
  refine ⟨l0, r'.snn.net.layers[j], hl0, by simp [hlt'], ?_⟩
  simp only [List.get_eq_getElem] at hP
  revert hP
  generalize r'.snn.net.layers[j] = l
  intro hP
  obtain ⟨li, lo, lb⟩ := l
  cases lb with
  | gru ns =>
    simp only [Body.GruEach, List.forall₂_map_left_iff] at hP
    simp only [hbody, Body.weights]
    refine ⟨by simp [hP.length_eq], fun k i hi => ?_⟩
    rw [hin] at hi
    simp only [List.getD_eq_getElem?_getD, List.getElem?_map]
    rcases Nat.lt_or_ge k ns0.length with hk | hk
    · have hk' : k < ns.length := by rw [← hP.length_eq]; exact hk
      have hf := (List.forall₂_iff_get.1 hP).2 k hk hk'
      have hl := (hfro ns0[k] (List.getElem_mem hk)).2
      simp only [List.get_eq_getElem] at hf
      simp only [List.getElem?_eq_getElem hk, List.getElem?_eq_getElem hk', Option.map_some, Option.getD_some, Gru.getWeights, List.append_assoc]
      rw [hf.2.weights, List.getElem?_append_left (by omega), List.getElem?_append_left (by omega)]
    · have hk' : ns.length ≤ k := by rw [← hP.length_eq]; exact hk
      simp [List.getElem?_eq_none hk, List.getElem?_eq_none hk']
  | _ => exact hP.elim

end

/-! ### The hypotheses are met -/

theorem rec_output_opt {n n' : RecNeuron ℝ} {x : List ℝ} {t : Bool} {y : ℝ} (h : n.output x t = .ok (y, n')) : n'.base.optimizer = n.base.optimizer := by
  unfold RecNeuron.output at h
  obtain ⟨_, _, h⟩ := Res.bind_eq_ok.1 h
  obtain ⟨_, _, h⟩ := Res.bind_eq_ok.1 h
  obtain ⟨_, _, h⟩ := Res.bind_eq_ok.1 h
  obtain ⟨_, _, h⟩ := Res.bind_eq_ok.1 h
  obtain ⟨_, _, h⟩ := Res.bind_eq_ok.1 h
  cases h
  cases t <;> rfl

/-- A unit with one input: every weight is `w = 2.4/√3`. -/
theorem witness_unit : ∃ g : Gru ℝ, GruReach 1 g ∧ g.updateGate.base.optimizer.learningRate ≠ 0 ∧ g.resetGate.base.optimizer.learningRate ≠ 0 ∧
    g.outputGate.lastOutput ≠ 0 ∧ g.outputGate.base.weights.getD 1 0 ≠ 0 := by
  let m : NeuronModel ℝ := { numberOfInputs := 1, batchSize := 1, numberOfWeights := 3, bias := 1, activationFunction := .tanh }
  let o : Sgd ℝ := { learningRate := 1/10, momentum := 0 }
  let d : Nat → ℝ := fun i => 1
  have hpos : (0:ℝ) < 12/5 / Real.sqrt 3 := by positivity
  have hmk : ∀ a, ∃ n : Neuron ℝ, Neuron.make { m with activationFunction := a } o d = .ok n ∧ n.optimizer = o ∧ n.bias = 1 ∧
      n.weights = [12/5 / Real.sqrt 3, 12/5 / Real.sqrt 3, 12/5 / Real.sqrt 3] := by
    intro a
    unfold Neuron.make
    simp [m, backOf, List.range_succ, randomInitializeWeight, uniform, d, Circ.init, abs_of_pos hpos]
  obtain ⟨n1, a1, a2, a3, a4⟩ := hmk .sigmoid
  obtain ⟨n2, b1, b2, b3, b4⟩ := hmk .tanh
  have hsh : ∀ k, shiftDraws k d = d := fun k => rfl
  have hg : ∃ g, Gru.make m o d = .ok g ∧ g.resetGate.base = n1 ∧ g.updateGate.base = n1 ∧ g.outputGate.base = n2 ∧ g.outputGate.lastOutput = 0 := by
    unfold Gru.make RecNeuron.make
    simp only [hsh, a1, b1, Res.ok_bind]
    exact ⟨_, rfl, rfl, rfl, rfl, by simp⟩
  obtain ⟨g, hg, e1, e2, e3, e4⟩ := hg
  have hreach : GruReach 1 g := ⟨m, o, d, g, [], rfl, rfl, rfl, hg, by simp, rfl⟩
  obtain ⟨hw, ha, hz⟩ := gruReach_inv (by norm_num) hreach
  obtain ⟨rs, zs, cs, wr, wb, vr, vb, ur, ub, g', _, _, _, _, _, _, o1, o2, o3, ho, _, _, _, _, _, k3, k4, _, k6⟩ := gru_output_eq hw ha [1] rfl false
  have hreach' : GruReach 1 g' := ⟨m, o, d, g, [.output [1] false], rfl, rfl, rfl, hg, by simp [GruOp.Fits], by simp [GruOp.run, ho]⟩
  have hcs : 0 < cs := by
    rw [e3, b4] at o1 o2
    simp at o1 o2
    rw [o3, e4, e3, b3, b4, ← o2]
    simp [dotFrom]
  have ht : 0 < ActObj.Tanh.function cs := by
    simp only [ActObj.function, ftanh_real]
    rw [Real.tanh_eq_sinh_div_cosh]
    exact div_pos (Real.sinh_pos_iff.2 hcs) (Real.cosh_pos _)
  have hlast : 0 < g'.outputGate.lastOutput := by
    have hz0 : g.previousOutput = 0 := by rw [hz]; simp
    rw [k6, k4, hz0]
    have := mul_pos (sigmoid_bounds zs).1 ht
    simpa using this
  have hfr : g'.updateGate.base.optimizer = o ∧ g'.resetGate.base.optimizer = o := by
    unfold Gru.output at ho
    simp only [Bool.false_eq_true, if_false] at ho
    obtain ⟨⟨_, _⟩, h1, ho⟩ := Res.bind_eq_ok.1 ho
    obtain ⟨⟨_, _⟩, h2, ho⟩ := Res.bind_eq_ok.1 ho
    obtain ⟨⟨_, _⟩, h3, ho⟩ := Res.bind_eq_ok.1 ho
    have ho := (Prod.mk.inj (Res.ok.inj ho)).2
    rw [← ho]
    exact ⟨(rec_output_opt h2).trans (by rw [e2]; exact a2), (rec_output_opt h1).trans (by rw [e1]; exact a2)⟩
  exact ⟨g', hreach', by rw [hfr.1]; norm_num [o], by rw [hfr.2]; norm_num [o], hlast.ne', by rw [k3, e3, b4]; simp⟩

/-- The hypotheses of the three theorems on a unit are met: the output gate learns, the two other gates do not. -/
example : ∃ g : Gru ℝ, GruReach 1 g ∧ Learns .output g [1] false 1 true 0 ∧ ¬ Learns .update g [1] false 1 true 0 ∧ ¬ Learns .reset g [1] false 1 true 0 := by
  obtain ⟨g, h, hu, hr, hy, hw⟩ := witness_unit
  exact ⟨g, h, C93_output_gate_partial (by norm_num) h [1] rfl false 1 true (by norm_num),
    C93_update_gate_refuted (by norm_num) h [1] rfl false 1 true (by norm_num) hu (by norm_num) (by norm_num),
    C93_reset_gate_refuted (by norm_num) h [1] rfl false 1 true (by norm_num) hr (by norm_num) (by norm_num) hy hw⟩

/-- A network with a gated layer. -/
def gatedMade : Snn ℚ × Draws ℚ :=
  (Snn.make (F := ℚ) [.input [1], .gru 2 [], .fullyConnected 1 .identity []] { learningRate := 1/10, momentum := 1/2 } Demo.draws).get (by decide +kernel)

/-- The network. -/
def gated : Snn ℚ := gatedMade.1

theorem gated_made : Snn.make (F := ℚ) [.input [1], .gru 2 [], .fullyConnected 1 .identity []] { learningRate := 1/10, momentum := 1/2 } Demo.draws = .ok (gated, gatedMade.2) :=
  Res.eq_get _ _

/-- The network after one epoch of training. -/
def gatedTrained : Run ℚ := ((Demo.run gated Demo.series).train Demo.env (litEp 1) 1 1 50).get (by decide +kernel)

set_option maxRecDepth 10000 in
/-- The hypotheses of the theorem on networks are met by a network that is trained, and the training does change the weights of its other gates. -/
example : ∃ l0 l, gated.net.layers[0]? = some l0 ∧ gatedTrained.snn.net.layers[0]? = some l ∧ l.body.weights.length = 2 ∧
    (∀ k i, i < 3 → (l.body.weights.getD k []).getD i 0 = (l0.body.weights.getD k []).getD i 0) ∧ l.body.weights ≠ l0.body.weights := by
  obtain ⟨l0, l, h1, h2, h3, h4⟩ := C93_reset_gates_of_networks_refuted (F := ℚ) (arch := [.input [1], .gru 2 [], .fullyConnected 1 .identity []])
    (o := { learningRate := 1/10, momentum := 1/2 }) (d := Demo.draws) (snn := gated) gated_made
    (calls := [.train Demo.env Demo.series (litEp 1) 1 1 50]) (r := Demo.run gated Demo.series) (r' := gatedTrained) rfl
    (by
      rw [List.foldlM_cons]
      have : Call.run (Demo.run gated Demo.series) (.train Demo.env Demo.series (litEp 1) 1 1 50) = .ok gatedTrained := Res.eq_get _ (by decide +kernel)
      rw [this]
      rfl) (j := 0) (N := 2) (opts := []) rfl
  have e1 : gated.net.layers[0]?.map (fun l => (l.numberOfInputs, l.body.weights.length)) = some (1, 2) := by decide +kernel
  have e2 : gatedTrained.snn.net.layers[0]?.map (fun l => l.body.weights) ≠ gated.net.layers[0]?.map (fun l => l.body.weights) := by decide +kernel
  rw [h1, h2] at e2
  rw [h1] at e1
  simp only [Option.map_some, Option.some.injEq, Prod.mk.injEq, ne_eq] at e1 e2
  refine ⟨l0, l, h1, h2, by rw [h3, e1.2], fun k i hi => h4 k i (by rw [e1.1]; simpa using hi), e2⟩

end Snn.GruTrainProps
