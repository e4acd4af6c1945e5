import Verif.Props.GruTrainProps
import Verif.Spec.BackSpec
import Verif.Proofs.GradLayer

/-!
# C110: the errors recurrent neurons and gated units send to the previous layer
-/

set_option linter.all false

namespace Snn.BackProps

open Finset Snn.Spec Snn.NeuronSpec Snn.HistoryProps Snn.GruTrainProps

/-- The affine form of a recurrent neuron along an input. -/
theorem affineRec_input {w x : List ℝ} {y b : ℝ} {j : Nat} (hj : j < x.length) (t0 : ℝ) :
    HasDerivAt (fun v => affineRec w (x.set j v) y b) (w.getD j 0) t0 := by
  have e : (fun v => affineRec w (x.set j v) y b) = fun v => w.getD j 0 * v +
      ((∑ i ∈ (range x.length).erase j, w.getD i 0 * x.getD i 0) + w.getD x.length 0 * y + w.getD (x.length + 1) 0 * b) := by
    funext v
    unfold affineRec
    rw [List.length_set, ← Finset.add_sum_erase _ _ (Finset.mem_range.2 hj)]
    have h1 : (x.set j v).getD j 0 = v := by simp [List.getD_eq_getElem?_getD, List.getElem?_set, hj]
    have h2 : ∀ i ∈ (range x.length).erase j, w.getD i 0 * (x.set j v).getD i 0 = w.getD i 0 * x.getD i 0 := by
      intro i hi
      have : j ≠ i := (Finset.ne_of_mem_erase hi).symm
      simp [List.getD_eq_getElem?_getD, List.getElem?_set, this]
    rw [h1, Finset.sum_congr rfl h2]
    ring
  rw [e]
  have := ((hasDerivAt_id t0).const_mul (w.getD j 0)).add_const
    ((∑ i ∈ (range x.length).erase j, w.getD i 0 * x.getD i 0) + w.getD x.length 0 * y + w.getD (x.length + 1) 0 * b)
  rw [mul_one] at this
  exact this

/-- A gate answers, its last output is replaced, then it receives an error: the errors it sends. -/
theorem gate_back {n : RecNeuron ℝ} {ni b : Nat} (h : n.WF ni b) (x : List ℝ) (hx : x.length = ni) (t : Bool) :
    ∃ n1, n.output x t = .ok (n.base.activationFunction.obj.function (affineRec n.base.weights x n.lastOutput n.base.bias), n1) ∧
      ∀ v e, ∃ n2, ({ n1 with lastOutput := v } : RecNeuron ℝ).backOutput e = .ok ((n.base.weights.take ni).map (fun w =>
        e * n.base.activationFunction.obj.derivative (affineRec n.base.weights x n.lastOutput n.base.bias) * w), n2) := by
  obtain ⟨s, wr, wb, li, a1, a2, a3, _, ho, hw⟩ := RecNeuron.output_ok h x hx t
  subst hx
  have hlen : n.base.weights.length = x.length + 2 := h.wlen
  rw [affineRec_eq (by omega) a1 a2] at a3
  subst a3
  refine ⟨_, ho, fun v e => ?_⟩
  obtain ⟨es, r', hb, _, hes, _⟩ := RecNeuron.backOutput_ok hw e
  rw [hes] at hb
  exact ⟨_, backOutput_setLast v hb⟩

theorem rec_answer {n : RecNeuron ℝ} {ni b : Nat} (h : n.WF ni b) (x : List ℝ) (hx : x.length = ni) (t : Bool) :
    recAnswer n t x = n.base.activationFunction.obj.function (affineRec n.base.weights x n.lastOutput n.base.bias) := by
  obtain ⟨n1, ho, _⟩ := gate_back h x hx t
  rw [recAnswer, ho]

theorem take_map_getD {w : List ℝ} {ni j : Nat} {c : ℝ} (hj : j < ni) (hl : ni ≤ w.length) :
    ((w.take ni).map (fun v => c * v)).getD j 0 = c * w.getD j 0 := by
  simp [List.getD_eq_getElem?_getD, List.getElem?_take, hj, show j < w.length by omega]

/-- **C110, recurrent neurons**: whatever calls the neuron received, on every input and every error, what it sends for each input is the error times the
derivative of its answer with respect to this input, its previous output being fixed. Missing: the improved sigmoid, whose `derivative` is not one (C44), ReLU
at 0, and the gated units (`C110_gru_refuted`). -/
theorem C110_recurrent_partial {m : NeuronModel ℝ} {o : Sgd ℝ} {d : Nat → ℝ} {n0 n : RecNeuron ℝ} (hm : RecNeuron.make m o d = .ok n0)
    (hb : 0 < m.batchSize) (hw : m.numberOfWeights = m.numberOfInputs + 2) (ops : List (RecOp ℝ)) (hf : ∀ op ∈ ops, op.Fits m.numberOfInputs.toNat)
    (hr : ops.foldlM RecOp.run n0 = .ok n) (hi : m.activationFunction ≠ .iSigmoid) (x : List ℝ) (hx : x.length = m.numberOfInputs.toNat) (t : Bool)
    (hk : m.activationFunction = .relu → affineRec n.base.getWeights x n.lastOutput n.base.bias ≠ 0) (e : ℝ) {j : Nat} (hj : j < x.length) :
    SendsGradient (recAnswer n t) (recSends n t) x e j := by
  obtain ⟨hwf, _, _, hact, _⟩ := RecNeuron.make_wf hm hb hw
  obtain ⟨n', h1, h2, _, _, h5, _⟩ := recOps_ok ops hwf hf
  rw [hr] at h1
  cases h1
  have ha : n.base.activationFunction = m.activationFunction := h5.trans hact
  obtain ⟨n1, ho, hback⟩ := gate_back h2 x hx t
  obtain ⟨n2, hbk⟩ := hback n1.lastOutput e
  have hlen : n.base.weights.length = m.numberOfInputs.toNat + 2 := h2.wlen
  refine ⟨(n.base.weights.take m.numberOfInputs.toNat).map (fun w =>
      e * n.base.activationFunction.obj.derivative (affineRec n.base.weights x n.lastOutput n.base.bias) * w),
    n.base.activationFunction.obj.derivative (affineRec n.base.weights x n.lastOutput n.base.bias) * n.base.weights.getD j 0, ?_, ?_, ?_, ?_⟩
  · unfold recSends
    rw [ho, Res.ok_bind]
    dsimp only
    rw [hbk]
    rfl
  · simp [hlen]; omega
  · have e1 : (fun v => recAnswer n t (x.set j v)) = fun v => n.base.activationFunction.obj.function
        (affineRec n.base.weights (x.set j v) n.lastOutput n.base.bias) := by
      funext v
      exact rec_answer h2 _ (by simpa using hx) t
    rw [e1]
    have h3 := affineRec_input (w := n.base.weights) (y := n.lastOutput) (b := n.base.bias) hj (x.getD j 0)
    refine HasDerivAt.comp (h₂ := n.base.activationFunction.obj.function) (x.getD j 0) ?_ h3
    rw [set_getD hj]
    refine ActivationSpec.C44_derivative_partial _ (Grad.obj_iSigmoid (by rw [ha]; exact hi)) _ fun hrl => ?_
    exact hk (by rw [← ha]; exact Grad.obj_relu hrl)
  · rw [take_map_getD (by omega) (by omega)]
    ring

/-! ### Gated recurrent units -/

theorem plusVec_getD : ∀ {a b : List ℝ} (j : Nat), a.length = b.length → (plusVec a b).getD j 0 = a.getD j 0 + b.getD j 0
  | [], [], j, _ => by simp [plusVec]
  | x :: a, y :: b, 0, h => by simp [plusVec]
  | x :: a, y :: b, j + 1, h => by
    have := plusVec_getD (a := a) (b := b) j (by simpa using h)
    simpa [plusVec] using this

theorem plusVec_length : ∀ {a b : List ℝ}, (plusVec a b).length = a.length
  | [], _ => by simp [plusVec]
  | x :: a, [] => by simp [plusVec]
  | x :: a, y :: b => by simp [plusVec, plusVec_length (a := a) (b := b)]

/-- What a unit sends, for every reachable unit. -/
theorem gru_sends {g : Gru ℝ} {ni b : Nat} (h : g.WF ni b) (hni : 0 < ni) (ha : GruActs g) (hz : g.previousOutput = 0) (x : List ℝ) (hx : x.length = ni) (t : Bool)
    (e : ℝ) :
    ∃ es, gruSends g t x e = .ok es ∧ es.length = ni ∧ ∀ j < ni, es.getD j 0 =
      e * ActObj.Sigmoid.function (zSum g x) * ActObj.Tanh.derivative (cSum g x) * g.outputGate.base.weights.getD j 0 +
      (e * ActObj.Tanh.function (cSum g x) + e * ActObj.Sigmoid.function (zSum g x)) * ActObj.Sigmoid.derivative (zSum g x) *
        g.updateGate.base.weights.getD j 0 := by
  obtain ⟨r1, hr1, hr2⟩ := gate_back h.r x hx t
  obtain ⟨u1, hu1, hu2⟩ := gate_back h.u x hx t
  have hwo : RecNeuron.WF { g.outputGate with lastOutput := g.outputGate.lastOutput * ActObj.Sigmoid.function (rSum g x) } ni b := h.o
  obtain ⟨o1, ho1, ho2⟩ := gate_back hwo x hx t
  simp only [ha.r] at hr1 hr2
  simp only [ha.u] at hu1 hu2
  simp only [ha.o] at ho1 ho2
  simp only [Act.obj] at hr1 hr2 hu1 hu2 ho1 ho2
  have hout : ∃ y g1, g.output x t = .ok (y, g1) ∧ g1.updateGateOutput = ActObj.Sigmoid.function (zSum g x) ∧
      g1.outputGateOutput = ActObj.Tanh.function (cSum g x) ∧ g1.resetGate = { r1 with lastOutput := y } ∧ g1.updateGate = { u1 with lastOutput := y } ∧
      g1.outputGate = { o1 with lastOutput := y } ∧ g1.previousOutput = 0 := by
    unfold Gru.output
    have e1 : (if t = true then g.reset else g).resetGate = g.resetGate := by cases t <;> rfl
    have e2 : (if t = true then g.reset else g).updateGate = g.updateGate := by cases t <;> rfl
    have e3 : (if t = true then g.reset else g).outputGate = g.outputGate := by cases t <;> rfl
    have e4 : (if t = true then g.reset else g).previousOutput = 0 := by cases t <;> simp [Gru.reset, hz]
    unfold rSum at ho1
    simp only [e1, e2, e3, hr1, hu1, ho1, Res.ok_bind]
    exact ⟨_, _, rfl, rfl, rfl, rfl, rfl, rfl, e4⟩
  obtain ⟨y, g1, hout, z1, c1, gr, gu, go, gp⟩ := hout
  obtain ⟨og, hbo⟩ := ho2 y (e * ActObj.Sigmoid.function (zSum g x))
  obtain ⟨ug, hbu⟩ := hu2 y (e * ActObj.Tanh.function (cSum g x) + e * ActObj.Sigmoid.function (zSum g x))
  have lr : g.resetGate.base.weights.length = ni + 2 := h.r.wlen
  have lu : g.updateGate.base.weights.length = ni + 2 := h.u.wlen
  have lo : g.outputGate.base.weights.length = ni + 2 := h.o.wlen
  generalize hes1 : (List.map (fun w => e * ActObj.Sigmoid.function (zSum g x) * ActObj.Tanh.derivative (affineRec g.outputGate.base.weights x
    (g.outputGate.lastOutput * ActObj.Sigmoid.function (rSum g x)) g.outputGate.base.bias) * w) (List.take ni g.outputGate.base.weights)) = es1 at hbo
  have l1 : es1.length = ni := by rw [← hes1]; simp [lo]
  have hne : es1 ≠ [] := by rintro rfl; simp at l1; omega
  obtain ⟨rg, hbr⟩ := hr2 y (es1.getLast hne * g1.previousOutput)
  have hd := backOf_ok hne
  have hsend : ∃ es, gruSends g t x e = .ok es ∧ es = plusVec (plusVec es1 (List.map (fun w => (e * ActObj.Tanh.function (cSum g x) +
      e * ActObj.Sigmoid.function (zSum g x)) * ActObj.Sigmoid.derivative (zSum g x) * w) (List.take ni g.updateGate.base.weights)))
      (List.map (fun w => es1.getLast hne * g1.previousOutput * ActObj.Sigmoid.derivative (rSum g x) * w) (List.take ni g.resetGate.base.weights)) := by
    unfold gruSends Gru.backOutput
    simp only [hout, Res.ok_bind, z1, c1, gr, gu, go, hbo, hbu, hbr, hd]
    exact ⟨_, rfl, rfl⟩
  obtain ⟨es, hs1, hs2⟩ := hsend
  refine ⟨es, hs1, ?_, fun j hj => ?_⟩
  · rw [hs2]
    rw [plusVec_length, plusVec_length, l1]
  · rw [hs2, plusVec_getD _ (by rw [plusVec_length, l1]; simp [lr]), plusVec_getD _ (by rw [l1]; simp [lu])]
    have k1 : es1.getD j 0 = e * ActObj.Sigmoid.function (zSum g x) * ActObj.Tanh.derivative (cSum g x) * g.outputGate.base.weights.getD j 0 := by
      rw [← hes1, take_map_getD hj (by omega)]
      rfl
    rw [k1, take_map_getD hj (by omega), take_map_getD hj (by omega), gp]
    ring

/-- The derivative of the answer of a unit with respect to an input. -/
theorem gru_deriv {g : Gru ℝ} {ni b : Nat} (h : g.WF ni b) (ha : GruActs g) (hz : g.previousOutput = 0) (x : List ℝ) (hx : x.length = ni) (t : Bool)
    {j : Nat} (hj : j < ni) :
    HasDerivAt (fun v => gruAnswer g t (x.set j v))
      (ActObj.Sigmoid.derivative (zSum g x) * g.updateGate.base.weights.getD j 0 * ActObj.Tanh.function (cSum g x) +
        ActObj.Sigmoid.function (zSum g x) * (ActObj.Tanh.derivative (cSum g x) * (g.outputGate.base.weights.getD j 0 +
          g.outputGate.base.weights.getD ni 0 * (g.outputGate.lastOutput * (ActObj.Sigmoid.derivative (rSum g x) * g.resetGate.base.weights.getD j 0)))))
      (x.getD j 0) := by
  have e1 : (fun v => gruAnswer g t (x.set j v)) = fun v =>
      ActObj.Sigmoid.function (zSum g (x.set j v)) * ActObj.Tanh.function (cSum g (x.set j v)) := by
    funext v
    exact output_formula h ha hz _ (by simpa using hx) t
  rw [e1]
  have hj' : j < x.length := by omega
  have hzd := HasDerivAt.comp (h₂ := ActObj.Sigmoid.function) (x.getD j 0) (sigmoid_deriv _)
    (affineRec_input (w := g.updateGate.base.weights) (y := g.updateGate.lastOutput) (b := g.updateGate.base.bias) hj' (x.getD j 0))
  have hrd := HasDerivAt.comp (h₂ := ActObj.Sigmoid.function) (x.getD j 0) (sigmoid_deriv _)
    (affineRec_input (w := g.resetGate.base.weights) (y := g.resetGate.lastOutput) (b := g.resetGate.base.bias) hj' (x.getD j 0))
  have hsplit : (fun v => cSum g (x.set j v)) = fun v => affineRec g.outputGate.base.weights (x.set j v) 0 g.outputGate.base.bias +
      g.outputGate.base.weights.getD ni 0 * (g.outputGate.lastOutput * ActObj.Sigmoid.function (rSum g (x.set j v))) := by
    funext v
    unfold cSum affineRec
    rw [List.length_set, hx]
    ring
  have hcd : HasDerivAt (fun v => cSum g (x.set j v)) (g.outputGate.base.weights.getD j 0 +
      g.outputGate.base.weights.getD ni 0 * (g.outputGate.lastOutput * (ActObj.Sigmoid.derivative (rSum g x) * g.resetGate.base.weights.getD j 0)))
      (x.getD j 0) := by
    rw [hsplit]
    rw [set_getD hj'] at hrd
    exact (affineRec_input hj' _).add ((hrd.const_mul _).const_mul _)
  have htd := HasDerivAt.comp (h₂ := ActObj.Tanh.function) (x.getD j 0) (tanh_deriv _) hcd
  have hm := hzd.mul htd
  simp only [Function.comp_def] at hm
  rw [set_getD hj'] at hm
  exact hm

/-- **C110, gated units, what is true**: whatever calls the unit received, on every input and every error, the error sent for the input j is the one of
back-propagation if and only if the error is 0 or two wrong terms balance each other: the one the code adds through the update gate and the one it forgets
through the reset gate. -/
theorem C110_gru_partial {ni : Nat} (hni : 0 < ni) {g : Gru ℝ} (h : GruReach ni g) (x : List ℝ) (hx : x.length = ni) (t : Bool) (e : ℝ) {j : Nat} (hj : j < ni) :
    SendsGradient (gruAnswer g t) (gruSends g t) x e j ↔ e = 0 ∨
      ActObj.Sigmoid.derivative (affineRec g.updateGate.base.weights x g.updateGate.lastOutput g.updateGate.base.bias) * g.updateGate.base.weights.getD j 0 =
      ActObj.Tanh.derivative (affineRec g.outputGate.base.weights x (g.outputGate.lastOutput * ActObj.Sigmoid.function
          (affineRec g.resetGate.base.weights x g.resetGate.lastOutput g.resetGate.base.bias)) g.outputGate.base.bias) *
        g.outputGate.base.weights.getD ni 0 * g.outputGate.lastOutput *
        ActObj.Sigmoid.derivative (affineRec g.resetGate.base.weights x g.resetGate.lastOutput g.resetGate.base.bias) * g.resetGate.base.weights.getD j 0 := by
  obtain ⟨hw, ha, hz⟩ := gruReach_inv hni h
  have hz0 : g.previousOutput = 0 := by rw [hz]; simp
  obtain ⟨es, h1, h2, h3⟩ := gru_sends hw hni ha hz0 x hx t e
  have hD := gru_deriv hw ha hz0 x hx t hj
  have hs : (ActObj.Sigmoid.function (zSum g x) : ℝ) ≠ 0 := (sigmoid_bounds _).1.ne'
  constructor
  · rintro ⟨es', D, k1, _, k2, k3⟩
    rw [h1] at k1
    cases k1
    rw [h3 j hj, k2.unique hD] at k3
    by_cases he : e = 0
    · exact .inl he
    · refine .inr ?_
      have : e * ActObj.Sigmoid.function (zSum g x) * (ActObj.Sigmoid.derivative (zSum g x) * g.updateGate.base.weights.getD j 0 -
        ActObj.Tanh.derivative (cSum g x) * g.outputGate.base.weights.getD ni 0 * g.outputGate.lastOutput *
          ActObj.Sigmoid.derivative (rSum g x) * g.resetGate.base.weights.getD j 0) = 0 := by linear_combination k3
      exact sub_eq_zero.1 ((mul_eq_zero.1 this).resolve_left (mul_ne_zero he hs))
  · intro hc
    refine ⟨es, _, h1, by omega, hD, ?_⟩
    rw [h3 j hj]
    rcases hc with rfl | hc
    · ring
    · have hc : ActObj.Sigmoid.derivative (zSum g x) * g.updateGate.base.weights.getD j 0 =
        ActObj.Tanh.derivative (cSum g x) * g.outputGate.base.weights.getD ni 0 * g.outputGate.lastOutput *
          ActObj.Sigmoid.derivative (rSum g x) * g.resetGate.base.weights.getD j 0 := hc
      linear_combination e * ActObj.Sigmoid.function (zSum g x) * hc

/-- **C110 is false of gated units**: a new unit sends a wrong error for every input whose weight in the update gate is not 0, whatever the inputs and the
error (if it is not 0): the error given to the update gate is `e * candidate + e * z` where the derivative of `z * candidate` is `candidate`. -/
theorem C110_gru_refuted {m : NeuronModel ℝ} {o : Sgd ℝ} {d : Nat → ℝ} {g : Gru ℝ} {ni : Nat} (hm : Gru.make m o d = .ok g) (hni : 0 < ni)
    (hn : m.numberOfInputs = ni) (hw : m.numberOfWeights = m.numberOfInputs + 2) (hb : m.batchSize = 1) (x : List ℝ) (hx : x.length = ni) (t : Bool)
    {e : ℝ} (he : e ≠ 0) {j : Nat} (hj : j < ni) (hwz : g.updateGate.base.getWeights.getD j 0 ≠ 0) :
    ¬ SendsGradient (gruAnswer g t) (gruSends g t) x e j := by
  have hr : GruReach ni g := ⟨m, o, d, g, [], hn, hw, hb, hm, by simp, rfl⟩
  rw [C110_gru_partial hni hr x hx t e hj]
  have hl : g.outputGate.lastOutput = 0 := by
    unfold Gru.make RecNeuron.make at hm
    obtain ⟨_, _, hm⟩ := Res.bind_eq_ok.1 hm
    obtain ⟨_, _, hm⟩ := Res.bind_eq_ok.1 hm
    obtain ⟨_, h3, hm⟩ := Res.bind_eq_ok.1 hm
    obtain ⟨_, _, h3⟩ := Res.bind_eq_ok.1 h3
    cases h3
    cases hm
    simp
  rintro (h | h)
  · exact he h
  · rw [hl] at h
    have h2 : ActObj.Sigmoid.derivative (affineRec g.updateGate.base.weights x g.updateGate.lastOutput g.updateGate.base.bias) *
      g.updateGate.base.weights.getD j 0 = 0 := by rw [h]; ring
    exact mul_ne_zero (sigmoid_derivative_pos _).ne' hwz h2

/-! ### The hypotheses are met -/

/-- A unit with one input and weights that are not 0. -/
example : ∃ g : Gru ℝ, GruReach 1 g ∧ ¬ SendsGradient (gruAnswer g false) (gruSends g false) [3] (-1) 0 := by
  let m : NeuronModel ℝ := { numberOfInputs := 1, batchSize := 1, numberOfWeights := 3, bias := 1, activationFunction := .tanh }
  let o : Sgd ℝ := { learningRate := 1/10, momentum := 0 }
  let d : Nat → ℝ := fun i => 1
  have hpos : (0:ℝ) < 12/5 / Real.sqrt 3 := by positivity
  have hmk : ∀ a, ∃ n : Neuron ℝ, Neuron.make { m with activationFunction := a } o d = .ok n ∧
      n.weights = [12/5 / Real.sqrt 3, 12/5 / Real.sqrt 3, 12/5 / Real.sqrt 3] := by
    intro a
    unfold Neuron.make
    simp [m, backOf, List.range_succ, randomInitializeWeight, uniform, d, Circ.init, abs_of_pos hpos]
  obtain ⟨n1, a1, a4⟩ := hmk .sigmoid
  obtain ⟨n2, b1, b4⟩ := hmk .tanh
  have hsh : ∀ k, shiftDraws k d = d := fun k => rfl
  have hg : ∃ g, Gru.make m o d = .ok g ∧ g.updateGate.base = n1 := by
    unfold Gru.make RecNeuron.make
    simp only [hsh, a1, b1, Res.ok_bind]
    exact ⟨_, rfl, rfl⟩
  obtain ⟨g, hg, e2⟩ := hg
  exact ⟨g, ⟨m, o, d, g, [], rfl, rfl, rfl, hg, by simp, rfl⟩, C110_gru_refuted (ni := 1) hg (by norm_num) rfl rfl rfl [3] rfl false (by norm_num) (by norm_num)
    (by rw [Neuron.getWeights, e2, a4]; simpa using hpos.ne')⟩

/-- A recurrent neuron with two inputs that answered and learned. -/
example : ∃ n0 n : RecNeuron ℝ, RecNeuron.make { numberOfInputs := 2, batchSize := 1, numberOfWeights := 4, bias := (1 : ℝ), activationFunction := .tanh }
      { learningRate := 1/10, momentum := 1/2 } (fun _ => 1) = .ok n0 ∧
    [RecOp.output [(1 : ℝ), 2] false, .back 1, .output [0, 5] true].foldlM RecOp.run n0 = .ok n ∧ SendsGradient (recAnswer n false) (recSends n false) [3, 4] 2 1 := by
  obtain ⟨n0, h0⟩ : ∃ n0 : RecNeuron ℝ, RecNeuron.make { numberOfInputs := 2, batchSize := 1, numberOfWeights := 4, bias := (1 : ℝ), activationFunction := .tanh }
      { learningRate := 1/10, momentum := 1/2 } (fun _ => 1) = .ok n0 := by
    unfold RecNeuron.make Neuron.make
    simp [backOf, List.range_succ, randomInitializeWeight, uniform, Circ.init]
  obtain ⟨hwf, _⟩ := RecNeuron.make_wf h0 (by norm_num) rfl
  have hf : ∀ op ∈ [RecOp.output [1, 2] false, .back (1 : ℝ), .output [0, 5] true], op.Fits 2 := by
    simp [RecOp.Fits]
  obtain ⟨n, h1, _⟩ := recOps_ok _ hwf hf
  exact ⟨n0, n, h0, h1, C110_recurrent_partial h0 (by norm_num) rfl _ hf h1 (by simp) [3, 4] rfl false (by simp) 2 (by simp)⟩

end Snn.BackProps
