import Verif.Props.NeuronProps
import Verif.Demo.Demo

/-!
# C42, C28, C48: recurrent neurons and gated recurrent units
-/

set_option linter.all false

namespace Snn.NeuronSpec

open Finset Snn.Spec

section
variable {F : Type} [Flt F] [FTrans F] [Add F] [Sub F] [Mul F] [Div F] [Neg F]

/-- The calls a recurrent neuron receives. -/
inductive RecOp (F : Type) where
  /-- `output(x, temporalReset)` -/
  | output (x : List F) (temporalReset : Bool)
  /-- `train(error)` -/
  | train (error : F)
  /-- `backOutput(error)` -/
  | back (error : F)

/-- The state after one call. -/
def RecOp.run (n : RecNeuron F) : RecOp F → Res (RecNeuron F)
  | .output x t => do let (_, n') ← n.output x t; return n'
  | .train e => n.train e
  | .back e => do let (_, n') ← n.backOutput e; return n'

/-- The inputs given have the size the neuron was built for. -/
def RecOp.Fits (ni : Nat) : RecOp F → Prop
  | .output x _ => x.length = ni
  | _ => True

theorem recOp_ok {n : RecNeuron F} {ni b : Nat} (h : n.WF ni b) (op : RecOp F) (hf : op.Fits ni) :
    ∃ n', op.run n = .ok n' ∧ n'.WF ni b ∧ n'.base.weights[ni + 1]? = n.base.weights[ni + 1]? ∧
      n'.base.bias = n.base.bias ∧ n'.base.activationFunction = n.base.activationFunction ∧
      n'.base.optimizer = n.base.optimizer := by
  have hupd : ∀ (r : RecNeuron F) (o : Sgd F) (e : F) (r' : RecNeuron F), r.WF ni b → o.updateRec r e = .ok r' →
      r'.base.weights[ni + 1]? = r.base.weights[ni + 1]? ∧ r'.base.bias = r.base.bias ∧
        r'.base.activationFunction = r.base.activationFunction ∧ r'.base.optimizer = r.base.optimizer := by
    intro r o e r' hr hu
    obtain ⟨x, li, p, pd, pd', pl, wk, wl, w1, re, d2, _, hx, _, hp, _, hw, _, _, _, _, hu', _⟩ := o.updateRec_ok hr e
    have : r' = _ := Res.ok.inj (hu.symm.trans hu')
    subst this
    refine ⟨?_, rfl, rfl, rfl⟩
    have hl : r.base.weights.length = ni + 2 := hr.wlen
    conv_rhs => rw [hw]
    rw [List.getElem?_append_right (by simp [sgdDeltas, hx, hp, hl]), List.getElem?_append_right (by simp [hl])]
    simp [sgdDeltas, hx, hp, hl]
  cases op with
  | output x t =>
    obtain ⟨s, wr, wb, li, _, _, _, _, ho, hw⟩ := RecNeuron.output_ok h x hf t
    exact ⟨_, by simp only [RecOp.run, ho]; rfl, hw, rfl, rfl, rfl, rfl⟩
  | train e =>
    obtain ⟨r', ht, hw, hu⟩ := RecNeuron.train_ok h e
    obtain ⟨h1, h2, h3, h4⟩ := hupd _ _ _ _ h hu
    exact ⟨r', ht, hw, h1, h2, h3, h4⟩
  | back e =>
    obtain ⟨es, r', ht, hw, _, hl, hu⟩ := RecNeuron.backOutput_ok h e
    unfold RecNeuron.WF at h
    have hwf : RecNeuron.WF { n with base := { n.base with errors := es } } ni b :=
      ⟨h.inputs, h.batch, h.pos, h.wlen, hl, h.last, h.prev⟩
    obtain ⟨h1, h2, h3, h4⟩ := hupd _ _ _ _ hwf hu
    exact ⟨r', by simp only [RecOp.run, ht]; rfl, hw, h1, h2, h3, h4⟩

theorem recOps_ok : ∀ (ops : List (RecOp F)) {n : RecNeuron F} {ni b : Nat}, n.WF ni b → (∀ op ∈ ops, op.Fits ni) →
    ∃ n', ops.foldlM RecOp.run n = .ok n' ∧ n'.WF ni b ∧ n'.base.weights[ni + 1]? = n.base.weights[ni + 1]? ∧
      n'.base.bias = n.base.bias ∧ n'.base.activationFunction = n.base.activationFunction ∧
      n'.base.optimizer = n.base.optimizer
  | [], n, ni, b, h, _ => ⟨n, rfl, h, rfl, rfl, rfl, rfl⟩
  | op :: ops, n, ni, b, h, hf => by
    obtain ⟨n1, h1, h2, h3, h4, h5, h6⟩ := recOp_ok h op (hf op (by simp))
    obtain ⟨n', g1, g2, g3, g4, g5, g6⟩ := recOps_ok ops h2 (fun o ho => hf o (by simp [ho]))
    refine ⟨n', ?_, g2, g3.trans h3, g4.trans h4, g5.trans h5, g6.trans h6⟩
    rw [List.foldlM_cons, h1]
    exact g1

/-- **C42 is false of the bias weight**, for every carrier: whatever calls a recurrent neuron receives, its last weight — the
one `output` multiplies by the bias — keeps its initial value for ever. -/
theorem C42_bias_never_trained_refuted {m : NeuronModel F} {o : Sgd F} {d : Nat → F} {n : RecNeuron F}
    (hm : RecNeuron.make m o d = .ok n) (hb : 0 < m.batchSize) (hw : m.numberOfWeights = m.numberOfInputs + 2)
    (ops : List (RecOp F)) (hf : ∀ op ∈ ops, op.Fits m.numberOfInputs.toNat) :
    ∃ n', ops.foldlM RecOp.run n = .ok n' ∧
      n'.base.getWeights[m.numberOfInputs.toNat + 1]? = n.base.getWeights[m.numberOfInputs.toNat + 1]? := by
  obtain ⟨hwf, _⟩ := RecNeuron.make_wf hm hb hw
  obtain ⟨n', h1, _, h2, _⟩ := recOps_ok ops hwf hf
  exact ⟨n', h1, h2⟩

end

section
variable {F : Type} [Field F] [LinearOrder F] [IsStrictOrderedRing F] [FTrans F]

theorem affineRec_eq {w x : List F} {y b wr wb : F} (h : x.length + 1 < w.length) (hr : w[x.length]? = some wr)
    (hw : w[x.length + 1]? = some wb) : dotFrom (lit 0) x w + y * wr + b * wb = affineRec w x y b := by
  rw [dotFrom_eq _ _ _ (by omega)]
  simp [affineRec, hr, hw]
  ring

/-- A training round of a recurrent neuron. -/
def roundRec (n : RecNeuron F) (x : List F) (t : Bool) (e : F) (back : Bool) : Res (RecNeuron F) := do
  let (_, n1) ← n.output x t
  if back then do
    let (_, n2) ← n1.backOutput e
    return n2
  else n1.train e

/-- **C42**, what a training round does to the weights of a recurrent neuron with batch size 1 and memory `p`
(`g` is the error at the affine form):
* each input weight moves by the increment of SGD with momentum (as claimed);
* the recurrent weight moves by the increment computed for the *bias* plus the increment computed for the recurrent weight;
* the bias weight does not move. -/
theorem C42_update_partial {n : RecNeuron F} {ni : Nat} (h : n.WF ni 1) (x : List F) (hx : x.length = ni) (t : Bool)
    (e : F) (back : Bool) :
    ∃ n' p g re, roundRec n x t e back = .ok n' ∧ n'.WF ni 1 ∧ n.base.previousDeltaWeights.queue = [p] ∧
      g = e * n.base.activationFunction.obj.derivative (affineRec n.base.getWeights x n.lastOutput n.base.bias) ∧
      (∀ i < ni, n'.base.getWeights.getD i 0 = n.base.getWeights.getD i 0
        + (n.base.optimizer.learningRate * g * x.getD i 0 + n.base.optimizer.momentum * p.getD i 0)) ∧
      n'.base.getWeights.getD ni 0 = n.base.getWeights.getD ni 0
        + (n.base.optimizer.learningRate * g * n.base.bias + n.base.optimizer.momentum * p.getD ni 0)
        + (n.base.optimizer.learningRate * re * n.lastOutput + n.base.optimizer.momentum * p.getD ni 0) ∧
      n'.base.getWeights.getD (ni + 1) 0 = n.base.getWeights.getD (ni + 1) 0 := by
  obtain ⟨s, wr, wb, li, hwr, hwb, hs, hpush, ho, hw⟩ := RecNeuron.output_ok h x hx t
  have hlen : n.base.weights.length = ni + 2 := h.wlen
  rw [affineRec_eq (by omega) (by rw [hx]; exact hwr) (by rw [hx]; exact hwb)] at hs
  obtain ⟨v, hv, _⟩ := circ_one h.last
  have hq1 : li.queue = [x] := pushBack_one hv hpush
  generalize hn1 : ({ (n.prepare t) with
        base := { n.base with lastInputs := li, sum := s }
        previousSum := n.base.sum
        previousOutput := n.lastOutput
        lastOutput := n.base.activationFunction.obj.function s } : RecNeuron F) = n1 at ho hw
  have hsum : n1.base.sum = s := by rw [← hn1]
  have hact : n1.base.activationFunction = n.base.activationFunction := by rw [← hn1]
  have hopt : n1.base.optimizer = n.base.optimizer := by rw [← hn1]
  have hbias : n1.base.bias = n.base.bias := by rw [← hn1]
  have hwts : n1.base.weights = n.base.weights := by rw [← hn1]
  have hprv : n1.base.previousDeltaWeights = n.base.previousDeltaWeights := by rw [← hn1]
  have hlin : n1.base.lastInputs = li := by rw [← hn1]
  have hpo : n1.previousOutput = n.lastOutput := by rw [← hn1]
  obtain ⟨p', hp', hp'l⟩ := circ_one h.prev
  have key : ∀ (r r' : RecNeuron F), r.WF ni 1 → r.base.weights = n.base.weights → r.base.bias = n.base.bias →
      r.base.lastInputs = li → r.base.previousDeltaWeights = n.base.previousDeltaWeights → r.previousOutput = n.lastOutput →
      n.base.optimizer.updateRec r (e * n.base.activationFunction.obj.derivative s) = .ok r' →
      ∃ re, r'.WF ni 1 ∧
      (∀ i < ni, r'.base.getWeights.getD i 0 = n.base.getWeights.getD i 0
        + (n.base.optimizer.learningRate * (e * n.base.activationFunction.obj.derivative s) * x.getD i 0
          + n.base.optimizer.momentum * p'.getD i 0)) ∧
      r'.base.getWeights.getD ni 0 = n.base.getWeights.getD ni 0
        + (n.base.optimizer.learningRate * (e * n.base.activationFunction.obj.derivative s) * n.base.bias
          + n.base.optimizer.momentum * p'.getD ni 0)
        + (n.base.optimizer.learningRate * re * n.lastOutput + n.base.optimizer.momentum * p'.getD ni 0) ∧
      r'.base.getWeights.getD (ni + 1) 0 = n.base.getWeights.getD (ni + 1) 0 := by
    intro r r' hr e1 e2 e3 e4 e5 hu
    obtain ⟨x', li', p, pd, pd', pl, wk, wl, w1, re, d2, hgx, hxl, hgp, hpl, hpl', hwsp, hw1, hre, hd2, _, hu', hwf'⟩ :=
      n.base.optimizer.updateRec_ok hr (e * n.base.activationFunction.obj.derivative s)
    have : r' = _ := Res.ok.inj (hu.symm.trans hu')
    subst this
    rw [e3] at hgx
    obtain ⟨rfl, _⟩ := getBack_one (w := ni) hq1 hgx
    rw [e4] at hgp
    obtain ⟨rfl, _⟩ := getBack_one (w := ni + 2) hp' hgp
    have hlr : n.base.optimizer.learningRate / (lit ((1 : Nat) : Rat) : F) = n.base.optimizer.learningRate := by
      rw [lit_one_cast, div_one]
    rw [e1] at hwsp
    have hpd : p.getD ni 0 = pl := by simp [hpl']
    have hl1 : (sgdDeltas (n.base.optimizer.learningRate * (e * n.base.activationFunction.obj.derivative s))
        n.base.optimizer.momentum x' (p.take ni)).length = ni := by simp [sgdDeltas, hx, hpl]
    have hwt : (n.base.weights.take ni).length = ni := by simp [hlen]
    refine ⟨re, hwf', ?_, ?_, ?_⟩
    · intro i hi
      simp only [Neuron.getWeights, e1, hlr]
      rw [List.getD_append _ _ _ _ (by simp [hl1, hwt, hi]), getD_zipWith_add (by omega) (by omega),
        getD_sgdDeltas (by omega) (by simp [hpl]; omega)]
      simp [hi]
    · simp only [Neuron.getWeights, e1, hlr]
      rw [List.getD_append_right _ _ _ _ (by simp [hl1, hwt])]
      conv_rhs => rw [hwsp, List.getD_append_right _ _ _ _ (by omega)]
      simp only [List.length_zipWith, hl1, hwt, min_self, Nat.sub_self, List.getD_cons_zero]
      rw [hd2, hw1, hlr, hpd, e2, e5]
    · simp only [Neuron.getWeights, e1, hlr]
      rw [List.getD_append_right _ _ _ _ (by simp [hl1, hwt])]
      conv_rhs => rw [hwsp, List.getD_append_right _ _ _ _ (by omega)]
      simp [hl1, hwt]
  have hg : affineRec n.base.getWeights x n.lastOutput n.base.bias = s := by rw [hs]; rfl
  cases back with
  | true =>
    obtain ⟨es, r', hbk, hwf', _, hel, hup⟩ := RecNeuron.backOutput_ok hw e
    rw [hsum, hact, hopt] at hup
    have hwf1 : RecNeuron.WF { n1 with base := { n1.base with errors := es } } ni 1 :=
      ⟨hw.inputs, hw.batch, hw.pos, hw.wlen, hel, hw.last, hw.prev⟩
    have := key { n1 with base := { n1.base with errors := es } } r' hwf1 hwts hbias hlin hprv hpo
      (by rw [← hact, ← hopt, ← hsum] at hup ⊢; exact hup)
    obtain ⟨re, k1, k2, k3, k4⟩ := this
    refine ⟨r', p', _, re, ?_, k1, hp', rfl, ?_, ?_, k4⟩
    · simp [roundRec, ho, hbk]
    · rw [hg]; exact k2
    · rw [hg]; exact k3
  | false =>
    obtain ⟨r', htr, hwf', hup⟩ := RecNeuron.train_ok hw e
    rw [hsum, hact, hopt] at hup
    obtain ⟨re, k1, k2, k3, k4⟩ := key n1 r' hw hwts hbias hlin hprv hpo hup
    refine ⟨r', p', _, re, ?_, k1, hp', rfl, ?_, ?_, k4⟩
    · simp [roundRec, ho, htr]
    · rw [hg]; exact k2
    · rw [hg]; exact k3

end

/-! ### C28 — temporal reset -/

section
variable {F : Type} [Flt F] [FTrans F] [Add F] [Sub F] [Mul F] [Div F] [Neg F]

/-- **C28 is false**, for every carrier: the temporal reset has no influence on the output of a recurrent neuron, nor on the
state from which later outputs are computed — the previous output is used even when `temporalReset` is true. -/
theorem C28_recurrent_reset_refuted {n : RecNeuron F} {ni b : Nat} (h : n.WF ni b) (x : List F) (hx : x.length = ni) :
    ∃ y n1 n2, n.output x true = .ok (y, n1) ∧ n.output x false = .ok (y, n2) ∧
      n1 = { n2 with recurrentError := lit 0 } := by
  obtain ⟨s, wr, wb, li, h1, h2, h3, h4, h5, _⟩ := RecNeuron.output_ok h x hx true
  obtain ⟨s', wr', wb', li', g1, g2, g3, g4, g5, _⟩ := RecNeuron.output_ok h x hx false
  have e1 : wr = wr' := by rw [h1] at g1; exact Option.some.inj g1
  have e2 : wb = wb' := by rw [h2] at g2; exact Option.some.inj g2
  have e3 : li = li' := by rw [h4] at g4; exact Res.ok.inj g4
  subst e1; subst e2; subst e3
  have e4 : s = s' := by rw [h3, g3]
  subst e4
  exact ⟨_, _, _, h5, g5, rfl⟩

/-- The outputs of a sequence of inputs, each with its reset flag. -/
def runRec (n : RecNeuron F) : List (List F × Bool) → Res (List F × RecNeuron F)
  | [] => .ok ([], n)
  | (x, t) :: xs => do
    let (y, n1) ← n.output x t
    let (ys, n2) ← runRec n1 xs
    return (y :: ys, n2)

/-- **C28**, what does hold: the only part of the past that reaches later outputs is one number, the previous output. Two
neurons with the same weights, bias and activation and the same previous output give the same outputs on every sequence. -/
theorem C28_past_is_previous_output_partial : ∀ (xs : List (List F × Bool)) {n m : RecNeuron F} {ni b b' : Nat},
    n.WF ni b → m.WF ni b' → n.base.weights = m.base.weights → n.base.bias = m.base.bias →
    n.base.activationFunction = m.base.activationFunction → n.lastOutput = m.lastOutput →
    (∀ x ∈ xs, x.1.length = ni) →
    ∃ ys n' m', runRec n xs = .ok (ys, n') ∧ runRec m xs = .ok (ys, m')
  | [], n, m, ni, b, b', _, _, _, _, _, _, _ => ⟨[], n, m, rfl, rfl⟩
  | (x, t) :: xs, n, m, ni, b, b', hn, hm, hw, hb, ha, hl, hx => by
    obtain ⟨s, wr, wb, li, h1, h2, h3, h4, h5, h6⟩ := RecNeuron.output_ok hn x (hx (x, t) (by simp)) t
    obtain ⟨s', wr', wb', li', g1, g2, g3, g4, g5, g6⟩ := RecNeuron.output_ok hm x (hx (x, t) (by simp)) t
    have e1 : wr = wr' := by rw [hw, g1] at h1; exact (Option.some.inj h1).symm
    have e2 : wb = wb' := by rw [hw, g2] at h2; exact (Option.some.inj h2).symm
    subst e1; subst e2
    have e4 : s = s' := by rw [h3, g3, hw, hb, hl]
    subst e4
    obtain ⟨ys, n', m', r1, r2⟩ := C28_past_is_previous_output_partial xs h6 g6 hw hb ha (by simp [ha])
      (fun y hy => hx y (by simp [hy]))
    refine ⟨n.base.activationFunction.obj.function s :: ys, n', m', ?_, ?_⟩
    · simp only [runRec, h5, Res.ok_bind, r1]; rfl
    · rw [ha]
      simp only [runRec, g5, Res.ok_bind, r2]; rfl

end

/-- **C28 is false**, a witness: a recurrent neuron (identity activation, 1 input) with the weights input 1, recurrent 1,
bias 0. After the input 5, the input 0 *with temporal reset* gives 5; on a fresh neuron it gives 0. -/
theorem C28_witness_refuted : ∃ n : RecNeuron ℝ, n.WF 1 1 ∧ n.lastOutput = 0 ∧
    Prod.fst <$> runRec n [([5], true), ([0], true)] = .ok [5, 5] ∧
    Prod.fst <$> runRec n [([0], true)] = .ok [0] := by
  let n : RecNeuron ℝ := {
    base := {
      numberOfInputs := 1
      batchSize := 1
      weights := [1, 1, 0]
      bias := 1
      previousDeltaWeights := { queue := [[0, 0, 0]], indexPush := 0, indexGet := 0 }
      lastInputs := { queue := [[0]], indexPush := 0, indexGet := 0 }
      errors := [0]
      sum := 0
      activationFunction := .identity
      optimizer := { learningRate := 1/10, momentum := 0 } }
    lastOutput := 0
    previousOutput := 0
    recurrentError := 0
    previousSum := 0 }
  have hwf : n.WF 1 1 := ⟨rfl, rfl, by norm_num, rfl, rfl, ⟨rfl, by simp [n]⟩, ⟨rfl, by simp [n]⟩⟩
  refine ⟨n, hwf, rfl, ?_, ?_⟩
  · simp [runRec, RecNeuron.output, RecNeuron.reset, n, Circ.pushBack, wr, rd, dotLoop, Act.apply, Act.get,
      activationFunctions, ActObj.function]
  · simp [runRec, RecNeuron.output, RecNeuron.reset, n, Circ.pushBack, wr, rd, dotLoop, Act.apply, Act.get,
      activationFunctions, ActObj.function]

/-! ### The hypotheses are met -/

/-- A recurrent neuron with two inputs, as built by the library. -/
def someRecurrent : RecNeuron ℚ :=
  (RecNeuron.make { numberOfInputs := 2, batchSize := 1, numberOfWeights := 4, bias := (1 : ℚ), activationFunction := .identity } { learningRate := 1/10, momentum := 1/2 }
    (fun i => 1 / ((i : ℚ) + 2))).get (by decide +kernel)

theorem someRecurrent_wf : someRecurrent.WF 2 1 :=
  (RecNeuron.make_wf (Res.eq_get (RecNeuron.make { numberOfInputs := 2, batchSize := 1, numberOfWeights := 4, bias := (1 : ℚ), activationFunction := .identity }
    { learningRate := 1/10, momentum := 1/2 } (fun i => 1 / ((i : ℚ) + 2))) (by decide +kernel)) (by norm_num) rfl).1

/-- Two training rounds return and change the input weights and the recurrent weight; the bias weight stays. -/
example : ∃ n1 n2, roundRec someRecurrent [1, 2] true (1/2) true = .ok n1 ∧ roundRec n1 [3, 1] false (1/3) false = .ok n2 ∧
    n2.base.getWeights.getD 0 0 ≠ someRecurrent.base.getWeights.getD 0 0 ∧ n2.base.getWeights.getD 2 0 ≠ n1.base.getWeights.getD 2 0 ∧
    n2.base.getWeights.getD 3 0 = someRecurrent.base.getWeights.getD 3 0 ∧ someRecurrent.base.getWeights.getD 3 0 ≠ 0 :=
  ⟨_, _, Res.eq_get _ (by decide +kernel), Res.eq_get _ (by decide +kernel), by decide +kernel, by decide +kernel, by decide +kernel, by decide +kernel⟩

example : someRecurrent.WF 2 1 ∧ (Prod.fst <$> runRec someRecurrent [([1, 2], true), ([3, 4], false), ([0, 1], false)]).isOk = true :=
  ⟨someRecurrent_wf, by decide +kernel⟩

end Snn.NeuronSpec
