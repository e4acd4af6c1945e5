import Verif.Proofs.NeuronProofs
import Verif.Spec.NeuronSpec
import Verif.Basic.RealFlt
import Verif.Props.ActivationProps
import Mathlib.Data.List.GetD
import Mathlib.Tactic.Ring
import Mathlib.Tactic.Linarith
import Mathlib.Tactic.NormNum
import Verif.Demo.Demo

/-!
# C35 (neuron), C41, C42, C43, C51, C28, C48: neurons and their updates
-/

set_option linter.all false

namespace Snn.NeuronSpec

open Finset Snn.Spec

/-! ### Bridges to exact arithmetic -/

section
variable {F : Type} [Field F] [LinearOrder F] [IsStrictOrderedRing F] [FTrans F]

theorem dotFrom_eq (t : F) : ∀ (xs ws : List F), xs.length ≤ ws.length →
    dotFrom t xs ws = t + ∑ i ∈ range xs.length, ws.getD i 0 * xs.getD i 0 := by
  intro xs
  induction xs generalizing t with
  | nil => intro ws _; simp [dotFrom]
  | cons x xs ih =>
    intro ws h
    cases ws with
    | nil => simp at h
    | cons w ws =>
      have := ih (t + x * w) ws (by simpa using h)
      simp only [dotFrom, List.zip_cons_cons, List.foldl_cons, List.length_cons] at this ⊢
      rw [this, Finset.sum_range_succ']
      simp
      ring

theorem affine_eq {w x : List F} {b wb : F} (h : x.length < w.length) (hw : w[x.length]? = some wb) :
    dotFrom (lit 0) x w + wb * b = affine w x b := by
  rw [dotFrom_eq _ _ _ (by omega)]
  simp [affine, hw]

end

/-! ### C35 — the output of a simple neuron, C51 — weights set are the weights used -/

section
variable {F : Type} [Field F] [LinearOrder F] [IsStrictOrderedRing F] [FTrans F]

/-- **C35** (one neuron): `output(x)` is `activation(Σ w_i x_i + w_n * bias)`, and it changes no weight. -/
theorem C35_neuron {n : Neuron F} {ni b : Nat} (h : n.WF ni (ni + 1) b) (x : List F) (hx : x.length = ni) :
    ∃ n', n.output x = .ok (n.activationFunction.obj.function (affine n.weights x n.bias), n') ∧
      n'.getWeights = n.getWeights ∧ n'.WF ni (ni + 1) b := by
  obtain ⟨s, wb, li, hwb, hs, _, ho, hw⟩ := Neuron.output_ok h x hx
  rw [affine_eq (by rw [h.wlen]; omega) (by rw [hx]; exact hwb)] at hs
  refine ⟨{ n with lastInputs := li, sum := s }, ?_, rfl, hw⟩
  rw [ho, hs]

end

section
variable {F : Type} [Flt F] [FTrans F] [Add F] [Sub F] [Mul F] [Div F] [Neg F]

/-- **C51** for every carrier: with the right number of values, `setWeights` returns, `getWeights` reads them back, and
the next `output` is the one of a neuron with these weights; otherwise `setWeights` throws (the neuron is unchanged: no
new state is returned). -/
theorem C51_setWeights {n : Neuron F} {ni b : Nat} (h : n.WF ni (ni + 1) b) (w : List F) :
    (w.length = ni + 1 → ∃ n', n.setWeights w = .ok n' ∧ n'.getWeights = w ∧ n'.WF ni (ni + 1) b ∧
      ∀ x, x.length = ni → ∃ wb n'', w[ni]? = some wb ∧
        n'.output x = .ok (n.activationFunction.obj.function (dotFrom (lit 0) x w + wb * n.bias), n'')) ∧
    (w.length ≠ ni + 1 → (n.setWeights w).isThrow = true) := by
  constructor
  · intro hw
    have hwf : Neuron.WF { n with weights := w } ni (ni + 1) b := ⟨h.inputs, h.batch, h.pos, hw, h.elen, h.last, h.prev⟩
    refine ⟨{ n with weights := w }, ?_, rfl, hwf, ?_⟩
    · unfold Neuron.setWeights
      rw [if_neg (by rw [h.wlen, hw]; simp)]
    · intro x hx
      obtain ⟨s, wb, li, hwb, hs, _, ho, _⟩ := Neuron.output_ok hwf x hx
      exact ⟨wb, _, hwb, by rw [ho, hs]⟩
  · intro hw
    unfold Neuron.setWeights
    rw [if_pos (by rw [h.wlen]; exact fun e => hw e.symm)]
    rfl

end

/-! ### C41 — SGD with momentum -/

section
variable {F : Type} [Field F] [LinearOrder F] [IsStrictOrderedRing F] [FTrans F]

/-- A training round of a neuron: a forward pass on `x`, then `backOutput(e)` (inner layers) or `train(e)` (first layer). -/
def round (n : Neuron F) (x : List F) (e : F) (back : Bool) : Res (Neuron F) := do
  let (_, n1) ← n.output x
  if back then do
    let (_, n2) ← n1.backOutput e
    return n2
  else n1.train e

/-- Inferences: forward passes only. -/
def infers (n : Neuron F) (xs : List (List F)) : Res (Neuron F) :=
  xs.foldlM (fun n x => do let (_, n1) ← n.output x; return n1) n

/-- The error at the affine form of a neuron: `e * activation'(Σ w x + w b)`. -/
def localError (n : Neuron F) (w x : List F) (e : F) : F :=
  e * n.activationFunction.obj.derivative (affine w x n.bias)

theorem lit_one_cast : (lit ((1 : Nat) : Rat) : F) = 1 := by simp

theorem circ_one {c : Circ F} {w : Nat} (h : c.WF 1 w) : ∃ v, c.queue = [v] ∧ v.length = w := by
  obtain ⟨v, hv⟩ := List.length_eq_one_iff.1 h.len
  exact ⟨v, hv, h.all v (by simp [hv])⟩

theorem getBack_one {c c' : Circ F} {w : Nat} {u v : List F} (h : c.queue = [v]) (hg : c.getBack = .ok (u, c')) :
    u = v ∧ c'.queue = [v] := by
  unfold Circ.getBack at hg
  obtain ⟨v', h1, h2⟩ := Res.bind_eq_ok.1 hg
  rw [rd_eq_ok, h] at h1
  obtain ⟨_, h1⟩ := h1
  simp only [Res.pure_eq, Res.ok.injEq, Prod.mk.injEq] at h2
  obtain ⟨rfl, rfl⟩ := h2
  refine ⟨?_, h⟩
  have : ∀ k : Nat, ([v] : List (List F))[k]? = some v' → v' = v := by
    intro k hk
    cases k with
    | zero => simpa using hk.symm
    | succ k => simp at hk
  exact this _ h1

theorem pushBack_one {c c' : Circ F} {u v : List F} (h : c.queue = [v]) (hp : c.pushBack u = .ok c') : c'.queue = [u] := by
  unfold Circ.pushBack at hp
  obtain ⟨q, h1, h2⟩ := Res.bind_eq_ok.1 hp
  rw [wr_eq_ok, h] at h1
  obtain ⟨⟨_, h3⟩, h4⟩ := h1
  cases h2
  have h0 : (↑(if c.indexPush ≥ [v].length then 0 else c.indexPush) : Int).toNat = 0 := by
    simp only [List.length_singleton] at h3 ⊢
    omega
  rw [← h4, h0]
  rfl

/-- Everything about one training round of a neuron with batch size 1. -/
theorem round_ok {n : Neuron F} {ni : Nat} (h : n.WF ni (ni + 1) 1) (x : List F) (hx : x.length = ni) (e : F) (back : Bool) :
    ∃ n' p dl, round n x e back = .ok n' ∧ n'.WF ni (ni + 1) 1 ∧
      n'.bias = n.bias ∧ n'.activationFunction = n.activationFunction ∧ n'.optimizer = n.optimizer ∧
      n.previousDeltaWeights.queue = [p] ∧ p.length = ni + 1 ∧
      sgdDeltas (n.optimizer.learningRate * localError n n.weights x e) n.optimizer.momentum (x ++ [n.bias]) p
        = sgdDeltas (n.optimizer.learningRate * localError n n.weights x e) n.optimizer.momentum x (p.take ni) ++ [dl] ∧
      n'.previousDeltaWeights.queue =
        [sgdDeltas (n.optimizer.learningRate * localError n n.weights x e) n.optimizer.momentum (x ++ [n.bias]) p] ∧
      n'.weights = List.zipWith (· + ·) (n.weights.take ni)
        (sgdDeltas (n.optimizer.learningRate * localError n n.weights x e) n.optimizer.momentum x (p.take ni)) ++ [dl] := by
  obtain ⟨s, wb, li0, hwb, hs, hpush, ho, hw⟩ := Neuron.output_ok h x hx
  rw [affine_eq (by rw [h.wlen]; omega) (by rw [hx]; exact hwb)] at hs
  obtain ⟨v, hv, _⟩ := circ_one h.last
  have hq1 : li0.queue = [x] := pushBack_one hv hpush
  have key : ∀ (es : List F), es.length = ni →
      ∃ n' p dl, n.optimizer.updateSimple { n with lastInputs := li0, sum := s, errors := es } (localError n n.weights x e)
          = .ok n' ∧ n'.WF ni (ni + 1) 1 ∧
      n'.bias = n.bias ∧ n'.activationFunction = n.activationFunction ∧ n'.optimizer = n.optimizer ∧
      n.previousDeltaWeights.queue = [p] ∧ p.length = ni + 1 ∧
      sgdDeltas (n.optimizer.learningRate * localError n n.weights x e) n.optimizer.momentum (x ++ [n.bias]) p
        = sgdDeltas (n.optimizer.learningRate * localError n n.weights x e) n.optimizer.momentum x (p.take ni) ++ [dl] ∧
      n'.previousDeltaWeights.queue =
        [sgdDeltas (n.optimizer.learningRate * localError n n.weights x e) n.optimizer.momentum (x ++ [n.bias]) p] ∧
      n'.weights = List.zipWith (· + ·) (n.weights.take ni)
        (sgdDeltas (n.optimizer.learningRate * localError n n.weights x e) n.optimizer.momentum x (p.take ni)) ++ [dl] := by
    intro es hes
    have hwf : Neuron.WF { n with lastInputs := li0, sum := s, errors := es } ni (ni + 1) 1 :=
      ⟨hw.inputs, hw.batch, hw.pos, hw.wlen, hes, hw.last, hw.prev⟩
    obtain ⟨x', li, p, pd, pd', wl, dl, hgx, hxl, hgp, hpl, hwl, hsp, hpp, hu, hwf'⟩ :=
      n.optimizer.updateSimple_ok hwf (localError n n.weights x e)
    obtain ⟨rfl, _⟩ := getBack_one (w := ni) hq1 hgx
    obtain ⟨p', hp', hp'l⟩ := circ_one h.prev
    obtain ⟨rfl, hpdq⟩ := getBack_one (w := ni + 1) hp' hgp
    have hlr : n.optimizer.learningRate / (lit ((1 : Nat) : Rat) : F) * localError n n.weights x' e
        = n.optimizer.learningRate * localError n n.weights x' e := by rw [lit_one_cast, div_one]
    simp only [hlr] at hsp hpp hu hwf'
    exact ⟨_, p, dl, hu, hwf', rfl, rfl, rfl, hp', hpl, hsp, pushBack_one hpdq hpp, rfl⟩
  cases back with
  | true =>
    obtain ⟨es, n', hbk, hwf', hes, hup⟩ := Neuron.backOutput_ok hw e
    simp only [hs] at hup hes
    obtain ⟨n'', p, dl, h1, h2⟩ := key es (by rw [hes]; simp [h.wlen])
    have : n'' = n' := by
      simp only [hs] at h1
      have := h1.symm.trans hup
      simpa using this
    subst this
    refine ⟨n'', p, dl, ?_, h2⟩
    simp [round, ho, hbk]
  | false =>
    obtain ⟨n', htr, hwf', hup⟩ := Neuron.train_ok hw e
    simp only [hs] at hup
    obtain ⟨n'', p, dl, h1, h2⟩ := key n.errors hw.elen
    have : n'' = n' := by
      simp only [hs] at h1
      have := h1.symm.trans hup
      simpa using this
    subst this
    refine ⟨n'', p, dl, ?_, h2⟩
    simp [round, ho, htr]

theorem infers_ok : ∀ (xs : List (List F)) {n : Neuron F} {ni : Nat}, n.WF ni (ni + 1) 1 → (∀ x ∈ xs, x.length = ni) →
    ∃ n', infers n xs = .ok n' ∧ n'.WF ni (ni + 1) 1 ∧ n'.weights = n.weights ∧ n'.bias = n.bias ∧
      n'.activationFunction = n.activationFunction ∧ n'.optimizer = n.optimizer ∧
      n'.previousDeltaWeights = n.previousDeltaWeights
  | [], n, ni, h, _ => ⟨n, rfl, h, rfl, rfl, rfl, rfl, rfl⟩
  | x :: xs, n, ni, h, hx => by
    obtain ⟨s, wb, li, _, _, _, ho, hw⟩ := Neuron.output_ok h x (hx x (by simp))
    obtain ⟨n', h1, h2, h3, h4, h5, h6, h7⟩ := infers_ok xs hw (fun y hy => hx y (by simp [hy]))
    refine ⟨n', ?_, h2, h3, h4, h5, h6, h7⟩
    simp only [infers] at h1 ⊢
    rw [List.foldlM_cons, ho]
    exact h1

theorem getD_zipWith_add {a b : List F} {i : Nat} (ha : i < a.length) (hb : i < b.length) :
    (List.zipWith (· + ·) a b).getD i 0 = a.getD i 0 + b.getD i 0 := by
  simp [List.getElem?_zipWith, ha, hb, List.getElem?_eq_getElem]

theorem getD_sgdDeltas {g m : F} {a b : List F} {i : Nat} (ha : i < a.length) (hb : i < b.length) :
    (sgdDeltas g m a b).getD i 0 = g * a.getD i 0 + m * b.getD i 0 := by
  simp [sgdDeltas, List.getElem?_zipWith, ha, hb, List.getElem?_eq_getElem]

/-- After a round, the weight `i` has moved by what the momentum memory now holds, which is
`lr * localError * x_i + momentum * (old memory)`. -/
theorem round_weight {n n' : Neuron F} {ni : Nat} (h : n.WF ni (ni + 1) 1) {x : List F} (hx : x.length = ni) {e : F}
    {back : Bool} (hr : round n x e back = .ok n') :
    n'.WF ni (ni + 1) 1 ∧ n'.bias = n.bias ∧ n'.activationFunction = n.activationFunction ∧ n'.optimizer = n.optimizer ∧
    ∃ p p', n.previousDeltaWeights.queue = [p] ∧ n'.previousDeltaWeights.queue = [p'] ∧
      (∀ i < ni + 1, p'.getD i 0 = n.optimizer.learningRate * localError n n.weights x e * (x ++ [n.bias]).getD i 0
        + n.optimizer.momentum * p.getD i 0) ∧
      (∀ i < ni, n'.weights.getD i 0 = n.weights.getD i 0 + p'.getD i 0) ∧
      n'.weights.getD ni 0 = p'.getD ni 0 := by
  obtain ⟨n'', p, dl, h1, h2, hb, ha, ho, hp, hpl, hsp, hq, hw⟩ := round_ok h x hx e back
  have : n'' = n' := by rw [hr] at h1; exact (Res.ok.inj h1).symm
  subst this
  refine ⟨h2, hb, ha, ho, p, _, hp, hq, ?_, ?_, ?_⟩
  · intro i hi
    exact getD_sgdDeltas (by simp [hx]; omega) (by omega)
  · intro i hi
    have hl : (sgdDeltas (n.optimizer.learningRate * localError n n.weights x e) n.optimizer.momentum x (p.take ni)).length = ni := by
      simp [sgdDeltas, hx, hpl]
    have hwt : (n.weights.take ni).length = ni := by simp [h.wlen]
    rw [hw, hsp, List.getD_append _ _ _ _ (by simp [hl, hwt]; omega), List.getD_append _ _ _ _ (by omega),
      getD_zipWith_add (by omega) (by omega)]
    congr 1
    simp [hi]
  · have hl : (sgdDeltas (n.optimizer.learningRate * localError n n.weights x e) n.optimizer.momentum x (p.take ni)).length = ni := by
      simp [sgdDeltas, hx, hpl]
    have hwt : (n.weights.take ni).length = ni := by simp [h.wlen]
    rw [hw, hsp, List.getD_append_right _ _ _ _ (by simp [hl, hwt]), List.getD_append_right _ _ _ _ (by omega)]
    simp [hl, hwt]

/-- **C41**, the input weights: from any state `n` of a neuron, after a training round (→ `n1`), any number of inferences
(→ `n1'`) and another training round (→ `n2`), the second increment of every input weight, read through `getWeights`, is
`lr * error * input + momentum * (first increment)`, where the error is taken at the neuron's affine form. The bias weight
is refuted below. -/
theorem C41_momentum_partial {n n1 n1' n2 : Neuron F} {ni : Nat} (h : n.WF ni (ni + 1) 1) {x1 x2 : List F}
    (hx1 : x1.length = ni) (hx2 : x2.length = ni) {xs : List (List F)} (hxs : ∀ x ∈ xs, x.length = ni) {e1 e2 : F}
    {b1 b2 : Bool} (r1 : round n x1 e1 b1 = .ok n1) (ri : infers n1 xs = .ok n1') (r2 : round n1' x2 e2 b2 = .ok n2) :
    ∀ i < ni, n2.getWeights.getD i 0 - n1.getWeights.getD i 0 =
      n.optimizer.learningRate * (e2 * n.activationFunction.obj.derivative (affine n1.getWeights x2 n.bias)) * x2.getD i 0
        + n.optimizer.momentum * (n1.getWeights.getD i 0 - n.getWeights.getD i 0) := by
  intro i hi
  obtain ⟨w1, hb1, ha1, ho1, p, p', hp, hp', hd1, hw1, _⟩ := round_weight h hx1 r1
  obtain ⟨m, hm, wm, hmw, hmb, hma, hmo, hmp⟩ := infers_ok xs w1 hxs
  have : m = n1' := by rw [ri] at hm; exact (Res.ok.inj hm).symm
  subst this
  obtain ⟨_, _, _, _, q, q', hq, hq', hd2, hw2, _⟩ := round_weight wm hx2 r2
  have hqp : q = p' := by rw [hmp, hp'] at hq; simpa using hq.symm
  subst hqp
  have e1' := hw1 i hi
  have e2' := hw2 i hi
  have e3 := hd2 i (by omega)
  rw [List.getD_append _ _ _ _ (by omega)] at e3
  simp only [Neuron.getWeights]
  rw [hmw] at e2'
  rw [e2', e3, e1', hmo, ho1, localError, hma, ha1, hmw, hmb, hb1]
  ring

/-- **C41**, first round of a new neuron: the momentum memory is empty, so the increment is `lr * error * input`. -/
theorem C41_first_round_partial {m : NeuronModel F} {o : Sgd F} {d : Nat → F} {n n1 : Neuron F} {x : List F} {e : F} {back : Bool}
    (hm : Neuron.make m o d = .ok n) (hb : m.batchSize = 1) (hw : m.numberOfWeights = m.numberOfInputs + 1)
    (hx : (x.length : Int) = m.numberOfInputs) (r : round n x e back = .ok n1) :
    ∀ i < x.length, n1.getWeights.getD i 0 - n.getWeights.getD i 0 =
      o.learningRate * (e * m.activationFunction.obj.derivative (affine n.getWeights x m.bias)) * x.getD i 0 := by
  intro i hi
  obtain ⟨hwf, h0, _, hbias, hact, hopt⟩ := Neuron.make_wf hm (by omega)
  have hbt : m.batchSize.toNat = 1 := by omega
  have hnw : m.numberOfWeights.toNat = x.length + 1 := by omega
  have hni : m.numberOfInputs.toNat = x.length := by omega
  rw [hbt, hnw, hni] at hwf
  obtain ⟨_, _, _, _, p, p', hp, _, hd, hww, _⟩ := round_weight hwf rfl r
  have hz : ∀ i, p.getD i 0 = 0 := by
    have hq : ∃ k : Nat, n.previousDeltaWeights.queue = List.replicate 1 (List.replicate k (0 : F)) := by
      unfold Neuron.make at hm
      split at hm
      · cases hm
      split at hm
      · cases hm
      obtain ⟨_, _, hm⟩ := Res.bind_eq_ok.1 hm
      obtain ⟨_, _, hm⟩ := Res.bind_eq_ok.1 hm
      obtain ⟨c, hc, hm⟩ := Res.bind_eq_ok.1 hm
      cases hm
      have e1 : m.batchSize = ((1 : Nat) : Int) := by omega
      have e2 : m.numberOfWeights = ((m.numberOfWeights.toNat : Nat) : Int) := by omega
      rw [e1, e2, Circ.init_ok] at hc
      cases hc
      exact ⟨_, by simp; rfl⟩
    obtain ⟨k, hk⟩ := hq
    rw [hp] at hk
    simp at hk
    intro i
    rw [hk]
    simp [List.getD_replicate]
  have e1 := hww i hi
  have e2 := hd i (by omega)
  rw [List.getD_append _ _ _ _ (by omega), hz] at e2
  simp only [Neuron.getWeights]
  rw [e1, e2, hopt, localError, hact, hbias]
  ring

/-- **C41 is false of the bias weight**: in every training round of every neuron the new bias weight *is* the increment;
it is `old + increment` only when the old value is 0. (StochasticGradientDescent.cpp:37 assigns instead of adding.) -/
theorem C41_bias_refuted {n n1 : Neuron F} {ni : Nat} (h : n.WF ni (ni + 1) 1) {x : List F} (hx : x.length = ni) {e : F}
    {back : Bool} (r : round n x e back = .ok n1) :
    ∃ p p', n.previousDeltaWeights.queue = [p] ∧ n1.previousDeltaWeights.queue = [p'] ∧
      p'.getD ni 0 = n.optimizer.learningRate * localError n n.weights x e * n.bias + n.optimizer.momentum * p.getD ni 0 ∧
      n1.getWeights.getD ni 0 = p'.getD ni 0 ∧
      (n1.getWeights.getD ni 0 = n.getWeights.getD ni 0 + p'.getD ni 0 ↔ n.getWeights.getD ni 0 = 0) := by
  obtain ⟨_, _, _, _, p, p', hp, hp', hd, _, hb⟩ := round_weight h hx r
  refine ⟨p, p', hp, hp', ?_, hb, ?_⟩
  · rw [hd ni (by omega), List.getD_append_right _ _ _ _ (by omega)]
    simp [hx]
  · simp only [Neuron.getWeights, hb]
    constructor
    · intro h; linarith
    · intro h; rw [h]; ring

end

/-! ### The hypotheses are met -/

/-- A neuron with three inputs, as built by the library. -/
def someNeuron : Neuron ℚ :=
  (Neuron.make { numberOfInputs := 3, batchSize := 1, numberOfWeights := 4, bias := (1 : ℚ), activationFunction := .identity } { learningRate := 1/10, momentum := 1/2 }
    (fun i => 1 / ((i : ℚ) + 2))).get (by decide +kernel)

theorem someNeuron_wf : someNeuron.WF 3 4 1 :=
  (Neuron.make_wf (Res.eq_get (Neuron.make { numberOfInputs := 3, batchSize := 1, numberOfWeights := 4, bias := (1 : ℚ), activationFunction := .identity }
    { learningRate := 1/10, momentum := 1/2 } (fun i => 1 / ((i : ℚ) + 2))) (by decide +kernel)) (by norm_num)).1

/-- Two training rounds with inferences in between: the hypotheses of C35, C41 and C51 hold, and the weights do change. -/
example : ∃ n1 n1' n2, round someNeuron [1, 2, 3] (1/2) true = .ok n1 ∧ infers n1 [[1, 1, 1], [0, 2, 0]] = .ok n1' ∧
    round n1' [3, 2, 1] (-1/3) false = .ok n2 ∧ n2.getWeights ≠ n1.getWeights ∧ n1.getWeights ≠ someNeuron.getWeights :=
  ⟨_, _, _, Res.eq_get _ (by decide +kernel), Res.eq_get _ (by decide +kernel), Res.eq_get _ (by decide +kernel), by decide +kernel, by decide +kernel⟩

example : (someNeuron.setWeights [1, 2, 3, 4]).isOk = true ∧ (someNeuron.setWeights [1, 2, 3]).isThrow = true := by decide +kernel

end Snn.NeuronSpec
