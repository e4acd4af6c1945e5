import Verif.Model.Neuron

/-! Well-formedness of neurons and evaluation lemmas. -/

set_option linter.all false

namespace Snn

section
variable {F : Type}

/-- A circular buffer of `q` vectors of `w` values. -/
structure Circ.WF (c : Circ F) (q w : Nat) : Prop where
  len : c.queue.length = q
  all : ∀ v ∈ c.queue, v.length = w

/-- The shape invariant of the state shared by all neurons: `ni` inputs, `nw` weights, buffers of `b` entries. -/
structure Neuron.WF (n : Neuron F) (ni nw b : Nat) : Prop where
  inputs : n.numberOfInputs = ni
  batch : n.batchSize = b
  pos : 0 < b
  wlen : n.weights.length = nw
  elen : n.errors.length = ni
  last : n.lastInputs.WF b ni
  prev : n.previousDeltaWeights.WF b nw

/-- A recurrent neuron has two more weights than inputs. -/
def RecNeuron.WF (n : RecNeuron F) (ni b : Nat) : Prop := n.base.WF ni (ni + 2) b

/-- A gated recurrent unit is made of three recurrent neurons. -/
structure Gru.WF (g : Gru F) (ni b : Nat) : Prop where
  inputs : g.numberOfInputs = ni
  r : g.resetGate.WF ni b
  u : g.updateGate.WF ni b
  o : g.outputGate.WF ni b

theorem Circ.getBack_ok {c : Circ F} {q w : Nat} (h : c.WF q w) (hq : 0 < q) :
    ∃ v, v.length = w ∧ c.queue[if c.indexGet ≥ c.queue.length then 0 else c.indexGet]? = some v ∧
      c.getBack = .ok (v, { c with indexGet := (if c.indexGet ≥ c.queue.length then 0 else c.indexGet) + 1 }) := by
  have hi : (if c.indexGet ≥ c.queue.length then 0 else c.indexGet) < c.queue.length := by
    split
    · rw [h.len]; exact hq
    · omega
  refine ⟨c.queue[if c.indexGet ≥ c.queue.length then 0 else c.indexGet], h.all _ (List.getElem_mem _),
    List.getElem?_eq_getElem hi, ?_⟩
  unfold Circ.getBack
  simp only []
  rw [rd_nat _ _ hi]
  rfl

theorem Circ.pushBack_ok {c : Circ F} {q w : Nat} (h : c.WF q w) (hq : 0 < q) (v : List F) :
    c.pushBack v = .ok { c with
      queue := c.queue.set (if c.indexPush ≥ c.queue.length then 0 else c.indexPush) v
      indexPush := (if c.indexPush ≥ c.queue.length then 0 else c.indexPush) + 1 } := by
  have hi : (if c.indexPush ≥ c.queue.length then 0 else c.indexPush) < c.queue.length := by
    split
    · rw [h.len]; exact hq
    · omega
  unfold Circ.pushBack
  simp only []
  rw [wr_nat _ _ _ hi]
  rfl

theorem Circ.WF.set {c : Circ F} {q w : Nat} (h : c.WF q w) (i j k : Nat) {v : List F} (hv : v.length = w) :
    Circ.WF { queue := c.queue.set i v, indexPush := j, indexGet := k } q w := by
  refine ⟨by simp [h.len], ?_⟩
  intro u hu
  rcases List.mem_or_eq_of_mem_set hu with h1 | h1
  · exact h.all _ h1
  · rw [h1]; exact hv

theorem Circ.WF.idx {c : Circ F} {q w : Nat} (h : c.WF q w) (j k : Nat) :
    Circ.WF { queue := c.queue, indexPush := j, indexGet := k } q w := ⟨h.len, h.all⟩

variable [Flt F] [FTrans F] [Add F] [Sub F] [Mul F] [Div F] [Neg F]

theorem Circ.init_ok (q w : Nat) :
    Circ.init (F := F) (q : Int) (w : Int) =
      .ok { queue := List.replicate q (List.replicate w (lit 0)), indexPush := 0, indexGet := 0 } := by
  unfold Circ.init
  rw [if_neg (by omega), if_neg (by omega)]
  simp

theorem Circ.init_wf (q w : Nat) :
    Circ.WF (F := F) { queue := List.replicate q (List.replicate w (lit 0)), indexPush := 0, indexGet := 0 } q w := by
  refine ⟨by simp, ?_⟩
  intro v hv
  have := List.eq_of_mem_replicate hv
  rw [this]; simp

/-- The accumulated products, from left to right. -/
def dotFrom (t : F) (xs ws : List F) : F := (xs.zip ws).foldl (fun a p => a + p.1 * p.2) t

theorem dotLoop_ok : ∀ (t : F) (xs ws : List F), xs.length ≤ ws.length → dotLoop t xs ws = .ok (dotFrom t xs ws)
  | t, [], ws, _ => by simp [dotLoop, dotFrom]
  | t, x :: xs, [], h => by simp at h
  | t, x :: xs, w :: ws, h => by
    have := dotLoop_ok (t + x * w) xs ws (by simpa using h)
    simpa [dotLoop, dotFrom] using this

theorem sgdLoop_ok (lrE m : F) : ∀ (k : Nat) (xs ps ws : List F), k ≤ xs.length → k ≤ ps.length → k ≤ ws.length →
    sgdLoop lrE m k xs ps ws =
      .ok (List.zipWith (fun x p => lrE * x + m * p) (xs.take k) (ps.take k),
        List.zipWith (· + ·) (ws.take k) (List.zipWith (fun x p => lrE * x + m * p) (xs.take k) (ps.take k)))
  | 0, xs, ps, ws, _, _, _ => by simp [sgdLoop]
  | k + 1, [], ps, ws, h, _, _ => by simp at h
  | k + 1, x :: xs, [], ws, _, h, _ => by simp at h
  | k + 1, x :: xs, p :: ps, [], _, _, h => by simp at h
  | k + 1, x :: xs, p :: ps, w :: ws, h1, h2, h3 => by
    have := sgdLoop_ok lrE m k xs ps ws (by simpa using h1) (by simpa using h2) (by simpa using h3)
    simp [sgdLoop, this]

theorem errorLoop_ok (e : F) : ∀ (k : Nat) (es ws : List F), k ≤ es.length → k ≤ ws.length →
    errorLoop e k es ws = .ok ((ws.take k).map (fun w => e * w) ++ es.drop k)
  | 0, es, ws, _, _ => by simp [errorLoop]
  | k + 1, [], ws, h, _ => by simp at h
  | k + 1, x :: es, [], _, h => by simp at h
  | k + 1, x :: es, w :: ws, h1, h2 => by
    have := errorLoop_ok e k es ws (by simpa using h1) (by simpa using h2)
    simp [errorLoop, this]

/-- The activation object of an enumerator (C44_get proves it is what `Act.get` returns). -/
def Act.obj : Act → ActObj
  | .sigmoid => .Sigmoid
  | .iSigmoid => .ImprovedSigmoid
  | .tanh => .Tanh
  | .relu => .RectifiedLinearUnit
  | .gelu => .GaussianErrorLinearUnit
  | .gaussian => .Gaussian
  | .identity => .Identity

theorem Act.get_obj (a : Act) : a.get = .ok a.obj := by cases a <;> rfl
theorem Act.apply_ok (a : Act) (x : F) : a.apply x = .ok (a.obj.function x) := by simp [Act.apply, Act.get_obj]
theorem Act.deriv_ok (a : Act) (x : F) : a.deriv x = .ok (a.obj.derivative x) := by simp [Act.deriv, Act.get_obj]

theorem backOf_ok {α : Type} {l : List α} (h : l ≠ []) : backOf l = .ok (l.getLast h) := by
  simp [backOf, List.getLast?_eq_some_getLast h]

theorem Neuron.make_wf {m : NeuronModel F} {o : Sgd F} {d : Nat → F} {n : Neuron F} (h : Neuron.make m o d = .ok n)
    (hb : 0 < m.batchSize) :
    n.WF m.numberOfInputs.toNat m.numberOfWeights.toNat m.batchSize.toNat ∧ 0 ≤ m.numberOfInputs ∧
      0 < m.numberOfWeights ∧ n.bias = m.bias ∧ n.activationFunction = m.activationFunction ∧ n.optimizer = o := by
  unfold Neuron.make at h
  split at h
  · cases h
  split at h
  · cases h
  rename_i h1 h2
  obtain ⟨last, hl, h⟩ := Res.bind_eq_ok.1 h
  have e1 : m.numberOfInputs = (m.numberOfInputs.toNat : Int) := by omega
  have e2 : m.numberOfWeights = (m.numberOfWeights.toNat : Int) := by omega
  have e3 : m.batchSize = (m.batchSize.toNat : Int) := by omega
  rw [e3, e1, e2, Circ.init_ok, Circ.init_ok] at h
  simp only [Res.ok_bind, Res.pure_eq, Res.ok.injEq] at h
  have hne : 0 < m.numberOfWeights := by
    by_contra hc
    have : m.numberOfWeights.toNat = 0 := by omega
    rw [this] at hl
    simp [backOf] at hl
  subst h
  refine ⟨⟨by simp, by simp, by omega, ?_, by simp; omega, Circ.init_wf _ _, Circ.init_wf _ _⟩, by omega, hne, rfl, rfl, rfl⟩
  simp; omega

theorem Neuron.make_ok (m : NeuronModel F) (o : Sgd F) (d : Nat → F) (h1 : 0 ≤ m.numberOfInputs)
    (h2 : 0 < m.numberOfWeights) (h3 : 0 ≤ m.batchSize) : ∃ n, Neuron.make m o d = .ok n := by
  unfold Neuron.make
  rw [if_neg (by omega), if_neg (by omega)]
  have hne : ((List.range m.numberOfWeights.toNat).map fun w => randomInitializeWeight m.numberOfWeights (d w)) ≠ [] := by
    simp; omega
  have e1 : m.numberOfInputs = (m.numberOfInputs.toNat : Int) := by omega
  have e2 : m.numberOfWeights = (m.numberOfWeights.toNat : Int) := by omega
  have e3 : m.batchSize = (m.batchSize.toNat : Int) := by omega
  simp only [backOf_ok hne, Res.ok_bind]
  have c1 := Circ.init_ok (F := F) m.batchSize.toNat m.numberOfInputs.toNat
  have c2 := Circ.init_ok (F := F) m.batchSize.toNat m.numberOfWeights.toNat
  rw [← e3, ← e1] at c1
  rw [← e3, ← e2] at c2
  rw [c1, c2]
  exact ⟨_, rfl⟩

/-- What `output` of a simple neuron returns, and its new state. -/
theorem Neuron.output_ok {n : Neuron F} {ni b : Nat} (h : n.WF ni (ni + 1) b) (xs : List F) (hx : xs.length = ni) :
    ∃ s wb li, n.weights[ni]? = some wb ∧ s = dotFrom (lit 0) xs n.weights + wb * n.bias ∧
      n.lastInputs.pushBack xs = .ok li ∧
      n.output xs = .ok (n.activationFunction.obj.function s, { n with lastInputs := li, sum := s }) ∧
      Neuron.WF { n with lastInputs := li, sum := s } ni (ni + 1) b := by
  have hb : ni < n.weights.length := by rw [h.wlen]; omega
  refine ⟨_, n.weights[ni], _, List.getElem?_eq_getElem hb, rfl, Circ.pushBack_ok h.last h.pos _, ?_, ?_⟩
  · unfold Neuron.output
    rw [Circ.pushBack_ok h.last h.pos, dotLoop_ok _ _ _ (by omega), hx]
    simp only [Res.ok_bind]
    rw [rd_nat _ _ hb]
    simp [Act.apply_ok]
  · exact ⟨h.inputs, h.batch, h.pos, h.wlen, h.elen, h.last.set _ _ _ hx, h.prev⟩

theorem list_split_last {α : Type} {l : List α} {k : Nat} (h : l.length = k + 1) :
    ∃ a, l[k]? = some a ∧ l = l.take k ++ [a] := by
  have hk : k < l.length := by omega
  refine ⟨l[k], List.getElem?_eq_getElem hk, ?_⟩
  rw [List.take_append_getElem hk, List.take_of_length_le (by omega)]

/-- The increments of one SGD step: one per weight, the bias being a constant input. -/
def sgdDeltas (lrE m : F) (xs ps : List F) : List F := List.zipWith (fun x p => lrE * x + m * p) xs ps

/-- One SGD step on a simple neuron: the increments, and the new weights — every weight but the last is incremented, the
last one is replaced by its increment. -/
theorem Sgd.updateSimple_ok (o : Sgd F) {n : Neuron F} {ni b : Nat} (h : n.WF ni (ni + 1) b) (e : F) :
    ∃ x li p pd pd' wl dl, n.lastInputs.getBack = .ok (x, li) ∧ x.length = ni ∧
      n.previousDeltaWeights.getBack = .ok (p, pd) ∧ p.length = ni + 1 ∧
      n.weights = n.weights.take ni ++ [wl] ∧
      sgdDeltas (o.learningRate / lit (b : Rat) * e) o.momentum (x ++ [n.bias]) p
        = sgdDeltas (o.learningRate / lit (b : Rat) * e) o.momentum x (p.take ni) ++ [dl] ∧
      pd.pushBack (sgdDeltas (o.learningRate / lit (b : Rat) * e) o.momentum (x ++ [n.bias]) p) = .ok pd' ∧
      o.updateSimple n e = .ok { n with
        lastInputs := li, previousDeltaWeights := pd'
        weights := List.zipWith (· + ·) (n.weights.take ni)
          (sgdDeltas (o.learningRate / lit (b : Rat) * e) o.momentum x (p.take ni)) ++ [dl] } ∧
      Neuron.WF { n with
        lastInputs := li, previousDeltaWeights := pd'
        weights := List.zipWith (· + ·) (n.weights.take ni)
          (sgdDeltas (o.learningRate / lit (b : Rat) * e) o.momentum x (p.take ni)) ++ [dl] } ni (ni + 1) b := by
  obtain ⟨x, hx, _, hgx⟩ := Circ.getBack_ok h.last h.pos
  obtain ⟨p, hp, _, hgp⟩ := Circ.getBack_ok h.prev h.pos
  obtain ⟨wl, hwl1, hwl⟩ := list_split_last h.wlen
  obtain ⟨pl, hpl1, hpl⟩ := list_split_last hp
  have hptl : (p.take ni).length = ni := by simp [hp]
  have hsplit : sgdDeltas (o.learningRate / lit (b : Rat) * e) o.momentum (x ++ [n.bias]) p
        = sgdDeltas (o.learningRate / lit (b : Rat) * e) o.momentum x (p.take ni)
          ++ [o.learningRate / lit (b : Rat) * e * n.bias + o.momentum * pl] := by
    conv_lhs => rw [hpl]
    unfold sgdDeltas
    rw [List.zipWith_append (by rw [hx, hptl])]
    simp
  have hlen : (sgdDeltas (o.learningRate / lit (b : Rat) * e) o.momentum (x ++ [n.bias]) p).length = ni + 1 := by
    simp [sgdDeltas, hx, hp]
  have hpd := h.prev.idx n.previousDeltaWeights.indexPush
    ((if n.previousDeltaWeights.indexGet ≥ n.previousDeltaWeights.queue.length then 0 else n.previousDeltaWeights.indexGet) + 1)
  refine ⟨x, _, p, _, _, wl, _, hgx, hx, hgp, hp, hwl, hsplit, Circ.pushBack_ok hpd h.pos _, ?_, ?_⟩
  · unfold Sgd.updateSimple
    rw [hgx, hgp]
    simp only [Res.ok_bind]
    have hk : n.numberOfInputs.toNat = ni := by rw [h.inputs]; simp
    rw [hk, sgdLoop_ok _ _ _ _ _ _ (by omega) (by omega) (by rw [h.wlen]; omega)]
    simp only [Res.ok_bind]
    have r1 : rd p (ni : Int) = .ok pl := by rw [rd_eq_ok]; simpa using hpl1
    have r2 : rd n.weights (ni : Int) = .ok wl := by rw [rd_eq_ok]; simpa using hwl1
    rw [r1]; simp only [Res.ok_bind]
    rw [r2]; simp only [Res.ok_bind]
    have hdrop : n.weights.drop (ni + 1) = [] := by rw [List.drop_eq_nil_iff]; rw [h.wlen]
    have hrep : n.weights.length - (ni + 1) = 0 := by rw [h.wlen]; omega
    rw [hdrop, hrep, List.take_of_length_le (l := x) (by omega), h.batch]
    have := Circ.pushBack_ok hpd h.pos (sgdDeltas (o.learningRate / lit (b : Rat) * e) o.momentum (x ++ [n.bias]) p)
    rw [hsplit] at this
    simp only [List.replicate_zero]
    simp only [sgdDeltas] at this ⊢
    have hcast : (((b : Int) : Rat)) = (b : Rat) := by simp
    rw [hcast, this]
    simp only [Res.ok_bind, Res.pure_eq]
    have hs := hsplit
    simp only [sgdDeltas] at hs
    rw [hs]
  · refine ⟨h.inputs, h.batch, h.pos, ?_, h.elen, h.last.idx _ _, hpd.set _ _ _ hlen⟩
    simp [sgdDeltas, hx, hp, h.wlen]

theorem Neuron.train_ok {n : Neuron F} {ni b : Nat} (h : n.WF ni (ni + 1) b) (e : F) :
    ∃ n', n.train e = .ok n' ∧ n'.WF ni (ni + 1) b ∧
      n.optimizer.updateSimple n (e * n.activationFunction.obj.derivative n.sum) = .ok n' := by
  obtain ⟨x, li, p, pd, pd', wl, dl, _, _, _, _, _, _, _, hu, hw⟩ :=
    n.optimizer.updateSimple_ok h (e * n.activationFunction.obj.derivative n.sum)
  exact ⟨_, by simp [Neuron.train, Act.deriv_ok, hu], hw, hu⟩

theorem Neuron.backOutput_ok {n : Neuron F} {ni b : Nat} (h : n.WF ni (ni + 1) b) (e : F) :
    ∃ es n', n.backOutput e = .ok (es, n') ∧ n'.WF ni (ni + 1) b ∧
      es = (n.weights.take ni).map (fun w => e * n.activationFunction.obj.derivative n.sum * w) ∧
      n.optimizer.updateSimple { n with errors := es } (e * n.activationFunction.obj.derivative n.sum) = .ok n' := by
  have he : errorLoop (e * n.activationFunction.obj.derivative n.sum) n.errors.length n.errors n.weights
      = .ok ((n.weights.take ni).map (fun w => e * n.activationFunction.obj.derivative n.sum * w)) := by
    rw [errorLoop_ok _ _ _ _ (le_refl _) (by rw [h.elen, h.wlen]; omega), h.elen]
    rw [List.drop_eq_nil_of_le (by rw [h.elen])]
    simp
  have h' : Neuron.WF { n with errors := (n.weights.take ni).map (fun w => e * n.activationFunction.obj.derivative n.sum * w) }
      ni (ni + 1) b := ⟨h.inputs, h.batch, h.pos, h.wlen, by simp [h.wlen], h.last, h.prev⟩
  obtain ⟨x, li, p, pd, pd', wl, dl, _, _, _, _, _, _, _, hu, hw⟩ :=
    n.optimizer.updateSimple_ok h' (e * n.activationFunction.obj.derivative n.sum)
  refine ⟨_, _, ?_, hw, rfl, hu⟩
  simp only [Neuron.backOutput, Act.deriv_ok, Res.ok_bind, he]
  rw [hu]
  rfl

/-! ### Recurrent neurons -/

theorem RecNeuron.make_wf {m : NeuronModel F} {o : Sgd F} {d : Nat → F} {n : RecNeuron F}
    (h : RecNeuron.make m o d = .ok n) (hb : 0 < m.batchSize) (hw : m.numberOfWeights = m.numberOfInputs + 2) :
    n.WF m.numberOfInputs.toNat m.batchSize.toNat ∧ 0 ≤ m.numberOfInputs ∧ n.base.bias = m.bias ∧
      n.base.activationFunction = m.activationFunction ∧ n.base.optimizer = o ∧ n.lastOutput = lit 0 ∧
      n.previousOutput = lit 0 ∧ n.recurrentError = lit 0 ∧ n.previousSum = lit 0 ∧ n.base.sum = lit 0 := by
  obtain ⟨b, hm, h⟩ := Res.bind_eq_ok.1 h
  obtain ⟨h1, h2, h3, h4, h5, h6⟩ := Neuron.make_wf hm hb
  have hs : b.sum = lit 0 := by
    unfold Neuron.make at hm
    split at hm
    · cases hm
    split at hm
    · cases hm
    obtain ⟨_, _, hm⟩ := Res.bind_eq_ok.1 hm
    obtain ⟨_, _, hm⟩ := Res.bind_eq_ok.1 hm
    obtain ⟨_, _, hm⟩ := Res.bind_eq_ok.1 hm
    cases hm; rfl
  cases h
  refine ⟨?_, h2, h4, h5, h6, rfl, rfl, rfl, rfl, hs⟩
  have : m.numberOfWeights.toNat = m.numberOfInputs.toNat + 2 := by omega
  rw [this] at h1
  exact h1

/-- What a temporal reset does before an output (RecurrentNeuron.cpp:61-67). -/
def RecNeuron.prepare (n : RecNeuron F) (temporalReset : Bool) : RecNeuron F := if temporalReset then n.reset else n

theorem RecNeuron.prepare_base (n : RecNeuron F) (t : Bool) : (n.prepare t).base = n.base := by
  unfold RecNeuron.prepare; split <;> rfl

theorem RecNeuron.prepare_lastOutput (n : RecNeuron F) (t : Bool) : (n.prepare t).lastOutput = n.lastOutput := by
  unfold RecNeuron.prepare; split <;> rfl

theorem RecNeuron.output_ok {n : RecNeuron F} {ni b : Nat} (h : n.WF ni b) (xs : List F) (hx : xs.length = ni) (t : Bool) :
    ∃ s wr wb li, n.base.weights[ni]? = some wr ∧ n.base.weights[ni + 1]? = some wb ∧
      s = dotFrom (lit 0) xs n.base.weights + n.lastOutput * wr + n.base.bias * wb ∧
      n.base.lastInputs.pushBack xs = .ok li ∧
      n.output xs t = .ok (n.base.activationFunction.obj.function s, { (n.prepare t) with
        base := { n.base with lastInputs := li, sum := s }
        previousSum := n.base.sum
        previousOutput := n.lastOutput
        lastOutput := n.base.activationFunction.obj.function s }) ∧
      RecNeuron.WF { (n.prepare t) with
        base := { n.base with lastInputs := li, sum := s }
        previousSum := n.base.sum
        previousOutput := n.lastOutput
        lastOutput := n.base.activationFunction.obj.function s } ni b := by
  unfold RecNeuron.WF at h
  have hr : ni < n.base.weights.length := by rw [h.wlen]; omega
  have hb : ni + 1 < n.base.weights.length := by rw [h.wlen]; omega
  have hp := Circ.pushBack_ok h.last h.pos xs
  refine ⟨_, n.base.weights[ni], n.base.weights[ni + 1], _, List.getElem?_eq_getElem hr, List.getElem?_eq_getElem hb, rfl,
    hp, ?_, ?_⟩
  · unfold RecNeuron.output
    change (do
      let n := n.prepare t
      let lastInputs ← n.base.lastInputs.pushBack xs
      let previousSum := n.base.sum
      let previousOutput := n.lastOutput
      let tmp ← dotLoop (lit 0) xs n.base.weights
      let wr ← rd n.base.weights (xs.length : Int)
      let wb ← rd n.base.weights (xs.length + 1 : Int)
      let sum := tmp + previousOutput * wr + n.base.bias * wb
      let out ← n.base.activationFunction.apply sum
      return (out, { n with
        base := { n.base with lastInputs := lastInputs, sum := sum }
        previousSum := previousSum, previousOutput := previousOutput, lastOutput := out })) = _
    simp only [RecNeuron.prepare_base, RecNeuron.prepare_lastOutput]
    rw [hp, dotLoop_ok _ _ _ (by omega), hx]
    simp only [Res.ok_bind]
    have h2 : ((ni : Int) + 1) = ((ni + 1 : Nat) : Int) := by omega
    rw [rd_nat _ _ hr, h2, rd_nat _ _ hb]
    simp [Act.apply_ok]
  · exact ⟨h.inputs, h.batch, h.pos, h.wlen, h.elen, h.last.set _ _ _ hx, h.prev⟩

/-- One SGD step on a recurrent neuron: the input weights are incremented; the weight after them is incremented twice (once
with the bias as input, once with the previous output); the last weight (the one `output` uses for the bias) is left. -/
theorem Sgd.updateRec_ok (o : Sgd F) {r : RecNeuron F} {ni b : Nat} (h : r.WF ni b) (e : F) :
    ∃ x li p pd pd' pl wk wl w1 re d2, r.base.lastInputs.getBack = .ok (x, li) ∧ x.length = ni ∧
      r.base.previousDeltaWeights.getBack = .ok (p, pd) ∧ p.length = ni + 2 ∧ p[ni]? = some pl ∧
      r.base.weights = r.base.weights.take ni ++ [wk, wl] ∧
      w1 = wk + (o.learningRate / lit (b : Rat) * e * r.base.bias + o.momentum * pl) ∧
      re = e + r.recurrentError * r.base.activationFunction.obj.derivative r.previousSum * w1 ∧
      d2 = o.learningRate / lit (b : Rat) * re * r.previousOutput + o.momentum * pl ∧
      pd.pushBack (sgdDeltas (o.learningRate / lit (b : Rat) * e) o.momentum x (p.take ni) ++ [d2, lit 0]) = .ok pd' ∧
      o.updateRec r e = .ok { r with
        base := { r.base with
          lastInputs := li, previousDeltaWeights := pd'
          weights := List.zipWith (· + ·) (r.base.weights.take ni)
            (sgdDeltas (o.learningRate / lit (b : Rat) * e) o.momentum x (p.take ni)) ++ [w1 + d2, wl] }
        recurrentError := re } ∧
      RecNeuron.WF { r with
        base := { r.base with
          lastInputs := li, previousDeltaWeights := pd'
          weights := List.zipWith (· + ·) (r.base.weights.take ni)
            (sgdDeltas (o.learningRate / lit (b : Rat) * e) o.momentum x (p.take ni)) ++ [w1 + d2, wl] }
        recurrentError := re } ni b := by
  unfold RecNeuron.WF at h
  obtain ⟨x, hx, _, hgx⟩ := Circ.getBack_ok h.last h.pos
  obtain ⟨p, hp, _, hgp⟩ := Circ.getBack_ok h.prev h.pos
  have hk1 : ni < r.base.weights.length := by rw [h.wlen]; omega
  have hk2 : ni + 1 < r.base.weights.length := by rw [h.wlen]; omega
  have hp1 : ni < p.length := by omega
  have hdrop : r.base.weights.drop (ni + 1) = [r.base.weights[ni + 1]] := by
    rw [List.drop_eq_getElem_cons hk2, List.drop_eq_nil_of_le (by rw [h.wlen])]
  have hws : r.base.weights = r.base.weights.take ni ++ [r.base.weights[ni], r.base.weights[ni + 1]] := by
    conv_lhs => rw [← List.take_append_drop ni r.base.weights, List.drop_eq_getElem_cons hk1, hdrop]
  have hrep : List.replicate (r.base.weights.length - (ni + 1)) (lit 0 : F) = [lit 0] := by
    rw [h.wlen]; have : ni + 2 - (ni + 1) = 1 := by omega
    rw [this]; rfl
  have hpd := h.prev.idx r.base.previousDeltaWeights.indexPush
    ((if r.base.previousDeltaWeights.indexGet ≥ r.base.previousDeltaWeights.queue.length then 0
      else r.base.previousDeltaWeights.indexGet) + 1)
  refine ⟨x, _, p, _, _, p[ni], r.base.weights[ni], r.base.weights[ni + 1], _, _, _, hgx, hx, hgp, hp,
    List.getElem?_eq_getElem hp1, hws, rfl, rfl, rfl, Circ.pushBack_ok hpd h.pos _, ?_, ?_⟩
  · unfold Sgd.updateRec
    simp only []
    rw [hgx, hgp]
    simp only [Res.ok_bind]
    have hk : r.base.numberOfInputs.toNat = ni := by rw [h.inputs]; simp
    rw [hk, sgdLoop_ok _ _ _ _ _ _ (by omega) (by omega) (by omega)]
    simp only [Res.ok_bind]
    rw [rd_nat _ _ hp1]; simp only [Res.ok_bind]
    rw [rd_nat _ _ hk1]; simp only [Res.ok_bind, Act.deriv_ok]
    rw [hdrop, hrep, List.take_of_length_le (l := x) (by omega), h.batch]
    have hcast : (((b : Int) : Rat)) = (b : Rat) := by simp
    rw [hcast]
    simp only [sgdDeltas]
    rw [Circ.pushBack_ok hpd h.pos]
    rfl
  · refine ⟨h.inputs, h.batch, h.pos, ?_, h.elen, h.last.idx _ _, hpd.set _ _ _ ?_⟩
    · simp [sgdDeltas, hx, hp, h.wlen]
    · simp [sgdDeltas, hx, hp]

theorem RecNeuron.train_ok {r : RecNeuron F} {ni b : Nat} (h : r.WF ni b) (e : F) :
    ∃ r', r.train e = .ok r' ∧ r'.WF ni b ∧
      r.base.optimizer.updateRec r (e * r.base.activationFunction.obj.derivative r.base.sum) = .ok r' := by
  obtain ⟨x, li, p, pd, pd', pl, wk, wl, w1, re, d2, _, _, _, _, _, _, _, _, _, _, hu, hw⟩ :=
    r.base.optimizer.updateRec_ok h (e * r.base.activationFunction.obj.derivative r.base.sum)
  exact ⟨_, by simp [RecNeuron.train, Act.deriv_ok, hu], hw, hu⟩

theorem RecNeuron.backOutput_ok {r : RecNeuron F} {ni b : Nat} (h : r.WF ni b) (e : F) :
    ∃ es r', r.backOutput e = .ok (es, r') ∧ r'.WF ni b ∧
      es = (r.base.weights.take ni).map (fun w => e * r.base.activationFunction.obj.derivative r.base.sum * w) ∧
      es.length = ni ∧
      r.base.optimizer.updateRec { r with base := { r.base with errors := es } }
        (e * r.base.activationFunction.obj.derivative r.base.sum) = .ok r' := by
  unfold RecNeuron.WF at h
  have hk : r.base.numberOfInputs.toNat = ni := by rw [h.inputs]; simp
  have he : errorLoop (e * r.base.activationFunction.obj.derivative r.base.sum) r.base.numberOfInputs.toNat r.base.errors
      r.base.weights
      = .ok ((r.base.weights.take ni).map (fun w => e * r.base.activationFunction.obj.derivative r.base.sum * w)) := by
    rw [hk, errorLoop_ok _ _ _ _ (by rw [h.elen]) (by rw [h.wlen]; omega)]
    rw [List.drop_eq_nil_of_le (by rw [h.elen])]
    simp
  have h' : RecNeuron.WF { r with base := { r.base with
      errors := (r.base.weights.take ni).map (fun w => e * r.base.activationFunction.obj.derivative r.base.sum * w) } } ni b :=
    ⟨h.inputs, h.batch, h.pos, h.wlen, by simp [h.wlen], h.last, h.prev⟩
  obtain ⟨x, li, p, pd, pd', pl, wk, wl, w1, re, d2, _, _, _, _, _, _, _, _, _, _, hu, hw⟩ :=
    r.base.optimizer.updateRec_ok h' (e * r.base.activationFunction.obj.derivative r.base.sum)
  refine ⟨_, _, ?_, hw, rfl, by simp [h.wlen], hu⟩
  simp only [RecNeuron.backOutput, Act.deriv_ok, Res.ok_bind, he]
  rw [hu]
  rfl

/-! ### Gated recurrent units -/

theorem Gru.make_wf {m : NeuronModel F} {o : Sgd F} {d : Nat → F} {g : Gru F} (h : Gru.make m o d = .ok g)
    (hb : 0 < m.batchSize) (hw : m.numberOfWeights = m.numberOfInputs + 2) :
    g.WF m.numberOfInputs.toNat m.batchSize.toNat ∧ 0 ≤ m.numberOfInputs ∧
      g.resetGate.base.activationFunction = .sigmoid ∧ g.updateGate.base.activationFunction = .sigmoid ∧
      g.outputGate.base.activationFunction = .tanh ∧ g.previousOutput = lit 0 := by
  obtain ⟨r, hr, h⟩ := Res.bind_eq_ok.1 h
  obtain ⟨u, hu, h⟩ := Res.bind_eq_ok.1 h
  obtain ⟨o', ho, h⟩ := Res.bind_eq_ok.1 h
  cases h
  have h1 := RecNeuron.make_wf hr hb hw
  have h2 := RecNeuron.make_wf hu hb hw
  have h3 := RecNeuron.make_wf ho hb hw
  exact ⟨⟨by simp [h1.2.1], h1.1, h2.1, h3.1⟩, h1.2.1, h1.2.2.2.1, h2.2.2.2.1, h3.2.2.2.1, rfl⟩

theorem Gru.reset_wf {g : Gru F} {ni b : Nat} (h : g.WF ni b) : g.reset.WF ni b := ⟨h.inputs, h.r, h.u, h.o⟩

theorem Gru.output_ok {g : Gru F} {ni b : Nat} (h : g.WF ni b) (xs : List F) (hx : xs.length = ni) (t : Bool) :
    ∃ y g', g.output xs t = .ok (y, g') ∧ g'.WF ni b := by
  unfold Gru.output
  have hp : Gru.WF (if t then g.reset else g) ni b := by split; exacts [Gru.reset_wf h, h]
  generalize (if t then g.reset else g) = g0 at hp ⊢
  obtain ⟨s1, _, _, _, _, _, _, _, e1, w1⟩ := RecNeuron.output_ok hp.r xs hx t
  obtain ⟨s2, _, _, _, _, _, _, _, e2, w2⟩ := RecNeuron.output_ok hp.u xs hx t
  simp only []
  rw [e1, Res.ok_bind]
  simp only []
  rw [e2, Res.ok_bind]
  simp only []
  generalize hog : ({ g0.outputGate with lastOutput := _ } : RecNeuron F) = og0
  have ho : og0.WF ni b := by rw [← hog]; exact hp.o
  obtain ⟨s3, _, _, _, _, _, _, _, e3, w3⟩ := RecNeuron.output_ok ho xs hx t
  rw [e3, Res.ok_bind]
  exact ⟨_, _, rfl, ⟨hp.inputs, w1, w2, w3⟩⟩

theorem plusVec_length : ∀ (a b : List F), (plusVec a b).length = a.length
  | [], b => by simp [plusVec]
  | a :: as, [] => by simp [plusVec]
  | a :: as, b :: bs => by simp [plusVec, plusVec_length as bs]

theorem Gru.backOutput_ok {g : Gru F} {ni b : Nat} (h : g.WF ni b) (hni : 0 < ni) (e : F) :
    ∃ es g', g.backOutput e = .ok (es, g') ∧ g'.WF ni b ∧ es.length = ni := by
  unfold Gru.backOutput
  obtain ⟨e1, r1, h1, w1, _, l1, _⟩ := RecNeuron.backOutput_ok h.o (e * g.updateGateOutput)
  obtain ⟨e2, r2, h2, w2, _, l2, _⟩ := RecNeuron.backOutput_ok h.u (e * g.outputGateOutput + e * g.updateGateOutput)
  have hne : e1 ≠ [] := by rintro rfl; simp at l1; omega
  obtain ⟨e3, r3, h3, w3, _, l3, _⟩ := RecNeuron.backOutput_ok h.r (e1.getLast hne * g.previousOutput)
  simp only [h1, h2, Res.ok_bind, backOf_ok hne, h3]
  exact ⟨_, _, rfl, ⟨h.inputs, w3, w2, w1⟩, by simp [plusVec_length, l1]⟩

theorem Gru.train_ok {g : Gru F} {ni b : Nat} (h : g.WF ni b) (hni : 0 < ni) (e : F) :
    ∃ g', g.train e = .ok g' ∧ g'.WF ni b := by
  unfold Gru.train
  obtain ⟨e1, r1, h1, w1, _, l1, _⟩ := RecNeuron.backOutput_ok h.o (e * g.updateGateOutput)
  obtain ⟨e2, r2, h2, w2, _, l2, _⟩ := RecNeuron.backOutput_ok h.u (e * g.outputGateOutput + e * g.updateGateOutput)
  have hne : e1 ≠ [] := by rintro rfl; simp at l1; omega
  obtain ⟨e3, r3, h3, w3, _, l3, _⟩ := RecNeuron.backOutput_ok h.r (e1.getLast hne * g.previousOutput)
  simp only [h1, h2, Res.ok_bind, backOf_ok hne, h3]
  exact ⟨_, rfl, ⟨h.inputs, w3, w2, w1⟩⟩

end

end Snn
