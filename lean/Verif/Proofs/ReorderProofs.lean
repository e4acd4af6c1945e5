import Verif.Spec.ReorderSpec
import Verif.Proofs.NeuronProofs
import Verif.Proofs.MapSimProofs
import Mathlib.Algebra.Order.Field.Basic
import Mathlib.Data.List.Perm.Basic

/-! # A layer of neurons on inputs whose features are in another order -/

set_option linter.all false

namespace Snn.Reorder

open Snn.Spec

section
variable {F : Type} [Flt F]

theorem inOrder_length (p : List Nat) (x : List F) : (inOrder p x).length = p.length := by simp [inOrder]

theorem frontInOrder_length {p : List Nat} {x : List F} (h : p.length ≤ x.length) : (frontInOrder p x).length = x.length := by
  simp [frontInOrder, inOrder_length]; omega

theorem lt_of_perm {p : List Nat} {k : Nat} (hp : p.Perm (List.range k)) : ∀ i ∈ p, i < k := fun i hi => by
  simpa using hp.mem_iff.1 hi

theorem len_of_perm {p : List Nat} {k : Nat} (hp : p.Perm (List.range k)) : p.length = k := by simpa using hp.length_eq

theorem inOrder_append {p : List Nat} {k : Nat} (hp : p.Perm (List.range k)) {a b : List F} (ha : a.length = k) : inOrder p (a ++ b) = inOrder p a := by
  unfold inOrder
  apply List.map_congr_left
  intro i hi
  have := lt_of_perm hp i hi
  simp [List.getD_eq_getElem?_getD, List.getElem?_append_left (by omega : i < a.length)]

theorem frontInOrder_append {p : List Nat} {k : Nat} (hp : p.Perm (List.range k)) {a b : List F} (ha : a.length = k) : frontInOrder p (a ++ b) = inOrder p a ++ b := by
  unfold frontInOrder
  rw [inOrder_append hp ha, len_of_perm hp, ← ha, List.drop_left]

theorem inOrder_take {p : List Nat} {k : Nat} (hp : p.Perm (List.range k)) {x : List F} (h : k ≤ x.length) : inOrder p (x.take k) = inOrder p x := by
  conv_rhs => rw [← List.take_append_drop k x]
  rw [inOrder_append hp (by simp; omega)]

theorem take_frontInOrder {p : List Nat} {k : Nat} (hp : p.Perm (List.range k)) (x : List F) : (frontInOrder p x).take k = inOrder p x := by
  unfold frontInOrder
  rw [List.take_append_of_le_length (by rw [inOrder_length, len_of_perm hp]), List.take_of_length_le (by rw [inOrder_length, len_of_perm hp])]

theorem drop_frontInOrder {p : List Nat} {k : Nat} (hp : p.Perm (List.range k)) (x : List F) (j : Nat) (hj : k ≤ j) :
    (frontInOrder p x).drop j = x.drop j := by
  unfold frontInOrder
  rw [List.drop_append, List.drop_eq_nil_of_le (by rw [inOrder_length, len_of_perm hp]; omega), inOrder_length, len_of_perm hp, List.drop_drop, List.nil_append]
  congr 1; omega

theorem get_frontInOrder {p : List Nat} {k : Nat} (hp : p.Perm (List.range k)) (x : List F) (j : Nat) (hj : k ≤ j) :
    (frontInOrder p x)[j]? = x[j]? := by
  unfold frontInOrder
  rw [List.getElem?_append_right (by rw [inOrder_length, len_of_perm hp]; omega), inOrder_length, len_of_perm hp, List.getElem?_drop]
  congr 1; omega

theorem inOrder_zipWith {p : List Nat} {k : Nat} (hp : p.Perm (List.range k)) (f : F → F → F) {a b : List F} (ha : k ≤ a.length) (hb : k ≤ b.length) :
    inOrder p (List.zipWith f a b) = List.zipWith f (inOrder p a) (inOrder p b) := by
  unfold inOrder
  rw [List.zipWith_map, List.zipWith_self]
  apply List.map_congr_left
  intro i hi
  have := lt_of_perm hp i hi
  simp [List.getD_eq_getElem?_getD, List.getElem?_zipWith, List.getElem?_eq_getElem (by omega : i < a.length), List.getElem?_eq_getElem (by omega : i < b.length)]

theorem inOrder_map {p : List Nat} {k : Nat} (hp : p.Perm (List.range k)) (f : F → F) {a : List F} (ha : k ≤ a.length) : inOrder p (a.map f) = (inOrder p a).map f := by
  unfold inOrder
  rw [List.map_map]
  apply List.map_congr_left
  intro i hi
  have := lt_of_perm hp i hi
  simp [List.getD_eq_getElem?_getD, List.getElem?_eq_getElem (by omega : i < a.length)]

theorem inOrder_replicate {p : List Nat} {k : Nat} (hp : p.Perm (List.range k)) (m : Nat) : inOrder p (List.replicate m (lit 0 : F)) = List.replicate k (lit 0) := by
  rw [List.eq_replicate_iff]
  refine ⟨by rw [inOrder_length, len_of_perm hp], ?_⟩
  intro b hb
  unfold inOrder at hb
  obtain ⟨i, hi, rfl⟩ := List.mem_map.1 hb
  simp only [List.getD_eq_getElem?_getD, List.getElem?_replicate]
  split <;> rfl

theorem inOrder_eq {p : List Nat} {k : Nat} (hp : p.Perm (List.range k)) {a : List F} (ha : a.length = k) : (inOrder p a).Perm a := by
  have h : inOrder (List.range k) a = a := by
    unfold inOrder
    apply List.ext_getElem
    · simp [ha]
    · intro i h1 h2
      simp [List.getD_eq_getElem?_getD, List.getElem?_eq_getElem h2]
  conv_rhs => rw [← h]
  exact hp.map _

theorem frontInOrder_perm {p : List Nat} {k : Nat} (hp : p.Perm (List.range k)) {a : List F} (ha : k ≤ a.length) : (frontInOrder p a).Perm a := by
  conv => lhs; rw [← List.take_append_drop k a]
  rw [frontInOrder_append hp (by simp; omega)]
  conv_rhs => rw [← List.take_append_drop k a]
  exact (inOrder_eq hp (by simp; omega)).append_right _

theorem frontInOrder_zipWith {p : List Nat} {k : Nat} (hp : p.Perm (List.range k)) (f : F → F → F) {a b : List F} (ha : k ≤ a.length) (hb : k ≤ b.length) :
    frontInOrder p (List.zipWith f a b) = List.zipWith f (frontInOrder p a) (frontInOrder p b) := by
  unfold frontInOrder
  rw [inOrder_zipWith hp f ha hb, List.drop_zipWith, List.zipWith_append (by simp [inOrder_length])]

/-! ### Buffers -/

/-- The buffer with every entry transformed. -/
def mapq (f : List F → List F) (c : Circ F) : Circ F := { c with queue := c.queue.map f }

theorem getBack_mapq (f : List F → List F) (c : Circ F) : Res.Rel (fun a b => b = (f a.1, mapq f a.2)) c.getBack (mapq f c).getBack := by
  unfold Circ.getBack mapq
  dsimp only
  rw [List.length_map]
  refine Res.Rel.bind (MapSim.rd_map f _ _) ?_
  rintro x _ ⟨rfl, _⟩
  exact rfl

theorem pushBack_mapq (f : List F → List F) (c : Circ F) (v : List F) : Res.Rel (fun a b => b = mapq f a) (c.pushBack v) ((mapq f c).pushBack (f v)) := by
  unfold Circ.pushBack mapq
  dsimp only
  rw [List.length_map]
  refine Res.Rel.bind (R := fun a b => b = a.map f) ?_ ?_
  · generalize (if c.indexPush ≥ c.queue.length then 0 else c.indexPush) = j
    unfold wr
    rw [List.length_map]
    split
    · simp only [Res.Rel, List.map_set]
    · exact rfl
  · rintro x _ rfl
    exact rfl

theorem pushBack_mapq_ok (f : List F → List F) {c c' : Circ F} {v : List F} (h : c.pushBack v = .ok c') : (mapq f c).pushBack (f v) = .ok (mapq f c') := by
  have := pushBack_mapq f c v
  rw [h] at this
  obtain ⟨b, hb, rfl⟩ := this.ok_left
  exact hb

theorem mapq_wf {f : List F → List F} {c : Circ F} {q w : Nat} (h : c.WF q w) (hf : ∀ x : List F, x.length = w → (f x).length = w) : (mapq f c).WF q w := by
  refine ⟨by simpa [mapq] using h.len, ?_⟩
  intro v hv
  obtain ⟨u, hu, rfl⟩ := List.mem_map.1 hv
  exact hf _ (h.all _ hu)

/-- The neuron with everything that concerns its inputs in the order p. -/
def reorder (p : List Nat) (n : Neuron F) : Neuron F :=
  { n with
    weights := frontInOrder p n.weights
    lastInputs := mapq (inOrder p) n.lastInputs
    previousDeltaWeights := mapq (frontInOrder p) n.previousDeltaWeights
    errors := inOrder p n.errors }

def reorderRec (p : List Nat) (n : RecNeuron F) : RecNeuron F := { n with base := reorder p n.base }

def reorderGru (p : List Nat) (g : Gru F) : Gru F :=
  { g with
    errors := (inOrder p g.errors).take g.errors.length
    resetGate := reorderRec p g.resetGate
    updateGate := reorderRec p g.updateGate
    outputGate := reorderRec p g.outputGate }

theorem reorder_wf {p : List Nat} {k nw b : Nat} (hp : p.Perm (List.range k)) (hk : k ≤ nw) {n : Neuron F} (h : n.WF k nw b) : (reorder p n).WF k nw b := by
  have hl := len_of_perm hp
  refine ⟨h.inputs, h.batch, h.pos, ?_, ?_, mapq_wf h.last ?_, mapq_wf h.prev ?_⟩
  · show (frontInOrder p n.weights).length = nw
    rw [frontInOrder_length (by rw [h.wlen]; omega), h.wlen]
  · show (inOrder p n.errors).length = k
    rw [inOrder_length, hl]
  · intro x hx; rw [inOrder_length, hl]
  · intro x hx; rw [frontInOrder_length (by omega), hx]

end

section
variable {F : Type} [Flt F] [FTrans F] [Add F] [Sub F] [Mul F] [Div F] [Neg F]

theorem updateSimple_re {p : List Nat} {k : Nat} (hp : p.Perm (List.range k)) (o : Sgd F) {n : Neuron F} {b : Nat} (h : n.WF k (k + 1) b) (e : F) :
    ∃ n', o.updateSimple n e = .ok n' ∧ o.updateSimple (reorder p n) e = .ok (reorder p n') ∧ n'.WF k (k + 1) b := by
  have h' := reorder_wf hp (Nat.le_succ k) h
  obtain ⟨x, li, q, pd, pd', wl, dl, a1, a2, a3, a4, a5, a6, a7, a8, a9⟩ := o.updateSimple_ok h e
  obtain ⟨x', li', q', pd2, pd2', wl', dl', b1, b2, b3, b4, b5, b6, b7, b8, b9⟩ := o.updateSimple_ok h' e
  refine ⟨_, a8, ?_, a9⟩
  rw [b8]
  have g1 := getBack_mapq (inOrder p) n.lastInputs
  have g2 := getBack_mapq (frontInOrder p) n.previousDeltaWeights
  rw [a1] at g1
  rw [a3] at g2
  have b1' : (mapq (inOrder p) n.lastInputs).getBack = .ok (x', li') := b1
  have b3' : (mapq (frontInOrder p) n.previousDeltaWeights).getBack = .ok (q', pd2) := b3
  rw [b1'] at g1
  rw [b3'] at g2
  obtain ⟨rfl, rfl⟩ := Prod.mk.inj g1
  obtain ⟨rfl, rfl⟩ := Prod.mk.inj g2
  have hz : inOrder p x ++ [n.bias] = frontInOrder p (x ++ [n.bias]) := (frontInOrder_append hp a2).symm
  have hz' : sgdDeltas (o.learningRate / lit (b : Rat) * e) o.momentum (inOrder p x ++ [n.bias]) (frontInOrder p q)
      = frontInOrder p (sgdDeltas (o.learningRate / lit (b : Rat) * e) o.momentum (x ++ [n.bias]) q) := by
    rw [hz]; unfold sgdDeltas
    rw [frontInOrder_zipWith hp _ (by simp; omega) (by omega)]
  have b6' : sgdDeltas (o.learningRate / lit (b : Rat) * e) o.momentum (inOrder p x ++ [n.bias]) (frontInOrder p q)
      = sgdDeltas (o.learningRate / lit (b : Rat) * e) o.momentum (inOrder p x) ((frontInOrder p q).take k) ++ [dl'] := b6
  have hl : (sgdDeltas (o.learningRate / lit (b : Rat) * e) o.momentum x (q.take k)).length = k := by simp [sgdDeltas, a2, a4]
  have hd : dl' = dl := by
    have e1 := hz'
    rw [b6', a6, frontInOrder_append hp hl] at e1
    have := (List.append_inj_right' e1 rfl)
    simpa using this
  subst hd
  have g3 := pushBack_mapq (frontInOrder p) pd (sgdDeltas (o.learningRate / lit (b : Rat) * e) o.momentum (x ++ [n.bias]) q)
  rw [a7, ← hz'] at g3
  have b7' : (mapq (frontInOrder p) pd).pushBack (sgdDeltas (o.learningRate / lit (b : Rat) * e) o.momentum (inOrder p x ++ [n.bias]) (frontInOrder p q)) = .ok pd2' := b7
  rw [b7'] at g3
  have g3' : pd2' = mapq (frontInOrder p) pd' := g3
  subst g3'
  unfold reorder
  dsimp only
  congr 2
  rw [frontInOrder_append hp (by simp [hl, h.wlen]), inOrder_zipWith hp _ (by simp [h.wlen]) (by omega), take_frontInOrder hp, inOrder_take hp (by rw [h.wlen]; omega)]
  unfold sgdDeltas
  rw [inOrder_zipWith hp _ (by omega) (by simp; omega), take_frontInOrder hp, inOrder_take hp (by omega)]

theorem updateRec_re {p : List Nat} {k : Nat} (hp : p.Perm (List.range k)) (o : Sgd F) {n : RecNeuron F} {b : Nat} (h : n.WF k b) (e : F) :
    ∃ n', o.updateRec n e = .ok n' ∧ o.updateRec (reorderRec p n) e = .ok (reorderRec p n') ∧ n'.WF k b := by
  have h' : (reorderRec p n).WF k b := reorder_wf hp (by omega) h
  have hw : n.base.weights.length = k + 2 := Neuron.WF.wlen h
  obtain ⟨x, li, q, pd, pd', pl, wk, wl, w1, re, d2, a1, a2, a3, a4, a5, a6, rfl, rfl, rfl, a7, a8, a9⟩ := o.updateRec_ok h e
  obtain ⟨x', li', q', pd2, pd2', pl', wk', wl', w1', re', d2', b1, b2, b3, b4, b5, b6, rfl, rfl, rfl, b7, b8, b9⟩ := o.updateRec_ok h' e
  refine ⟨_, a8, ?_, a9⟩
  rw [b8]
  have g1 := getBack_mapq (inOrder p) n.base.lastInputs
  have g2 := getBack_mapq (frontInOrder p) n.base.previousDeltaWeights
  rw [a1] at g1
  rw [a3] at g2
  have b1' : (mapq (inOrder p) n.base.lastInputs).getBack = .ok (x', li') := b1
  have b3' : (mapq (frontInOrder p) n.base.previousDeltaWeights).getBack = .ok (q', pd2) := b3
  rw [b1'] at g1
  rw [b3'] at g2
  obtain ⟨rfl, rfl⟩ := Prod.mk.inj g1
  obtain ⟨rfl, rfl⟩ := Prod.mk.inj g2
  have hpl : pl' = pl := by
    rw [get_frontInOrder hp _ _ (le_refl k), a5] at b5
    exact (Option.some.inj b5).symm
  subst hpl
  have hwt : n.base.weights.drop k = [wk, wl] := by
    have := congrArg (List.drop k) a6
    rwa [List.drop_append_of_le_length (by simp; omega), List.drop_take_self, List.nil_append] at this
  have hwt' : (frontInOrder p n.base.weights).drop k = [wk', wl'] := by
    have b6' : frontInOrder p n.base.weights = (frontInOrder p n.base.weights).take k ++ [wk', wl'] := b6
    have := congrArg (List.drop k) b6'
    rwa [List.drop_append_of_le_length (by simp [frontInOrder, inOrder_length, len_of_perm hp]), List.drop_take_self, List.nil_append] at this
  rw [drop_frontInOrder hp _ _ (le_refl k), hwt] at hwt'
  obtain ⟨hk1, hwt'⟩ := List.cons.inj hwt'
  obtain ⟨hk2, _⟩ := List.cons.inj hwt'
  subst hk1 hk2
  have hl : (sgdDeltas (o.learningRate / lit (b : Rat) * e) o.momentum x (q.take k)).length = k := by simp [sgdDeltas, a2, a4]
  have hs : sgdDeltas (o.learningRate / lit (b : Rat) * e) o.momentum (inOrder p x) ((frontInOrder p q).take k)
      = inOrder p (sgdDeltas (o.learningRate / lit (b : Rat) * e) o.momentum x (q.take k)) := by
    unfold sgdDeltas
    rw [inOrder_zipWith hp _ (by omega) (by simp; omega), take_frontInOrder hp, inOrder_take hp (by omega)]
  have g3 := pushBack_mapq_ok (frontInOrder p) a7
  rw [frontInOrder_append hp hl, ← hs] at g3
  have g3' : pd2' = mapq (frontInOrder p) pd' := Res.ok.inj (b7.symm.trans g3)
  subst g3'
  unfold reorderRec reorder
  dsimp only
  congr 3
  rw [frontInOrder_append hp (by simp [hl, hw]), inOrder_zipWith hp _ (by simp [hw]) (by omega), take_frontInOrder hp, inOrder_take hp (by rw [hw]; omega), hs]

end

section
variable {F : Type} [Field F] [LinearOrder F] [IsStrictOrderedRing F] [FTrans F]

theorem dot_re {p : List Nat} {k : Nat} (hp : p.Perm (List.range k)) (t : F) {x w : List F} (hx : x.length = k) (hw : k ≤ w.length) :
    dotFrom t (inOrder p x) (frontInOrder p w) = dotFrom t x w := by
  have h1 : (inOrder p x).zip (frontInOrder p w) = p.map fun i => (x.getD i (lit 0), w.getD i (lit 0)) := by
    unfold frontInOrder
    conv_lhs => lhs; rw [← List.append_nil (inOrder p x)]
    rw [List.zip_append (by simp [inOrder_length])]
    simp [inOrder, List.zip_map']
  have h2 : x.zip w = (List.range k).map fun i => (x.getD i (lit 0), w.getD i (lit 0)) := by
    apply List.ext_getElem
    · simp [hx]; omega
    · intro i a b
      simp at a b
      simp [List.getD_eq_getElem?_getD, List.getElem?_eq_getElem a.1, List.getElem?_eq_getElem a.2]
  unfold dotFrom
  rw [h1, h2]
  exact (hp.map _).foldl_eq (rcomm := ⟨fun a b c => by ring⟩) t

theorem output_re {p : List Nat} {k : Nat} (hp : p.Perm (List.range k)) {n : Neuron F} {b : Nat} (h : n.WF k (k + 1) b) {x : List F} (hx : x.length = k) :
    ∃ y n', n.output x = .ok (y, n') ∧ (reorder p n).output (inOrder p x) = .ok (y, reorder p n') ∧ n'.WF k (k + 1) b := by
  obtain ⟨s, wb, li, a1, rfl, a2, a3, a4⟩ := Neuron.output_ok h x hx
  obtain ⟨s', wb', li', b1, rfl, b2, b3, b4⟩ := Neuron.output_ok (reorder_wf hp (Nat.le_succ k) h) (inOrder p x) (by rw [inOrder_length, len_of_perm hp])
  refine ⟨_, _, a3, ?_, a4⟩
  rw [b3]
  have hb : wb' = wb := by
    have b1' : (frontInOrder p n.weights)[k]? = some wb' := b1
    rw [get_frontInOrder hp _ _ (le_refl k), a1] at b1'
    exact (Option.some.inj b1').symm
  subst hb
  have hl : li' = mapq (inOrder p) li := Res.ok.inj (b2.symm.trans (pushBack_mapq_ok _ a2))
  subst hl
  have hd : dotFrom (lit 0) (inOrder p x) (reorder p n).weights = dotFrom (lit 0) x n.weights := dot_re hp _ hx (by rw [h.wlen]; omega)
  rw [hd]
  rfl

theorem train_re {p : List Nat} {k : Nat} (hp : p.Perm (List.range k)) {n : Neuron F} {b : Nat} (h : n.WF k (k + 1) b) (e : F) :
    ∃ n', n.train e = .ok n' ∧ (reorder p n).train e = .ok (reorder p n') ∧ n'.WF k (k + 1) b := by
  obtain ⟨n', a1, a2, a3⟩ := updateSimple_re hp n.optimizer h (e * n.activationFunction.obj.derivative n.sum)
  refine ⟨n', by simp [Neuron.train, Act.deriv_ok, a1], ?_, a3⟩
  unfold Neuron.train
  rw [Act.deriv_ok, Res.ok_bind]
  exact a2

theorem recOutput_re {p : List Nat} {k : Nat} (hp : p.Perm (List.range k)) {n : RecNeuron F} {b : Nat} (h : n.WF k b) {x : List F} (hx : x.length = k) (t : Bool) :
    ∃ y n', n.output x t = .ok (y, n') ∧ (reorderRec p n).output (inOrder p x) t = .ok (y, reorderRec p n') ∧ n'.WF k b := by
  have h' : (reorderRec p n).WF k b := reorder_wf hp (by omega) h
  have hw : n.base.weights.length = k + 2 := Neuron.WF.wlen h
  obtain ⟨s, wr, wb, li, a0, a1, rfl, a2, a3, a4⟩ := RecNeuron.output_ok h x hx t
  obtain ⟨s', wr', wb', li', b0, b1, rfl, b2, b3, b4⟩ := RecNeuron.output_ok h' (inOrder p x) (by rw [inOrder_length, len_of_perm hp]) t
  refine ⟨_, _, a3, ?_, a4⟩
  rw [b3]
  have hb : wb' = wb := by
    have b1' : (frontInOrder p n.base.weights)[k + 1]? = some wb' := b1
    rw [get_frontInOrder hp _ _ (by omega), a1] at b1'
    exact (Option.some.inj b1').symm
  have hr : wr' = wr := by
    have b1' : (frontInOrder p n.base.weights)[k]? = some wr' := b0
    rw [get_frontInOrder hp _ _ (by omega), a0] at b1'
    exact (Option.some.inj b1').symm
  subst hb hr
  have hl : li' = mapq (inOrder p) li := Res.ok.inj (b2.symm.trans (pushBack_mapq_ok _ a2))
  subst hl
  have hd : dotFrom (lit 0) (inOrder p x) (reorderRec p n).base.weights = dotFrom (lit 0) x n.base.weights := dot_re hp _ hx (by omega)
  rw [hd]
  cases t <;> rfl

theorem recTrain_re {p : List Nat} {k : Nat} (hp : p.Perm (List.range k)) {n : RecNeuron F} {b : Nat} (h : n.WF k b) (e : F) :
    ∃ n', n.train e = .ok n' ∧ (reorderRec p n).train e = .ok (reorderRec p n') ∧ n'.WF k b := by
  obtain ⟨n', a1, a2, a3⟩ := updateRec_re hp n.base.optimizer h (e * n.base.activationFunction.obj.derivative n.base.sum)
  refine ⟨n', by simp [RecNeuron.train, Act.deriv_ok, a1], ?_, a3⟩
  unfold RecNeuron.train
  rw [Act.deriv_ok, Res.ok_bind]
  exact a2

theorem recBack_re {p : List Nat} {k : Nat} (hp : p.Perm (List.range k)) {n : RecNeuron F} {b : Nat} (h : n.WF k b) (e : F) :
    ∃ es n', n.backOutput e = .ok (es, n') ∧ (reorderRec p n).backOutput e = .ok (inOrder p es, reorderRec p n') ∧ n'.WF k b ∧ es.length = k := by
  have h' : (reorderRec p n).WF k b := reorder_wf hp (by omega) h
  have hw : n.base.weights.length = k + 2 := Neuron.WF.wlen h
  obtain ⟨es, r, a1, a2, rfl, a4, a5⟩ := RecNeuron.backOutput_ok h e
  obtain ⟨es', r', b1, b2, rfl, b4, b5⟩ := RecNeuron.backOutput_ok h' e
  have he : ((reorderRec p n).base.weights.take k).map (fun w => e * (reorderRec p n).base.activationFunction.obj.derivative (reorderRec p n).base.sum * w)
      = inOrder p ((n.base.weights.take k).map fun w => e * n.base.activationFunction.obj.derivative n.base.sum * w) := by
    rw [inOrder_map hp _ (by simp; omega), inOrder_take hp (by omega)]
    show ((frontInOrder p n.base.weights).take k).map _ = _
    rw [take_frontInOrder hp]
    rfl
  rw [he] at b1 b5
  have hz : RecNeuron.WF { n with base := { n.base with errors := (n.base.weights.take k).map (fun w => e * n.base.activationFunction.obj.derivative n.base.sum * w) } } k b := by
    have h0 : n.base.WF k (k + 2) b := h
    exact ⟨h0.inputs, h0.batch, h0.pos, h0.wlen, by simpa using a4, h0.last, h0.prev⟩
  obtain ⟨r2, c1, c2, c3⟩ := updateRec_re hp n.base.optimizer hz (e * n.base.activationFunction.obj.derivative n.base.sum)
  rw [c1] at a5
  obtain rfl := Res.ok.inj a5
  have hr : r' = reorderRec p r2 := Res.ok.inj (b5.symm.trans c2)
  subst hr
  exact ⟨_, _, a1, b1, a2, a4⟩

/-- The units of the first layer: their outputs at the previous step are not used by the update. -/
def GruOK (k : Nat) (g : Gru F) : Prop := g.WF k 1 ∧ g.previousOutput = lit 0 ∧ 0 < k

theorem gruOutput_re {p : List Nat} {k : Nat} (hp : p.Perm (List.range k)) {g : Gru F} (h : GruOK k g) {x : List F} (hx : x.length = k) (t : Bool) :
    ∃ y g', g.output x t = .ok (y, g') ∧ (reorderGru p g).output (inOrder p x) t = .ok (y, reorderGru p g') ∧ GruOK k g' := by
  obtain ⟨hw, h0, hk⟩ := h
  have key : ∀ g0 : Gru F, g0.WF k 1 → g0.previousOutput = lit 0 →
      ∃ y g', (do
        let (resetGateOutput, rg) ← g0.resetGate.output x t
        let (updateGateOutput, ug) ← g0.updateGate.output x t
        let og0 := { g0.outputGate with lastOutput := g0.outputGate.lastOutput * resetGateOutput }
        let (outputGateOutput, og) ← og0.output x t
        let out := (lit 1 - updateGateOutput) * g0.previousOutput + updateGateOutput * outputGateOutput
        return (out, { g0 with
          updateGateOutput := updateGateOutput, outputGateOutput := outputGateOutput
          resetGate := { rg with lastOutput := out }
          updateGate := { ug with lastOutput := out }
          outputGate := { og with lastOutput := out } }) : Res (F × Gru F)) = .ok (y, g') ∧
      (do
        let (resetGateOutput, rg) ← (reorderGru p g0).resetGate.output (inOrder p x) t
        let (updateGateOutput, ug) ← (reorderGru p g0).updateGate.output (inOrder p x) t
        let og0 := { (reorderGru p g0).outputGate with lastOutput := (reorderGru p g0).outputGate.lastOutput * resetGateOutput }
        let (outputGateOutput, og) ← og0.output (inOrder p x) t
        let out := (lit 1 - updateGateOutput) * (reorderGru p g0).previousOutput + updateGateOutput * outputGateOutput
        return (out, { (reorderGru p g0) with
          updateGateOutput := updateGateOutput, outputGateOutput := outputGateOutput
          resetGate := { rg with lastOutput := out }
          updateGate := { ug with lastOutput := out }
          outputGate := { og with lastOutput := out } }) : Res (F × Gru F)) = .ok (y, reorderGru p g') ∧ GruOK k g' := by
    intro g0 w0 z0
    obtain ⟨y1, r1, a1, b1, c1⟩ := recOutput_re hp w0.r hx t
    obtain ⟨y2, r2, a2, b2, c2⟩ := recOutput_re hp w0.u hx t
    have wo : RecNeuron.WF { g0.outputGate with lastOutput := g0.outputGate.lastOutput * y1 } k 1 := w0.o
    obtain ⟨y3, r3, a3, b3, c3⟩ := recOutput_re hp wo hx t
    rw [a1, Res.ok_bind]
    dsimp only
    rw [a2, Res.ok_bind]
    dsimp only
    rw [a3, Res.ok_bind]
    refine ⟨_, _, rfl, ?_, ⟨⟨w0.inputs, c1, c2, c3⟩, z0, hk⟩⟩
    have b1' : (reorderGru p g0).resetGate.output (inOrder p x) t = .ok (y1, reorderRec p r1) := b1
    have b2' : (reorderGru p g0).updateGate.output (inOrder p x) t = .ok (y2, reorderRec p r2) := b2
    have b3' : RecNeuron.output { (reorderGru p g0).outputGate with lastOutput := (reorderGru p g0).outputGate.lastOutput * y1 } (inOrder p x) t
      = .ok (y3, reorderRec p r3) := b3
    rw [b1', Res.ok_bind]
    dsimp only
    rw [b2', Res.ok_bind]
    dsimp only
    rw [b3', Res.ok_bind]
    rfl
  cases t
  · exact key g hw h0
  · exact key g.reset (Gru.reset_wf hw) rfl

theorem gruTrain_re {p : List Nat} {k : Nat} (hp : p.Perm (List.range k)) {g : Gru F} (h : GruOK k g) (e : F) :
    ∃ g', g.train e = .ok g' ∧ (reorderGru p g).train e = .ok (reorderGru p g') ∧ GruOK k g' := by
  obtain ⟨hw, h0, hk⟩ := h
  obtain ⟨e1, r1, a1, b1, c1, l1⟩ := recBack_re hp hw.o (e * g.updateGateOutput)
  obtain ⟨e2, r2, a2, b2, c2, l2⟩ := recBack_re hp hw.u (e * g.outputGateOutput + e * g.updateGateOutput)
  obtain ⟨e3, r3, a3, b3, c3, l3⟩ := recBack_re hp hw.r 0
  have hne : e1 ≠ [] := by rintro rfl; simp at l1; omega
  have hne' : inOrder p e1 ≠ [] := by
    intro hh
    have := congrArg List.length hh
    rw [inOrder_length, len_of_perm hp] at this
    simp at this; omega
  have z : ∀ v : F, v * g.previousOutput = 0 := by intro v; rw [h0]; simp [lit]
  have b1' : (reorderGru p g).outputGate.backOutput (e * g.updateGateOutput) = .ok (inOrder p e1, reorderRec p r1) := b1
  have b2' : (reorderGru p g).updateGate.backOutput (e * g.outputGateOutput + e * g.updateGateOutput) = .ok (inOrder p e2, reorderRec p r2) := b2
  have b3' : (reorderGru p g).resetGate.backOutput 0 = .ok (inOrder p e3, reorderRec p r3) := b3
  refine ⟨{ g with errors := e1, outputGate := r1, updateGate := r2, resetGate := r3 }, ?_, ?_, ⟨hw.inputs, c3, c2, c1⟩, h0, hk⟩
  · unfold Gru.train
    simp only [a1, Res.ok_bind, a2, backOf_ok hne, z, a3]
    rfl
  · unfold Gru.train
    have u1 : (reorderGru p g).updateGateOutput = g.updateGateOutput := rfl
    have u2 : (reorderGru p g).outputGateOutput = g.outputGateOutput := rfl
    have u3 : (reorderGru p g).previousOutput = g.previousOutput := rfl
    simp only [u1, u2, u3, b1', Res.ok_bind, b2', backOf_ok hne', z, b3']
    unfold reorderGru
    dsimp only
    rw [List.take_of_length_le (by rw [inOrder_length, len_of_perm hp]; omega)]
    rfl

/-! ### Layers -/

theorem runNeurons_re {N : Type} {P : N → Prop} {g : N → N} {f f' : N → Res (F × N)} :
    ∀ {ns : List N}, (∀ n ∈ ns, P n) → (∀ n, P n → ∃ y n', f n = .ok (y, n') ∧ f' (g n) = .ok (y, g n') ∧ P n') →
      ∃ ys ns', runNeurons f ns = .ok (ys, ns') ∧ runNeurons f' (ns.map g) = .ok (ys, ns'.map g) ∧ (∀ n ∈ ns', P n) ∧ ns'.length = ns.length
  | [], _, _ => ⟨[], [], rfl, rfl, by simp, rfl⟩
  | n :: ns, h, k => by
    obtain ⟨y, n', a1, a2, a3⟩ := k n (h n (by simp))
    obtain ⟨ys, ns', b1, b2, b3, b4⟩ := runNeurons_re (ns := ns) (fun m hm => h m (List.mem_cons_of_mem _ hm)) k
    refine ⟨y :: ys, n' :: ns', ?_, ?_, ?_, by simp [b4]⟩
    · simp [runNeurons, a1, b1]
    · simp [runNeurons, a2, b2]
    · intro m hm
      rcases List.mem_cons.1 hm with rfl | hm
      · exact a3
      · exact b3 m hm

theorem trainNeurons_re {N : Type} {P : N → Prop} {g : N → N} {f f' : N → F → Res N} (k : ∀ n e, P n → ∃ n', f n e = .ok n' ∧ f' (g n) e = .ok (g n') ∧ P n') :
    ∀ {ns : List N} (es : List F), (∀ n ∈ ns, P n) →
      Res.Rel (fun a b => b = a.map g ∧ ∀ n ∈ a, P n) (trainNeurons f ns es) (trainNeurons f' (ns.map g) es)
  | [], _, _ => ⟨rfl, by simp⟩
  | n :: ns, [], h => by simp only [List.map_cons, trainNeurons, Res.Rel]
  | n :: ns, e :: es, h => by
    obtain ⟨n', a1, a2, a3⟩ := k n e (h n (by simp))
    have ih := trainNeurons_re k es (fun m hm => h m (List.mem_cons_of_mem _ hm))
    simp only [List.map_cons, trainNeurons, a1, a2, Res.ok_bind]
    refine Res.Rel.bind ih ?_
    rintro ms _ ⟨rfl, hm⟩
    refine ⟨rfl, ?_⟩
    intro m hm'
    rcases List.mem_cons.1 hm' with rfl | hm'
    · exact a3
    · exact hm m hm'

def reorderBody (p : List Nat) : Body F → Body F
  | .fullyConnected ns => .fullyConnected (ns.map (reorder p))
  | .recurrence ns => .recurrence (ns.map (reorderRec p))
  | .gru ns => .gru (ns.map (reorderGru p))
  | b => b

def reorderLayer (p : List Nat) (l : Layer F) : Layer F := { l with body := reorderBody p l.body }

/-- A layer of well-formed neurons, each connected to the k inputs. -/
def FirstOK (k : Nat) (l : Layer F) : Prop :=
  match l.body with
  | .fullyConnected ns => ∀ n ∈ ns, n.WF k (k + 1) 1
  | .recurrence ns => ∀ n ∈ ns, RecNeuron.WF n k 1
  | .gru ns => ∀ n ∈ ns, GruOK k n
  | _ => False

theorem numberOfNeurons_re (p : List Nat) (l : Layer F) : (reorderLayer p l).getNumberOfNeurons = l.getNumberOfNeurons := by
  obtain ⟨ni, os, b⟩ := l
  cases b <;> simp [reorderLayer, reorderBody, Layer.getNumberOfNeurons, Body.numberOfNeurons, Body.weights]

theorem bodyOutput_re {p : List Nat} {k : Nat} (hp : p.Perm (List.range k)) {ni : Int} {os : List (LayerOpt F)} {b : Body F} (h : FirstOK k ⟨ni, os, b⟩) {x : List F}
    (hx : x.length = k) (t : Bool) :
    ∃ y b', b.computeOutput x t = .ok (y, b') ∧ (reorderBody p b).computeOutput (inOrder p x) t = .ok (y, reorderBody p b') ∧ ∀ ni os, FirstOK k ⟨ni, os, b'⟩ := by
  cases b with
  | fullyConnected ns =>
    obtain ⟨ys, ns', a1, a2, a3, _⟩ := runNeurons_re (P := fun n : Neuron F => n.WF k (k + 1) 1) (g := reorder p) (f := fun n => n.output x)
      (f' := fun n => n.output (inOrder p x)) (ns := ns) h (fun n hn => output_re hp hn hx)
    refine ⟨ys, .fullyConnected ns', ?_, ?_, fun _ _ => a3⟩
    · simp [Body.computeOutput, a1]
    · simp [Body.computeOutput, reorderBody, a2]
  | recurrence ns =>
    obtain ⟨ys, ns', a1, a2, a3, _⟩ := runNeurons_re (P := fun n : RecNeuron F => n.WF k 1) (g := reorderRec p) (f := fun n => n.output x t)
      (f' := fun n => n.output (inOrder p x) t) (ns := ns) h (fun n hn => recOutput_re hp hn hx t)
    refine ⟨ys, .recurrence ns', ?_, ?_, fun _ _ => a3⟩
    · simp [Body.computeOutput, a1]
    · simp [Body.computeOutput, reorderBody, a2]
  | gru ns =>
    obtain ⟨ys, ns', a1, a2, a3, _⟩ := runNeurons_re (P := GruOK k) (g := reorderGru p) (f := fun n => n.output x t)
      (f' := fun n => n.output (inOrder p x) t) (ns := ns) h (fun n hn => gruOutput_re hp hn hx t)
    refine ⟨ys, .gru ns', ?_, ?_, fun _ _ => a3⟩
    · simp [Body.computeOutput, a1]
    · simp [Body.computeOutput, reorderBody, a2]
  | filter kind ns info => exact absurd h id
  | pool d info no mvi => exact absurd h id

theorem bodyTrain_re {p : List Nat} {k : Nat} (hp : p.Perm (List.range k)) {ni : Int} {os : List (LayerOpt F)} {b : Body F} (h : FirstOK k ⟨ni, os, b⟩) (es : List F) :
    Res.Rel (fun a c => c = reorderBody p a ∧ ∀ ni os, FirstOK k ⟨ni, os, a⟩) (b.computeTrain es) ((reorderBody p b).computeTrain es) := by
  cases b with
  | fullyConnected ns =>
    refine Res.Rel.bind (trainNeurons_re (P := fun n : Neuron F => n.WF k (k + 1) 1) (g := reorder p) (fun n e hn => train_re hp hn e) es h) ?_
    rintro ms _ ⟨rfl, hm⟩
    exact ⟨rfl, fun _ _ => hm⟩
  | recurrence ns =>
    refine Res.Rel.bind (trainNeurons_re (P := fun n : RecNeuron F => n.WF k 1) (g := reorderRec p) (fun n e hn => recTrain_re hp hn e) es h) ?_
    rintro ms _ ⟨rfl, hm⟩
    exact ⟨rfl, fun _ _ => hm⟩
  | gru ns =>
    refine Res.Rel.bind (trainNeurons_re (P := GruOK k) (g := reorderGru p) (fun n e hn => gruTrain_re hp hn e) es h) ?_
    rintro ms _ ⟨rfl, hm⟩
    exact ⟨rfl, fun _ _ => hm⟩
  | filter kind ns info => exact absurd h id
  | pool d info no mvi => exact absurd h id

/-- A sum over the weights of a layer does not depend on their order within the neurons. -/
theorem foldl_weights (f : F → F) : ∀ {us vs : List (List F)}, List.Forall₂ List.Perm us vs → ∀ t : F,
    us.foldl (fun s n => n.foldl (fun s w => s + f w) s) t = vs.foldl (fun s n => n.foldl (fun s w => s + f w) s) t
  | _, _, .nil, t => rfl
  | _, _, .cons h hs, t => by
    rw [List.foldl_cons, List.foldl_cons, h.foldl_eq (rcomm := ⟨fun a b c => by ring⟩)]
    exact foldl_weights f hs _

theorem forall2_map {α β : Type} {R : β → β → Prop} {f g : α → β} : ∀ {l : List α}, (∀ a ∈ l, R (f a) (g a)) → List.Forall₂ R (l.map f) (l.map g)
  | [], _ => .nil
  | a :: l, h => .cons (h a (by simp)) (forall2_map fun b hb => h b (by simp [hb]))

theorem weights_re {p : List Nat} {k : Nat} (hp : p.Perm (List.range k)) {ni : Int} {os : List (LayerOpt F)} {b : Body F} (h : FirstOK k ⟨ni, os, b⟩) :
    List.Forall₂ List.Perm (reorderBody p b).weights b.weights := by
  cases b with
  | fullyConnected ns =>
    unfold reorderBody Body.weights
    dsimp only
    rw [List.map_map]
    exact forall2_map fun n hn => frontInOrder_perm hp (by have := (h n hn).wlen; omega)
  | recurrence ns =>
    unfold reorderBody Body.weights
    dsimp only
    rw [List.map_map]
    exact forall2_map fun n hn => frontInOrder_perm hp (by have := Neuron.WF.wlen (h n hn); omega)
  | gru ns =>
    unfold reorderBody Body.weights
    dsimp only
    rw [List.map_map]
    refine forall2_map fun n hn => ?_
    obtain ⟨⟨_, h1, h2, h3⟩, _⟩ := h n hn
    exact ((frontInOrder_perm hp (by have := Neuron.WF.wlen h1; omega)).append (frontInOrder_perm hp (by have := Neuron.WF.wlen h2; omega))).append
      (frontInOrder_perm hp (by have := Neuron.WF.wlen h3; omega))
  | filter kind ns info => exact absurd h id
  | pool d info no mvi => exact absurd h id

theorem backHooks_re {us vs : List (List F)} (h : List.Forall₂ List.Perm us vs) (opts : List (LayerOpt F)) (es : List F) : backHooks us opts es = backHooks vs opts es := by
  have h1 : averageAbs us = averageAbs vs := by
    unfold averageAbs
    rw [foldl_weights fabs h, h.length_eq]
  have h2 : averageSquare us = averageSquare vs := by
    unfold averageSquare
    rw [foldl_weights (fun w => w * w) h, h.length_eq]
  have h3 : ∀ (o : LayerOpt F) es, o.beforeBackpropagation us es = o.beforeBackpropagation vs es := by
    intro o es
    cases o <;> simp only [LayerOpt.beforeBackpropagation, h1, h2]
  unfold backHooks
  simp only [h3]

/-! ### Networks -/

/-- The two networks are the same except that the first layer has its inputs in the order p. -/
def NetRe (p : List Nat) (k : Nat) (n m : Net F) : Prop :=
  ∃ l ls, n.layers = l :: ls ∧ FirstOK k l ∧ m = { n with layers := reorderLayer p l :: ls }

theorem layerOutput_re {p : List Nat} {k : Nat} (hp : p.Perm (List.range k)) {l : Layer F} (h : FirstOK k l) {x : List F} (hx : x.length = k) (t : Bool) :
    Res.Rel (fun a b => b.1 = a.1 ∧ b.2 = reorderLayer p a.2 ∧ FirstOK k a.2) (l.output x t) ((reorderLayer p l).output (inOrder p x) t) := by
  obtain ⟨ni, os, b⟩ := l
  obtain ⟨y, b', a1, a2, a3⟩ := bodyOutput_re hp h hx t
  unfold Layer.output reorderLayer
  dsimp only
  rw [a1, a2, Res.ok_bind, Res.ok_bind]
  dsimp only
  refine Res.Rel.bind (R := fun x y => x = y) (Res.Rel.eq (β := List F)) ?_
  rintro z _ rfl
  exact ⟨rfl, rfl, a3 _ _⟩

theorem layerTraining_re {p : List Nat} {k : Nat} (hp : p.Perm (List.range k)) {l : Layer F} (h : FirstOK k l) {x : List F} (hx : x.length = k) (t : Bool) (d : Draws F) :
    Res.Rel (fun a b => b.1 = a.1 ∧ b.2.1 = reorderLayer p a.2.1 ∧ FirstOK k a.2.1 ∧ b.2.2 = a.2.2) (l.outputForTraining x t d)
      ((reorderLayer p l).outputForTraining (inOrder p x) t d) := by
  obtain ⟨ni, os, b⟩ := l
  obtain ⟨y, b', a1, a2, a3⟩ := bodyOutput_re hp h hx t
  unfold Layer.outputForTraining reorderLayer
  dsimp only
  rw [a1, a2, Res.ok_bind, Res.ok_bind]
  dsimp only
  refine Res.Rel.bind (R := fun x y => x = y) (Res.Rel.eq (β := List F × List (LayerOpt F) × Draws F)) ?_
  rintro ⟨z, o, d'⟩ _ rfl
  exact ⟨rfl, rfl, a3 _ _, rfl⟩

theorem layerTrain_re {p : List Nat} {k : Nat} (hp : p.Perm (List.range k)) {l : Layer F} (h : FirstOK k l) (es : List F) :
    Res.Rel (fun a b => b = reorderLayer p a ∧ FirstOK k a) (l.train es) ((reorderLayer p l).train es) := by
  obtain ⟨ni, os, b⟩ := l
  unfold Layer.train reorderLayer
  dsimp only
  rw [backHooks_re (weights_re hp h)]
  refine Res.Rel.bind (bodyTrain_re hp h _) ?_
  rintro b' _ ⟨rfl, h'⟩
  exact ⟨rfl, h' _ _⟩

theorem backOf_re {p : List Nat} {l : Layer F} {ls : List (Layer F)} :
    Res.Rel (fun a b => b.getNumberOfNeurons = a.getNumberOfNeurons) (backOf (l :: ls)) (backOf (reorderLayer p l :: ls)) := by
  cases ls with
  | nil => exact numberOfNeurons_re p l
  | cons c cs =>
    unfold backOf
    rw [List.getLast?_cons_cons, List.getLast?_cons_cons]
    cases h : (c :: cs).getLast? with
    | none => exact rfl
    | some v => exact rfl

theorem out_re {p : List Nat} {k : Nat} (hp : p.Perm (List.range k)) {n m : Net F} (h : NetRe p k n m) {x : List F} (hx : x.length = k) (t : Bool) :
    Res.Rel (fun a b => b.1 = a.1 ∧ NetRe p k a.2 b.2) (n.output x t) (m.output (inOrder p x) t) := by
  obtain ⟨l, ls, hl, hf, rfl⟩ := h
  obtain ⟨st, nan, nt, opt, lay⟩ := n
  dsimp only at hl
  subst hl
  unfold Net.output outputLoop
  dsimp only [List.isEmpty_cons]
  simp only [Bool.false_eq_true, if_false]
  refine Res.Rel.bind (R := fun a b : List F × List (Layer F) => b.1 = a.1 ∧ ∃ l ls, a.2 = l :: ls ∧ FirstOK k l ∧ b.2 = reorderLayer p l :: ls) ?_ ?_
  · refine Res.Rel.bind (layerOutput_re hp hf hx t) ?_
    rintro ⟨y, l1⟩ ⟨y', l1'⟩ ⟨h1, h2, hf1⟩
    dsimp only at h1 h2 hf1
    subst h1 h2
    dsimp only
    refine Res.Rel.bind (R := fun x y => x = y) (Res.Rel.eq (β := List F × List (Layer F))) ?_
    rintro ⟨z, ls1⟩ _ rfl
    exact ⟨rfl, l1, ls1, rfl, hf1, rfl⟩
  · rintro ⟨y, q⟩ ⟨_, r⟩ ⟨rfl, l1, ls1, hq, hf1, hr⟩
    dsimp only at hq hr
    subst hq hr
    exact ⟨rfl, l1, ls1, rfl, hf1, rfl⟩

theorem outT_re {p : List Nat} {k : Nat} (hp : p.Perm (List.range k)) {n m : Net F} (h : NetRe p k n m) {x : List F} (hx : x.length = k) (t : Bool) (d : Draws F) :
    Res.Rel (fun a b => b.1 = a.1 ∧ NetRe p k a.2.1 b.2.1 ∧ b.2.2 = a.2.2) (n.outputForTraining x t d) (m.outputForTraining (inOrder p x) t d) := by
  obtain ⟨l, ls, hl, hf, rfl⟩ := h
  obtain ⟨st, nan, nt, opt, lay⟩ := n
  dsimp only at hl
  subst hl
  unfold Net.outputForTraining trainingLoop
  dsimp only [List.isEmpty_cons]
  simp only [Bool.false_eq_true, if_false]
  refine Res.Rel.bind (R := fun a b : List F × List (Layer F) × Draws F => b.1 = a.1 ∧ (∃ l ls, a.2.1 = l :: ls ∧ FirstOK k l ∧ b.2.1 = reorderLayer p l :: ls) ∧ b.2.2 = a.2.2) ?_ ?_
  · refine Res.Rel.bind (layerTraining_re hp hf hx t d) ?_
    rintro ⟨y, l1, d1⟩ ⟨y', l1', d1'⟩ ⟨h1, h2, hf1, h3⟩
    dsimp only at h1 h2 hf1 h3
    subst h1 h2 h3
    dsimp only
    refine Res.Rel.bind (R := fun x y => x = y) (Res.Rel.eq (β := List F × List (Layer F) × Draws F)) ?_
    rintro ⟨z, ls1, d2⟩ _ rfl
    exact ⟨rfl, ⟨l1, ls1, rfl, hf1, rfl⟩, rfl⟩
  · rintro ⟨y, q, d1⟩ ⟨_, r, _⟩ ⟨rfl, ⟨l1, ls1, hq, hf1, hr⟩, rfl⟩
    dsimp only at hq hr
    subst hq hr
    exact ⟨rfl, ⟨l1, ls1, rfl, hf1, rfl⟩, rfl⟩

theorem trainOnce_re {p : List Nat} {k : Nat} (hp : p.Perm (List.range k)) {n m : Net F} (h : NetRe p k n m) {x : List F} (hx : x.length = k) (y : List F) (t : Bool)
    (d : Draws F) : Res.Rel (fun a b => NetRe p k a.1 b.1 ∧ b.2 = a.2) (n.trainOnce x y t d) (m.trainOnce (inOrder p x) y t d) := by
  unfold Net.trainOnce
  refine Res.Rel.bind (R := fun a b : Net F × Draws F => NetRe p k a.1 b.1 ∧ b.2 = a.2) ?_ ?_
  · unfold Net.backpropagation
    refine Res.Rel.bind (outT_re hp h hx t d) ?_
    rintro ⟨o, n1, d1⟩ ⟨o', n1', d1'⟩ ⟨h1, ⟨l, ls, hl, hf, h2⟩, h3⟩
    dsimp only at h1 h2 hl h3
    subst h1 h2 h3
    obtain ⟨st, nan, nt, opt, lay⟩ := n1
    dsimp only at hl
    subst hl
    dsimp only
    by_cases hn : nan = true
    · rw [if_pos hn, if_pos hn]
      exact ⟨⟨l, ls, rfl, hf, rfl⟩, rfl⟩
    · rw [if_neg hn, if_neg hn]
      refine Res.Rel.bind (R := fun x y => x = y) ?_ ?_
      · unfold Net.calculateError
        dsimp only
        refine Res.Rel.bind backOf_re ?_
        rintro a b hab
        rw [hab]
        exact Res.Rel.eq (β := List F)
      · rintro es _ rfl
        refine Res.Rel.bind (R := fun a b : List (Layer F) => ∃ l ls, a = l :: ls ∧ FirstOK k l ∧ b = reorderLayer p l :: ls) ?_ ?_
        · unfold backwardPass
          dsimp only
          refine Res.Rel.bind (R := fun x y => x = y) (Res.Rel.eq (β := List F × List (Layer F))) ?_
          rintro ⟨es1, rest⟩ _ rfl
          dsimp only
          refine Res.Rel.bind (layerTrain_re hp hf es1) ?_
          rintro l1 _ ⟨rfl, hf1⟩
          exact ⟨l1, rest, rfl, hf1, rfl⟩
        · rintro _ _ ⟨l1, ls1, rfl, hf1, rfl⟩
          exact ⟨⟨l1, ls1, rfl, hf1, rfl⟩, rfl⟩
  · rintro ⟨n1, d1⟩ ⟨n1', d1'⟩ ⟨⟨l, ls, hl, hf, h2⟩, h3⟩
    dsimp only at hl h2 h3
    subst h2 h3
    exact ⟨⟨l, ls, hl, hf, rfl⟩, rfl⟩

theorem netSim_re {p : List Nat} {k : Nat} (hp : p.Perm (List.range k)) : MapSim.NetSim k (inOrder p) (NetRe (F := F) p k) where
  out n m x t h hx := out_re hp h hx t
  outT n m x t d h hx := by
    have := outT_re hp h hx t d
    revert this
    cases n.outputForTraining x t d <;> cases m.outputForTraining (inOrder p x) t d <;> simp only [Res.Rel] <;> try exact id
    exact fun h => h.2
  train n m x y t d h hx := trainOnce_re hp h hx y t d
  stats := by rintro n m ⟨l, ls, hl, hf, rfl⟩; rfl
  nan := by rintro n m ⟨l, ls, hl, hf, rfl⟩; rfl
  set := by rintro n m s ⟨l, ls, hl, hf, rfl⟩; exact ⟨l, ls, hl, hf, rfl⟩
  inputs := by
    rintro n m ⟨l, ls, hl, hf, rfl⟩
    unfold Net.getNumberOfInputs
    rw [hl]
    rfl
  outputs := by
    rintro n m ⟨l, ls, hl, hf, rfl⟩
    unfold Net.getNumberOfOutputs
    rw [hl]
    dsimp only
    have := backOf_re (p := p) (l := l) (ls := ls)
    revert this
    cases backOf (l :: ls) <;> cases backOf (reorderLayer p l :: ls) <;> simp only [Res.Rel] <;> intro h <;> first | exact h.elim | skip
    · show Res.ok _ = Res.ok _
      rw [h]
    · rw [h]
    · rw [h]

theorem batchy_re {p : List Nat} {k : Nat} (hp : p.Perm (List.range k)) : MapSim.Batchy (F := F) k (inOrder p) where
  len x hx := by rw [inOrder_length, len_of_perm hp]
  add x y hx hy := inOrder_zipWith hp _ (by omega) (by omega)
  div x c hx := inOrder_map hp _ (by omega)

end

end Snn.Reorder
