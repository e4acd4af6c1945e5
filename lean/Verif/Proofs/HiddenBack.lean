import Verif.Proofs.ReorderProofs

/-! # The backward pass of a layer whose inputs are in another order -/

set_option linter.all false

namespace Snn.Reorder

open Snn.Spec

section
variable {F : Type} [Field F] [LinearOrder F] [IsStrictOrderedRing F] [FTrans F]

theorem back_re {p : List Nat} {k : Nat} (hp : p.Perm (List.range k)) {n : Neuron F} {b : Nat} (h : n.WF k (k + 1) b) (e : F) :
    ∃ es n', n.backOutput e = .ok (es, n') ∧ (reorder p n).backOutput e = .ok (inOrder p es, reorder p n') ∧ n'.WF k (k + 1) b ∧ es.length = k := by
  have h' : (reorder p n).WF k (k + 1) b := reorder_wf hp (by omega) h
  have hw := h.wlen
  obtain ⟨es, r, a1, a2, rfl, a5⟩ := Neuron.backOutput_ok h e
  obtain ⟨es', r', b1, b2, rfl, b5⟩ := Neuron.backOutput_ok h' e
  have he : ((reorder p n).weights.take k).map (fun w => e * (reorder p n).activationFunction.obj.derivative (reorder p n).sum * w)
      = inOrder p ((n.weights.take k).map fun w => e * n.activationFunction.obj.derivative n.sum * w) := by
    rw [inOrder_map hp _ (by simp; omega), inOrder_take hp (by omega)]
    show ((frontInOrder p n.weights).take k).map _ = _
    rw [take_frontInOrder hp]
    rfl
  rw [he] at b1 b5
  have hl : ((n.weights.take k).map fun w => e * n.activationFunction.obj.derivative n.sum * w).length = k := by simp; omega
  have hz : Neuron.WF { n with errors := (n.weights.take k).map (fun w => e * n.activationFunction.obj.derivative n.sum * w) } k (k + 1) b :=
    ⟨h.inputs, h.batch, h.pos, h.wlen, hl, h.last, h.prev⟩
  obtain ⟨r2, c1, c2, c3⟩ := updateSimple_re hp n.optimizer hz (e * n.activationFunction.obj.derivative n.sum)
  rw [c1] at a5
  obtain rfl := Res.ok.inj a5
  have hr : r' = reorder p r2 := Res.ok.inj (b5.symm.trans c2)
  subst hr
  exact ⟨_, _, a1, b1, a2, hl⟩

theorem plusVec_zip : ∀ {a b : List F}, a.length = b.length → plusVec a b = List.zipWith (· + ·) a b
  | [], [], _ => rfl
  | a :: as, [], h => by simp at h
  | [], b :: bs, h => by simp at h
  | a :: as, b :: bs, h => by simp [plusVec, plusVec_zip (a := as) (b := bs) (by simpa using h)]

theorem gruBack_re {p : List Nat} {k : Nat} (hp : p.Perm (List.range k)) {g : Gru F} (h : GruOK k g) (e : F) :
    ∃ es g', g.backOutput e = .ok (es, g') ∧ (reorderGru p g).backOutput e = .ok (inOrder p es, reorderGru p g') ∧ GruOK k g' ∧ es.length = k := by
  obtain ⟨hw, h0, hk⟩ := h
  obtain ⟨e1, r1, a1, b1, c1, l1⟩ := recBack_re hp hw.o (e * g.updateGateOutput)
  obtain ⟨e2, r2, a2, b2, c2, l2⟩ := recBack_re hp hw.u (e * g.outputGateOutput + e * g.updateGateOutput)
  obtain ⟨e3, r3, a3, b3, c3, l3⟩ := recBack_re hp hw.r 0
  have hne : e1 ≠ [] := by rintro rfl; simp at l1; omega
  have hne' : inOrder p e1 ≠ [] := by
    intro hh
    have := congrArg List.length hh
    rw [inOrder_length, len_of_perm hp] at this
    simp at this; omega
  have z : ∀ v : F, v * g.previousOutput = 0 := by intro v; rw [h0]; simp [lit]
  have b1' : (reorderGru p g).outputGate.backOutput (e * g.updateGateOutput) = .ok (inOrder p e1, reorderRec p r1) := b1
  have b2' : (reorderGru p g).updateGate.backOutput (e * g.outputGateOutput + e * g.updateGateOutput) = .ok (inOrder p e2, reorderRec p r2) := b2
  have b3' : (reorderGru p g).resetGate.backOutput 0 = .ok (inOrder p e3, reorderRec p r3) := b3
  have hl : (plusVec (plusVec e1 e2) e3).length = k := by
    rw [plusVec_zip (a := e1) (by omega), plusVec_zip (by simp; omega)]; simp; omega
  have hs : plusVec (plusVec (inOrder p e1) (inOrder p e2)) (inOrder p e3) = inOrder p (plusVec (plusVec e1 e2) e3) := by
    have q : ∀ x : List F, (inOrder p x).length = k := fun x => by rw [inOrder_length, len_of_perm hp]
    rw [plusVec_zip (a := inOrder p e1) (by simp [q]), ← inOrder_zipWith hp _ (by omega) (by omega), plusVec_zip (by simp [q]), plusVec_zip (a := e1) (by omega),
      plusVec_zip (by simp; omega), ← inOrder_zipWith hp _ (by simp; omega) (by omega)]
  refine ⟨_, { g with errors := plusVec (plusVec e1 e2) e3, outputGate := r1, updateGate := r2, resetGate := r3 }, ?_, ?_, ⟨⟨hw.inputs, c3, c2, c1⟩, h0, hk⟩, hl⟩
  · unfold Gru.backOutput
    simp only [a1, Res.ok_bind, a2, backOf_ok hne, z, a3]
    rfl
  · unfold Gru.backOutput
    have u1 : (reorderGru p g).updateGateOutput = g.updateGateOutput := rfl
    have u2 : (reorderGru p g).outputGateOutput = g.outputGateOutput := rfl
    have u3 : (reorderGru p g).previousOutput = g.previousOutput := rfl
    simp only [u1, u2, u3, b1', Res.ok_bind, b2', backOf_ok hne', z, b3', hs]
    unfold reorderGru
    dsimp only
    rw [List.take_of_length_le (l := inOrder p (plusVec (plusVec e1 e2) e3)) (by rw [inOrder_length, len_of_perm hp, hl])]
    rfl

theorem backNeurons_re {p : List Nat} {k : Nat} (hp : p.Perm (List.range k)) {N : Type} {P : N → Prop} {g : N → N} {f f' : N → F → Res (List F × N)}
    (hf : ∀ n e, P n → ∃ es n', f n e = .ok (es, n') ∧ f' (g n) e = .ok (inOrder p es, g n') ∧ P n' ∧ es.length = k) :
    ∀ {ns : List N} (es : List F) {acc : List F}, acc.length = k → (∀ n ∈ ns, P n) →
      Res.Rel (fun a b => b = (inOrder p a.1, a.2.map g) ∧ (∀ n ∈ a.2, P n) ∧ a.1.length = k) (backNeurons f ns es acc) (backNeurons f' (ns.map g) es (inOrder p acc))
  | [], _, acc, ha, _ => ⟨rfl, by simp, ha⟩
  | n :: ns, [], acc, ha, h => by simp only [List.map_cons, backNeurons, Res.Rel]
  | n :: ns, e :: es, acc, ha, h => by
    obtain ⟨y, n', a1, a2, a3, a4⟩ := hf n e (h n (by simp))
    have q : ∀ x : List F, (inOrder p x).length = k := fun x => by rw [inOrder_length, len_of_perm hp]
    have ih := backNeurons_re hp hf es (acc := List.zipWith (· + ·) acc y) (by simp; omega) (fun m hm => h m (List.mem_cons_of_mem _ hm))
    rw [inOrder_zipWith hp _ (by omega) (by omega)] at ih
    simp only [List.map_cons, backNeurons, a1, a2, Res.ok_bind]
    rw [addErrors_ok (by omega), addErrors_ok (by simp [q]), Res.ok_bind, Res.ok_bind]
    refine Res.Rel.bind ih ?_
    rintro ⟨r, ms⟩ ⟨r', ms'⟩ ⟨h1, hm, hl⟩
    obtain ⟨rfl, rfl⟩ := Prod.mk.inj h1
    refine ⟨rfl, ?_, hl⟩
    intro m hm'
    rcases List.mem_cons.1 hm' with rfl | hm'
    · exact a3
    · exact hm m hm'

theorem bodyBack_re {p : List Nat} {k : Nat} (hp : p.Perm (List.range k)) {ni : Int} {os : List (LayerOpt F)} {b : Body F} (h : FirstOK k ⟨ni, os, b⟩) (es : List F) :
    Res.Rel (fun a c => c = (inOrder p a.1, reorderBody p a.2) ∧ (∀ ni os, FirstOK k ⟨ni, os, a.2⟩) ∧ a.1.length = k) (b.computeBackOutput (k : Int) es)
      ((reorderBody p b).computeBackOutput (k : Int) es) := by
  unfold Body.computeBackOutput
  rw [zeroErrors_ok, Res.ok_bind, Res.ok_bind]
  have hz : (List.replicate k (lit 0 : F)).length = k := by simp
  have hz' : inOrder p (List.replicate k (lit 0 : F)) = List.replicate k (lit 0) := inOrder_replicate hp k
  cases b with
  | fullyConnected ns =>
    have := backNeurons_re hp (P := fun n : Neuron F => n.WF k (k + 1) 1) (g := reorder p) (fun n e hn => back_re hp hn e) es hz h
    rw [hz'] at this
    refine Res.Rel.bind this ?_
    rintro ⟨r, ms⟩ ⟨r', ms'⟩ ⟨h1, hm, hl⟩
    obtain ⟨rfl, rfl⟩ := Prod.mk.inj h1
    exact ⟨rfl, fun _ _ => hm, hl⟩
  | recurrence ns =>
    have := backNeurons_re hp (P := fun n : RecNeuron F => n.WF k 1) (g := reorderRec p) (fun n e hn => recBack_re hp hn e) es hz h
    rw [hz'] at this
    refine Res.Rel.bind this ?_
    rintro ⟨r, ms⟩ ⟨r', ms'⟩ ⟨h1, hm, hl⟩
    obtain ⟨rfl, rfl⟩ := Prod.mk.inj h1
    exact ⟨rfl, fun _ _ => hm, hl⟩
  | gru ns =>
    have := backNeurons_re hp (P := GruOK k) (g := reorderGru p) (fun n e hn => gruBack_re hp hn e) es hz h
    rw [hz'] at this
    refine Res.Rel.bind this ?_
    rintro ⟨r, ms⟩ ⟨r', ms'⟩ ⟨h1, hm, hl⟩
    obtain ⟨rfl, rfl⟩ := Prod.mk.inj h1
    exact ⟨rfl, fun _ _ => hm, hl⟩
  | filter kind ns info => exact absurd h id
  | pool d info no mvi => exact absurd h id

theorem layerBack_re {p : List Nat} {k : Nat} (hp : p.Perm (List.range k)) {l : Layer F} (h : FirstOK k l) (hi : l.numberOfInputs = k) (es : List F) :
    Res.Rel (fun a b : List F × Layer F => b = (inOrder p a.1, reorderLayer p a.2) ∧ FirstOK k a.2 ∧ a.2.numberOfInputs = (k : Int) ∧ a.1.length = k) (l.backOutput es)
      ((reorderLayer p l).backOutput es) := by
  obtain ⟨ni, os, b⟩ := l
  dsimp only at hi
  subst hi
  unfold Layer.backOutput reorderLayer
  dsimp only
  rw [backHooks_re (weights_re hp h)]
  refine Res.Rel.bind (bodyBack_re hp h _) ?_
  rintro ⟨r, b'⟩ ⟨r', b''⟩ ⟨h1, h', hl⟩
  obtain ⟨rfl, rfl⟩ := Prod.mk.inj h1
  exact ⟨rfl, h' _ _, rfl, hl⟩

end

end Snn.Reorder
