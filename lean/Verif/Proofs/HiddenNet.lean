import Verif.Proofs.HiddenPerm

/-! # A network with the neurons of a hidden layer in another order -/

set_option linter.all false

namespace Snn.Reorder

open Snn.Spec

section
variable {F : Type}

/-- Layers of neurons connected to every input. -/
def IsNeurons : Body F → Prop
  | .filter _ _ _ => False
  | .pool _ _ _ _ => False
  | _ => True

/-- The layer optimizers that treat every neuron alike: all except dropout and softmax. -/
def Plain : LayerOpt F → Prop
  | .dropout _ _ _ => False
  | .softmax => False
  | _ => True

def pickBody (p : List Nat) : Body F → Body F
  | .fullyConnected ns => .fullyConnected (picked p ns)
  | .recurrence ns => .recurrence (picked p ns)
  | .gru ns => .gru (picked p ns)
  | b => b

theorem neuronsInOrder_eq (p : List Nat) (l : Layer F) : neuronsInOrder p l = { l with body := pickBody p l.body } := by
  unfold neuronsInOrder pickBody
  cases l.body <;> rfl

structure AOK (w m : Nat) (l : Layer F) : Prop where
  wf : l.WF w m
  neurons : IsNeurons l.body
  plain : ∀ o ∈ l.optimizers, Plain o

end

section
variable {F : Type} [Flt F] [FTrans F] [Add F] [Sub F] [Mul F] [Div F] [Neg F]

theorem testing_plain : ∀ {os : List (LayerOpt F)}, (∀ o ∈ os, Plain o) → ∀ x : List F, testingHooks os x = .ok x
  | [], _, x => rfl
  | o :: os, h, x => by
    have h0 := h o (by simp)
    unfold testingHooks
    cases o <;> first | exact h0.elim | skip
    all_goals
      simp only [LayerOpt.afterOutputForTesting, Res.ok_bind]
      exact testing_plain (fun o ho => h o (List.mem_cons_of_mem _ ho)) x

theorem training_plain (t : Bool) : ∀ {os : List (LayerOpt F)}, (∀ o ∈ os, Plain o) → ∀ (x : List F) (d : Draws F), trainingHooks t os x d = .ok (x, os, d)
  | [], _, x, d => rfl
  | o :: os, h, x, d => by
    have h0 := h o (by simp)
    have ih := training_plain t (fun o ho => h o (List.mem_cons_of_mem _ ho)) x d
    unfold trainingHooks
    cases o <;> first | exact h0.elim | skip
    all_goals
      simp only [LayerOpt.afterOutputForTraining, Res.ok_bind]
      rw [ih]
      rfl

end

section
variable {F : Type} [Field F] [LinearOrder F] [IsStrictOrderedRing F] [FTrans F]

theorem backHooks_pick {p : List Nat} {m : Nat} (hp : p.Perm (List.range m)) {us vs : List (List F)} (h : us.Perm vs) :
    ∀ {os : List (LayerOpt F)}, (∀ o ∈ os, Plain o) → ∀ {es : List F}, es.length = m → backHooks us os (inOrder p es) = inOrder p (backHooks vs os es)
  | [], _, es, _ => rfl
  | o :: os, ho, es, he => by
    have h1 : averageAbs us = averageAbs vs := by
      unfold averageAbs
      rw [h.foldl_eq (rcomm := ⟨fun a b c => by
        have key : ∀ (l : List F) (t : F), l.foldl (fun s w => s + fabs w) t = t + l.foldl (fun s w => s + fabs w) 0 := by
          intro l
          induction l with
          | nil => intro t; simp
          | cons x xs ih => intro t; rw [List.foldl_cons, List.foldl_cons, ih, ih (0 + fabs x)]; ring
        rw [key c (b.foldl _ a), key b a, key b (c.foldl _ a), key c a]; ring⟩), h.length_eq]
    have h2 : averageSquare us = averageSquare vs := by
      unfold averageSquare
      rw [h.foldl_eq (rcomm := ⟨fun a b c => by
        have key : ∀ (l : List F) (t : F), l.foldl (fun s w => s + w * w) t = t + l.foldl (fun s w => s + w * w) 0 := by
          intro l
          induction l with
          | nil => intro t; simp
          | cons x xs ih => intro t; rw [List.foldl_cons, List.foldl_cons, ih, ih (0 + x * x)]; ring
        rw [key c (b.foldl _ a), key b a, key b (c.foldl _ a), key c a]; ring⟩), h.length_eq]
    have h3 : o.beforeBackpropagation us (inOrder p es) = inOrder p (o.beforeBackpropagation vs es) ∧ (o.beforeBackpropagation vs es).length = m := by
      have h0 := ho o (by simp)
      cases o <;> first | exact h0.elim | skip
      all_goals
        simp only [LayerOpt.beforeBackpropagation, h1, h2]
        rw [inOrder_map hp _ (by omega)]
        exact ⟨rfl, by simp [he]⟩
    have ih := backHooks_pick hp h (fun o h => ho o (List.mem_cons_of_mem _ h)) h3.2
    unfold backHooks at ih ⊢
    rw [List.foldl_cons, List.foldl_cons, h3.1]
    exact ih

theorem pick_weights (p : List Nat) {b : Body F} (h : IsNeurons b) : (pickBody p b).weights = picked p b.weights := by
  cases b <;> first | exact h.elim | skip
  all_goals
    unfold pickBody Body.weights
    dsimp only
    rw [picked_map]

theorem weights_len {b : Body F} {w m : Nat} (h : b.WF w m) (hn : IsNeurons b) : b.weights.length = m := by
  cases b <;> first | exact hn.elim | skip
  · obtain ⟨_, h⟩ := h; simp [Body.weights, h]
  · obtain ⟨_, h⟩ := h; simp [Body.weights, h]
  · obtain ⟨_, h, _⟩ := h; simp [Body.weights, h]

theorem bodyOut_pick {p : List Nat} {w m : Nat} (hp : p.Perm (List.range m)) {b : Body F} (h : b.WF w m) (hn : IsNeurons b) {x : List F} (hx : x.length = w) (t : Bool) :
    ∃ ys b', b.computeOutput x t = .ok (ys, b') ∧ (pickBody p b).computeOutput x t = .ok (inOrder p ys, pickBody p b') ∧ b'.WF w m ∧ IsNeurons b' ∧ ys.length = m := by
  cases b with
  | fullyConnected ns =>
    obtain ⟨ys, ns', a1, a2, a3, a4, a5⟩ := runNeurons_pick hp (P := fun n : Neuron F => n.WF w (w + 1) 1) (f := fun n => n.output x)
      (fun n hn => by obtain ⟨s, wb, li, _, _, _, a3, a4⟩ := Neuron.output_ok hn x hx; exact ⟨_, _, a3, a4⟩) h.1 h.2
    exact ⟨ys, .fullyConnected ns', by simp [Body.computeOutput, a1], by simp [Body.computeOutput, pickBody, a2], ⟨a3, a4⟩, trivial, a5⟩
  | recurrence ns =>
    obtain ⟨ys, ns', a1, a2, a3, a4, a5⟩ := runNeurons_pick hp (P := fun n : RecNeuron F => n.WF w 1) (f := fun n => n.output x t)
      (fun n hn => by obtain ⟨s, wr, wb, li, _, _, _, _, a3, a4⟩ := RecNeuron.output_ok hn x hx t; exact ⟨_, _, a3, a4⟩) h.1 h.2
    exact ⟨ys, .recurrence ns', by simp [Body.computeOutput, a1], by simp [Body.computeOutput, pickBody, a2], ⟨a3, a4⟩, trivial, a5⟩
  | gru ns =>
    obtain ⟨ys, ns', a1, a2, a3, a4, a5⟩ := runNeurons_pick hp (P := fun n : Gru F => n.WF w 1) (f := fun n => n.output x t)
      (fun n hn => Gru.output_ok hn x hx t) h.1 h.2.1
    exact ⟨ys, .gru ns', by simp [Body.computeOutput, a1], by simp [Body.computeOutput, pickBody, a2], ⟨a3, a4, h.2.2⟩, trivial, a5⟩
  | filter kind ns info => exact hn.elim
  | pool d info no mvi => exact hn.elim

theorem bodyBack_pick {p : List Nat} {w m : Nat} (hp : p.Perm (List.range m)) {b : Body F} (h : b.WF w m) (hn : IsNeurons b) {es : List F} (he : es.length = m) :
    ∃ r b', b.computeBackOutput (w : Int) es = .ok (r, b') ∧ (pickBody p b).computeBackOutput (w : Int) (inOrder p es) = .ok (r, pickBody p b') ∧ b'.WF w m ∧ IsNeurons b' ∧
      r.length = w := by
  obtain ⟨r0, b0, k1, k2, k3⟩ := Body.computeBackOutput_ok h es he
  have hz : (List.replicate w (lit 0 : F)).length = w := by simp
  suffices hh : ∃ r b', b.computeBackOutput (w : Int) es = .ok (r, b') ∧ (pickBody p b).computeBackOutput (w : Int) (inOrder p es) = .ok (r, pickBody p b') ∧ IsNeurons b' by
    obtain ⟨r, b', a1, a2, a3⟩ := hh
    rw [k1] at a1
    obtain ⟨rfl, rfl⟩ := Prod.mk.inj (Res.ok.inj a1)
    exact ⟨_, _, k1, a2, k3, a3, k2⟩
  clear k1 k2 k3 r0 b0
  unfold Body.computeBackOutput
  rw [zeroErrors_ok]
  cases b with
  | fullyConnected ns =>
    obtain ⟨r, ns', a1, a2, a3, a4⟩ := backNeurons_pick hp (P := fun n : Neuron F => n.WF w (w + 1) 1) (f := fun n e => n.backOutput e)
      (fun n e hn => by
        obtain ⟨es, n', a1, a2, a3, _⟩ := Neuron.backOutput_ok hn e
        exact ⟨_, _, a1, a2, by rw [a3]; have := hn.wlen; simp; omega⟩) h.1 h.2 he hz
    exact ⟨r, .fullyConnected ns', by simp only [Res.ok_bind]; rw [a1]; rfl, by simp only [pickBody, Res.ok_bind]; rw [a2]; rfl, trivial⟩
  | recurrence ns =>
    obtain ⟨r, ns', a1, a2, a3, a4⟩ := backNeurons_pick hp (P := fun n : RecNeuron F => n.WF w 1) (f := fun n e => n.backOutput e)
      (fun n e hn => by
        obtain ⟨es, n', a1, a2, _, a3, _⟩ := RecNeuron.backOutput_ok hn e
        exact ⟨_, _, a1, a2, a3⟩) h.1 h.2 he hz
    exact ⟨r, .recurrence ns', by simp only [Res.ok_bind]; rw [a1]; rfl, by simp only [pickBody, Res.ok_bind]; rw [a2]; rfl, trivial⟩
  | gru ns =>
    obtain ⟨r, ns', a1, a2, a3, a4⟩ := backNeurons_pick hp (P := fun n : Gru F => n.WF w 1) (f := fun n e => n.backOutput e)
      (fun n e hn => Gru.backOutput_ok hn h.2.2 e) h.1 h.2.1 he hz
    exact ⟨r, .gru ns', by simp only [Res.ok_bind]; rw [a1]; rfl, by simp only [pickBody, Res.ok_bind]; rw [a2]; rfl, trivial⟩
  | filter kind ns info => exact hn.elim
  | pool d info no mvi => exact hn.elim

theorem bodyTrain_pick {p : List Nat} {w m : Nat} (hp : p.Perm (List.range m)) {b : Body F} (h : b.WF w m) (hn : IsNeurons b) {es : List F} (he : es.length = m) :
    ∃ b', b.computeTrain es = .ok b' ∧ (pickBody p b).computeTrain (inOrder p es) = .ok (pickBody p b') ∧ b'.WF w m ∧ IsNeurons b' := by
  unfold Body.computeTrain
  cases b with
  | fullyConnected ns =>
    obtain ⟨ns', a1, a2, a3, a4⟩ := trainNeurons_pick hp (P := fun n : Neuron F => n.WF w (w + 1) 1) (f := fun n e => n.train e)
      (fun n e hn => by obtain ⟨n', a1, a2, _⟩ := Neuron.train_ok hn e; exact ⟨_, a1, a2⟩) h.1 h.2 he
    exact ⟨.fullyConnected ns', by simp [a1], by simp [pickBody, a2], ⟨a3, a4⟩, trivial⟩
  | recurrence ns =>
    obtain ⟨ns', a1, a2, a3, a4⟩ := trainNeurons_pick hp (P := fun n : RecNeuron F => n.WF w 1) (f := fun n e => n.train e)
      (fun n e hn => by obtain ⟨n', a1, a2, _⟩ := RecNeuron.train_ok hn e; exact ⟨_, a1, a2⟩) h.1 h.2 he
    exact ⟨.recurrence ns', by simp [a1], by simp [pickBody, a2], ⟨a3, a4⟩, trivial⟩
  | gru ns =>
    obtain ⟨ns', a1, a2, a3, a4⟩ := trainNeurons_pick hp (P := fun n : Gru F => n.WF w 1) (f := fun n e => n.train e)
      (fun n e hn => Gru.train_ok hn h.2.2 e) h.1 h.2.1 he
    exact ⟨.gru ns', by simp [a1], by simp [pickBody, a2], ⟨a3, a4, h.2.2⟩, trivial⟩
  | filter kind ns info => exact hn.elim
  | pool d info no mvi => exact hn.elim

theorem layerOut_pick {p : List Nat} {w m : Nat} (hp : p.Perm (List.range m)) {l : Layer F} (h : AOK w m l) {x : List F} (hx : x.length = w) (t : Bool) :
    ∃ ys l', l.output x t = .ok (ys, l') ∧ (neuronsInOrder p l).output x t = .ok (inOrder p ys, neuronsInOrder p l') ∧ AOK w m l' ∧ ys.length = m := by
  obtain ⟨ys, b', a1, a2, a3, a4, a5⟩ := bodyOut_pick hp h.wf.body h.neurons hx t
  refine ⟨ys, { l with body := b' }, ?_, ?_, ⟨⟨h.wf.inputs, a3, h.wf.pos⟩, a4, h.plain⟩, a5⟩
  · simp [Layer.output, a1, testing_plain h.plain]
  · simp [Layer.output, neuronsInOrder_eq, a2, testing_plain h.plain]

theorem layerTraining_pick {p : List Nat} {w m : Nat} (hp : p.Perm (List.range m)) {l : Layer F} (h : AOK w m l) {x : List F} (hx : x.length = w) (t : Bool) (d : Draws F) :
    ∃ ys l', l.outputForTraining x t d = .ok (ys, l', d) ∧ (neuronsInOrder p l).outputForTraining x t d = .ok (inOrder p ys, neuronsInOrder p l', d) ∧ AOK w m l' ∧
      ys.length = m := by
  obtain ⟨ys, b', a1, a2, a3, a4, a5⟩ := bodyOut_pick hp h.wf.body h.neurons hx t
  refine ⟨ys, { l with body := b' }, ?_, ?_, ⟨⟨h.wf.inputs, a3, h.wf.pos⟩, a4, h.plain⟩, a5⟩
  · simp [Layer.outputForTraining, a1, training_plain t h.plain]
  · simp [Layer.outputForTraining, neuronsInOrder_eq, a2, training_plain t h.plain]

theorem layerBack_pick {p : List Nat} {w m : Nat} (hp : p.Perm (List.range m)) {l : Layer F} (h : AOK w m l) {es : List F} (he : es.length = m) :
    ∃ r l', l.backOutput es = .ok (r, l') ∧ (neuronsInOrder p l).backOutput (inOrder p es) = .ok (r, neuronsInOrder p l') ∧ AOK w m l' ∧ r.length = w := by
  have hw := weights_len h.wf.body h.neurons
  have hh := backHooks_pick hp (us := (pickBody p l.body).weights) (vs := l.body.weights) (by rw [pick_weights p h.neurons]; exact picked_perm (by rw [hw]; exact hp)) h.plain he
  obtain ⟨r, b', a1, a2, a3, a4, a5⟩ := bodyBack_pick hp h.wf.body h.neurons (es := backHooks l.body.weights l.optimizers es) (by rw [backHooks_length, he])
  refine ⟨r, { l with body := b' }, ?_, ?_, ⟨⟨h.wf.inputs, a3, h.wf.pos⟩, a4, h.plain⟩, a5⟩
  · simp only [Layer.backOutput, h.wf.inputs, a1, Res.ok_bind]; rfl
  · simp only [Layer.backOutput, neuronsInOrder_eq, hh, h.wf.inputs, a2, Res.ok_bind]; rfl

theorem layerTrain_pick {p : List Nat} {w m : Nat} (hp : p.Perm (List.range m)) {l : Layer F} (h : AOK w m l) {es : List F} (he : es.length = m) :
    ∃ l', l.train es = .ok l' ∧ (neuronsInOrder p l).train (inOrder p es) = .ok (neuronsInOrder p l') ∧ AOK w m l' := by
  have hw := weights_len h.wf.body h.neurons
  have hh := backHooks_pick hp (us := (pickBody p l.body).weights) (vs := l.body.weights) (by rw [pick_weights p h.neurons]; exact picked_perm (by rw [hw]; exact hp)) h.plain he
  obtain ⟨b', a1, a2, a3, a4⟩ := bodyTrain_pick hp h.wf.body h.neurons (es := backHooks l.body.weights l.optimizers es) (by rw [backHooks_length, he])
  refine ⟨{ l with body := b' }, ?_, ?_, ⟨⟨h.wf.inputs, a3, h.wf.pos⟩, a4, h.plain⟩⟩
  · simp only [Layer.train, a1, Res.ok_bind]; rfl
  · simp only [Layer.train, neuronsInOrder_eq, hh, a2, Res.ok_bind]; rfl

end

end Snn.Reorder
