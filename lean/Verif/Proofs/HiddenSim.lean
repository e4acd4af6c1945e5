import Verif.Proofs.HiddenNet

/-! # Histories of a network with the neurons of a hidden layer in another order -/

set_option linter.all false

namespace Snn.Reorder

open Snn.Spec

section
variable {F : Type} [Field F] [LinearOrder F] [IsStrictOrderedRing F] [FTrans F]

/-- The layers are the same except that the neurons of the layer k and the input weights of the next one are in the order p. -/
inductive LRe (p : List Nat) (m : Nat) : Nat → Nat → List (Layer F) → List (Layer F) → Prop
  | here {w : Nat} {a b : Layer F} {post : List (Layer F)} (ha : AOK w m a) (hb : FirstOK m b) (hi : b.numberOfInputs = (m : Int)) :
      LRe p m 0 w (a :: b :: post) (neuronsInOrder p a :: reorderLayer p b :: post)
  | next {k w v : Nat} {l : Layer F} {ls ls' : List (Layer F)} (hl : l.WF w v) (h : LRe p m k v ls ls') : LRe p m (k + 1) w (l :: ls) (l :: ls')

theorem layerOutput_re' {p : List Nat} {k : Nat} (hp : p.Perm (List.range k)) {l : Layer F} (h : FirstOK k l) (hi : l.numberOfInputs = (k : Int)) {x : List F} (hx : x.length = k) (t : Bool) :
    Res.Rel (fun a b : List F × Layer F => b = (a.1, reorderLayer p a.2) ∧ FirstOK k a.2 ∧ a.2.numberOfInputs = (k : Int)) (l.output x t) ((reorderLayer p l).output (inOrder p x) t) := by
  have := layerOutput_re hp h hx t
  have hs : ∀ y l', l.output x t = .ok (y, l') → l'.numberOfInputs = (k : Int) := fun y l' h => (Layer.output_same h).inputs.trans hi
  revert this hs
  cases l.output x t <;> cases (reorderLayer p l).output (inOrder p x) t <;> simp only [Res.Rel] <;> intro h1 h2 <;> try exact h1
  rename_i a b
  exact ⟨Prod.ext h1.1 h1.2.1, h1.2.2, h2 _ _ rfl⟩

theorem layerTraining_re' {p : List Nat} {k : Nat} (hp : p.Perm (List.range k)) {l : Layer F} (h : FirstOK k l) (hi : l.numberOfInputs = (k : Int)) {x : List F} (hx : x.length = k) (t : Bool)
    (d : Draws F) : Res.Rel (fun a b : List F × Layer F × Draws F => b = (a.1, reorderLayer p a.2.1, a.2.2) ∧ FirstOK k a.2.1 ∧ a.2.1.numberOfInputs = (k : Int))
      (l.outputForTraining x t d) ((reorderLayer p l).outputForTraining (inOrder p x) t d) := by
  have := layerTraining_re hp h hx t d
  have hs : ∀ y, l.outputForTraining x t d = .ok y → y.2.1.numberOfInputs = (k : Int) := by
    intro y h
    obtain ⟨_, _, h⟩ := Res.bind_eq_ok.1 h
    obtain ⟨_, _, h⟩ := Res.bind_eq_ok.1 h
    cases h
    exact hi
  revert this hs
  cases l.outputForTraining x t d <;> cases (reorderLayer p l).outputForTraining (inOrder p x) t d <;> simp only [Res.Rel] <;> intro h1 h2 <;> try exact h1
  rename_i a b
  exact ⟨Prod.ext h1.1 (Prod.ext h1.2.1 h1.2.2.2), h1.2.2.1, h2 _ rfl⟩

theorem outputLoop_hid {p : List Nat} {m : Nat} (hp : p.Perm (List.range m)) (t : Bool) {k w : Nat} {ls ls' : List (Layer F)} (h : LRe p m k w ls ls') : ∀ {x : List F}, x.length = w →
    Res.Rel (fun a b : List F × List (Layer F) => b.1 = a.1 ∧ LRe p m k w a.2 b.2) (outputLoop t ls x) (outputLoop t ls' x) := by
  induction h with
  | @here w a b post ha hb hi =>
    intro x hx
    obtain ⟨ys, a', a1, a2, a3, a4⟩ := layerOut_pick hp ha hx t
    unfold outputLoop
    rw [a1, a2, Res.ok_bind, Res.ok_bind]
    dsimp only
    unfold outputLoop
    refine Res.Rel.bind (R := fun u v : List F × List (Layer F) => v.1 = u.1 ∧ ∃ b' post', u.2 = b' :: post' ∧ v.2 = reorderLayer p b' :: post' ∧ FirstOK m b' ∧
      b'.numberOfInputs = (m : Int)) ?_ ?_
    · refine Res.Rel.bind (layerOutput_re' hp hb hi a4 t) ?_
      rintro ⟨y, b'⟩ ⟨y', b''⟩ ⟨h1, h2, h3⟩
      obtain ⟨rfl, rfl⟩ := Prod.mk.inj h1
      dsimp only
      refine Res.Rel.bind (R := fun x y => x = y) (Res.Rel.eq (β := List F × List (Layer F))) ?_
      rintro ⟨z, ls1⟩ _ rfl
      exact ⟨rfl, b', ls1, rfl, rfl, h2, h3⟩
    · rintro ⟨z, u⟩ ⟨z', v⟩ ⟨h1, b', post', h2, h3, h4, h5⟩
      dsimp only at h1 h2 h3
      subst h1 h2 h3
      exact ⟨rfl, .here a3 h4 h5⟩
  | @next k w v l ls ls' hl h ih =>
    intro x hx
    obtain ⟨y, l', a1, a2, a3⟩ := Layer.output_ok hl x hx t
    unfold outputLoop
    rw [a1, Res.ok_bind, Res.ok_bind]
    dsimp only
    refine Res.Rel.bind (ih a2) ?_
    rintro ⟨z, u⟩ ⟨z', v⟩ ⟨h1, h2⟩
    dsimp only at h1 h2
    subst h1
    exact ⟨rfl, .next a3 h2⟩

theorem trainingLoop_hid {p : List Nat} {m : Nat} (hp : p.Perm (List.range m)) (t : Bool) {k w : Nat} {ls ls' : List (Layer F)} (h : LRe p m k w ls ls') :
    ∀ {x : List F} (d : Draws F), x.length = w →
    Res.Rel (fun a b : List F × List (Layer F) × Draws F => b.1 = a.1 ∧ LRe p m k w a.2.1 b.2.1 ∧ b.2.2 = a.2.2) (trainingLoop t ls x d) (trainingLoop t ls' x d) := by
  induction h with
  | @here w a b post ha hb hi =>
    intro x d hx
    obtain ⟨ys, a', a1, a2, a3, a4⟩ := layerTraining_pick hp ha hx t d
    unfold trainingLoop
    rw [a1, a2, Res.ok_bind, Res.ok_bind]
    dsimp only
    unfold trainingLoop
    refine Res.Rel.bind (R := fun u v : List F × List (Layer F) × Draws F => v.1 = u.1 ∧ (∃ b' post', u.2.1 = b' :: post' ∧ v.2.1 = reorderLayer p b' :: post' ∧ FirstOK m b' ∧
      b'.numberOfInputs = (m : Int)) ∧ v.2.2 = u.2.2) ?_ ?_
    · refine Res.Rel.bind (layerTraining_re' hp hb hi a4 t d) ?_
      rintro ⟨y, b', d1⟩ ⟨y', b'', d1'⟩ ⟨h1, h2, h3⟩
      obtain ⟨rfl, h1⟩ := Prod.mk.inj h1
      obtain ⟨rfl, rfl⟩ := Prod.mk.inj h1
      dsimp only
      refine Res.Rel.bind (R := fun x y => x = y) (Res.Rel.eq (β := List F × List (Layer F) × Draws F)) ?_
      rintro ⟨z, ls1, d2⟩ _ rfl
      exact ⟨rfl, ⟨b', ls1, rfl, rfl, h2, h3⟩, rfl⟩
    · rintro ⟨z, u, d1⟩ ⟨z', v, d2⟩ ⟨h1, ⟨b', post', h2, h3, h4, h5⟩, h6⟩
      dsimp only at h1 h2 h3 h6
      subst h1 h2 h3 h6
      exact ⟨rfl, .here a3 h4 h5, rfl⟩
  | @next k w v l ls ls' hl h ih =>
    intro x d hx
    obtain ⟨y, l', d', a1, a2, a3⟩ := Layer.outputForTraining_ok hl x hx t d
    unfold trainingLoop
    rw [a1, Res.ok_bind, Res.ok_bind]
    dsimp only
    refine Res.Rel.bind (ih d' a2) ?_
    rintro ⟨z, u, d1⟩ ⟨z', v, d2⟩ ⟨h1, h2, h3⟩
    dsimp only at h1 h2 h3
    subst h1 h3
    exact ⟨rfl, .next a3 h2, rfl⟩

/-- The backward pass of the layers from the layer after the hidden one. -/
theorem backB_hid {p : List Nat} {m : Nat} (hp : p.Perm (List.range m)) {b : Layer F} (hb : FirstOK m b) (hi : b.numberOfInputs = (m : Int)) (post : List (Layer F)) (es : List F) :
    Res.Rel (fun u v : List F × List (Layer F) => v.1 = inOrder p u.1 ∧ u.1.length = m ∧ ∃ b' post', u.2 = b' :: post' ∧ v.2 = reorderLayer p b' :: post' ∧ FirstOK m b' ∧
      b'.numberOfInputs = (m : Int)) (backLoop (b :: post) es) (backLoop (reorderLayer p b :: post) es) := by
  unfold backLoop
  refine Res.Rel.bind (R := fun x y => x = y) (Res.Rel.eq (β := List F × List (Layer F))) ?_
  rintro ⟨e1, post'⟩ _ rfl
  dsimp only
  refine Res.Rel.bind (layerBack_re hp hb hi e1) ?_
  rintro ⟨e2, b'⟩ ⟨e2', b''⟩ ⟨h1, h2, h3, h4⟩
  obtain ⟨rfl, rfl⟩ := Prod.mk.inj h1
  exact ⟨rfl, h4, b', post', rfl, rfl, h2, h3⟩

theorem backLoop_hid {p : List Nat} {m : Nat} (hp : p.Perm (List.range m)) {k w : Nat} {ls ls' : List (Layer F)} (h : LRe p m k w ls ls') : ∀ (es : List F),
    Res.Rel (fun a b : List F × List (Layer F) => b.1 = a.1 ∧ a.1.length = w ∧ LRe p m k w a.2 b.2) (backLoop ls es) (backLoop ls' es) := by
  induction h with
  | @here w a b post ha hb hi =>
    intro es
    rw [show backLoop (a :: b :: post) es = (do let (es1, ls') ← backLoop (b :: post) es; let (es2, l') ← a.backOutput es1; return (es2, l' :: ls')) from rfl,
      show backLoop (neuronsInOrder p a :: reorderLayer p b :: post) es = (do let (es1, ls') ← backLoop (reorderLayer p b :: post) es; let (es2, l') ← (neuronsInOrder p a).backOutput es1; return (es2, l' :: ls')) from rfl]
    refine Res.Rel.bind (backB_hid hp hb hi post es) ?_
    rintro ⟨e1, u⟩ ⟨e1', v⟩ ⟨h1, h0, b', post', h2, h3, h4, h5⟩
    dsimp only at h0 h1 h2 h3
    subst h1 h2 h3
    obtain ⟨r, a', a1, a2, a3, a4⟩ := layerBack_pick hp ha h0
    dsimp only
    rw [a1, a2, Res.ok_bind, Res.ok_bind]
    exact ⟨rfl, a4, .here a3 h4 h5⟩
  | @next k w v l ls ls' hl h ih =>
    intro es
    unfold backLoop
    refine Res.Rel.bind (ih es) ?_
    rintro ⟨e1, u⟩ ⟨e1', v⟩ ⟨h1, h2, h3⟩
    dsimp only at h1 h2 h3
    subst h1
    obtain ⟨r, l', a1, a2, a3⟩ := Layer.backOutput_ok hl e1' h2
    dsimp only
    rw [a1, Res.ok_bind, Res.ok_bind]
    exact ⟨rfl, a2, .next a3 h3⟩

theorem backward_hid {p : List Nat} {m : Nat} (hp : p.Perm (List.range m)) {k w : Nat} {ls ls' : List (Layer F)} (h : LRe p m k w ls ls') (es : List F) :
    Res.Rel (fun a b => LRe p m k w a b) (backwardPass ls es) (backwardPass ls' es) := by
  cases h with
  | @here w a b post ha hb hi =>
    unfold backwardPass
    dsimp only
    refine Res.Rel.bind (backB_hid hp hb hi post es) ?_
    rintro ⟨e1, u⟩ ⟨e1', v⟩ ⟨h1, h0, b', post', h2, h3, h4, h5⟩
    dsimp only at h0 h1 h2 h3
    subst h1 h2 h3
    obtain ⟨a', a1, a2, a3⟩ := layerTrain_pick hp ha h0
    dsimp only
    rw [a1, a2, Res.ok_bind, Res.ok_bind]
    exact .here a3 h4 h5
  | @next k w v l ls ls' hl h =>
    unfold backwardPass
    dsimp only
    refine Res.Rel.bind (backLoop_hid hp h es) ?_
    rintro ⟨e1, u⟩ ⟨e1', v⟩ ⟨h1, h2, h3⟩
    dsimp only at h1 h2 h3
    subst h1
    obtain ⟨l', a1, a2⟩ := Layer.train_ok hl e1' h2
    dsimp only
    rw [a1, Res.ok_bind, Res.ok_bind]
    exact .next a2 h3

theorem last_hid {p : List Nat} {m k w : Nat} {ls ls' : List (Layer F)} (h : LRe p m k w ls ls') :
    Res.Rel (fun a b => b.getNumberOfNeurons = a.getNumberOfNeurons) (backOf ls) (backOf ls') := by
  induction h with
  | @here w a b post ha hb hi =>
    have := backOf_re (p := p) (l := b) (ls := post)
    unfold backOf at this ⊢
    rwa [List.getLast?_cons_cons, List.getLast?_cons_cons]
  | @next k w v l ls ls' hl h ih =>
    have h1 : ∃ c cs, ls = c :: cs := by cases h <;> exact ⟨_, _, rfl⟩
    have h2 : ∃ c cs, ls' = c :: cs := by cases h <;> exact ⟨_, _, rfl⟩
    obtain ⟨c, cs, rfl⟩ := h1
    obtain ⟨c', cs', rfl⟩ := h2
    unfold backOf at ih ⊢
    rwa [List.getLast?_cons_cons, List.getLast?_cons_cons]

/-- The two networks are the same except for that order. -/
def NetHid (p : List Nat) (m k w : Nat) (n n' : Net F) : Prop := ∃ ls', LRe p m k w n.layers ls' ∧ n' = { n with layers := ls' }

theorem empty_hid {p : List Nat} {m k w : Nat} {ls ls' : List (Layer F)} (h : LRe p m k w ls ls') : ls.isEmpty = false ∧ ls'.isEmpty = false := by
  cases h <;> exact ⟨rfl, rfl⟩

theorem netSim_hid {p : List Nat} {m : Nat} (hp : p.Perm (List.range m)) (k w : Nat) : MapSim.NetSim w id (NetHid (F := F) p m k w) where
  out := by
    rintro n _ x t ⟨ls', h, rfl⟩ hx
    unfold Net.output
    dsimp only [id]
    rw [(empty_hid h).1, (empty_hid h).2]
    simp only [Bool.false_eq_true, if_false]
    refine Res.Rel.bind (outputLoop_hid hp t h hx) ?_
    rintro ⟨y, u⟩ ⟨y', v⟩ ⟨h1, h2⟩
    dsimp only at h1 h2
    subst h1
    exact ⟨rfl, v, h2, rfl⟩
  outT := by
    rintro n _ x t d ⟨ls', h, rfl⟩ hx
    unfold Net.outputForTraining
    dsimp only [id]
    rw [(empty_hid h).1, (empty_hid h).2]
    simp only [Bool.false_eq_true, if_false]
    refine Res.Rel.bind (trainingLoop_hid hp t h d hx) ?_
    rintro ⟨y, u, d1⟩ ⟨y', v, d2⟩ ⟨h1, h2, h3⟩
    dsimp only at h1 h2 h3
    subst h1 h3
    exact ⟨⟨v, h2, rfl⟩, rfl⟩
  train := by
    rintro n _ x y t d ⟨ls', h, rfl⟩ hx
    unfold Net.trainOnce
    refine Res.Rel.bind (R := fun a b : Net F × Draws F => NetHid p m k w a.1 b.1 ∧ b.2 = a.2) ?_ ?_
    · unfold Net.backpropagation
      refine Res.Rel.bind (R := fun a b : List F × Net F × Draws F => b.1 = a.1 ∧ NetHid p m k w a.2.1 b.2.1 ∧ b.2.2 = a.2.2) ?_ ?_
      · unfold Net.outputForTraining
        dsimp only [id]
        rw [(empty_hid h).1, (empty_hid h).2]
        simp only [Bool.false_eq_true, if_false]
        refine Res.Rel.bind (trainingLoop_hid hp t h d hx) ?_
        rintro ⟨y, u, d1⟩ ⟨y', v, d2⟩ ⟨h1, h2, h3⟩
        dsimp only at h1 h2 h3
        subst h1 h3
        exact ⟨rfl, ⟨v, h2, rfl⟩, rfl⟩
      · rintro ⟨o, n1, d1⟩ ⟨o', n1', d1'⟩ ⟨h1, ⟨ls1, h2, h4⟩, h3⟩
        dsimp only at h1 h2 h3 h4
        subst h1 h3 h4
        dsimp only
        by_cases hn : n1.outputNan = true
        · rw [if_pos hn, if_pos hn]
          exact ⟨⟨ls1, h2, rfl⟩, rfl⟩
        · rw [if_neg hn, if_neg hn]
          refine Res.Rel.bind (R := fun x y => x = y) ?_ ?_
          · unfold Net.calculateError
            dsimp only
            refine Res.Rel.bind (last_hid h2) ?_
            rintro a b hab
            rw [hab]
            exact Res.Rel.eq (β := List F)
          · rintro es _ rfl
            refine Res.Rel.bind (backward_hid hp h2 es) ?_
            rintro u v huv
            exact ⟨⟨v, huv, rfl⟩, rfl⟩
    · rintro ⟨n1, d1⟩ ⟨n1', d1'⟩ ⟨⟨ls1, h2, h4⟩, h3⟩
      dsimp only at h2 h3 h4
      subst h3 h4
      exact ⟨⟨ls1, h2, rfl⟩, rfl⟩
  stats := by rintro n _ ⟨ls', h, rfl⟩; rfl
  nan := by rintro n _ ⟨ls', h, rfl⟩; rfl
  set := by rintro n _ s ⟨ls', h, rfl⟩; exact ⟨ls', h, rfl⟩
  inputs := by
    rintro n _ ⟨ls', h, rfl⟩
    unfold Net.getNumberOfInputs
    dsimp only
    generalize n.layers = ls at h
    cases h <;> rfl
  outputs := by
    rintro n _ ⟨ls', h, rfl⟩
    unfold Net.getNumberOfOutputs
    dsimp only
    have := last_hid h
    revert this
    cases backOf n.layers <;> cases backOf ls' <;> simp only [Res.Rel] <;> intro h <;> first | exact h.elim | skip
    · show Res.ok _ = Res.ok _
      rw [h]
    · rw [h]
    · rw [h]

theorem batchy_id (w : Nat) : MapSim.Batchy (F := F) w id := ⟨fun _ h => h, fun _ _ _ _ => rfl, fun _ _ _ => rfl⟩

theorem weights_hid {p : List Nat} {m k w : Nat} {ls ls' : List (Layer F)} (h : LRe p m k w ls ls') :
    ls'.map (fun l => l.body.weights) = (reorderHidden p k ls).map (fun l => l.body.weights) := by
  induction h with
  | @here w a b post ha hb hi =>
    unfold reorderHidden
    obtain ⟨ni, os, bd⟩ := b
    cases bd <;> simp [reorderLayer, reorderBody, Body.weights, Neuron.getWeights, Gru.getWeights, reorder, reorderRec, reorderGru, Function.comp_def]
  | @next k w v l ls ls' hl h ih =>
    unfold reorderHidden
    rw [List.map_cons, List.map_cons, ih]

end

end Snn.Reorder
