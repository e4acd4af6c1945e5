import Verif.Proofs.OutSim
import Verif.Proofs.HiddenStart

/-! # A network with the neurons of its last layer in another order -/

set_option linter.all false

namespace Snn.OutSim

open Snn.Spec Snn.Reorder

section
variable {F : Type} [Field F] [LinearOrder F] [IsStrictOrderedRing F] [FTrans F]

/-- The same layers, the neurons of the last one in the order p. -/
inductive LRo (p : List Nat) (m : Nat) : Nat → List (Layer F) → List (Layer F) → Prop
  | last {w : Nat} {a : Layer F} (ha : AOK w m a) : LRo p m w [a] [neuronsInOrder p a]
  | next {w v : Nat} {l : Layer F} {ls ls' : List (Layer F)} (hl : l.WF w v) (h : LRo p m v ls ls') : LRo p m w (l :: ls) (l :: ls')

variable {p : List Nat} {m : Nat}

theorem outputLoop_out (hp : p.Perm (List.range m)) (t : Bool) {w : Nat} {ls ls' : List (Layer F)} (h : LRo p m w ls ls') : ∀ {x : List F}, x.length = w →
    Res.Rel (fun a b : List F × List (Layer F) => b.1 = inOrder p a.1 ∧ a.1.length = m ∧ LRo p m w a.2 b.2) (outputLoop t ls x) (outputLoop t ls' x) := by
  induction h with
  | @last w a ha =>
    intro x hx
    obtain ⟨ys, a', a1, a2, a3, a4⟩ := layerOut_pick hp ha hx t
    unfold outputLoop
    rw [a1, a2, Res.ok_bind, Res.ok_bind]
    dsimp only
    unfold outputLoop
    rw [Res.ok_bind, Res.ok_bind]
    exact ⟨rfl, a4, .last a3⟩
  | @next w v l ls ls' hl h ih =>
    intro x hx
    obtain ⟨y, l', a1, a2, a3⟩ := Layer.output_ok hl x hx t
    unfold outputLoop
    rw [a1, Res.ok_bind, Res.ok_bind]
    dsimp only
    refine Res.Rel.bind (ih a2) ?_
    rintro ⟨z, u⟩ ⟨z', v⟩ ⟨h1, h0, h2⟩
    exact ⟨h1, h0, .next a3 h2⟩

theorem trainingLoop_out (hp : p.Perm (List.range m)) (t : Bool) {w : Nat} {ls ls' : List (Layer F)} (h : LRo p m w ls ls') :
    ∀ {x : List F} (d : Draws F), x.length = w →
    Res.Rel (fun a b : List F × List (Layer F) × Draws F => b.1 = inOrder p a.1 ∧ a.1.length = m ∧ LRo p m w a.2.1 b.2.1 ∧ b.2.2 = a.2.2)
      (trainingLoop t ls x d) (trainingLoop t ls' x d) := by
  induction h with
  | @last w a ha =>
    intro x d hx
    obtain ⟨ys, a', a1, a2, a3, a4⟩ := layerTraining_pick hp ha hx t d
    unfold trainingLoop
    rw [a1, a2, Res.ok_bind, Res.ok_bind]
    dsimp only
    unfold trainingLoop
    rw [Res.ok_bind, Res.ok_bind]
    exact ⟨rfl, a4, .last a3, rfl⟩
  | @next w v l ls ls' hl h ih =>
    intro x d hx
    obtain ⟨y, l', d', a1, a2, a3⟩ := Layer.outputForTraining_ok hl x hx t d
    unfold trainingLoop
    rw [a1, Res.ok_bind, Res.ok_bind]
    dsimp only
    refine Res.Rel.bind (ih d' a2) ?_
    rintro ⟨z, u, d1⟩ ⟨z', v, d2⟩ ⟨h1, h0, h2, h3⟩
    exact ⟨h1, h0, .next a3 h2, h3⟩

theorem backLoop_out (hp : p.Perm (List.range m)) {w : Nat} {ls ls' : List (Layer F)} (h : LRo p m w ls ls') : ∀ {es : List F}, es.length = m →
    Res.Rel (fun a b : List F × List (Layer F) => b.1 = a.1 ∧ a.1.length = w ∧ LRo p m w a.2 b.2) (backLoop ls es) (backLoop ls' (inOrder p es)) := by
  induction h with
  | @last w a ha =>
    intro es he
    obtain ⟨r, a', a1, a2, a3, a4⟩ := layerBack_pick hp ha he
    unfold backLoop
    rw [show backLoop ([] : List (Layer F)) es = .ok (es, []) from rfl, show backLoop ([] : List (Layer F)) (inOrder p es) = .ok (inOrder p es, []) from rfl,
      Res.ok_bind, Res.ok_bind]
    dsimp only
    rw [a1, a2, Res.ok_bind, Res.ok_bind]
    exact ⟨rfl, a4, .last a3⟩
  | @next w v l ls ls' hl h ih =>
    intro es he
    unfold backLoop
    refine Res.Rel.bind (ih he) ?_
    rintro ⟨e1, u⟩ ⟨e1', v⟩ ⟨h1, h2, h3⟩
    dsimp only at h1 h2 h3
    subst h1
    obtain ⟨r, l', a1, a2, a3⟩ := Layer.backOutput_ok hl e1' h2
    dsimp only
    rw [a1, Res.ok_bind, Res.ok_bind]
    exact ⟨rfl, a2, .next a3 h3⟩

theorem backward_out (hp : p.Perm (List.range m)) {w : Nat} {ls ls' : List (Layer F)} (h : LRo p m w ls ls') {es : List F} (he : es.length = m) :
    Res.Rel (fun a b => LRo p m w a b) (backwardPass ls es) (backwardPass ls' (inOrder p es)) := by
  cases h with
  | @last w a ha =>
    obtain ⟨a', a1, a2, a3⟩ := layerTrain_pick hp ha he
    unfold backwardPass
    dsimp only
    rw [show backLoop ([] : List (Layer F)) es = .ok (es, []) from rfl, show backLoop ([] : List (Layer F)) (inOrder p es) = .ok (inOrder p es, []) from rfl,
      Res.ok_bind, Res.ok_bind]
    dsimp only
    rw [a1, a2, Res.ok_bind, Res.ok_bind]
    exact .last a3
  | @next w v l ls ls' hl h =>
    unfold backwardPass
    dsimp only
    refine Res.Rel.bind (backLoop_out hp h he) ?_
    rintro ⟨e1, u⟩ ⟨e1', v⟩ ⟨h1, h2, h3⟩
    dsimp only at h1 h2 h3
    subst h1
    obtain ⟨l', a1, a2⟩ := Layer.train_ok hl e1' h2
    dsimp only
    rw [a1, Res.ok_bind, Res.ok_bind]
    exact .next a2 h3

theorem neurons_len {w : Nat} {a : Layer F} (ha : AOK w m a) : a.getNumberOfNeurons = m := by
  have h1 := ha.wf.body
  have h2 := ha.neurons
  unfold Layer.getNumberOfNeurons Body.numberOfNeurons
  revert h1 h2
  cases a.body with
  | fullyConnected ns => exact fun h1 _ => by simpa [Body.weights] using h1.2
  | recurrence ns => exact fun h1 _ => by simpa [Body.weights] using h1.2
  | gru ns => exact fun h1 _ => by simpa [Body.weights] using h1.2.1
  | filter kind ns info => exact fun _ h2 => h2.elim
  | pool d info no mvi => exact fun _ h2 => h2.elim

theorem neurons_len' (hp : p.Perm (List.range m)) {w : Nat} {a : Layer F} (ha : AOK w m a) : (neuronsInOrder p a).getNumberOfNeurons = m := by
  have h1 := ha.wf.body
  have h2 := ha.neurons
  have hlt := lt_of_perm hp
  have hl := len_of_perm hp
  rw [neuronsInOrder_eq]
  unfold Layer.getNumberOfNeurons Body.numberOfNeurons pickBody
  revert h1 h2
  cases a.body with
  | fullyConnected ns => exact fun h1 _ => by simp only [Body.weights, List.length_map]; rw [picked_length (by rw [h1.2]; exact hlt), hl]
  | recurrence ns => exact fun h1 _ => by simp only [Body.weights, List.length_map]; rw [picked_length (by rw [h1.2]; exact hlt), hl]
  | gru ns => exact fun h1 _ => by simp only [Body.weights, List.length_map]; rw [picked_length (by rw [h1.2.1]; exact hlt), hl]
  | filter kind ns info => exact fun _ h2 => h2.elim
  | pool d info no mvi => exact fun _ h2 => h2.elim

theorem last_out (hp : p.Perm (List.range m)) {w : Nat} {ls ls' : List (Layer F)} (h : LRo p m w ls ls') :
    ∃ a b, backOf ls = .ok a ∧ backOf ls' = .ok b ∧ a.getNumberOfNeurons = m ∧ b.getNumberOfNeurons = m := by
  induction h with
  | @last w a ha => exact ⟨_, _, rfl, rfl, neurons_len ha, neurons_len' hp ha⟩
  | @next w v l ls ls' hl h ih =>
    have h1 : ∃ c cs, ls = c :: cs := by cases h <;> exact ⟨_, _, rfl⟩
    have h2 : ∃ c cs, ls' = c :: cs := by cases h <;> exact ⟨_, _, rfl⟩
    obtain ⟨c, cs, rfl⟩ := h1
    obtain ⟨c', cs', rfl⟩ := h2
    unfold backOf at ih ⊢
    rwa [List.getLast?_cons_cons, List.getLast?_cons_cons]

theorem errorsLoop_val : ∀ (k : Nat) {ds os : List F}, ds.length = k → os.length = k → errorsLoop k ds os = .ok (List.zipWith (fun d o => lit 2 * (d - o)) ds os)
  | 0, [], [], _, _ => rfl
  | k + 1, d :: ds, o :: os, h1, h2 => by
    unfold errorsLoop
    rw [errorsLoop_val k (by simpa using h1) (by simpa using h2)]
    rfl

/-- The two networks are the same except for that order. -/
def NetOut (p : List Nat) (m w : Nat) (n n' : Net F) : Prop :=
  ∃ ls' st', LRo p m w n.layers ls' ∧ StatsSim p m n.stats st' ∧ n' = { n with layers := ls', stats := st' }

theorem empty_out {w : Nat} {ls ls' : List (Layer F)} (h : LRo p m w ls ls') : ls.isEmpty = false ∧ ls'.isEmpty = false := by
  cases h <;> exact ⟨rfl, rfl⟩

theorem bad_out (hp : p.Perm (List.range m)) {x : List F} (hx : x.length = m) : hasBadValue (inOrder p x) = hasBadValue x :=
  (inOrder_eq hp hx).any_eq

theorem training_out (hp : p.Perm (List.range m)) {w : Nat} {n n' : Net F} (h : NetOut p m w n n') {x : List F} (hx : x.length = w) (t : Bool) (d : Draws F) :
    Res.Rel (fun a b : List F × Net F × Draws F => b.1 = inOrder p a.1 ∧ a.1.length = m ∧ NetOut p m w a.2.1 b.2.1 ∧ b.2.2 = a.2.2)
      (n.outputForTraining x t d) (n'.outputForTraining x t d) := by
  obtain ⟨ls', st', h, hst, rfl⟩ := h
  unfold Net.outputForTraining
  dsimp only
  rw [(empty_out h).1, (empty_out h).2]
  simp only [Bool.false_eq_true, if_false]
  refine Res.Rel.bind (trainingLoop_out hp t h d hx) ?_
  rintro ⟨y, u, d1⟩ ⟨y', v, d2⟩ ⟨h1, h0, h2, h3⟩
  dsimp only at h0 h1 h2 h3
  subst h1 h3
  exact ⟨rfl, h0, ⟨v, st', h2, hst, by dsimp only; rw [bad_out hp h0]⟩, rfl⟩

theorem netSim_out (hp : p.Perm (List.range m)) (w : Nat) : NetSim w m p (NetOut (F := F) p m w) where
  perm := hp
  out := by
    rintro n _ x t ⟨ls', st', h, hst, rfl⟩ hx
    unfold Net.output
    dsimp only
    rw [(empty_out h).1, (empty_out h).2]
    simp only [Bool.false_eq_true, if_false]
    refine Res.Rel.bind (outputLoop_out hp t h hx) ?_
    rintro ⟨y, u⟩ ⟨y', v⟩ ⟨h1, h0, h2⟩
    dsimp only at h0 h1 h2
    subst h1
    exact ⟨rfl, h0, v, st', h2, hst, by dsimp only; rw [bad_out hp h0]⟩
  outT := by
    rintro n n' x t d h hx
    have := training_out hp h hx t d
    revert this
    cases n.outputForTraining x t d <;> cases n'.outputForTraining x t d <;> simp only [Res.Rel] <;> intro h <;> first | exact ⟨h.2.2.1, h.2.2.2⟩ | exact h
  train := by
    rintro n n' x y t d h hx hy
    unfold Net.trainOnce
    refine Res.Rel.bind (R := fun a b : Net F × Draws F => NetOut p m w a.1 b.1 ∧ b.2 = a.2) ?_ ?_
    · unfold Net.backpropagation
      refine Res.Rel.bind (training_out hp h hx t d) ?_
      rintro ⟨o, n1, d1⟩ ⟨o', n1', d1'⟩ ⟨h1, h0, ⟨ls1, st1, h2, h4, h5⟩, h3⟩
      dsimp only at h0 h1 h2 h3 h4 h5
      subst h1 h3 h5
      dsimp only
      by_cases hn : n1.outputNan = true
      · rw [if_pos hn, if_pos hn]
        exact ⟨⟨ls1, st1, h2, h4, rfl⟩, rfl⟩
      · rw [if_neg hn, if_neg hn]
        obtain ⟨a, b, k1, k2, k3, k4⟩ := last_out hp h2
        have e1 : n1.calculateError o y = .ok (List.zipWith (fun d o => lit 2 * (d - o)) y o) := by
          unfold Net.calculateError
          rw [k1, Res.ok_bind, k3, errorsLoop_val m hy h0]
        have e2 : Net.calculateError { n1 with layers := ls1, stats := st1 } (inOrder p o) (inOrder p y) =
            .ok (inOrder p (List.zipWith (fun d o => lit 2 * (d - o)) y o)) := by
          unfold Net.calculateError
          dsimp only
          rw [k2, Res.ok_bind, k4, errorsLoop_val m (by rw [inOrder_length, len_of_perm hp]) (by rw [inOrder_length, len_of_perm hp]),
            inOrder_zipWith hp _ (by omega) (by omega)]
        rw [e1, e2, Res.ok_bind, Res.ok_bind]
        refine Res.Rel.bind (backward_out hp h2 (by simp [hy, h0])) ?_
        rintro u v huv
        exact ⟨⟨v, st1, huv, h4, rfl⟩, rfl⟩
    · rintro ⟨n1, d1⟩ ⟨n1', d1'⟩ ⟨⟨ls1, st1, h2, h4, h5⟩, h3⟩
      dsimp only at h2 h3 h4 h5
      subst h3 h5
      exact ⟨⟨ls1, st1, h2, h4, rfl⟩, rfl⟩
  stats := by rintro n _ ⟨ls', st', h, hst, rfl⟩; exact hst
  nan := by rintro n _ ⟨ls', st', h, hst, rfl⟩; rfl
  set := by rintro n _ s t ⟨ls', st', h, hst, rfl⟩ hs; exact ⟨ls', t, h, hs, rfl⟩
  inputs := by
    rintro n _ ⟨ls', st', h, hst, rfl⟩
    unfold Net.getNumberOfInputs
    dsimp only
    generalize n.layers = ls at h
    cases h
    · rw [neuronsInOrder_eq]; rfl
    · rfl
  outputs := by
    rintro n _ ⟨ls', st', h, hst, rfl⟩
    unfold Net.getNumberOfOutputs
    dsimp only
    obtain ⟨a, b, k1, k2, k3, k4⟩ := last_out hp h
    rw [k1, k2, Res.ok_bind, Res.ok_bind, k3, k4]

theorem layers_out {w : Nat} {ls ls' : List (Layer F)} (h : LRo p m w ls ls') : ls' = lastInOrder p ls := by
  induction h with
  | @last w a ha => rfl
  | @next w v l ls ls' hl h ih =>
    have h1 : ∃ c cs, ls = c :: cs := by cases h <;> exact ⟨_, _, rfl⟩
    obtain ⟨c, cs, rfl⟩ := h1
    rw [show lastInOrder p (l :: c :: cs) = l :: lastInOrder p (c :: cs) from rfl, ← ih]

theorem out_build {opt : Sgd F} {a : LayerModel F} (ha : LayerOf m a) {s' : List Nat} :
    ∀ {pre : List (LayerModel F)} {s : List Nat} {d d' : Draws F} {ls : List (Layer F)}, Chain (pre ++ [a]) s s' →
      buildLayers opt (pre ++ [a]) (s.map (fun v : Nat => (v : Int))) d = .ok (ls, d') → LRo p m s.prod ls (lastInOrder p ls)
  | [], s, d, d', ls, hc, h => by
    cases hc with
    | @cons _ _ _ s1 _ hs hm hc =>
    have hs1 := chain_good hc
    rw [List.nil_append] at h
    unfold buildLayers at h
    obtain ⟨⟨l, d1⟩, h1, h⟩ := Res.bind_eq_ok.1 h
    obtain ⟨⟨ls1, d2⟩, h2, h⟩ := Res.bind_eq_ok.1 h
    cases h
    obtain ⟨l0, d0, k1, k2⟩ := buildLayer_ok opt hm hs hs1 d
    rw [h1] at k1
    obtain ⟨rfl, rfl⟩ := Prod.mk.inj (Res.ok.inj k1)
    have hwf := k2.wf
    have hs1m : s1 = [m] := by
      obtain ⟨opts, _, ⟨act, rfl⟩ | ⟨act, rfl⟩ | rfl⟩ := ha
      all_goals
        cases hm
        rfl
    subst hs1m
    rw [List.prod_singleton] at hwf
    have hA : AOK s.prod m l := by
      rw [buildLayer_start hs] at h1
      obtain ⟨opts, ho, ⟨act, rfl⟩ | ⟨act, rfl⟩ | rfl⟩ := ha
      all_goals
        obtain ⟨⟨ns, hb⟩, hpl⟩ := simple_body h1 ho
        exact ⟨hwf, by rw [hb]; trivial, hpl⟩
    unfold buildLayers at h2
    cases h2
    exact .last hA
  | x :: pre, s, d, d', ls, hc, h => by
    cases hc with
    | @cons _ _ _ s1 _ hs hm hc =>
    rw [List.cons_append] at h
    unfold buildLayers at h
    obtain ⟨⟨l, d1⟩, h1, h⟩ := Res.bind_eq_ok.1 h
    obtain ⟨⟨ls1, d2⟩, h2, h⟩ := Res.bind_eq_ok.1 h
    cases h
    obtain ⟨l0, d0, k1, k2⟩ := buildLayer_ok opt hm hs (chain_good hc) d
    rw [h1] at k1
    obtain ⟨rfl, rfl⟩ := Prod.mk.inj (Res.ok.inj k1)
    rw [k2.shape] at h2
    have ih := out_build ha hc h2
    have he : ∃ c cs, ls1 = c :: cs := by
      have := (empty_out ih).1
      cases ls1 with
      | nil => cases this
      | cons c cs => exact ⟨c, cs, rfl⟩
    obtain ⟨c, cs, rfl⟩ := he
    exact .next k2.wf ih

theorem out_start (hp : p.Perm (List.range m)) {pre : List (LayerModel F)} {a : LayerModel F} (ha : LayerOf m a) {s s' : List Nat}
    (hc : Chain (pre ++ [a]) s s') (hcount : (pre ++ [a]).length ≤ 999) {opt : Sgd F} {d d' : Draws F} {snn : Snn F}
    (h : Snn.make (.input (s.map (fun v : Nat => (v : Int))) :: (pre ++ [a])) opt d = .ok (snn, d')) :
    NetOut p m s.prod snn.net { snn.net with layers := lastInOrder p snn.net.layers } := by
  obtain ⟨⟨net, d1⟩, h1, hmk⟩ := Res.bind_eq_ok.1 h
  obtain ⟨err, h2, hmk⟩ := Res.bind_eq_ok.1 hmk
  split at hmk
  · cases hmk
  cases hmk
  obtain ⟨⟨ls, d2⟩, h3, h1⟩ := Res.bind_eq_ok.1 h1
  obtain ⟨last, h4, h1⟩ := Res.bind_eq_ok.1 h1
  cases h1
  unfold LayerFactory.build at h3
  rw [if_neg (by rw [List.length_cons]; omega)] at h3
  simp only at h3
  rw [if_neg (by simp), computeNumberOfInputs_ok (chain_good hc)] at h3
  simp only [Res.ok_bind] at h3
  rw [if_neg (by have := (chain_good hc).small; omega)] at h3
  have hl := out_build (p := p) ha hc h3
  obtain ⟨x, y, k1, k2, k3, k4⟩ := last_out hp hl
  rw [h4] at k1
  obtain rfl := Res.ok.inj k1
  refine ⟨_, _, hl, ⟨?_, by simp [Stats.init, k3]⟩, rfl⟩
  have hr : picked p (List.replicate last.getNumberOfNeurons (Cluster.zero : Cluster F)) = List.replicate last.getNumberOfNeurons Cluster.zero := by
    rw [List.eq_replicate_iff]
    refine ⟨?_, fun c hc => List.eq_of_mem_replicate (picked_mem hc)⟩
    rw [picked_length (by rw [List.length_replicate, k3]; exact lt_of_perm hp), len_of_perm hp, k3]
  show Stats.init last.getNumberOfNeurons = { Stats.init last.getNumberOfNeurons with clusters := picked p (List.replicate last.getNumberOfNeurons (Cluster.zero : Cluster F)) }
  rw [hr]
  rfl

end

end Snn.OutSim
