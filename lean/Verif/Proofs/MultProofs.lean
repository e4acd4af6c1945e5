import Verif.Proofs.MultSim
import Verif.Proofs.NetBuild

/-! An error multiplier on the last layer is a factor of the learning rate: layers, networks, construction. -/

set_option linter.all false

namespace Snn.Mult

open Snn.Spec Snn.MapSim

section
variable {F : Type} [Field F] [LinearOrder F] [IsStrictOrderedRing F] [FTrans F] {c l0 : F}

/-- Not a regularization. -/
def Free (o : LayerOpt F) : Prop := ∀ v, o ≠ .l1 v ∧ o ≠ .l2 v

theorem applyMask_sc : ∀ (es : List F) (m : List Bool), applyMask (sc c es) m = sc c (applyMask es m)
  | [], m => by cases m <;> rfl
  | e :: es, [] => rfl
  | e :: es, b :: bs => by
    have := applyMask_sc es bs
    simp only [sc, List.map_cons, applyMask] at this ⊢
    rw [this]
    congr 1
    ring

theorem before_sc {o : LayerOpt F} (h : Free o) (ws : List (List F)) (es : List F) :
    o.beforeBackpropagation ws (sc c es) = sc c (o.beforeBackpropagation ws es) := by
  cases o with
  | dropout v r m => exact applyMask_sc es m
  | errorMultiplier f =>
    simp only [LayerOpt.beforeBackpropagation, sc, List.map_map]
    apply List.map_congr_left
    intro a _
    simp only [Function.comp]
    ring
  | softmax => rfl
  | l1 v => exact absurd rfl (h v).1
  | l2 v => exact absurd rfl (h v).2

theorem hooks_sc (ws : List (List F)) : ∀ {opts : List (LayerOpt F)} (es : List F), (∀ o ∈ opts, Free o) → backHooks ws opts (sc c es) = sc c (backHooks ws opts es)
  | [], es, h => rfl
  | o :: os, es, h => by
    have := hooks_sc ws (opts := os) (o.beforeBackpropagation ws es) (fun o ho => h o (by simp [ho]))
    unfold backHooks at this ⊢
    rw [List.foldl_cons, List.foldl_cons, before_sc (h o (by simp)), this]

theorem training_free {t : Bool} : ∀ {opts opts' : List (LayerOpt F)} {x y : List F} {d d' : Draws F}, (∀ o ∈ opts, Free o) →
    trainingHooks t opts x d = .ok (y, opts', d') → ∀ o ∈ opts', Free o
  | [], opts', x, y, d, d', h, e => by cases e; simp
  | o :: os, opts', x, y, d, d', h, e => by
    unfold trainingHooks at e
    obtain ⟨⟨x1, o1, d1⟩, h1, e⟩ := Res.bind_eq_ok.1 e
    obtain ⟨⟨x2, os2, d2⟩, h2, e⟩ := Res.bind_eq_ok.1 e
    cases e
    have h3 := training_free (fun o ho => h o (by simp [ho])) h2
    have h4 : Free o1 := by
      have h0 := h o (by simp)
      cases o with
      | dropout v r m => cases h1; intro w; simp
      | errorMultiplier f => cases h1; exact h0
      | softmax =>
        obtain ⟨_, _, h1⟩ := Res.bind_eq_ok.1 h1
        cases h1
        exact h0
      | l1 v => exact absurd rfl (h0 v).1
      | l2 v => exact absurd rfl (h0 v).2
    intro o' ho'
    rcases List.mem_cons.1 ho' with rfl | h'
    · exact h4
    · exact h3 o' h'

/-! ### Layers -/

/-- Related layers; `extra` is the optimizers that the second has more. -/
structure RL (c l0 : F) (extra : List (LayerOpt F)) (l m : Layer F) : Prop where
  inputs : m.numberOfInputs = l.numberOfInputs
  opts : m.optimizers = extra ++ l.optimizers
  free : ∀ o ∈ l.optimizers, Free o
  body : RB c l0 l.body m.body

/-- No optimizer, or an error multiplier of factor c. -/
inductive Extra (c : F) : List (LayerOpt F) → Prop
  | none : Extra c []
  | multiplier : Extra c [.errorMultiplier c]

variable {extra : List (LayerOpt F)}

theorem RL.output {l m : Layer F} (he : Extra c extra) (h : RL c l0 extra l m) (x : List F) (t : Bool) :
    Res.Rel (fun p q => q.1 = p.1 ∧ RL c l0 extra p.2 q.2) (l.output x t) (m.output x t) := by
  unfold Layer.output
  refine Res.Rel.bind (h.body.output x t) ?_
  rintro ⟨y, b1⟩ ⟨_, b2⟩ ⟨rfl, hb⟩
  have e1 : ∀ z : List F, testingHooks m.optimizers z = testingHooks l.optimizers z := by
    intro z
    rw [h.opts]
    cases he <;> rfl
  dsimp only
  rw [e1]
  refine Res.Rel.bind (R := fun a b => a = b) (Res.Rel.eq (β := List F)) ?_
  rintro z _ rfl
  exact ⟨rfl, h.inputs, h.opts, h.free, hb⟩

theorem hooks_extra (he : Extra c extra) (t : Bool) (opts : List (LayerOpt F)) (y : List F) (d : Draws F) :
    Res.Rel (fun p q => q.1 = p.1 ∧ q.2.1 = extra ++ p.2.1 ∧ q.2.2 = p.2.2) (trainingHooks t opts y d) (trainingHooks t (extra ++ opts) y d) := by
  cases he with
  | none =>
    rw [List.nil_append]
    cases trainingHooks t opts y d with
    | ok p => exact ⟨rfl, rfl, rfl⟩
    | throw m => rfl
    | ub m => rfl
  | multiplier =>
    simp only [List.singleton_append]
    conv => arg 3; unfold trainingHooks
    simp only [LayerOpt.afterOutputForTraining, Res.ok_bind]
    cases trainingHooks t opts y d with
    | ok p => exact ⟨rfl, rfl, rfl⟩
    | throw m => rfl
    | ub m => rfl

theorem RL.training {l m : Layer F} (he : Extra c extra) (h : RL c l0 extra l m) (x : List F) (t : Bool) (d : Draws F) :
    Res.Rel (fun p q => q.1 = p.1 ∧ RL c l0 extra p.2.1 q.2.1 ∧ q.2.2 = p.2.2) (l.outputForTraining x t d) (m.outputForTraining x t d) := by
  unfold Layer.outputForTraining
  refine Res.Rel.bind (h.body.output x t) ?_
  rintro ⟨y, b1⟩ ⟨y', b2⟩ ⟨hy, hb⟩
  dsimp only at hy hb ⊢
  subst hy
  rw [h.opts]
  have h1 := hooks_extra he t l.optimizers y' d
  have h2 := fun z o' d' => training_free (t := t) (x := y') (d := d) (y := z) (opts' := o') (d' := d') h.free
  revert h1 h2
  generalize trainingHooks t l.optimizers y' d = A
  generalize trainingHooks t (extra ++ l.optimizers) y' d = B
  intro h1 h2
  cases A <;> cases B <;> simp only [Res.Rel] at h1
  · rename_i p q
    obtain ⟨y1, o1, d1⟩ := p
    obtain ⟨y2, o2, d2⟩ := q
    obtain ⟨e1, e2, e3⟩ := h1
    dsimp only at e1 e2 e3
    subst e1 e2 e3
    exact ⟨rfl, ⟨h.inputs, rfl, h2 _ _ _ rfl, hb⟩, rfl⟩
  · exact h1
  · exact h1

/-- The errors the body receives: those of the first layer, times c. -/
theorem RL.hooks {l m : Layer F} (he : Extra c extra) (h : RL c l0 extra l m) (es : List F) :
    backHooks m.body.weights m.optimizers (if extra.isEmpty then sc c es else es) = sc c (backHooks l.body.weights l.optimizers es) := by
  rw [h.opts, h.body.weights, ← hooks_sc _ _ h.free]
  cases he <;> rfl

theorem RL.back {l m : Layer F} (he : Extra c extra) (h : RL c l0 extra l m) (es : List F) :
    Res.Rel (fun p q => q.1 = sc c p.1 ∧ RL c l0 extra p.2 q.2) (l.backOutput es) (m.backOutput (if extra.isEmpty then sc c es else es)) := by
  unfold Layer.backOutput
  dsimp only
  rw [h.hooks he, h.inputs]
  refine Res.Rel.bind (h.body.back _ _) ?_
  rintro ⟨y, b1⟩ ⟨_, b2⟩ ⟨rfl, hb⟩
  exact ⟨rfl, rfl, h.opts, h.free, hb⟩

theorem RL.train {l m : Layer F} (he : Extra c extra) (h : RL c l0 extra l m) (es : List F) :
    Res.Rel (RL c l0 extra) (l.train es) (m.train (if extra.isEmpty then sc c es else es)) := by
  unfold Layer.train
  dsimp only
  rw [h.hooks he]
  refine Res.Rel.bind (h.body.train _) ?_
  intro b1 b2 hb
  exact ⟨h.inputs, h.opts, h.free, hb⟩

/-- The layers of the two networks: the last one of the second has the multiplier. -/
inductive RLs (c l0 : F) : List (Layer F) → List (Layer F) → Prop
  | last {l m : Layer F} (h : RL c l0 [.errorMultiplier c] l m) : RLs c l0 [l] [m]
  | cons {l m : Layer F} {ls ms : List (Layer F)} (h : RL c l0 [] l m) (hs : RLs c l0 ls ms) : RLs c l0 (l :: ls) (m :: ms)

theorem out_sim (t : Bool) : ∀ {ls ms : List (Layer F)} (x : List F), RLs c l0 ls ms →
    Res.Rel (fun p q => q.1 = p.1 ∧ RLs c l0 p.2 q.2) (outputLoop t ls x) (outputLoop t ms x)
  | _, _, x, .last h => by
    unfold outputLoop
    refine Res.Rel.bind (h.output .multiplier x t) ?_
    rintro ⟨a, n⟩ ⟨_, m⟩ ⟨rfl, hr⟩
    exact ⟨rfl, .last hr⟩
  | _, _, x, .cons h hs => by
    unfold outputLoop
    refine Res.Rel.bind (h.output .none x t) ?_
    rintro ⟨a, n⟩ ⟨_, m⟩ ⟨rfl, hr⟩
    refine Res.Rel.bind (out_sim t _ hs) ?_
    rintro ⟨as, ns⟩ ⟨_, ms⟩ ⟨rfl, hr'⟩
    exact ⟨rfl, .cons hr hr'⟩

theorem training_sim (t : Bool) : ∀ {ls ms : List (Layer F)} (x : List F) (d : Draws F), RLs c l0 ls ms →
    Res.Rel (fun p q => q.1 = p.1 ∧ RLs c l0 p.2.1 q.2.1 ∧ q.2.2 = p.2.2) (trainingLoop t ls x d) (trainingLoop t ms x d)
  | _, _, x, d, .last h => by
    unfold trainingLoop
    refine Res.Rel.bind (h.training .multiplier x t d) ?_
    rintro ⟨a, n, d1⟩ ⟨_, m, _⟩ ⟨rfl, hr, rfl⟩
    exact ⟨rfl, .last hr, rfl⟩
  | _, _, x, d, .cons h hs => by
    unfold trainingLoop
    refine Res.Rel.bind (h.training .none x t d) ?_
    rintro ⟨a, n, d1⟩ ⟨_, m, _⟩ ⟨rfl, hr, rfl⟩
    refine Res.Rel.bind (training_sim t _ _ hs) ?_
    rintro ⟨as, ns, d2⟩ ⟨_, ms, _⟩ ⟨rfl, hr', rfl⟩
    exact ⟨rfl, .cons hr hr', rfl⟩

theorem back_sim : ∀ {ls ms : List (Layer F)} (es : List F), RLs c l0 ls ms →
    Res.Rel (fun p q => q.1 = sc c p.1 ∧ RLs c l0 p.2 q.2) (backLoop ls es) (backLoop ms es)
  | _, _, es, .last h => by
    unfold backLoop
    refine Res.Rel.bind (R := fun p q => p = (es, []) ∧ q = (es, [])) ⟨rfl, rfl⟩ ?_
    rintro _ _ ⟨rfl, rfl⟩
    refine Res.Rel.bind (h.back .multiplier es) ?_
    rintro ⟨a, n⟩ ⟨_, m⟩ ⟨rfl, hr⟩
    exact ⟨rfl, .last hr⟩
  | _, _, es, .cons h hs => by
    unfold backLoop
    refine Res.Rel.bind (back_sim es hs) ?_
    rintro ⟨as, ns⟩ ⟨_, ms⟩ ⟨rfl, hr'⟩
    refine Res.Rel.bind (h.back .none as) ?_
    rintro ⟨a, n⟩ ⟨_, m⟩ ⟨rfl, hr⟩
    exact ⟨rfl, .cons hr hr'⟩

theorem pass_sim {ls ms : List (Layer F)} (es : List F) (h : RLs c l0 ls ms) : Res.Rel (RLs c l0) (backwardPass ls es) (backwardPass ms es) := by
  cases h with
  | last h =>
    unfold backwardPass backLoop
    refine Res.Rel.bind (R := fun p q => p = (es, []) ∧ q = (es, [])) ⟨rfl, rfl⟩ ?_
    rintro _ _ ⟨rfl, rfl⟩
    refine Res.Rel.bind (h.train .multiplier es) ?_
    intro n m hr
    exact .last hr
  | cons h hs =>
    unfold backwardPass
    refine Res.Rel.bind (back_sim es hs) ?_
    rintro ⟨as, ns⟩ ⟨_, ms⟩ ⟨rfl, hr'⟩
    refine Res.Rel.bind (h.train .none as) ?_
    intro n m hr
    exact .cons hr hr'

theorem RLs.empty {ls ms : List (Layer F)} (h : RLs c l0 ls ms) : ms.isEmpty = ls.isEmpty := by cases h <;> rfl

theorem RLs.last' : ∀ {ls ms : List (Layer F)}, RLs c l0 ls ms → Res.Rel (fun l m => m.getNumberOfNeurons = l.getNumberOfNeurons) (backOf ls) (backOf ms)
  | _, _, .last (l := l) (m := m) h => by
    show m.getNumberOfNeurons = l.getNumberOfNeurons
    unfold Layer.getNumberOfNeurons Body.numberOfNeurons
    rw [h.body.weights]
  | _, _, .cons h hs => by
    have := RLs.last' hs
    revert this
    cases hs <;> simp only [backOf, List.getLast?_cons_cons] <;> exact id

theorem RLs.weights {ls ms : List (Layer F)} (h : RLs c l0 ls ms) : ms.map (fun l => l.body.weights) = ls.map (fun l => l.body.weights) := by
  induction h with
  | last h => simp [h.body.weights]
  | cons h _ ih => simp only [List.map_cons, ih, h.body.weights]

/-! ### Networks -/

structure RNet (c l0 : F) (n m : Net F) : Prop where
  layers : RLs c l0 n.layers m.layers
  stats : m.stats = n.stats
  nan : m.outputNan = n.outputNan
  count : m.numberOfTraining = n.numberOfTraining

theorem net_out {n m : Net F} (h : RNet c l0 n m) (x : List F) (t : Bool) : Res.Rel (fun p q => q.1 = p.1 ∧ RNet c l0 p.2 q.2) (n.output x t) (m.output x t) := by
  unfold Net.output
  rw [h.layers.empty]
  split
  · rfl
  · refine Res.Rel.bind (out_sim t x h.layers) ?_
    rintro ⟨as, ns⟩ ⟨_, ms⟩ ⟨rfl, hr⟩
    exact ⟨rfl, hr, h.stats, by simp [h.nan], h.count⟩

theorem net_training {n m : Net F} (h : RNet c l0 n m) (x : List F) (t : Bool) (d : Draws F) :
    Res.Rel (fun p q => q.1 = p.1 ∧ RNet c l0 p.2.1 q.2.1 ∧ q.2.2 = p.2.2) (n.outputForTraining x t d) (m.outputForTraining x t d) := by
  unfold Net.outputForTraining
  rw [h.layers.empty]
  split
  · rfl
  · refine Res.Rel.bind (training_sim t x d h.layers) ?_
    rintro ⟨as, ns, d1⟩ ⟨_, ms, _⟩ ⟨rfl, hr, rfl⟩
    exact ⟨rfl, ⟨hr, h.stats, by simp [h.nan], h.count⟩, rfl⟩

theorem net_once {n m : Net F} (h : RNet c l0 n m) (x y : List F) (t : Bool) (d : Draws F) :
    Res.Rel (fun p q => RNet c l0 p.1 q.1 ∧ q.2 = p.2) (n.trainOnce x y t d) (m.trainOnce x y t d) := by
  unfold Net.trainOnce
  refine Res.Rel.bind (R := fun p q : Net F × Draws F => RNet c l0 p.1 q.1 ∧ q.2 = p.2) ?_ ?_
  · unfold Net.backpropagation
    refine Res.Rel.bind (net_training h x t d) ?_
    rintro ⟨o, n1, d1⟩ ⟨_, m1, _⟩ ⟨rfl, hr, rfl⟩
    dsimp only at hr ⊢
    rw [hr.nan]
    split
    · exact ⟨hr, rfl⟩
    · unfold Net.calculateError
      refine Res.Rel.bind (R := fun a b => a = b) ?_ ?_
      · refine Res.Rel.bind hr.layers.last' ?_
        intro l m' hl
        rw [hl]
        exact Res.Rel.eq (β := List F)
      · rintro es _ rfl
        refine Res.Rel.bind (pass_sim es hr.layers) ?_
        intro ls ms hl
        exact ⟨⟨hl, hr.stats, rfl, hr.count⟩, rfl⟩
  · rintro ⟨n1, d1⟩ ⟨m1, _⟩ ⟨hr, rfl⟩
    dsimp only at hr ⊢
    exact ⟨⟨hr.layers, hr.stats, hr.nan, by simp [hr.count]⟩, rfl⟩

theorem netSim (w : Nat) : NetSim w id (RNet (F := F) c l0) where
  out := fun n m x t h _ => net_out h x t
  outT := fun n m x t d h _ => by
    have h1 := net_training h x t d
    show Res.Rel _ (n.outputForTraining x t d) (m.outputForTraining x t d)
    revert h1
    generalize n.outputForTraining x t d = A
    generalize m.outputForTraining x t d = B
    cases A <;> cases B <;> simp only [Res.Rel]
    all_goals first | exact fun h => ⟨h.2.1, h.2.2⟩ | exact fun h => h
  train := fun n m x y t d h _ => net_once h x y t d
  stats := fun n m h => h.stats
  nan := fun n m h => h.nan
  set := fun n m s h => ⟨h.layers, rfl, h.nan, h.count⟩
  inputs := fun n m h => by
    unfold Net.getNumberOfInputs
    obtain ⟨h1, _, _, _⟩ := h
    revert h1
    generalize n.layers = ls
    generalize m.layers = ms
    intro h1
    cases h1 with
    | last h => show Res.ok _ = Res.ok _; rw [h.inputs]
    | cons h _ => show Res.ok _ = Res.ok _; rw [h.inputs]
  outputs := fun n m h => by
    unfold Net.getNumberOfOutputs
    have := h.layers.last'
    revert this
    generalize backOf n.layers = A
    generalize backOf m.layers = B
    cases A <;> cases B <;> simp only [Res.Rel] <;> intro h <;> first | exact h.elim | skip
    · simp only [Res.ok_bind, h]
    · rw [h]
    · rw [h]

theorem batchy_id (w : Nat) : Batchy w (id : List F → List F) := ⟨fun _ h => h, fun _ _ _ _ => rfl, fun _ _ _ => rfl⟩

/-! ### Construction -/

variable {opt : Sgd F}

/-- The two optimizers. -/
def optA (c l0 : F) (opt : Sgd F) : Sgd F := { opt with learningRate := l0 * c }
def optB (l0 : F) (opt : Sgd F) : Sgd F := { opt with learningRate := l0 }

theorem sc_zeros (k : Nat) : sc c (List.replicate k (lit 0 : F)) = List.replicate k (lit 0) := by simp [sc, lit_eq]

theorem make_n (m : NeuronModel F) (d : Draws F) : Res.Rel (RN c l0) (Neuron.make m (optA c l0 opt) d) (Neuron.make m (optB l0 opt) d) := by
  unfold Neuron.make
  split
  · rfl
  split
  · rfl
  dsimp only
  refine Res.Rel.bind (R := fun a b => a = b) (Res.Rel.eq (β := F)) ?_
  rintro a _ rfl
  refine Res.Rel.bind (R := fun a b => a = b) (Res.Rel.eq (β := Circ F)) ?_
  rintro p _ rfl
  refine Res.Rel.bind (R := fun a b => a = b) (Res.Rel.eq (β := Circ F)) ?_
  rintro q _ rfl
  refine ⟨?_, rfl⟩
  simp only [Res.pure_eq, scN, sc_zeros, optA, optB]

theorem make_r (m : NeuronModel F) (d : Draws F) : Res.Rel (RR c l0) (RecNeuron.make m (optA c l0 opt) d) (RecNeuron.make m (optB l0 opt) d) := by
  unfold RecNeuron.make
  refine Res.Rel.bind (make_n m d) ?_
  rintro a _ ⟨rfl, h⟩
  refine ⟨?_, h⟩
  have hz : (lit 0 : F) * c = lit 0 := by rw [lit_eq]; norm_num
  simp only [Res.pure_eq, hz]

theorem make_g (m : NeuronModel F) (d : Draws F) : Res.Rel (RG c l0) (Gru.make m (optA c l0 opt) d) (Gru.make m (optB l0 opt) d) := by
  unfold Gru.make
  refine Res.Rel.bind (make_r _ _) ?_
  intro a a' ha
  refine Res.Rel.bind (make_r _ _) ?_
  intro b b' hb
  refine Res.Rel.bind (make_r _ _) ?_
  intro o o' ho
  exact ⟨_, _, _, rfl, ha, hb, ho⟩

theorem makeNeurons_sim {N : Type} {P : N → N → Prop} {mk mk' : Draws F → Res N} (h : ∀ d, Res.Rel P (mk d) (mk' d)) (per : Nat) : ∀ (k : Nat) (d : Draws F),
    Res.Rel (fun p q => List.Forall₂ P p.1 q.1 ∧ q.2 = p.2) (makeNeurons mk per k d) (makeNeurons mk' per k d)
  | 0, d => ⟨.nil, rfl⟩
  | k + 1, d => by
    unfold makeNeurons
    refine Res.Rel.bind (h d) ?_
    intro n m hn
    refine Res.Rel.bind (makeNeurons_sim h per k _) ?_
    rintro ⟨ns, d1⟩ ⟨ms, _⟩ ⟨hs, rfl⟩
    exact ⟨.cons hn hs, rfl⟩

theorem makeAll_sim {N : Type} {P : N → N → Prop} {mk mk' : Draws F → Res N} (h : ∀ d, Res.Rel P (mk d) (mk' d)) (per : Nat) (k : Int) (d : Draws F) :
    Res.Rel (fun p q => List.Forall₂ P p.1 q.1 ∧ q.2 = p.2) (makeAllNeurons mk per k d) (makeAllNeurons mk' per k d) := by
  unfold makeAllNeurons
  split
  · rfl
  · exact makeNeurons_sim h _ _ _

/-- The models of the extra optimizers. -/
def extraModels (c : F) (last : Bool) : List (LayerOptModel F) := if last then [.errorMultiplier c] else []
def extraOpts (c : F) (last : Bool) : List (LayerOpt F) := if last then [.errorMultiplier c] else []

theorem buildAll_extra (last : Bool) (k : Nat) (opts : List (LayerOptModel F)) (d : Draws F) :
    LayerOpt.buildAll k (extraModels c last ++ opts) d = (extraOpts c last ++ (LayerOpt.buildAll k opts d).1, (LayerOpt.buildAll k opts d).2) := by
  cases last <;> rfl

theorem buildAll_free (k : Nat) : ∀ (opts : List (LayerOptModel F)) (d : Draws F), (∀ o ∈ opts, ∀ v, o ≠ .l1 v ∧ o ≠ .l2 v) →
    ∀ o ∈ (LayerOpt.buildAll k opts d).1, Free o
  | [], d, h => by simp [LayerOpt.buildAll]
  | m :: ms, d, h => by
    intro o ho
    have e : (LayerOpt.buildAll k (m :: ms) d).1 = (LayerOpt.build k m d).1 :: (LayerOpt.buildAll k ms (LayerOpt.build k m d).2).1 := rfl
    rw [e] at ho
    rcases List.mem_cons.1 ho with rfl | ho
    · have h0 := h m (by simp)
      intro v
      cases m with
      | l1 w => exact absurd rfl (h0 w).1
      | l2 w => exact absurd rfl (h0 w).2
      | _ => constructor <;> simp [LayerOpt.build]
    · exact buildAll_free k ms _ (fun o ho => h o (by simp [ho])) o ho

variable {opts : List (LayerOptModel F)} (hfree : ∀ o ∈ opts, ∀ v, o ≠ .l1 v ∧ o ≠ .l2 v) (last : Bool)
include hfree

theorem simple_sim {N : Type} {P : N → N → Prop} {mk mk' : NeuronModel F → Draws F → Res N} (h : ∀ m d, Res.Rel P (mk m d) (mk' m d)) (gates : Nat) {wrap : List N → Body F}
    (hw : ∀ ns ms, List.Forall₂ P ns ms → RB c l0 (wrap ns) (wrap ms)) (ni extra k : Int) (act : Act) (d : Draws F) :
    Res.Rel (fun p q => RL c l0 (extraOpts c last) p.1 q.1 ∧ q.2 = p.2) (buildSimple mk gates wrap ni extra k act opts d)
      (buildSimple mk' gates wrap ni extra k act (extraModels c last ++ opts) d) := by
  unfold buildSimple
  refine Res.Rel.bind (R := fun a b => a = b) (Res.Rel.eq (β := Int)) ?_
  rintro nw _ rfl
  refine Res.Rel.bind (makeAll_sim (h _) _ _ _) ?_
  rintro ⟨ns, d1⟩ ⟨ms, _⟩ ⟨hs, rfl⟩
  dsimp only
  rw [buildAll_extra, hs.length_eq]
  exact ⟨⟨rfl, rfl, by rw [← hs.length_eq]; exact buildAll_free _ _ _ hfree, hw _ _ hs⟩, rfl⟩

theorem conv_sim (ni : Int) (shape : List Int) (f k : Int) (act : Act) (d : Draws F) :
    Res.Rel (fun p q => RL c l0 (extraOpts c last) p.1 q.1 ∧ q.2 = p.2) (buildConvolution (optA c l0 opt) ni shape f k act opts d)
      (buildConvolution (optB l0 opt) ni shape f k act (extraModels c last ++ opts) d) := by
  unfold buildConvolution
  split
  · split
    · rfl
    · refine Res.Rel.bind (R := fun a b => a = b) (Res.Rel.eq (β := Int)) ?_
      rintro _ _ rfl
      refine Res.Rel.bind (R := fun a b => a = b) (Res.Rel.eq (β := Int)) ?_
      rintro _ _ rfl
      refine Res.Rel.bind (R := fun a b => a = b) (Res.Rel.eq (β := Int)) ?_
      rintro _ _ rfl
      refine Res.Rel.bind (R := fun a b => a = b) (Res.Rel.eq (β := Int)) ?_
      rintro _ _ rfl
      refine Res.Rel.bind (R := fun a b => a = b) (Res.Rel.eq (β := Int)) ?_
      rintro _ _ rfl
      refine Res.Rel.bind (makeAll_sim (make_n _) _ _ _) ?_
      rintro ⟨ns, d1⟩ ⟨ms, _⟩ ⟨hs, rfl⟩
      dsimp only
      rw [buildAll_extra, hs.length_eq]
      refine Res.Rel.bind (R := fun a b => a = b) (Res.Rel.eq (β := List (List Int))) ?_
      rintro _ _ rfl
      exact ⟨⟨rfl, rfl, by rw [← hs.length_eq]; exact buildAll_free _ _ _ hfree, .filter hs⟩, rfl⟩
  · split
    · rfl
    · refine Res.Rel.bind (R := fun a b => a = b) (Res.Rel.eq (β := Int)) ?_
      rintro _ _ rfl
      refine Res.Rel.bind (R := fun a b => a = b) (Res.Rel.eq (β := Int)) ?_
      rintro _ _ rfl
      refine Res.Rel.bind (R := fun a b => a = b) (Res.Rel.eq (β := Int)) ?_
      rintro _ _ rfl
      refine Res.Rel.bind (R := fun a b => a = b) (Res.Rel.eq (β := Int)) ?_
      rintro _ _ rfl
      refine Res.Rel.bind (R := fun a b => a = b) (Res.Rel.eq (β := Int)) ?_
      rintro _ _ rfl
      refine Res.Rel.bind (R := fun a b => a = b) (Res.Rel.eq (β := Int)) ?_
      rintro _ _ rfl
      refine Res.Rel.bind (R := fun a b => a = b) (Res.Rel.eq (β := Int)) ?_
      rintro _ _ rfl
      refine Res.Rel.bind (R := fun a b => a = b) (Res.Rel.eq (β := Int)) ?_
      rintro _ _ rfl
      refine Res.Rel.bind (makeAll_sim (make_n _) _ _ _) ?_
      rintro ⟨ns, d1⟩ ⟨ms, _⟩ ⟨hs, rfl⟩
      dsimp only
      rw [buildAll_extra, hs.length_eq]
      refine Res.Rel.bind (R := fun a b => a = b) (Res.Rel.eq (β := List (List Int))) ?_
      rintro _ _ rfl
      exact ⟨⟨rfl, rfl, by rw [← hs.length_eq]; exact buildAll_free _ _ _ hfree, .filter hs⟩, rfl⟩
  · rfl

theorem lc_sim (ni : Int) (shape : List Int) (f k : Int) (act : Act) (d : Draws F) :
    Res.Rel (fun p q => RL c l0 (extraOpts c last) p.1 q.1 ∧ q.2 = p.2) (buildLocallyConnected (optA c l0 opt) ni shape f k act opts d)
      (buildLocallyConnected (optB l0 opt) ni shape f k act (extraModels c last ++ opts) d) := by
  unfold buildLocallyConnected
  split
  · split
    · rfl
    · refine Res.Rel.bind (R := fun a b => a = b) (Res.Rel.eq (β := Int)) ?_
      rintro _ _ rfl
      refine Res.Rel.bind (R := fun a b => a = b) (Res.Rel.eq (β := Int)) ?_
      rintro _ _ rfl
      refine Res.Rel.bind (R := fun a b => a = b) (Res.Rel.eq (β := Int)) ?_
      rintro _ _ rfl
      refine Res.Rel.bind (R := fun a b => a = b) (Res.Rel.eq (β := Int)) ?_
      rintro _ _ rfl
      refine Res.Rel.bind (R := fun a b => a = b) (Res.Rel.eq (β := Int)) ?_
      rintro _ _ rfl
      refine Res.Rel.bind (makeAll_sim (make_n _) _ _ _) ?_
      rintro ⟨ns, d1⟩ ⟨ms, _⟩ ⟨hs, rfl⟩
      dsimp only
      rw [buildAll_extra, hs.length_eq]
      refine Res.Rel.bind (R := fun a b => a = b) (Res.Rel.eq (β := List (List Int))) ?_
      rintro _ _ rfl
      exact ⟨⟨rfl, rfl, by rw [← hs.length_eq]; exact buildAll_free _ _ _ hfree, .filter hs⟩, rfl⟩
  · split
    · rfl
    · refine Res.Rel.bind (R := fun a b => a = b) (Res.Rel.eq (β := Int)) ?_
      rintro _ _ rfl
      refine Res.Rel.bind (R := fun a b => a = b) (Res.Rel.eq (β := Int)) ?_
      rintro _ _ rfl
      refine Res.Rel.bind (R := fun a b => a = b) (Res.Rel.eq (β := Int)) ?_
      rintro _ _ rfl
      refine Res.Rel.bind (R := fun a b => a = b) (Res.Rel.eq (β := Int)) ?_
      rintro _ _ rfl
      refine Res.Rel.bind (R := fun a b => a = b) (Res.Rel.eq (β := Int)) ?_
      rintro _ _ rfl
      refine Res.Rel.bind (R := fun a b => a = b) (Res.Rel.eq (β := Int)) ?_
      rintro _ _ rfl
      refine Res.Rel.bind (R := fun a b => a = b) (Res.Rel.eq (β := Int)) ?_
      rintro _ _ rfl
      refine Res.Rel.bind (R := fun a b => a = b) (Res.Rel.eq (β := Int)) ?_
      rintro _ _ rfl
      refine Res.Rel.bind (makeAll_sim (make_n _) _ _ _) ?_
      rintro ⟨ns, d1⟩ ⟨ms, _⟩ ⟨hs, rfl⟩
      dsimp only
      rw [buildAll_extra, hs.length_eq]
      refine Res.Rel.bind (R := fun a b => a = b) (Res.Rel.eq (β := List (List Int))) ?_
      rintro _ _ rfl
      exact ⟨⟨rfl, rfl, by rw [← hs.length_eq]; exact buildAll_free _ _ _ hfree, .filter hs⟩, rfl⟩
  · rfl

end

/-! ### Layers and networks are built alike -/

section
variable {F : Type} [Field F] [LinearOrder F] [IsStrictOrderedRing F] [FTrans F] {c l0 : F} {opt : Sgd F}

theorem layer_last {m : LayerModel F} (hfree : ∀ o ∈ optimizersOfLayer m, ∀ v, o ≠ .l1 v ∧ o ≠ .l2 v) (hp : ∀ k, m ≠ .maxPooling k) (shape : List Int) (d : Draws F) :
    Res.Rel (fun p q => RL c l0 [.errorMultiplier c] p.1 q.1 ∧ q.2 = p.2) (buildLayer (optA c l0 opt) m shape d) (buildLayer (optB l0 opt) (multiplyErrors c m) shape d) := by
  unfold buildLayer
  refine Res.Rel.bind (R := fun a b => a = b) (Res.Rel.eq (β := Int)) ?_
  rintro ni _ rfl
  split
  · rfl
  split
  · rfl
  cases m with
  | fullyConnected n act opts =>
    dsimp only [multiplyErrors]
    split
    · rfl
    · exact simple_sim hfree true (fun m d => make_n m d) 1 (fun _ _ h => .full h) ni 1 n act d
  | recurrence n act opts => exact simple_sim hfree true (fun m d => make_r m d) 1 (fun _ _ h => .recu h) ni 2 n act d
  | gru n opts => exact simple_sim hfree true (fun m d => make_g m d) 3 (fun _ _ h => .gru h) ni 2 n .tanh d
  | maxPooling k => exact absurd rfl (hp k)
  | locallyConnected f k act opts => exact lc_sim hfree true ni shape f k act d
  | convolution f k act opts => exact conv_sim hfree true ni shape f k act d
  | input s => rfl

theorem RL.shape {extra : List (LayerOpt F)} {l m : Layer F} (h : RL c l0 extra l m) : m.getShapeOfOutput = l.getShapeOfOutput := by
  have hn : m.getNumberOfNeurons = l.getNumberOfNeurons := by
    unfold Layer.getNumberOfNeurons Body.numberOfNeurons
    rw [h.body.weights]
  obtain ⟨n1, o1, b1⟩ := l
  obtain ⟨n2, o2, b2⟩ := m
  have hb := h.body
  unfold Layer.getShapeOfOutput
  dsimp only at hb ⊢
  cases hb <;> dsimp only <;> first | rw [hn] | rfl

theorem pool_build {ni : Int} {shape : List Int} {k : Int} {l : Layer F} (h : buildMaxPooling ni shape k = .ok l) :
    l.optimizers = [] ∧ ∃ b info n mvi, l.body = .pool b info n mvi := by
  unfold buildMaxPooling at h
  split at h
  · split at h
    · cases h
    · obtain ⟨_, _, h⟩ := Res.bind_eq_ok.1 h
      dsimp only at h
      split at h
      · cases h
      · obtain ⟨_, _, h⟩ := Res.bind_eq_ok.1 h
        obtain ⟨_, _, h⟩ := Res.bind_eq_ok.1 h
        cases h
        exact ⟨rfl, _, _, _, _, rfl⟩
  · split at h
    · cases h
    · obtain ⟨_, _, h⟩ := Res.bind_eq_ok.1 h
      obtain ⟨_, _, h⟩ := Res.bind_eq_ok.1 h
      obtain ⟨_, _, h⟩ := Res.bind_eq_ok.1 h
      obtain ⟨_, _, h⟩ := Res.bind_eq_ok.1 h
      obtain ⟨_, _, h⟩ := Res.bind_eq_ok.1 h
      try dsimp only at h
      split at h
      · cases h
      · obtain ⟨_, _, h⟩ := Res.bind_eq_ok.1 h
        cases h
        exact ⟨rfl, _, _, _, _, rfl⟩
  · cases h

theorem layer_mid {m : LayerModel F} (hfree : ∀ o ∈ optimizersOfLayer m, ∀ v, o ≠ .l1 v ∧ o ≠ .l2 v) (shape : List Int) (d : Draws F) :
    Res.Rel (fun p q => RL c l0 [] p.1 q.1 ∧ q.2 = p.2) (buildLayer (optA c l0 opt) m shape d) (buildLayer (optB l0 opt) m shape d) := by
  unfold buildLayer
  refine Res.Rel.bind (R := fun a b => a = b) (Res.Rel.eq (β := Int)) ?_
  rintro ni _ rfl
  split
  · rfl
  split
  · rfl
  cases m with
  | fullyConnected n act opts =>
    dsimp only
    split
    · rfl
    · exact simple_sim hfree false (fun m d => make_n m d) 1 (fun _ _ h => .full h) ni 1 n act d
  | recurrence n act opts => exact simple_sim hfree false (fun m d => make_r m d) 1 (fun _ _ h => .recu h) ni 2 n act d
  | gru n opts => exact simple_sim hfree false (fun m d => make_g m d) 3 (fun _ _ h => .gru h) ni 2 n .tanh d
  | maxPooling k =>
    dsimp only
    cases hl : buildMaxPooling ni shape k with
    | ok l =>
      obtain ⟨h1, b, info, n, mvi, h2⟩ := pool_build hl
      exact ⟨⟨rfl, by simp [h1], by simp [h1], by rw [h2]; exact .pool⟩, rfl⟩
    | throw m => rfl
    | ub m => rfl
  | locallyConnected f k act opts => exact lc_sim hfree false ni shape f k act d
  | convolution f k act opts => exact conv_sim hfree false ni shape f k act d
  | input s => rfl

theorem layers_sim : ∀ {ms : List (LayerModel F)} (shape : List Int) (d : Draws F), ms ≠ [] → Unregularized ms → (∀ m ∈ ms.getLast?, ∀ k, m ≠ .maxPooling k) →
    Res.Rel (fun p q => RLs c l0 p.1 q.1 ∧ q.2 = p.2) (buildLayers (optA c l0 opt) ms shape d) (buildLayers (optB l0 opt) (multiplyLast c ms) shape d)
  | [], _, _, h, _, _ => absurd rfl h
  | [m], shape, d, _, hu, hl => by
    unfold multiplyLast buildLayers
    refine Res.Rel.bind (layer_last (hu m (by simp)) (hl m (by simp)) shape d) ?_
    rintro ⟨l, d1⟩ ⟨l', _⟩ ⟨h1, rfl⟩
    unfold buildLayers
    exact ⟨.last h1, rfl⟩
  | m :: m' :: ms, shape, d, _, hu, hl => by
    unfold multiplyLast buildLayers
    refine Res.Rel.bind (layer_mid (hu m (by simp)) shape d) ?_
    rintro ⟨l, d1⟩ ⟨l', _⟩ ⟨h1, rfl⟩
    dsimp only at h1 ⊢
    rw [h1.shape]
    refine Res.Rel.bind (layers_sim (ms := m' :: ms) _ _ (by simp) (fun m h => hu m (List.mem_cons_of_mem _ h)) (fun k h => hl k (by simpa using h))) ?_
    rintro ⟨ls, d2⟩ ⟨ls', _⟩ ⟨h2, rfl⟩
    exact ⟨.cons h1 h2, rfl⟩

theorem multiplyLast_length (c : F) : ∀ ms : List (LayerModel F), (multiplyLast c ms).length = ms.length
  | [] => rfl
  | [_] => rfl
  | m :: m' :: ms => by
    have := multiplyLast_length c (m' :: ms)
    rw [multiplyLast, List.length_cons, this]
    rfl

theorem make_sim {shape : List Int} {ms : List (LayerModel F)} (hne : ms ≠ []) (hu : Unregularized ms) (hl : ∀ m ∈ ms.getLast?, ∀ k, m ≠ .maxPooling k) {d da db : Draws F}
    {a b : Snn F} (ha : Snn.make (.input shape :: ms) (optA c l0 opt) d = .ok (a, da)) (hb : Snn.make (.input shape :: multiplyLast c ms) (optB l0 opt) d = .ok (b, db)) :
    db = da ∧ b = { a with net := b.net } ∧ RNet c l0 a.net b.net := by
  obtain ⟨⟨n1, d1⟩, a1, ha⟩ := Res.bind_eq_ok.1 ha
  obtain ⟨e1, a2, ha⟩ := Res.bind_eq_ok.1 ha
  split at ha
  · cases ha
  cases ha
  obtain ⟨⟨n2, d2⟩, b1, hb⟩ := Res.bind_eq_ok.1 hb
  obtain ⟨e2, b2, hb⟩ := Res.bind_eq_ok.1 hb
  split at hb
  · cases hb
  cases hb
  obtain ⟨⟨l1, d3⟩, a3, a1⟩ := Res.bind_eq_ok.1 a1
  obtain ⟨w1, a4, a1⟩ := Res.bind_eq_ok.1 a1
  cases a1
  obtain ⟨⟨l2, d4⟩, b3, b1⟩ := Res.bind_eq_ok.1 b1
  obtain ⟨w2, b4, b1⟩ := Res.bind_eq_ok.1 b1
  cases b1
  have key : Res.Rel (fun p q => RLs c l0 p.1 q.1 ∧ q.2 = p.2) (LayerFactory.build (optA c l0 opt) (.input shape :: ms) d)
      (LayerFactory.build (optB l0 opt) (.input shape :: multiplyLast c ms) d) := by
    have hlen := multiplyLast_length c ms
    unfold LayerFactory.build
    simp only [List.length_cons, hlen]
    split
    · rfl
    split
    · rfl
    refine Res.Rel.bind (R := fun a b => a = b) (Res.Rel.eq (β := Int)) ?_
    rintro _ _ rfl
    split
    · rfl
    · exact layers_sim shape d hne hu hl
  rw [a3, b3] at key
  obtain ⟨k1, k2⟩ := key
  dsimp only at k1 k2
  have k3 := k1.last'
  rw [a4, b4] at k3
  dsimp only [Res.Rel] at k3
  exact ⟨k2, rfl, ⟨k1, by dsimp only; rw [k3], rfl, rfl⟩⟩

end

end Snn.Mult
