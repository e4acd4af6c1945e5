import Verif.Proofs.SerializeProofs
import Verif.Proofs.SameProofs
import Verif.Props.HistoryProps

/-!
Two networks that differ only by buffers that are always written before they are read: the `errors` of gated recurrent units
and the counters of the statistics. Every call gives the same answer on both and keeps them so.
-/

set_option linter.all false

namespace Snn

section
variable {F : Type} [Flt F] [FTrans F] [Add F] [Sub F] [Mul F] [Div F] [Neg F]

theorem Gru.forget_eq_iff {g h : Gru F} : g.forget = h.forget ↔ ∃ e, h = { g with errors := e } := by
  constructor
  · intro e
    refine ⟨h.errors, ?_⟩
    cases g; cases h
    simp only [Gru.forget, Gru.mk.injEq] at e ⊢
    tauto
  · rintro ⟨e, rfl⟩
    rfl

theorem Gru.output_sim {g h : Gru F} (e : g.forget = h.forget) (x : List F) (t : Bool) :
    Res.Rel (fun p q => q.1 = p.1 ∧ p.2.forget = q.2.forget) (g.output x t) (h.output x t) := by
  obtain ⟨es, rfl⟩ := Gru.forget_eq_iff.1 e
  have key : ({ g with errors := es } : Gru F).output x t
      = (fun p => (p.1, { p.2 with errors := es })) <$> g.output x t := by
    unfold Gru.output
    cases t
    · simp only [Bool.false_eq_true, if_false]
      cases g.resetGate.output x false with
      | ok a =>
        cases g.updateGate.output x false with
        | ok b =>
          simp only [Res.ok_bind]
          cases RecNeuron.output { g.outputGate with lastOutput := g.outputGate.lastOutput * a.1 } x false <;> rfl
        | throw m => rfl
        | ub m => rfl
      | throw m => rfl
      | ub m => rfl
    · simp only [if_true, Gru.reset]
      cases g.resetGate.output x true with
      | ok a =>
        cases g.updateGate.output x true with
        | ok b =>
          simp only [Res.ok_bind]
          cases RecNeuron.output { g.outputGate with lastOutput := g.outputGate.lastOutput * a.1 } x true <;> rfl
        | throw m => rfl
        | ub m => rfl
      | throw m => rfl
      | ub m => rfl
  rw [key]
  cases g.output x t <;> simp [Res.Rel, Gru.forget]

theorem Gru.backOutput_sim {g h : Gru F} (e : g.forget = h.forget) (err : F) : h.backOutput err = g.backOutput err := by
  obtain ⟨es, rfl⟩ := Gru.forget_eq_iff.1 e
  rfl

theorem Gru.train_sim {g h : Gru F} (e : g.forget = h.forget) (err : F) : h.train err = g.train err := by
  obtain ⟨es, rfl⟩ := Gru.forget_eq_iff.1 e
  rfl

theorem Gru.getWeights_sim {g h : Gru F} (e : g.forget = h.forget) : h.getWeights = g.getWeights := by
  obtain ⟨es, rfl⟩ := Gru.forget_eq_iff.1 e
  rfl

theorem backNeurons_congr {N : Type} {R : N → N → Prop} {f : N → F → Res (List F × N)} (hf : ∀ a b e, R a b → f b e = f a e) :
    ∀ {ns ms : List N} (es errors : List F), List.Forall₂ R ns ms → backNeurons f ms es errors = backNeurons f ns es errors
  | [], [], es, errors, .nil => rfl
  | n :: ns, m :: ms, [], errors, .cons h1 h2 => rfl
  | n :: ns, m :: ms, e :: es, errors, .cons h1 h2 => by
    unfold backNeurons
    rw [hf _ _ _ h1]
    refine congrArg _ (funext fun p => ?_)
    simp only
    refine congrArg _ (funext fun q => ?_)
    rw [backNeurons_congr hf es q h2]

theorem trainNeurons_congr {N : Type} {R : N → N → Prop} {f : N → F → Res N} (hf : ∀ a b e, R a b → f b e = f a e) :
    ∀ {ns ms : List N} (es : List F), List.Forall₂ R ns ms → trainNeurons f ms es = trainNeurons f ns es
  | [], [], es, .nil => rfl
  | n :: ns, m :: ms, [], .cons h1 h2 => rfl
  | n :: ns, m :: ms, e :: es, .cons h1 h2 => by
    unfold trainNeurons
    rw [hf _ _ _ h1]
    refine congrArg _ (funext fun p => ?_)
    rw [trainNeurons_congr hf es h2]

theorem forall₂_of_map_eq {α β : Type} {f : α → β} : ∀ {as bs : List α}, as.map f = bs.map f →
    List.Forall₂ (fun a b => f a = f b) as bs
  | [], [], _ => .nil
  | [], b :: bs, h => by cases h
  | a :: as, [], h => by cases h
  | a :: as, b :: bs, h => by
    rw [List.map_cons, List.map_cons] at h
    injection h with h1 h2
    exact .cons h1 (forall₂_of_map_eq h2)

theorem map_eq_of_forall₂ {α β : Type} {f : α → β} {as bs : List α} (h : List.Forall₂ (fun a b => f a = f b) as bs) :
    as.map f = bs.map f := by
  induction h with
  | nil => rfl
  | cons h1 _ ih => rw [List.map_cons, List.map_cons, h1, ih]

/-- Two layers that differ only by the `errors` of gated recurrent units. -/
def Layer.Sim (l m : Layer F) : Prop := l.forget = m.forget

theorem Layer.Sim.cases {l m : Layer F} (h : l.Sim m) :
    l = m ∨ ∃ ns ms, l.body = .gru ns ∧ m = { l with body := .gru ms } ∧
      List.Forall₂ (fun a b => Gru.forget a = Gru.forget b) ns ms := by
  obtain ⟨i, o, b⟩ := l
  obtain ⟨i', o', b'⟩ := m
  unfold Layer.Sim Layer.forget at h
  cases b with
  | gru ns =>
    cases b' with
    | gru ms =>
      simp only [Layer.mk.injEq, Body.gru.injEq] at h
      obtain ⟨rfl, rfl, h⟩ := h
      exact .inr ⟨ns, ms, rfl, rfl, forall₂_of_map_eq h⟩
    | _ => simp at h
  | _ =>
    cases b' with
    | gru ms => simp at h
    | _ => exact .inl h

theorem Layer.Sim.refl (l : Layer F) : l.Sim l := rfl

theorem Layer.Sim.of_gru {i : Int} {o : List (LayerOpt F)} {ns ms : List (Gru F)}
    (h : List.Forall₂ (fun a b => Gru.forget a = Gru.forget b) ns ms) : Layer.Sim ⟨i, o, .gru ns⟩ ⟨i, o, .gru ms⟩ := by
  unfold Layer.Sim Layer.forget
  simp only [map_eq_of_forall₂ h]

theorem Layer.Sim.weights {l m : Layer F} (h : l.Sim m) : m.body.weights = l.body.weights := by
  rcases h.cases with rfl | ⟨ns, ms, hb, rfl, hr⟩
  · rfl
  · rw [hb]
    simp only [Body.weights]
    clear hb h
    induction hr with
    | nil => rfl
    | cons h1 _ ih => rw [List.map_cons, List.map_cons, ih, Gru.getWeights_sim h1]

theorem Layer.Sim.numberOfNeurons {l m : Layer F} (h : l.Sim m) : m.getNumberOfNeurons = l.getNumberOfNeurons := by
  unfold Layer.getNumberOfNeurons Body.numberOfNeurons
  rw [h.weights]

theorem Layer.Sim.numberOfInputs {l m : Layer F} (h : l.Sim m) : m.numberOfInputs = l.numberOfInputs := by
  rcases h.cases with rfl | ⟨ns, ms, hb, rfl, hr⟩ <;> rfl

theorem Layer.rel_refl {α : Type} {R : α → α → Prop} (hr : ∀ a, R a a) (x : Res α) : Res.Rel R x x := by
  cases x <;> simp [Res.Rel, hr]

theorem Layer.output_sim {l m : Layer F} (h : l.Sim m) (x : List F) (t : Bool) :
    Res.Rel (fun p q => q.1 = p.1 ∧ Layer.Sim p.2 q.2) (l.output x t) (m.output x t) := by
  rcases h.cases with rfl | ⟨ns, ms, hb, rfl, hr⟩
  · exact Layer.rel_refl (fun p => ⟨rfl, Layer.Sim.refl _⟩) _
  · unfold Layer.output
    rw [hb]
    simp only [Body.computeOutput]
    refine Res.Rel.bind (R := fun p q => q.1 = p.1 ∧ ∃ ns ms, p.2 = Body.gru ns ∧ q.2 = Body.gru ms ∧
      List.Forall₂ (fun a b => Gru.forget a = Gru.forget b) ns ms) ?_ ?_
    · refine Res.Rel.bind (runNeurons_rel (fun n m h => Gru.output_sim h _ _) hr) ?_
      rintro ⟨a, n⟩ ⟨_, m⟩ ⟨rfl, hr'⟩
      exact ⟨rfl, n, m, rfl, rfl, hr'⟩
    · rintro ⟨a, n⟩ ⟨_, m⟩ ⟨rfl, n', m', e1, e2, hr'⟩
      simp only at e1 e2
      subst e1 e2
      simp only
      refine Res.Rel.bind (Res.Rel.eq (β := List F)) ?_
      rintro v _ rfl
      exact ⟨rfl, Layer.Sim.of_gru hr'⟩

theorem Layer.outputForTraining_sim {l m : Layer F} (h : l.Sim m) (x : List F) (t : Bool) (d : Draws F) :
    Res.Rel (fun p q => q.1 = p.1 ∧ Layer.Sim p.2.1 q.2.1 ∧ q.2.2 = p.2.2) (l.outputForTraining x t d) (m.outputForTraining x t d) := by
  rcases h.cases with rfl | ⟨ns, ms, hb, rfl, hr⟩
  · exact Layer.rel_refl (fun p => ⟨rfl, Layer.Sim.refl _, rfl⟩) _
  · unfold Layer.outputForTraining
    rw [hb]
    simp only [Body.computeOutput]
    refine Res.Rel.bind (R := fun p q => q.1 = p.1 ∧ ∃ ns ms, p.2 = Body.gru ns ∧ q.2 = Body.gru ms ∧
      List.Forall₂ (fun a b => Gru.forget a = Gru.forget b) ns ms) ?_ ?_
    · refine Res.Rel.bind (runNeurons_rel (fun n m h => Gru.output_sim h _ _) hr) ?_
      rintro ⟨a, n⟩ ⟨_, m⟩ ⟨rfl, hr'⟩
      exact ⟨rfl, n, m, rfl, rfl, hr'⟩
    · rintro ⟨a, n⟩ ⟨_, m⟩ ⟨rfl, n', m', e1, e2, hr'⟩
      simp only at e1 e2
      subst e1 e2
      simp only
      refine Res.Rel.bind (Res.Rel.eq (β := List F × List (LayerOpt F) × Draws F)) ?_
      rintro ⟨v, os, d'⟩ _ rfl
      exact ⟨rfl, Layer.Sim.of_gru hr', rfl⟩

theorem Layer.backOutput_sim {l m : Layer F} (h : l.Sim m) (es : List F) :
    Res.Rel (fun p q => q.1 = p.1 ∧ Layer.Sim p.2 q.2) (l.backOutput es) (m.backOutput es) := by
  have hw := h.weights
  rcases h.cases with rfl | ⟨ns, ms, hb, rfl, hr⟩
  · exact Layer.rel_refl (fun p => ⟨rfl, Layer.Sim.refl _⟩) _
  · have e : Layer.backOutput { l with body := .gru ms } es = l.backOutput es := by
      unfold Layer.backOutput
      simp only at hw ⊢
      rw [hw, hb]
      simp only [Body.computeBackOutput]
      have := fun es errors => backNeurons_congr (f := fun (n : Gru F) e => n.backOutput e)
        (fun a b e h => Gru.backOutput_sim h e) es errors hr
      simp only [this]
    rw [e]
    exact Layer.rel_refl (fun p => ⟨rfl, Layer.Sim.refl _⟩) _

theorem Layer.train_sim {l m : Layer F} (h : l.Sim m) (es : List F) :
    Res.Rel Layer.Sim (l.train es) (m.train es) := by
  have hw := h.weights
  rcases h.cases with rfl | ⟨ns, ms, hb, rfl, hr⟩
  · exact Layer.rel_refl (fun p => Layer.Sim.refl _) _
  · have e : Layer.train { l with body := .gru ms } es = l.train es := by
      unfold Layer.train
      simp only at hw ⊢
      rw [hw, hb]
      simp only [Body.computeTrain]
      have := fun es => trainNeurons_congr (f := fun (n : Gru F) e => n.train e)
        (fun a b e h => Gru.train_sim h e) es hr
      simp only [this]
    rw [e]
    exact Layer.rel_refl (fun p => Layer.Sim.refl _) _

/-! ### The loops over layers -/

theorem outputLoop_sim (t : Bool) : ∀ {ls ms : List (Layer F)} (x : List F), List.Forall₂ Layer.Sim ls ms →
    Res.Rel (fun p q => q.1 = p.1 ∧ List.Forall₂ Layer.Sim p.2 q.2) (outputLoop t ls x) (outputLoop t ms x)
  | _, _, x, .nil => ⟨rfl, .nil⟩
  | _, _, x, .cons h1 h2 => by
    unfold outputLoop
    refine Res.Rel.bind (Layer.output_sim h1 x t) ?_
    rintro ⟨a, n⟩ ⟨_, m⟩ ⟨rfl, hr⟩
    refine Res.Rel.bind (outputLoop_sim t _ h2) ?_
    rintro ⟨as, ns⟩ ⟨_, ms⟩ ⟨rfl, hr'⟩
    exact ⟨rfl, .cons hr hr'⟩

theorem trainingLoop_sim (t : Bool) : ∀ {ls ms : List (Layer F)} (x : List F) (d : Draws F), List.Forall₂ Layer.Sim ls ms →
    Res.Rel (fun p q => q.1 = p.1 ∧ List.Forall₂ Layer.Sim p.2.1 q.2.1 ∧ q.2.2 = p.2.2) (trainingLoop t ls x d) (trainingLoop t ms x d)
  | _, _, x, d, .nil => ⟨rfl, .nil, rfl⟩
  | _, _, x, d, .cons h1 h2 => by
    unfold trainingLoop
    refine Res.Rel.bind (Layer.outputForTraining_sim h1 x t d) ?_
    rintro ⟨a, n, d1⟩ ⟨_, m, _⟩ ⟨rfl, hr, rfl⟩
    refine Res.Rel.bind (trainingLoop_sim t _ _ h2) ?_
    rintro ⟨as, ns, d2⟩ ⟨_, ms, _⟩ ⟨rfl, hr', rfl⟩
    exact ⟨rfl, .cons hr hr', rfl⟩

theorem backLoop_sim : ∀ {ls ms : List (Layer F)} (es : List F), List.Forall₂ Layer.Sim ls ms →
    Res.Rel (fun p q => q.1 = p.1 ∧ List.Forall₂ Layer.Sim p.2 q.2) (backLoop ls es) (backLoop ms es)
  | _, _, x, .nil => ⟨rfl, .nil⟩
  | _, _, x, .cons h1 h2 => by
    unfold backLoop
    refine Res.Rel.bind (backLoop_sim _ h2) ?_
    rintro ⟨as, ns⟩ ⟨_, ms⟩ ⟨rfl, hr'⟩
    refine Res.Rel.bind (Layer.backOutput_sim h1 _) ?_
    rintro ⟨a, n⟩ ⟨_, m⟩ ⟨rfl, hr⟩
    exact ⟨rfl, .cons hr hr'⟩

theorem backwardPass_sim {ls ms : List (Layer F)} (es : List F) (h : List.Forall₂ Layer.Sim ls ms) :
    Res.Rel (List.Forall₂ Layer.Sim) (backwardPass ls es) (backwardPass ms es) := by
  cases h with
  | nil => rfl
  | cons h1 h2 =>
    unfold backwardPass
    refine Res.Rel.bind (backLoop_sim _ h2) ?_
    rintro ⟨as, ns⟩ ⟨_, ms⟩ ⟨rfl, hr'⟩
    refine Res.Rel.bind (Layer.train_sim h1 _) ?_
    intro a b hr
    exact .cons hr hr'

/-! ### The network -/

/-- Two networks that differ only by such buffers; `R` relates their statistics. -/
structure Net.Sim (R : Stats F → Stats F → Prop) (a b : Net F) : Prop where
  stats : R a.stats b.stats
  nan : b.outputNan = a.outputNan
  count : b.numberOfTraining = a.numberOfTraining
  opt : b.optimizer = a.optimizer
  layers : List.Forall₂ Layer.Sim a.layers b.layers

variable {R : Stats F → Stats F → Prop}

theorem Net.Sim.isEmpty {a b : Net F} (h : a.Sim R b) : b.layers.isEmpty = a.layers.isEmpty := by
  have := h.layers.length_eq
  rw [Bool.eq_iff_iff]; simp [List.isEmpty_iff, ← List.length_eq_zero_iff, this]

theorem Net.output_sim {a b : Net F} (h : a.Sim R b) (x : List F) (t : Bool) :
    Res.Rel (fun p q => q.1 = p.1 ∧ Net.Sim R p.2 q.2) (a.output x t) (b.output x t) := by
  unfold Net.output
  rw [h.isEmpty]
  split
  · rfl
  · refine Res.Rel.bind (outputLoop_sim t x h.layers) ?_
    rintro ⟨as, ns⟩ ⟨_, ms⟩ ⟨rfl, hr⟩
    exact ⟨rfl, h.stats, by simp [h.nan], h.count, h.opt, hr⟩

theorem Net.outputForTraining_sim {a b : Net F} (h : a.Sim R b) (x : List F) (t : Bool) (d : Draws F) :
    Res.Rel (fun p q => q.1 = p.1 ∧ Net.Sim R p.2.1 q.2.1 ∧ q.2.2 = p.2.2) (a.outputForTraining x t d) (b.outputForTraining x t d) := by
  unfold Net.outputForTraining
  rw [h.isEmpty]
  split
  · rfl
  · refine Res.Rel.bind (trainingLoop_sim t x d h.layers) ?_
    rintro ⟨as, ns, d1⟩ ⟨_, ms, _⟩ ⟨rfl, hr, rfl⟩
    exact ⟨rfl, ⟨h.stats, by simp [h.nan], h.count, h.opt, hr⟩, rfl⟩

theorem backOf_sim {α : Type} {S : α → α → Prop} {as bs : List α} (h : List.Forall₂ S as bs) :
    Res.Rel S (backOf as) (backOf bs) := by
  unfold backOf
  induction h with
  | nil => rfl
  | @cons a b as bs h1 h2 ih =>
    cases h2 with
    | nil => exact h1
    | cons h3 h4 => simpa [List.getLast?_cons_cons] using ih

theorem Net.calculateError_sim {a b : Net F} (h : a.Sim R b) (o d : List F) : b.calculateError o d = a.calculateError o d := by
  unfold Net.calculateError
  have := backOf_sim h.layers
  cases h1 : backOf a.layers <;> cases h2 : backOf b.layers <;> rw [h1, h2] at this <;> simp only [Res.Rel] at this
  · simp only [Res.ok_bind, this.numberOfNeurons]
  · rw [this]
  · rw [this]

theorem Net.backpropagation_sim {a b : Net F} (h : a.Sim R b) (x y : List F) (t : Bool) (d : Draws F) :
    Res.Rel (fun p q => Net.Sim R p.1 q.1 ∧ q.2 = p.2) (a.backpropagation x y t d) (b.backpropagation x y t d) := by
  unfold Net.backpropagation
  refine Res.Rel.bind (Net.outputForTraining_sim h x t d) ?_
  rintro ⟨o, n, d1⟩ ⟨_, m, _⟩ ⟨rfl, hr, rfl⟩
  simp only at hr ⊢
  rw [hr.nan]
  split
  · exact ⟨hr, rfl⟩
  · rw [Net.calculateError_sim hr]
    refine Res.Rel.bind (Res.Rel.eq (β := List F)) ?_
    rintro v _ rfl
    refine Res.Rel.bind (backwardPass_sim _ hr.layers) ?_
    intro ls ms hl
    exact ⟨⟨hr.stats, rfl, hr.count, hr.opt, hl⟩, rfl⟩

theorem Net.trainOnce_sim {a b : Net F} (h : a.Sim R b) (x y : List F) (t : Bool) (d : Draws F) :
    Res.Rel (fun p q => Net.Sim R p.1 q.1 ∧ q.2 = p.2) (a.trainOnce x y t d) (b.trainOnce x y t d) := by
  unfold Net.trainOnce
  refine Res.Rel.bind (Net.backpropagation_sim h x y t d) ?_
  rintro ⟨n, d1⟩ ⟨m, _⟩ ⟨hr, rfl⟩
  exact ⟨⟨hr.stats, hr.nan, by have := hr.count; simp only at this ⊢; rw [this], hr.opt, hr.layers⟩, rfl⟩

/-! ### The statistics -/

/-- Two statistics that differ only by the counters of the current evaluation. -/
def Stats.Sim (s t : Stats F) : Prop := s.startTesting = t.startTesting

theorem Stats.Sim.globalRate {s t : Stats F} (h : s.Sim t) : t.globalRate = s.globalRate :=
  (congrArg Stats.globalRate h).symm
theorem Stats.Sim.mae {s t : Stats F} (h : s.Sim t) : t.mae = s.mae := (congrArg Stats.mae h).symm

theorem Stats.Sim.nan {s t : Stats F} (h : s.Sim t) (nan : F) : s.setResultsAsNan nan = t.setResultsAsNan nan := by
  have hl : s.clusters.length = t.clusters.length := by
    have := congrArg (fun u => u.clusters.length) h
    simpa [Stats.startTesting] using this
  unfold Stats.Sim Stats.startTesting at h
  cases s; cases t
  simp only [Stats.mk.injEq, Stats.setResultsAsNan, true_and, and_true] at h hl ⊢
  obtain ⟨_, hh⟩ := h
  have hm : ∀ {c : Cluster F} {l m : List (Cluster F)}, l.length = m.length → l.map (fun _ => c) = m.map (fun _ => c) := by
    intro c l m e
    rw [List.map_const', List.map_const', e]
  refine ⟨hm hl, ?_⟩
  tauto

/-! ### The whole network -/

/-- Two networks that differ only by such buffers. -/
structure Snn.Sim (R : Stats F → Stats F → Prop) (a b : Snn F) : Prop where
  net : a.net.Sim R b.net
  stop : b.wantToStopTraining = a.wantToStopTraining
  idle : b.isIdle = a.isIdle
  index : b.index = a.index
  epoch : b.epoch = a.epoch
  between : b.numberOfTrainingsBetweenTwoEvaluations = a.numberOfTrainingsBetweenTwoEvaluations
  better : b.autoSaveWhenBetter = a.autoSaveWhenBetter
  path : b.autoSaveFilePath = a.autoSaveFilePath

theorem Snn.Sim.withNet {a b : Snn F} {R' : Stats F → Stats F → Prop} (h : a.Sim R b) {n m : Net F} (hn : n.Sim R' m) :
    Snn.Sim R' { a with net := n } { b with net := m } :=
  ⟨hn, h.stop, h.idle, h.index, h.epoch, h.between, h.better, h.path⟩

theorem Snn.Sim.split {a b : Snn F} (h : a.Sim R b) : ∃ m, b = { a with net := m } ∧ a.net.Sim R m := by
  obtain ⟨h1, h2, h3, h4, h5, h6, h7, h8⟩ := h
  refine ⟨b.net, ?_, h1⟩
  cases a; cases b
  simp only at h2 h3 h4 h5 h6 h7 h8
  subst h2 h3 h4 h5 h6 h7 h8
  rfl

theorem Snn.Sim.mk' {a : Snn F} {m : Net F} (h : a.net.Sim R m) : a.Sim R { a with net := m } :=
  ⟨h, rfl, rfl, rfl, rfl, rfl, rfl, rfl⟩

theorem Snn.evaluateOnce_sim {a b : Snn F} (h : a.Sim Eq b) (data : Data F) :
    Res.Rel (Snn.Sim Eq) (a.evaluateOnce data) (b.evaluateOnce data) := by
  obtain ⟨m, rfl, hm⟩ := h.split
  have hout : ∀ (x : List F) (first : Bool) (ev : List F → Ev F),
      Res.Rel (Snn.Sim Eq)
        (a.net.output x first >>= fun p => p.2.stats.evaluateOnce (ev p.1) >>= fun st =>
          pure { a with net := { p.2 with stats := st } })
        (m.output x first >>= fun p => p.2.stats.evaluateOnce (ev p.1) >>= fun st =>
          pure { a with net := { p.2 with stats := st } }) := by
    intro x first ev
    refine Res.Rel.bind (Net.output_sim hm x first) ?_
    rintro ⟨o, n⟩ ⟨_, m⟩ ⟨rfl, hr⟩
    simp only at hr ⊢
    rw [← hr.stats]
    refine Res.Rel.bind (Res.Rel.eq (β := Stats F)) ?_
    rintro st _ rfl
    exact ⟨⟨rfl, hr.nan, hr.count, hr.opt, hr.layers⟩, rfl, rfl, rfl, rfl, rfl, rfl, rfl⟩
  unfold Snn.evaluateOnce
  simp only
  refine Res.Rel.bind (Res.Rel.eq (β := List F)) ?_
  rintro x _ rfl
  refine Res.Rel.bind (Res.Rel.eq (β := Bool)) ?_
  rintro first _ rfl
  cases data.typeOfProblem with
  | classification =>
    refine Res.Rel.bind (Res.Rel.eq (β := Nat)) ?_
    rintro label _ rfl
    refine Res.Rel.bind (Res.Rel.eq (β := F)) ?_
    rintro sep _ rfl
    exact hout x first fun o => .classification o label sep
  | multipleClassification =>
    refine Res.Rel.bind (Res.Rel.eq (β := List F)) ?_
    rintro y _ rfl
    refine Res.Rel.bind (Res.Rel.eq (β := F)) ?_
    rintro sep _ rfl
    exact hout x first fun o => .multiple o y sep
  | regression =>
    refine Res.Rel.bind (Res.Rel.eq (β := List F)) ?_
    rintro y _ rfl
    refine Res.Rel.bind (Res.Rel.eq (β := F)) ?_
    rintro sep _ rfl
    exact hout x first fun o => .regression o y sep

theorem Stats.Sim.rfl' (s : Stats F) : s.Sim s := rfl

theorem Snn.Sim.weaken {a b : Snn F} (h : a.Sim Eq b) : a.Sim Stats.Sim b :=
  ⟨⟨by rw [h.net.stats]; rfl, h.net.nan, h.net.count, h.net.opt, h.net.layers⟩, h.stop, h.idle, h.index, h.epoch, h.between,
    h.better, h.path⟩

theorem Snn.Sim.nanReset {a b : Snn F} (h : a.Sim Stats.Sim b) (nan : F) :
    Snn.Sim Eq ({ a with net := { a.net with stats := a.net.stats.setResultsAsNan nan } }).resetTrainingValues
      ({ b with net := { b.net with stats := b.net.stats.setResultsAsNan nan } }).resetTrainingValues :=
  ⟨⟨h.net.stats.nan nan, h.net.nan, h.net.count, h.net.opt, h.net.layers⟩, rfl, rfl, rfl, h.epoch, h.between, h.better, h.path⟩

theorem evaluateLoop_sim (nan : F) (data : Data F) : ∀ (k : Nat) {a b : Snn F}, a.Sim Eq b →
    Res.Rel (fun p q => q.1 = p.1 ∧ Snn.Sim Eq p.2 q.2) (evaluateLoop nan data k a) (evaluateLoop nan data k b)
  | 0, a, b, h => ⟨rfl, h⟩
  | k + 1, a, b, h => by
    obtain ⟨m, rfl, hm⟩ := h.split
    unfold evaluateLoop
    simp only
    have hn := hm.nan
    cases hc : a.net.outputNan <;> rw [hc] at hn <;> simp only [hc, hn, Bool.false_eq_true, if_true, if_false]
    rotate_left
    · exact ⟨rfl, ⟨h.weaken.net.stats.nan nan, rfl, h.net.count, h.net.opt, h.net.layers⟩, rfl, rfl, rfl, h.epoch, h.between, h.better, h.path⟩
    · refine Res.Rel.bind (Res.Rel.eq (β := Bool)) ?_
      rintro need _ rfl
      refine Res.Rel.bind (R := Snn.Sim Eq) ?_ ?_
      · split
        · exact Snn.evaluateOnce_sim h data
        · refine Res.Rel.bind (Res.Rel.eq (β := List F)) ?_
          rintro x _ rfl
          refine Res.Rel.bind (Res.Rel.eq (β := Bool)) ?_
          rintro first _ rfl
          refine Res.Rel.bind (Net.output_sim h.net _ _) ?_
          rintro ⟨o, n⟩ ⟨_, m⟩ ⟨rfl, hr⟩
          exact h.withNet hr
      · intro s s' hs
        refine evaluateLoop_sim nan data k ⟨hs.net, hs.stop, hs.idle, ?_, hs.epoch, hs.between, hs.better, hs.path⟩
        simp [hs.index]

/-! ### Runs -/

/-- Two events that differ only by such buffers. -/
inductive Event.Sim : Event F → Event F → Prop where
  | shuffled : Event.Sim .shuffled .shuffled
  | trained (p : Int) (x y : List F) (t : Bool) : Event.Sim (.trained p x y t) (.trained p x y t)
  | skipped (p : Int) : Event.Sim (.skipped p) (.skipped p)
  | evaluated (e : Int) (s : Stats F) : Event.Sim (.evaluated e s) (.evaluated e s)
  | saved (p : String) {s t : Snn F} (h : s.Sim Stats.Sim t) : Event.Sim (.saved p s) (.saved p t)

/-- Two runs that differ only by such buffers. -/
structure Run.Sim (R : Stats F → Stats F → Prop) (a b : Run F) : Prop where
  snn : a.snn.Sim R b.snn
  data : b.data = a.data
  draws : b.draws = a.draws
  ticks : b.ticks = a.ticks
  trace : List.Forall₂ Event.Sim a.trace b.trace

theorem Run.Sim.split {a b : Run F} (h : a.Sim R b) :
    ∃ m tr, b = { a with snn := { a.snn with net := m }, trace := tr } ∧ a.snn.net.Sim R m ∧ List.Forall₂ Event.Sim a.trace tr := by
  obtain ⟨h1, h2, h3, h4, h5⟩ := h
  obtain ⟨m, e, hm⟩ := h1.split
  refine ⟨m, b.trace, ?_, hm, h5⟩
  cases a; cases b
  simp only at h2 h3 h4 e
  subst h2 h3 h4 e
  rfl

theorem Run.Sim.weaken {a b : Run F} (h : a.Sim Eq b) : a.Sim Stats.Sim b := ⟨h.snn.weaken, h.data, h.draws, h.ticks, h.trace⟩

theorem Run.evaluate_sim (env : Env F) {a b : Run F} (h : a.Sim Stats.Sim b) :
    Res.Rel (Run.Sim Eq) (a.evaluate env) (b.evaluate env) := by
  obtain ⟨m, tr, rfl, hm, ht⟩ := h.split
  unfold Run.evaluate
  simp only
  refine Res.Rel.bind (evaluateLoop_sim env.nan a.data a.data.testing.size
    (a := { a.snn with net := { a.snn.net with stats := a.snn.net.stats.startTesting }, index := 0 })
    ⟨⟨hm.stats, hm.nan, hm.count, hm.opt, hm.layers⟩, rfl, rfl, rfl, rfl, rfl, rfl, rfl⟩) ?_
  rintro ⟨st, s⟩ ⟨st', s'⟩ ⟨rfl, hs⟩
  simp only at hs ⊢
  obtain ⟨n, rfl, hn⟩ := hs.split
  simp only
  have hst := hn.stats
  cases st'
  · simp only [Bool.false_eq_true, if_false]
    rw [← hst]
    have hs2 : Snn.Sim Eq { s with net := { s.net with stats := s.net.stats.stopTesting } }
        { s with net := { n with stats := s.net.stats.stopTesting } } :=
      ⟨⟨rfl, hn.nan, hn.count, hn.opt, hn.layers⟩, rfl, rfl, rfl, rfl, rfl, rfl, rfl⟩
    split
    · exact ⟨⟨⟨rfl, hn.nan, hn.count, hn.opt, hn.layers⟩, rfl, rfl, rfl, rfl, rfl, rfl, rfl⟩, rfl, rfl, rfl,
        .cons (.saved _ (Snn.Sim.weaken ⟨⟨rfl, hn.nan, hn.count, hn.opt, hn.layers⟩, rfl, rfl, rfl, rfl, rfl, rfl, rfl⟩))
          (.cons (.evaluated _ _) ht)⟩
    · exact ⟨hs2, rfl, rfl, rfl, .cons (.evaluated _ _) ht⟩
  · simp only [if_true]
    refine ⟨hs, rfl, rfl, rfl, ?_⟩
    rw [← hst]
    exact .cons (.evaluated _ _) ht

theorem Run.trainStep_sim (env : Env F) (bs : Int) {a b : Run F} (h : a.Sim Stats.Sim b) :
    Res.Rel (fun p q => q.1 = p.1 ∧ Run.Sim Stats.Sim p.2 q.2) (a.trainStep env bs) (b.trainStep env bs) := by
  obtain ⟨m, tr, rfl, hm, ht⟩ := h.split
  unfold Run.trainStep
  simp only
  have hn := hm.nan
  cases hc : a.snn.net.outputNan <;> rw [hc] at hn <;> simp only [hc, hn, Bool.false_eq_true, if_true, if_false]
  rotate_left
  · refine ⟨rfl, ⟨⟨?_, rfl, hm.count, hm.opt, hm.layers⟩, rfl, rfl, rfl, rfl, rfl, rfl, rfl⟩, rfl, rfl, rfl, ht⟩
    show Stats.Sim _ _
    simp only [Snn.resetTrainingValues]
    rw [hm.stats.nan env.nan]; rfl
  · refine Res.Rel.bind (Res.Rel.eq (β := Bool)) ?_
    rintro need _ rfl
    refine Res.Rel.bind (Res.Rel.eq (β := List F × Data F)) ?_
    rintro ⟨x, d1⟩ _ rfl
    refine Res.Rel.bind (Res.Rel.eq (β := Bool)) ?_
    rintro first _ rfl
    cases need <;> simp only [Bool.false_eq_true, if_true, if_false]
    · refine Res.Rel.bind (Net.outputForTraining_sim hm _ _ _) ?_
      rintro ⟨o, n, dd⟩ ⟨_, m', _⟩ ⟨rfl, hr, rfl⟩
      exact ⟨rfl, ⟨hr, rfl, rfl, rfl, rfl, rfl, rfl, rfl⟩, rfl, rfl, rfl, .cons (.skipped _) ht⟩
    · refine Res.Rel.bind (Res.Rel.eq (β := List F × Data F)) ?_
      rintro ⟨y, d2⟩ _ rfl
      refine Res.Rel.bind (Net.trainOnce_sim hm _ _ _ _) ?_
      rintro ⟨n, dd⟩ ⟨m', _⟩ ⟨hr, rfl⟩
      exact ⟨rfl, ⟨hr, rfl, rfl, rfl, rfl, rfl, rfl, rfl⟩, rfl, rfl, rfl, .cons (.trained _ _ _ _) ht⟩

theorem Run.continueTraining_sim (env : Env F) (wait : Wait F) {a b : Run F} (h : a.Sim Stats.Sim b) :
    (b.continueTraining env wait).1 = (a.continueTraining env wait).1 ∧
      Run.Sim Stats.Sim (a.continueTraining env wait).2 (b.continueTraining env wait).2 := by
  obtain ⟨m, tr, rfl, hm, ht⟩ := h.split
  unfold Run.continueTraining
  simp only
  rw [hm.nan, hm.stats.globalRate, hm.stats.mae]
  exact ⟨rfl, ⟨hm, rfl, rfl, rfl, rfl, rfl, rfl, rfl⟩, rfl, rfl, rfl, ht⟩

theorem Run.Sim.setSnn {a b : Run F} (h : a.Sim R b) {s t : Snn F} (hs : s.Sim R t) :
    Run.Sim R { a with snn := s } { b with snn := t } := ⟨hs, h.data, h.draws, h.ticks, h.trace⟩

theorem stepLoop_sim (env : Env F) (wait : Wait F) (bs : Int) : ∀ (fuel : Nat) {a b : Run F}, a.Sim Stats.Sim b →
    Res.Rel (fun p q => q.1 = p.1 ∧ Run.Sim Stats.Sim p.2 q.2) (stepLoop env wait bs fuel a) (stepLoop env wait bs fuel b)
  | 0, a, b, h => rfl
  | fuel + 1, a, b, h => by
    unfold stepLoop
    rw [h.snn.index, h.snn.between]
    split
    · obtain ⟨hc, hr⟩ := Run.continueTraining_sim env wait h
      generalize Run.continueTraining env wait a = p at hc hr
      generalize Run.continueTraining env wait b = q at hc hr
      obtain ⟨c, r⟩ := p
      obtain ⟨c', r'⟩ := q
      simp only at hc hr ⊢
      subst hc
      split
      · refine Res.Rel.bind (Run.trainStep_sim env bs hr) ?_
        rintro ⟨ret, r2⟩ ⟨_, r2'⟩ ⟨rfl, h2⟩
        simp only at h2 ⊢
        split
        · exact ⟨rfl, h2⟩
        · refine stepLoop_sim env wait bs fuel (h2.setSnn ⟨h2.snn.net, h2.snn.stop, h2.snn.idle, ?_, h2.snn.epoch, h2.snn.between,
            h2.snn.better, h2.snn.path⟩)
          simp [h2.snn.index]
      · exact ⟨rfl, hr⟩
    · exact ⟨rfl, h⟩

theorem Run.epochBody_sim (env : Env F) (wait : Wait F) (bs ef : Int) (fuel : Nat) {a b : Run F} (h : a.Sim Stats.Sim b) :
    Res.Rel (fun p q => q.1 = p.1 ∧ Run.Sim Stats.Sim p.2 q.2) (a.epochBody env wait bs ef fuel) (b.epochBody env wait bs ef fuel) := by
  obtain ⟨m, tr, rfl, hm, ht⟩ := h.split
  unfold Run.epochBody
  simp only
  refine Res.Rel.bind (Res.Rel.eq (β := Data F)) ?_
  rintro data _ rfl
  refine Res.Rel.bind (stepLoop_sim env wait bs fuel
    (a := { a with data := data, snn := { a.snn with index := 0 }, trace := .shuffled :: a.trace })
    ⟨⟨hm, rfl, rfl, rfl, rfl, rfl, rfl, rfl⟩, rfl, rfl, rfl, .cons .shuffled ht⟩) ?_
  rintro ⟨ret, r2⟩ ⟨_, r2'⟩ ⟨rfl, h2⟩
  simp only at h2 ⊢
  rw [h2.snn.epoch]
  split
  · exact ⟨rfl, h2⟩
  · split
    · refine Res.Rel.bind (Run.evaluate_sim env h2) ?_
      intro r3 r3' h3
      exact ⟨rfl, h3.weaken⟩
    · exact ⟨rfl, h2⟩

theorem epochLoop_sim (env : Env F) (wait : Wait F) (bs ef : Int) (inner : Nat) : ∀ (fuel : Nat) {a b : Run F}, a.Sim Stats.Sim b →
    Res.Rel (fun p q => q.1 = p.1 ∧ Run.Sim Stats.Sim p.2 q.2) (epochLoop env wait bs ef inner fuel a)
      (epochLoop env wait bs ef inner fuel b)
  | 0, a, b, h => rfl
  | fuel + 1, a, b, h => by
    unfold epochLoop
    obtain ⟨hc, hr⟩ := Run.continueTraining_sim env wait h
    generalize Run.continueTraining env wait a = p at hc hr
    generalize Run.continueTraining env wait b = q at hc hr
    obtain ⟨c, r⟩ := p
    obtain ⟨c', r'⟩ := q
    simp only at hc hr ⊢
    subst hc
    split
    · refine Res.Rel.bind (Run.epochBody_sim env wait bs ef inner hr) ?_
      rintro ⟨ret, r2⟩ ⟨_, r2'⟩ ⟨rfl, h2⟩
      simp only at h2 ⊢
      split
      · exact ⟨rfl, h2⟩
      · refine epochLoop_sim env wait bs ef inner fuel (h2.setSnn ⟨h2.snn.net, h2.snn.stop, h2.snn.idle, h2.snn.index, ?_,
          h2.snn.between, h2.snn.better, h2.snn.path⟩)
        simp [h2.snn.epoch]
    · exact ⟨rfl, hr⟩

theorem Run.trainSync_sim (env : Env F) (wait : Wait F) (bs ef : Int) (fuel : Nat) {a b : Run F} (h : a.Sim Stats.Sim b) :
    Res.Rel (Run.Sim Stats.Sim) (a.trainSync env wait bs ef fuel) (b.trainSync env wait bs ef fuel) := by
  unfold Run.trainSync
  have hb : a.begin.Sim Stats.Sim b.begin := by
    obtain ⟨m, tr, rfl, hm, ht⟩ := h.split
    exact ⟨⟨hm, rfl, rfl, rfl, rfl, rfl, rfl, rfl⟩, rfl, rfl, rfl, ht⟩
  refine Res.Rel.bind (R := Run.Sim Stats.Sim) ?_ ?_
  · split
    · have := Run.evaluate_sim env hb
      generalize a.begin.evaluate env = x at this ⊢
      generalize b.begin.evaluate env = y at this ⊢
      cases x <;> cases y <;> simp only [Res.Rel] at this ⊢
      · exact this.weaken
      · exact this
      · exact this
    · exact hb
  · intro r1 r1' h1
    refine Res.Rel.bind (epochLoop_sim env wait bs ef fuel fuel (h1.setSnn ⟨h1.snn.net, h1.snn.stop, h1.snn.idle, h1.snn.index, rfl,
          h1.snn.between, h1.snn.better, h1.snn.path⟩)) ?_
    rintro ⟨ret, r2⟩ ⟨_, r2'⟩ ⟨rfl, h2⟩
    simp only at h2 ⊢
    split
    · exact h2
    · exact h2.setSnn ⟨h2.snn.net, rfl, rfl, rfl, h2.snn.epoch, h2.snn.between, h2.snn.better, h2.snn.path⟩

theorem Snn.validData_sim {a b : Snn F} (h : a.Sim R b) (data : Data F) (bs : Int) : b.validData data bs = a.validData data bs := by
  have hi : b.net.getNumberOfInputs = a.net.getNumberOfInputs := by
    unfold Net.getNumberOfInputs
    have := h.net.layers
    generalize a.net.layers = l at this
    generalize b.net.layers = m at this
    cases this with
    | nil => rfl
    | cons h1 h2 => show Res.ok _ = Res.ok _; rw [h1.numberOfInputs]
  have ho : b.net.getNumberOfOutputs = a.net.getNumberOfOutputs := by
    unfold Net.getNumberOfOutputs
    have := backOf_sim h.net.layers
    cases h1 : backOf a.net.layers <;> cases h2 : backOf b.net.layers <;> rw [h1, h2] at this <;> simp only [Res.Rel] at this
    · simp only [Res.ok_bind, this.numberOfNeurons]
    · rw [this]
    · rw [this]
  unfold Snn.validData
  rw [hi, ho]

theorem Run.train_sim (env : Env F) (wait : Wait F) (bs ef : Int) (fuel : Nat) {a b : Run F} (h : a.Sim Stats.Sim b) :
    Res.Rel (Run.Sim Stats.Sim) (a.train env wait bs ef fuel) (b.train env wait bs ef fuel) := by
  unfold Run.train
  obtain ⟨m, tr, rfl, hm, ht⟩ := h.split
  rw [Snn.validData_sim h.snn]
  refine Res.Rel.bind (Res.Rel.eq (β := Unit)) ?_
  rintro _ _ rfl
  split
  · rfl
  · exact Run.trainSync_sim env wait bs ef fuel ⟨⟨hm, rfl, rfl, rfl, rfl, rfl, rfl, rfl⟩, rfl, rfl, rfl, ht⟩

end

end Snn
