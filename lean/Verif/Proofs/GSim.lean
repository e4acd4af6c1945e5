import Verif.Proofs.ObsProofs
import Verif.Spec.BehaviourSpec

/-!
Simulation of a whole program by another one, for any relation between the lists of layers that is kept by the passes over the layers.
-/

set_option linter.all false

namespace Snn

/-- What a relation `L` between two lists of layers must satisfy so that the networks with these layers behave alike, on inputs that
are `good` and data that are `dgood`. -/
structure LayersSim {F : Type} [Flt F] [FTrans F] [Add F] [Sub F] [Mul F] [Div F] [Neg F]
    (L : List (Layer F) → List (Layer F) → Prop) (good : List F → Prop) (dgood : Data F → Prop) : Prop where
  empty : ∀ {ls ms}, L ls ms → ms.isEmpty = ls.isEmpty
  inputs : ∀ {ls ms}, L ls ms → (rd ms 0 >>= fun l => pure l.numberOfInputs : Res Int) = (rd ls 0 >>= fun l => pure l.numberOfInputs)
  outputs : ∀ {ls ms}, L ls ms → Res.Rel (fun l m => m.getNumberOfNeurons = l.getNumberOfNeurons) (backOf ls) (backOf ms)
  weights : ∀ {ls ms}, L ls ms → (ms.map fun l => l.body.weights) = ls.map fun l => l.body.weights
  output : ∀ {ls ms} (t : Bool) (x : List F), L ls ms → good x →
    Res.Rel (fun p q => q.1 = p.1 ∧ L p.2 q.2) (outputLoop t ls x) (outputLoop t ms x)
  training : ∀ {ls ms} (t : Bool) (x : List F) (d : Draws F), L ls ms → good x →
    Res.Rel (fun p q => q.1 = p.1 ∧ L p.2.1 q.2.1 ∧ q.2.2 = p.2.2) (trainingLoop t ls x d) (trainingLoop t ms x d)
  back : ∀ {ls ms} (es : List F), L ls ms → (∀ l, backOf ls = .ok l → es.length = l.getNumberOfNeurons) →
    Res.Rel L (backwardPass ls es) (backwardPass ms es)
  trainData : ∀ {d d' : Data F} {i b : Int} {x : List F}, dgood d → d.getTrainingData i b = .ok (x, d') → good x ∧ dgood d'
  trainOutputs : ∀ {d d' : Data F} {i b : Int} {x : List F}, dgood d → d.getTrainingOutputs i b = .ok (x, d') → dgood d'
  testData : ∀ {d : Data F} {i : Int} {x : List F}, dgood d → d.getTestingData i = .ok x → good x
  shuffle : ∀ {d d' : Data F} {r : Rng}, dgood d → d.shuffle r = .ok d' → dgood d'

namespace G

open Spec HistoryProps

section
variable {F : Type} [Flt F] [FTrans F] [Add F] [Sub F] [Mul F] [Div F] [Neg F]
variable {L : List (Layer F) → List (Layer F) → Prop} {good : List F → Prop} {dgood : Data F → Prop}

theorem relBind {α γ δ β : Type} {R : α → β → Prop} {S : γ → δ → Prop} {x : Res α} {y : Res β} {f : α → Res γ}
    {g : β → Res δ} (h : Res.Rel R x y) (k : ∀ a b, x = .ok a → R a b → Res.Rel S (f a) (g b)) : Res.Rel S (x >>= f) (y >>= g) := by
  cases x <;> cases y <;> simp only [Res.Rel] at h
  · exact k _ _ rfl h
  · exact h
  · exact h

theorem errorsLoop_length : ∀ (k : Nat) {ds os r : List F}, errorsLoop k ds os = .ok r → r.length = k
  | 0, _, _, r, h => by cases h; rfl
  | k + 1, [], _, r, h => by cases h
  | k + 1, _ :: _, [], r, h => by cases h
  | k + 1, d :: ds, o :: os, r, h => by
    unfold errorsLoop at h
    obtain ⟨r', h1, h⟩ := Res.bind_eq_ok.1 h
    cases h
    simp [errorsLoop_length k h1]

/-! ### The network -/

/-- Two networks with related layers; `R` relates their statistics. -/
structure NetSim (L : List (Layer F) → List (Layer F) → Prop) (R : Stats F → Stats F → Prop) (a b : Net F) : Prop where
  stats : R a.stats b.stats
  nan : b.outputNan = a.outputNan
  count : b.numberOfTraining = a.numberOfTraining
  opt : b.optimizer = a.optimizer
  layers : L a.layers b.layers

variable {R : Stats F → Stats F → Prop}

theorem net_output (hL : LayersSim L good dgood) {a b : Net F} (h : NetSim L R a b) (x : List F) (t : Bool) (hx : good x) :
    Res.Rel (fun p q => q.1 = p.1 ∧ NetSim L R p.2 q.2) (a.output x t) (b.output x t) := by
  unfold Net.output
  rw [hL.empty h.layers]
  split
  · rfl
  · refine Res.Rel.bind (hL.output t x h.layers hx) ?_
    rintro ⟨as, ns⟩ ⟨_, ms⟩ ⟨rfl, hr⟩
    exact ⟨rfl, h.stats, by simp [h.nan], h.count, h.opt, hr⟩

theorem net_training (hL : LayersSim L good dgood) {a b : Net F} (h : NetSim L R a b) (x : List F) (t : Bool) (d : Draws F) (hx : good x) :
    Res.Rel (fun p q => q.1 = p.1 ∧ NetSim L R p.2.1 q.2.1 ∧ q.2.2 = p.2.2) (a.outputForTraining x t d) (b.outputForTraining x t d) := by
  unfold Net.outputForTraining
  rw [hL.empty h.layers]
  split
  · rfl
  · refine Res.Rel.bind (hL.training t x d h.layers hx) ?_
    rintro ⟨as, ns, d1⟩ ⟨_, ms, _⟩ ⟨rfl, hr, rfl⟩
    exact ⟨rfl, ⟨h.stats, by simp [h.nan], h.count, h.opt, hr⟩, rfl⟩

theorem net_error (hL : LayersSim L good dgood) {a b : Net F} (h : NetSim L R a b) (o d : List F) :
    b.calculateError o d = a.calculateError o d := by
  unfold Net.calculateError
  have := hL.outputs h.layers
  cases h1 : backOf a.layers <;> cases h2 : backOf b.layers <;> rw [h1, h2] at this <;> simp only [Res.Rel] at this
  · simp only [Res.ok_bind, this]
  · rw [this]
  · rw [this]

theorem net_back (hL : LayersSim L good dgood) {a b : Net F} (h : NetSim L R a b) (x y : List F) (t : Bool) (d : Draws F) (hx : good x) :
    Res.Rel (fun p q => NetSim L R p.1 q.1 ∧ q.2 = p.2) (a.backpropagation x y t d) (b.backpropagation x y t d) := by
  unfold Net.backpropagation
  refine Res.Rel.bind (net_training hL h x t d hx) ?_
  rintro ⟨o, n, d1⟩ ⟨_, m, _⟩ ⟨rfl, hr, rfl⟩
  simp only at hr ⊢
  rw [hr.nan]
  split
  · exact ⟨hr, rfl⟩
  · rw [net_error hL hr]
    refine relBind (Res.Rel.eq (β := List F)) ?_
    rintro v _ hv rfl
    refine Res.Rel.bind (hL.back _ hr.layers ?_) ?_
    · intro l hl
      unfold Net.calculateError at hv
      rw [hl] at hv
      exact errorsLoop_length _ hv
    · intro ls ms hl
      exact ⟨⟨hr.stats, rfl, hr.count, hr.opt, hl⟩, rfl⟩

theorem net_trainOnce (hL : LayersSim L good dgood) {a b : Net F} (h : NetSim L R a b) (x y : List F) (t : Bool) (d : Draws F)
    (hx : good x) : Res.Rel (fun p q => NetSim L R p.1 q.1 ∧ q.2 = p.2) (a.trainOnce x y t d) (b.trainOnce x y t d) := by
  unfold Net.trainOnce
  refine Res.Rel.bind (net_back hL h x y t d hx) ?_
  rintro ⟨n, d1⟩ ⟨m, _⟩ ⟨hr, rfl⟩
  exact ⟨⟨hr.stats, hr.nan, by have := hr.count; simp only at this ⊢; rw [this], hr.opt, hr.layers⟩, rfl⟩

/-! ### The whole network -/

/-- Two networks with related layers. -/
structure SnnSim (L : List (Layer F) → List (Layer F) → Prop) (R : Stats F → Stats F → Prop) (a b : Snn F) : Prop where
  net : NetSim L R a.net b.net
  stop : b.wantToStopTraining = a.wantToStopTraining
  idle : b.isIdle = a.isIdle
  index : b.index = a.index
  epoch : b.epoch = a.epoch
  between : b.numberOfTrainingsBetweenTwoEvaluations = a.numberOfTrainingsBetweenTwoEvaluations
  better : b.autoSaveWhenBetter = a.autoSaveWhenBetter
  path : b.autoSaveFilePath = a.autoSaveFilePath

theorem SnnSim.withNet {a b : Snn F} {R' : Stats F → Stats F → Prop} (h : SnnSim L R a b) {n m : Net F} (hn : NetSim L R' n m) :
    SnnSim L R' { a with net := n } { b with net := m } :=
  ⟨hn, h.stop, h.idle, h.index, h.epoch, h.between, h.better, h.path⟩

theorem SnnSim.split {a b : Snn F} (h : SnnSim L R a b) : ∃ m, b = { a with net := m } ∧ NetSim L R a.net m := by
  obtain ⟨h1, h2, h3, h4, h5, h6, h7, h8⟩ := h
  refine ⟨b.net, ?_, h1⟩
  cases a; cases b
  simp only at h2 h3 h4 h5 h6 h7 h8
  subst h2 h3 h4 h5 h6 h7 h8
  rfl

theorem snn_evaluateOnce (hL : LayersSim L good dgood) {a b : Snn F} (h : SnnSim L Eq a b) (data : Data F) (hd : dgood data) :
    Res.Rel (SnnSim L Eq) (a.evaluateOnce data) (b.evaluateOnce data) := by
  obtain ⟨m, rfl, hm⟩ := h.split
  have hout : ∀ (x : List F) (first : Bool) (ev : List F → Ev F), good x →
      Res.Rel (SnnSim L Eq)
        (a.net.output x first >>= fun p => p.2.stats.evaluateOnce (ev p.1) >>= fun st =>
          pure { a with net := { p.2 with stats := st } })
        (m.output x first >>= fun p => p.2.stats.evaluateOnce (ev p.1) >>= fun st =>
          pure { a with net := { p.2 with stats := st } }) := by
    intro x first ev hx
    refine Res.Rel.bind (net_output hL hm x first hx) ?_
    rintro ⟨o, n⟩ ⟨_, m⟩ ⟨rfl, hr⟩
    simp only at hr ⊢
    rw [← hr.stats]
    refine Res.Rel.bind (Res.Rel.eq (β := Stats F)) ?_
    rintro st _ rfl
    exact ⟨⟨rfl, hr.nan, hr.count, hr.opt, hr.layers⟩, rfl, rfl, rfl, rfl, rfl, rfl, rfl⟩
  unfold Snn.evaluateOnce
  simp only
  refine relBind (Res.Rel.eq (β := List F)) ?_
  rintro x _ hx rfl
  have hx := hL.testData hd hx
  refine Res.Rel.bind (Res.Rel.eq (β := Bool)) ?_
  rintro first _ rfl
  cases data.typeOfProblem with
  | classification =>
    refine Res.Rel.bind (Res.Rel.eq (β := Nat)) ?_
    rintro label _ rfl
    refine Res.Rel.bind (Res.Rel.eq (β := F)) ?_
    rintro sep _ rfl
    exact hout x first (fun o => .classification o label sep) hx
  | multipleClassification =>
    refine Res.Rel.bind (Res.Rel.eq (β := List F)) ?_
    rintro y _ rfl
    refine Res.Rel.bind (Res.Rel.eq (β := F)) ?_
    rintro sep _ rfl
    exact hout x first (fun o => .multiple o y sep) hx
  | regression =>
    refine Res.Rel.bind (Res.Rel.eq (β := List F)) ?_
    rintro y _ rfl
    refine Res.Rel.bind (Res.Rel.eq (β := F)) ?_
    rintro sep _ rfl
    exact hout x first (fun o => .regression o y sep) hx

theorem evaluateLoop (hL : LayersSim L good dgood) (nan : F) (data : Data F) (hd : dgood data) : ∀ (k : Nat) {a b : Snn F},
    SnnSim L Eq a b →
    Res.Rel (fun p q => q.1 = p.1 ∧ SnnSim L Eq p.2 q.2) (Snn.evaluateLoop nan data k a) (Snn.evaluateLoop nan data k b)
  | 0, a, b, h => ⟨rfl, h⟩
  | k + 1, a, b, h => by
    obtain ⟨m, rfl, hm⟩ := h.split
    unfold Snn.evaluateLoop
    simp only
    have hn := hm.nan
    cases hc : a.net.outputNan <;> rw [hc] at hn <;> simp only [hc, hn, Bool.false_eq_true, if_true, if_false]
    rotate_left
    · refine ⟨rfl, ⟨?_, rfl, hm.count, hm.opt, hm.layers⟩, rfl, rfl, rfl, rfl, rfl, rfl, rfl⟩
      show Stats.setResultsAsNan nan a.net.stats = Stats.setResultsAsNan nan m.stats
      rw [hm.stats]
    · refine Res.Rel.bind (Res.Rel.eq (β := Bool)) ?_
      rintro need _ rfl
      refine Res.Rel.bind (R := SnnSim L Eq) ?_ ?_
      · split
        · exact snn_evaluateOnce hL h data hd
        · refine relBind (Res.Rel.eq (β := List F)) ?_
          rintro x _ hx rfl
          refine Res.Rel.bind (Res.Rel.eq (β := Bool)) ?_
          rintro first _ rfl
          refine Res.Rel.bind (net_output hL h.net _ _ (hL.testData hd hx)) ?_
          rintro ⟨o, n⟩ ⟨_, m⟩ ⟨rfl, hr⟩
          exact h.withNet hr
      · intro s s' hs
        refine evaluateLoop hL nan data hd k ⟨hs.net, hs.stop, hs.idle, ?_, hs.epoch, hs.between, hs.better, hs.path⟩
        simp [hs.index]

/-! ### Runs -/

/-- Two runs of networks with related layers. -/
structure RunSim (L : List (Layer F) → List (Layer F) → Prop) (a b : Run F) : Prop where
  snn : SnnSim L Eq a.snn b.snn
  data : b.data = a.data
  draws : b.draws = a.draws
  ticks : b.ticks = a.ticks

theorem RunSim.split {a b : Run F} (h : RunSim L a b) :
    ∃ m tr, b = { a with snn := { a.snn with net := m }, trace := tr } ∧ NetSim L Eq a.snn.net m := by
  obtain ⟨h1, h2, h3, h4⟩ := h
  obtain ⟨m, e, hm⟩ := h1.split
  refine ⟨m, b.trace, ?_, hm⟩
  cases a; cases b
  simp only at h2 h3 h4 e
  subst h2 h3 h4 e
  rfl

/-- The runs are related and their data are fine. -/
def RunOk (L : List (Layer F) → List (Layer F) → Prop) (dgood : Data F → Prop) (a b : Run F) : Prop := RunSim L a b ∧ dgood a.data

theorem run_evaluate (hL : LayersSim L good dgood) (env : Env F) {a b : Run F} (h : RunOk L dgood a b) :
    Res.Rel (RunOk L dgood) (a.evaluate env) (b.evaluate env) := by
  obtain ⟨h, hd⟩ := h
  obtain ⟨m, tr, rfl, hm⟩ := h.split
  unfold Run.evaluate
  simp only
  refine Res.Rel.bind (evaluateLoop hL env.nan a.data hd a.data.testing.size
    (a := { a.snn with net := { a.snn.net with stats := a.snn.net.stats.startTesting }, index := 0 })
    ⟨⟨by show _ = _; rw [hm.stats], hm.nan, hm.count, hm.opt, hm.layers⟩, rfl, rfl, rfl, rfl, rfl, rfl, rfl⟩) ?_
  rintro ⟨st, s⟩ ⟨st', s'⟩ ⟨rfl, hs⟩
  simp only at hs ⊢
  obtain ⟨n, rfl, hn⟩ := hs.split
  simp only
  have hst := hn.stats
  cases st'
  · simp only [Bool.false_eq_true, if_false]
    rw [← hst]
    split
    · exact ⟨⟨⟨⟨rfl, hn.nan, hn.count, hn.opt, hn.layers⟩, rfl, rfl, rfl, rfl, rfl, rfl, rfl⟩, rfl, rfl, rfl⟩, hd⟩
    · exact ⟨⟨⟨⟨rfl, hn.nan, hn.count, hn.opt, hn.layers⟩, rfl, rfl, rfl, rfl, rfl, rfl, rfl⟩, rfl, rfl, rfl⟩, hd⟩
  · simp only [if_true]
    exact ⟨⟨hs, rfl, rfl, rfl⟩, hd⟩

theorem run_trainStep (hL : LayersSim L good dgood) (env : Env F) (bs : Int) {a b : Run F} (h : RunOk L dgood a b) :
    Res.Rel (fun p q => q.1 = p.1 ∧ RunOk L dgood p.2 q.2) (a.trainStep env bs) (b.trainStep env bs) := by
  obtain ⟨h, hd⟩ := h
  obtain ⟨m, tr, rfl, hm⟩ := h.split
  unfold Run.trainStep
  simp only
  have hn := hm.nan
  cases hc : a.snn.net.outputNan <;> rw [hc] at hn <;> simp only [hc, hn, Bool.false_eq_true, if_true, if_false]
  rotate_left
  · refine ⟨rfl, ⟨⟨⟨?_, rfl, hm.count, hm.opt, hm.layers⟩, rfl, rfl, rfl, rfl, rfl, rfl, rfl⟩, rfl, rfl, rfl⟩, hd⟩
    show _ = _
    simp only [Snn.resetTrainingValues]
    rw [hm.stats]
  · refine Res.Rel.bind (Res.Rel.eq (β := Bool)) ?_
    rintro need _ rfl
    refine relBind (Res.Rel.eq (β := List F × Data F)) ?_
    rintro ⟨x, d1⟩ _ hx rfl
    obtain ⟨hx, hd1⟩ := hL.trainData hd hx
    refine Res.Rel.bind (Res.Rel.eq (β := Bool)) ?_
    rintro first _ rfl
    cases need <;> simp only [Bool.false_eq_true, if_true, if_false]
    · refine Res.Rel.bind (net_training hL hm _ _ _ hx) ?_
      rintro ⟨o, n, dd⟩ ⟨_, m', _⟩ ⟨rfl, hr, rfl⟩
      exact ⟨rfl, ⟨⟨hr, rfl, rfl, rfl, rfl, rfl, rfl, rfl⟩, rfl, rfl, rfl⟩, hd1⟩
    · refine relBind (Res.Rel.eq (β := List F × Data F)) ?_
      rintro ⟨y, d2⟩ _ hy rfl
      refine Res.Rel.bind (net_trainOnce hL hm _ _ _ _ hx) ?_
      rintro ⟨n, dd⟩ ⟨m', _⟩ ⟨hr, rfl⟩
      exact ⟨rfl, ⟨⟨hr, rfl, rfl, rfl, rfl, rfl, rfl, rfl⟩, rfl, rfl, rfl⟩, hL.trainOutputs hd1 hy⟩

theorem run_continue (env : Env F) (wait : Wait F) {a b : Run F} (h : RunOk L dgood a b) :
    (b.continueTraining env wait).1 = (a.continueTraining env wait).1 ∧
      RunOk L dgood (a.continueTraining env wait).2 (b.continueTraining env wait).2 := by
  obtain ⟨h, hd⟩ := h
  obtain ⟨m, tr, rfl, hm⟩ := h.split
  unfold Run.continueTraining
  simp only
  rw [hm.nan, ← hm.stats]
  exact ⟨rfl, ⟨⟨hm, rfl, rfl, rfl, rfl, rfl, rfl, rfl⟩, rfl, rfl, rfl⟩, hd⟩

theorem RunOk.setSnn {a b : Run F} (h : RunOk L dgood a b) {s t : Snn F} (hs : SnnSim L Eq s t) :
    RunOk L dgood { a with snn := s } { b with snn := t } := ⟨⟨hs, h.1.data, h.1.draws, h.1.ticks⟩, h.2⟩

theorem stepLoop (hL : LayersSim L good dgood) (env : Env F) (wait : Wait F) (bs : Int) : ∀ (fuel : Nat) {a b : Run F},
    RunOk L dgood a b → Res.Rel (fun p q => q.1 = p.1 ∧ RunOk L dgood p.2 q.2) (Snn.stepLoop env wait bs fuel a) (Snn.stepLoop env wait bs fuel b)
  | 0, a, b, h => rfl
  | fuel + 1, a, b, h => by
    unfold Snn.stepLoop
    rw [h.1.snn.index, h.1.snn.between]
    split
    · obtain ⟨hc, hr⟩ := run_continue env wait h
      generalize Run.continueTraining env wait a = p at hc hr
      generalize Run.continueTraining env wait b = q at hc hr
      obtain ⟨c, r⟩ := p
      obtain ⟨c', r'⟩ := q
      simp only at hc hr ⊢
      subst hc
      split
      · refine Res.Rel.bind (run_trainStep hL env bs hr) ?_
        rintro ⟨ret, r2⟩ ⟨_, r2'⟩ ⟨rfl, h2⟩
        simp only at h2 ⊢
        split
        · exact ⟨rfl, h2⟩
        · have h3 := h2.1.snn
          refine stepLoop hL env wait bs fuel (h2.setSnn ⟨h3.net, h3.stop, h3.idle, ?_, h3.epoch, h3.between,
            h3.better, h3.path⟩)
          simp [h3.index]
      · exact ⟨rfl, hr⟩
    · exact ⟨rfl, h⟩

theorem run_epochBody (hL : LayersSim L good dgood) (env : Env F) (wait : Wait F) (bs ef : Int) (fuel : Nat) {a b : Run F}
    (h : RunOk L dgood a b) :
    Res.Rel (fun p q => q.1 = p.1 ∧ RunOk L dgood p.2 q.2) (a.epochBody env wait bs ef fuel) (b.epochBody env wait bs ef fuel) := by
  obtain ⟨h, hd⟩ := h
  obtain ⟨m, tr, rfl, hm⟩ := h.split
  unfold Run.epochBody
  simp only
  refine relBind (Res.Rel.eq (β := Data F)) ?_
  rintro data _ hs rfl
  refine Res.Rel.bind (stepLoop hL env wait bs fuel
    (a := { a with data := data, snn := { a.snn with index := 0 }, trace := .shuffled :: a.trace })
    ⟨⟨⟨hm, rfl, rfl, rfl, rfl, rfl, rfl, rfl⟩, rfl, rfl, rfl⟩, hL.shuffle hd hs⟩) ?_
  rintro ⟨ret, r2⟩ ⟨_, r2'⟩ ⟨rfl, h2⟩
  simp only at h2 ⊢
  rw [h2.1.snn.epoch]
  split
  · exact ⟨rfl, h2⟩
  · split
    · refine Res.Rel.bind (run_evaluate hL env h2) ?_
      intro r3 r3' h3
      exact ⟨rfl, h3⟩
    · exact ⟨rfl, h2⟩

theorem epochLoop (hL : LayersSim L good dgood) (env : Env F) (wait : Wait F) (bs ef : Int) (inner : Nat) : ∀ (fuel : Nat) {a b : Run F},
    RunOk L dgood a b →
    Res.Rel (fun p q => q.1 = p.1 ∧ RunOk L dgood p.2 q.2) (Snn.epochLoop env wait bs ef inner fuel a)
      (Snn.epochLoop env wait bs ef inner fuel b)
  | 0, a, b, h => rfl
  | fuel + 1, a, b, h => by
    unfold Snn.epochLoop
    obtain ⟨hc, hr⟩ := run_continue env wait h
    generalize Run.continueTraining env wait a = p at hc hr
    generalize Run.continueTraining env wait b = q at hc hr
    obtain ⟨c, r⟩ := p
    obtain ⟨c', r'⟩ := q
    simp only at hc hr ⊢
    subst hc
    split
    · refine Res.Rel.bind (run_epochBody hL env wait bs ef inner hr) ?_
      rintro ⟨ret, r2⟩ ⟨_, r2'⟩ ⟨rfl, h2⟩
      simp only at h2 ⊢
      split
      · exact ⟨rfl, h2⟩
      · have h3 := h2.1.snn
        refine epochLoop hL env wait bs ef inner fuel (h2.setSnn ⟨h3.net, h3.stop, h3.idle, h3.index, ?_, h3.between, h3.better, h3.path⟩)
        simp [h3.epoch]
    · exact ⟨rfl, hr⟩

theorem run_trainSync (hL : LayersSim L good dgood) (env : Env F) (wait : Wait F) (bs ef : Int) (fuel : Nat) {a b : Run F}
    (h : RunOk L dgood a b) : Res.Rel (RunOk L dgood) (a.trainSync env wait bs ef fuel) (b.trainSync env wait bs ef fuel) := by
  unfold Run.trainSync
  have hb : RunOk L dgood a.begin b.begin := by
    obtain ⟨h, hd⟩ := h
    obtain ⟨m, tr, rfl, hm⟩ := h.split
    exact ⟨⟨⟨hm, rfl, rfl, rfl, rfl, rfl, rfl, rfl⟩, rfl, rfl, rfl⟩, hd⟩
  refine Res.Rel.bind (R := RunOk L dgood) ?_ ?_
  · split
    · exact run_evaluate hL env hb
    · exact hb
  · intro r1 r1' h1
    have h3 := h1.1.snn
    refine Res.Rel.bind (epochLoop hL env wait bs ef fuel fuel (h1.setSnn ⟨h3.net, h3.stop, h3.idle, h3.index, rfl,
          h3.between, h3.better, h3.path⟩)) ?_
    rintro ⟨ret, r2⟩ ⟨_, r2'⟩ ⟨rfl, h2⟩
    simp only at h2 ⊢
    split
    · exact h2
    · have h4 := h2.1.snn
      exact h2.setSnn ⟨h4.net, rfl, rfl, rfl, h4.epoch, h4.between, h4.better, h4.path⟩

theorem snn_validData (hL : LayersSim L good dgood) {a b : Snn F} (h : SnnSim L R a b) (data : Data F) (bs : Int) :
    b.validData data bs = a.validData data bs := by
  have hi : b.net.getNumberOfInputs = a.net.getNumberOfInputs := hL.inputs h.net.layers
  have ho : b.net.getNumberOfOutputs = a.net.getNumberOfOutputs := by
    unfold Net.getNumberOfOutputs
    have := hL.outputs h.net.layers
    cases h1 : backOf a.net.layers <;> cases h2 : backOf b.net.layers <;> rw [h1, h2] at this <;> simp only [Res.Rel] at this
    · simp only [Res.ok_bind, this]
    · rw [this]
    · rw [this]
  unfold Snn.validData
  rw [hi, ho]

theorem run_train (hL : LayersSim L good dgood) (env : Env F) (wait : Wait F) (bs ef : Int) (fuel : Nat) {a b : Run F}
    (h : RunOk L dgood a b) : Res.Rel (RunOk L dgood) (a.train env wait bs ef fuel) (b.train env wait bs ef fuel) := by
  unfold Run.train
  obtain ⟨h, hd⟩ := h
  obtain ⟨m, tr, rfl, hm⟩ := h.split
  rw [snn_validData hL h.snn]
  refine Res.Rel.bind (Res.Rel.eq (β := Unit)) ?_
  rintro _ _ rfl
  split
  · rfl
  · exact run_trainSync hL env wait bs ef fuel ⟨⟨⟨hm, rfl, rfl, rfl, rfl, rfl, rfl, rfl⟩, rfl, rfl, rfl⟩, hd⟩

/-! ### What a client sees -/

theorem SnnSim.shown (hL : LayersSim L good dgood) {a b : Snn F} (h : SnnSim L Eq a b) : shown b = shown a := by
  obtain ⟨m, rfl, hm⟩ := h.split
  simp only [Spec.shown, visible, hL.weights hm.layers, hm.opt, hm.count, hm.nan, ← hm.stats]

theorem ask (hL : LayersSim L good dgood) {a b : Run F} (h : RunSim L a b) (c : Call F) (hc : Call.fine good dgood c) :
    Res.Rel (fun p q => q.1.returned = p.1.returned ∧ RunSim L p.2 q.2) (Spec.ask a c) (Spec.ask b c) := by
  have hrun : ∀ {x y : Res (Run F)}, Res.Rel (RunSim L) x y →
      Res.Rel (fun p q => q.1.returned = p.1.returned ∧ RunSim L p.2 q.2)
        (x >>= fun r' => pure ((⟨.nothing, visible r'.snn⟩ : Answer F), r'))
        (y >>= fun r' => pure ((⟨.nothing, visible r'.snn⟩ : Answer F), r')) := by
    intro x y hxy
    refine Res.Rel.bind hxy ?_
    intro r r' hr
    exact ⟨rfl, hr⟩
  have hweak : ∀ {x y : Res (Run F)}, Res.Rel (RunOk L dgood) x y → Res.Rel (RunSim L) x y := by
    intro x y h
    cases x <;> cases y <;> simp only [Res.Rel] at h ⊢
    · exact h.1
    · exact h
    · exact h
  cases c with
  | computeOutput x t =>
    unfold Spec.ask Snn.computeOutput
    simp only
    refine Res.Rel.bind (R := fun p q => q.1 = p.1 ∧ SnnSim L Eq p.2 q.2) ?_ ?_
    · refine Res.Rel.bind (net_output hL h.snn.net x t hc) ?_
      rintro ⟨o, n⟩ ⟨_, m⟩ ⟨rfl, hr⟩
      exact ⟨rfl, h.snn.withNet hr⟩
    · rintro ⟨o, n⟩ ⟨_, m⟩ ⟨rfl, hr⟩
      exact ⟨rfl, hr, h.data, h.draws, h.ticks⟩
  | computeCluster x t =>
    unfold Spec.ask Snn.computeCluster
    simp only
    refine Res.Rel.bind (R := fun p q => q.1 = p.1 ∧ SnnSim L Eq p.2 q.2) ?_ ?_
    · refine Res.Rel.bind (net_output hL h.snn.net x t hc) ?_
      rintro ⟨o, n⟩ ⟨_, m⟩ ⟨rfl, hr⟩
      exact ⟨rfl, h.snn.withNet hr⟩
    · rintro ⟨o, n⟩ ⟨_, m⟩ ⟨rfl, hr⟩
      exact ⟨rfl, hr, h.data, h.draws, h.ticks⟩
  | evaluate env data =>
    exact hrun (hweak (run_evaluate hL env (a := { a with data := data }) (b := { b with data := data })
      ⟨⟨h.snn, rfl, h.draws, h.ticks⟩, hc⟩))
  | train env data wait bs ef fuel =>
    exact hrun (hweak (run_train hL env wait bs ef fuel (a := { a with data := data }) (b := { b with data := data })
      ⟨⟨h.snn, rfl, h.draws, h.ticks⟩, hc⟩))
  | saveAs path =>
    refine hrun ?_
    simp only [Call.run, Run.saveAs, h.snn.idle]
    split
    · rfl
    · exact ⟨⟨h.snn.net, h.snn.stop, h.snn.idle, h.snn.index, h.snn.epoch, h.snn.between, h.snn.better, rfl⟩, h.data, h.draws, h.ticks⟩
  | autoSave w path =>
    refine hrun ?_
    simp only [Call.run]
    exact ⟨⟨h.snn.net, h.snn.stop, h.snn.idle, h.snn.index, h.snn.epoch, h.snn.between, rfl, rfl⟩, h.data, h.draws, h.ticks⟩

theorem behaviour (hL : LayersSim L good dgood) : ∀ (calls : List (Call F)) {a b : Run F}, (∀ c ∈ calls, Call.fine good dgood c) →
    RunSim L a b → Spec.behaviour calls b = Spec.behaviour calls a
  | [], a, b, _, h => rfl
  | c :: cs, a, b, hc, h => by
    unfold Spec.behaviour
    have := ask hL h c (hc c (by simp))
    generalize Spec.ask a c = x at this ⊢
    generalize Spec.ask b c = y at this ⊢
    cases x <;> cases y <;> simp only [Res.Rel] at this
    · rename_i p q
      obtain ⟨p1, p2⟩ := p
      obtain ⟨q1, q2⟩ := q
      obtain ⟨e, hr⟩ := this
      simp only at e hr ⊢
      rw [e, hr.snn.shown hL, behaviour hL cs (fun c h => hc c (by simp [h])) hr]
    · rw [this]
    · rw [this]

theorem SnnSim.same (hL : LayersSim L good dgood) {a b : Snn F} (h : SnnSim L Eq a b) : SameBehaviour good dgood a b :=
  ⟨(h.shown hL).symm, fun calls data draws ticks hc =>
    (behaviour hL (a := ⟨a, data, draws, ticks, []⟩) (b := ⟨b, data, draws, ticks, []⟩) calls hc ⟨h, rfl, rfl, rfl⟩).symm⟩

end

end G

end Snn
