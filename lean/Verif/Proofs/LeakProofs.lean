import Verif.Proofs.LeakLayers
import Verif.Props.SafeProps
import Verif.Spec.LeakSpec

/-! Evaluations and inferences do not influence what a network learns. -/

set_option linter.all false

namespace Snn

open Spec HistoryProps TrainProofs TrainProps TrainSpec

section
variable {F : Type} [Flt F]

/-! ### Data -/

theorem learningPart_shuffle (d : Data F) (r : Rng) : (learningPart d).shuffle r = learningPart <$> d.shuffle r := by
  unfold Data.shuffle
  simp only [learningPart]
  cases d.typeOfTemporal with
  | nonTemporal => rfl
  | sequential =>
    simp only
    cases sequentialLoop d.training.areFirst (shuffleList r d.indexesForShuffles) d.training.shuffledIndexes 0 <;> rfl
  | timeSeries =>
    simp only
    cases tsClearTail d.training.needToTrain (d.numberOfRecurrences.toNat + 1) ((d.training.size : Int) - (d.numberOfRecurrences.toNat + 1)) with
    | ok train =>
      simp only [Res.ok_bind]
      cases tsPrefix { order := d.training.shuffledIndexes, first := d.training.areFirst, train := train } d.offset 0 with
      | ok t =>
        simp only [Res.ok_bind]
        cases wr t.first 0 true with
        | ok first =>
          simp only [Res.ok_bind]
          cases tsWindows d.numberOfRecurrences.toNat d.offset d.training.size (shuffleList r d.indexesForShuffles) 0 { t with first := first } <;> rfl
        | throw m => rfl
        | ub m => rfl
      | throw m => rfl
      | ub m => rfl
    | throw m => rfl
    | ub m => rfl

theorem map_both {A B : Type} {f : A → B} {x y : Res A} {a b : A} (h : f <$> x = f <$> y) (hx : x = .ok a) (hy : y = .ok b) : f a = f b := by
  subst hx hy
  exact Res.ok.inj h

theorem shuffle_part {d e d' e' : Data F} {r : Rng} (h : learningPart d = learningPart e) (hd : d.shuffle r = .ok d') (he : e.shuffle r = .ok e') :
    learningPart d' = learningPart e' := by
  apply map_both (f := learningPart) _ hd he
  rw [← learningPart_shuffle, ← learningPart_shuffle, h]

variable [Add F] [Div F]

theorem learningPart_data (d : Data F) (i b : Int) :
    (learningPart d).getTrainingData i b = (fun p => (p.1, learningPart p.2)) <$> d.getTrainingData i b := by
  unfold Data.getTrainingData
  simp only [learningPart]
  cases getBatched d.training.shuffledIndexes d.training.inputs d.sizeOfData d.batchedData i b <;> rfl

theorem learningPart_outputs (d : Data F) (i b : Int) :
    (learningPart d).getTrainingOutputs i b = (fun p => (p.1, learningPart p.2)) <$> d.getTrainingOutputs i b := by
  unfold Data.getTrainingOutputs
  simp only [learningPart]
  cases getBatched d.training.shuffledIndexes d.training.labels d.numberOfLabels d.batchedLabels i b <;> rfl

theorem data_part {d e d' e' : Data F} {i b : Int} {x y : List F} (h : learningPart d = learningPart e) (hd : d.getTrainingData i b = .ok (x, d'))
    (he : e.getTrainingData i b = .ok (y, e')) : x = y ∧ learningPart d' = learningPart e' := by
  have := map_both (f := fun p : List F × Data F => (p.1, learningPart p.2)) (by rw [← learningPart_data, ← learningPart_data, h]) hd he
  exact ⟨congrArg Prod.fst this, congrArg Prod.snd this⟩

theorem outputs_part {d e d' e' : Data F} {i b : Int} {x y : List F} (h : learningPart d = learningPart e) (hd : d.getTrainingOutputs i b = .ok (x, d'))
    (he : e.getTrainingOutputs i b = .ok (y, e')) : x = y ∧ learningPart d' = learningPart e' := by
  have := map_both (f := fun p : List F × Data F => (p.1, learningPart p.2)) (by rw [← learningPart_outputs, ← learningPart_outputs, h]) hd he
  exact ⟨congrArg Prod.fst this, congrArg Prod.snd this⟩

theorem need_part {d e : Data F} (i : Int) (h : learningPart d = learningPart e) : d.needToLearn i = e.needToLearn i := by
  have : (learningPart d).needToLearn i = (learningPart e).needToLearn i := by rw [h]
  exact this

theorem first_part {d e : Data F} (i : Int) (h : learningPart d = learningPart e) : d.isFirstTraining i = e.isFirstTraining i := by
  have : (learningPart d).isFirstTraining i = (learningPart e).isFirstTraining i := by rw [h]
  exact this

theorem size_part {d e : Data F} (h : learningPart d = learningPart e) : d.training.size = e.training.size := by
  have : (learningPart d).training.size = (learningPart e).training.size := by rw [h]
  exact this

end

section
variable {F : Type} [Flt F] [FTrans F] [Add F] [Sub F] [Mul F] [Div F] [Neg F]

/-! ### One step of training -/

/-- Two networks that differ only by the inputs they last saw and by their statistics. -/
structure Net.Twin (n m : Net F) : Prop where
  layers : List.Forall₂ Layer.Twin n.layers m.layers
  nan : n.outputNan = false
  nan' : m.outputNan = false
  num : m.numberOfTraining = n.numberOfTraining
  opt : m.optimizer = n.optimizer

theorem Net.Twin.outputForTraining {n m n' m' : Net F} {x y z : List F} {t : Bool} {d d1 d2 : Draws F} (h : n.Twin m)
    (h1 : n.outputForTraining x t d = .ok (y, n', d1)) (h2 : m.outputForTraining x t d = .ok (z, m', d2)) :
    z = y ∧ m'.layers = n'.layers ∧ m'.outputNan = n'.outputNan ∧ m'.numberOfTraining = n'.numberOfTraining ∧ m'.optimizer = n'.optimizer ∧ d2 = d1 := by
  unfold Net.outputForTraining at h1 h2
  split at h1
  · cases h1
  split at h2
  · cases h2
  rw [trainingLoop_twin t x d h.layers] at h2
  obtain ⟨⟨o, ls, e⟩, k1, h1⟩ := Res.bind_eq_ok.1 h1
  obtain ⟨⟨o', ls', e'⟩, k2, h2⟩ := Res.bind_eq_ok.1 h2
  rw [k1] at k2
  cases k2; cases h1; cases h2
  exact ⟨rfl, rfl, by simp [h.nan, h.nan'], h.num, h.opt, rfl⟩

theorem Net.Twin.trainOnce {n m n' m' : Net F} {x y : List F} {t : Bool} {d d1 d2 : Draws F} (h : n.Twin m)
    (h1 : n.trainOnce x y t d = .ok (n', d1)) (h2 : m.trainOnce x y t d = .ok (m', d2)) :
    m'.layers = n'.layers ∧ m'.outputNan = n'.outputNan ∧ m'.numberOfTraining = n'.numberOfTraining ∧ m'.optimizer = n'.optimizer ∧ d2 = d1 := by
  unfold Net.trainOnce at h1 h2
  obtain ⟨⟨n1, e1⟩, k1, h1⟩ := Res.bind_eq_ok.1 h1
  obtain ⟨⟨m1, e2⟩, k2, h2⟩ := Res.bind_eq_ok.1 h2
  cases h1; cases h2
  unfold Net.backpropagation at k1 k2
  obtain ⟨⟨o1, n2, c1⟩, j1, k1⟩ := Res.bind_eq_ok.1 k1
  obtain ⟨⟨o2, m2, c2⟩, j2, k2⟩ := Res.bind_eq_ok.1 k2
  obtain ⟨rfl, a1, a2, a3, a4, rfl⟩ := h.outputForTraining j1 j2
  simp only at k1 k2
  rw [a2] at k2
  split at k1
  · rename_i hc
    rw [if_pos hc] at k2
    cases k1; cases k2
    exact ⟨a1, a2, by simp [a3], a4, rfl⟩
  · rename_i hc
    rw [if_neg hc] at k2
    have he : m2.calculateError o2 y = n2.calculateError o2 y := by unfold Net.calculateError; rw [a1]
    rw [he, a1] at k2
    obtain ⟨es, i1, k1⟩ := Res.bind_eq_ok.1 k1
    obtain ⟨es', i2, k2⟩ := Res.bind_eq_ok.1 k2
    rw [i1] at i2
    cases i2
    obtain ⟨ls, i1, k1⟩ := Res.bind_eq_ok.1 k1
    obtain ⟨ls', i2, k2⟩ := Res.bind_eq_ok.1 k2
    rw [i1] at i2
    cases i2
    cases k1; cases k2
    exact ⟨rfl, rfl, by simp [a3], a4, rfl⟩

/-! ### Layers that stay without memory -/

/-- Between two passes, and without recurrent layers. -/
def Plain (ls : List (Layer F)) : Prop := ReadyLayers ls ∧ ∀ l ∈ ls, NonRecurrent l

theorem Body.Kin.plain {l l' : Layer F} (h : l.body.Kin l'.body) (hn : NonRecurrent l) : NonRecurrent l' := by
  unfold NonRecurrent at *
  cases hb : l.body <;> cases hb' : l'.body <;> rw [hb, hb'] at h <;> simp only [Body.Kin] at h <;> rw [hb] at hn <;> simp_all

theorem kin_plain {ls ls' : List (Layer F)} (h : List.Forall₂ Layer.Kin ls ls') (hn : ∀ l ∈ ls, NonRecurrent l) : ∀ l ∈ ls', NonRecurrent l := by
  intro l hl
  obtain ⟨m, hm, k⟩ := forall₂_mem_right h l hl
  exact k.body.plain (hn m hm)

theorem plain_kept : Kept (F := F) Plain where
  out := fun hp h => ⟨readyLayers_kept.out hp.1 h, kin_plain ((outputLoop_same _ h).imp fun _ _ h => h.toKin) hp.2⟩
  training := fun hp h => ⟨readyLayers_kept.training hp.1 h, kin_plain (trainingLoop_toKin _ h) hp.2⟩
  back := fun hp h => ⟨readyLayers_kept.back hp.1 h, kin_plain (backwardPass_toKin h) hp.2⟩

theorem twin_refl {ls : List (Layer F)} (h : Plain ls) : List.Forall₂ Layer.Twin ls ls := by
  obtain ⟨h1, h2⟩ := h
  induction ls with
  | nil => exact .nil
  | cons l ls ih =>
    exact .cons (Layer.Twin.refl (h1 l (by simp)) (h2 l (by simp))) (ih (fun x hx => h1 x (by simp [hx])) (fun x hx => h2 x (by simp [hx])))

theorem twin_plain {ls ms : List (Layer F)} (h : List.Forall₂ Layer.Twin ls ms) : Plain ls := by
  induction h with
  | nil => exact ⟨by simp [ReadyLayers], by simp⟩
  | cons h1 h2 ih =>
    constructor
    · intro x hx
      rcases List.mem_cons.1 hx with rfl | hx
      · exact h1.ready
      · exact ih.1 x hx
    · intro x hx
      rcases List.mem_cons.1 hx with rfl | hx
      · exact h1.plain
      · exact ih.2 x hx

theorem Neuron.Same.symm {n m : Neuron F} (h : n.Same m) : m.Same n :=
  ⟨h.1.symm, h.2.symm, h.3.symm, h.4.symm, h.5.symm, h.6.symm, h.7.symm, h.8.symm, h.9.symm⟩

theorem forall₂_symm {α : Type} {R : α → α → Prop} (hR : ∀ a b, R a b → R b a) : ∀ {l m : List α}, List.Forall₂ R l m → List.Forall₂ R m l
  | _, _, .nil => .nil
  | _, _, .cons h1 h2 => .cons (hR _ _ h1) (forall₂_symm hR h2)

theorem Body.Same.symm {b c : Body F} (h : b.Same c) : c.Same b := by
  cases b <;> cases c <;> simp only [Body.Same] at h ⊢
  · exact forall₂_symm (fun _ _ h => Neuron.Same.symm h) h
  · exact forall₂_symm (R := RecNeuron.Same) (fun _ _ h => Neuron.Same.symm h) h
  · exact forall₂_symm (fun _ _ h => ⟨h.1.symm, h.2.symm, Neuron.Same.symm h.3, Neuron.Same.symm h.4, Neuron.Same.symm h.5⟩) h
  · exact ⟨h.1.symm, forall₂_symm (fun _ _ h => Neuron.Same.symm h) h.2.1, h.2.2.symm⟩
  · exact ⟨h.1.symm, h.2.1.symm, h.2.2.1.symm, h.2.2.2.symm⟩

theorem Layer.Twin.symm {l m : Layer F} (h : l.Twin m) : m.Twin l :=
  ⟨⟨h.same.inputs.symm, h.same.optimizers.symm, h.same.body.symm⟩, Body.Same.nonRecurrent h.same h.plain, h.gets.symm, h.ready', h.ready⟩

/-! ### Evaluations -/

theorem output_side {ms : List (Layer F)} {n n' : Net F} {x y : List F} {t : Bool} (hp : List.Forall₂ Layer.Twin ms n.layers)
    (h : n.output x t = .ok (y, n')) : List.Forall₂ Layer.Twin ms n'.layers := by
  unfold Net.output at h
  split at h
  · cases h
  · obtain ⟨⟨o, ls⟩, h1, h⟩ := Res.bind_eq_ok.1 h
    cases h
    exact outputLoop_twin h1 hp

theorem evaluateOnce_side {ms : List (Layer F)} {s s' : Snn F} {data : Data F} (hp : List.Forall₂ Layer.Twin ms s.net.layers)
    (h : s.evaluateOnce data = .ok s') : List.Forall₂ Layer.Twin ms s'.net.layers := by
  unfold Snn.evaluateOnce at h
  obtain ⟨x, _, h⟩ := Res.bind_eq_ok.1 h
  obtain ⟨first, _, h⟩ := Res.bind_eq_ok.1 h
  split at h <;>
  · obtain ⟨y, _, h⟩ := Res.bind_eq_ok.1 h
    obtain ⟨sep, _, h⟩ := Res.bind_eq_ok.1 h
    obtain ⟨⟨out, net⟩, h1, h⟩ := Res.bind_eq_ok.1 h
    obtain ⟨st, h2, h⟩ := Res.bind_eq_ok.1 h
    cases h
    have := output_side hp h1
    exact this

theorem evaluateLoop_side {ms : List (Layer F)} {nan : F} {data : Data F} : ∀ {m : Nat} {s s' : Snn F} {b : Bool},
    List.Forall₂ Layer.Twin ms s.net.layers → evaluateLoop nan data m s = .ok (b, s') → List.Forall₂ Layer.Twin ms s'.net.layers
  | 0, s, s', b, hp, h => by cases h; exact hp
  | m + 1, s, s', b, hp, h => by
    unfold evaluateLoop at h
    split at h
    · cases h; exact hp
    · obtain ⟨need, _, h⟩ := Res.bind_eq_ok.1 h
      obtain ⟨s1, h1, h⟩ := Res.bind_eq_ok.1 h
      refine evaluateLoop_side ?_ h
      split at h1
      · have := evaluateOnce_side hp h1
        exact this
      · obtain ⟨x, _, h1⟩ := Res.bind_eq_ok.1 h1
        obtain ⟨first, _, h1⟩ := Res.bind_eq_ok.1 h1
        obtain ⟨⟨_, net⟩, h2, h1⟩ := Res.bind_eq_ok.1 h1
        cases h1
        exact output_side hp h2

theorem evaluate_side {ms : List (Layer F)} {env : Env F} {r r' : Run F} (hp : List.Forall₂ Layer.Twin ms r.snn.net.layers)
    (h : r.evaluate env = .ok r') : List.Forall₂ Layer.Twin ms r'.snn.net.layers := by
  unfold Run.evaluate at h
  simp only at h
  obtain ⟨⟨b, s⟩, h1, h⟩ := Res.bind_eq_ok.1 h
  have hk := evaluateLoop_side (by exact hp) h1
  simp only at h
  split at h
  · cases h; exact hk
  · split at h
    · cases h; exact hk
    · cases h; exact hk

/-! ### Runs -/

/-- Two runs at the same point of the same lessons. -/
structure Run.Pal (r q : Run F) : Prop where
  net : r.snn.net.Twin q.snn.net
  draws : q.draws = r.draws
  ticks : q.ticks = r.ticks
  data : learningPart q.data = learningPart r.data
  epoch : q.snn.epoch = r.snn.epoch
  between : q.snn.numberOfTrainingsBetweenTwoEvaluations = r.snn.numberOfTrainingsBetweenTwoEvaluations
  stop : q.snn.wantToStopTraining = r.snn.wantToStopTraining

theorem Net.Twin.of_eq {n m n0 m0 : Net F} (hl : m.layers = n.layers) (hp : Plain n.layers) (hn : n.outputNan = false) (hn' : m.outputNan = false)
    (hu : m.numberOfTraining = n.numberOfTraining) (ho : m.optimizer = n.optimizer) : n.Twin m :=
  ⟨by rw [hl]; exact twin_refl hp, hn, hn', hu, ho⟩

theorem Run.Pal.trainStep {env env' : Env F} {b : Int} {r q r' q' : Run F} {u v : Bool} (h : r.Pal q) (hi : q.snn.index = r.snn.index)
    (h1 : r.trainStep env b = .ok (u, r')) (h2 : q.trainStep env' b = .ok (v, q')) (n1 : r'.snn.net.outputNan = false)
    (n2 : q'.snn.net.outputNan = false) : u = false ∧ v = false ∧ r'.Pal q' ∧ q'.snn.index = r'.snn.index := by
  unfold Run.trainStep at h1 h2
  simp only [h.net.nan, h.net.nan', Bool.false_eq_true, if_false] at h1 h2
  rw [hi] at h2
  obtain ⟨need, i1, h1⟩ := Res.bind_eq_ok.1 h1
  obtain ⟨need', i2, h2⟩ := Res.bind_eq_ok.1 h2
  rw [need_part _ h.data, i1] at i2
  cases i2
  obtain ⟨⟨x, d1⟩, j1, h1⟩ := Res.bind_eq_ok.1 h1
  obtain ⟨⟨x', d2⟩, j2, h2⟩ := Res.bind_eq_ok.1 h2
  obtain ⟨e1, hd⟩ := data_part h.data j2 j1
  subst e1
  obtain ⟨first, k1, h1⟩ := Res.bind_eq_ok.1 h1
  obtain ⟨first', k2, h2⟩ := Res.bind_eq_ok.1 h2
  simp only at k1 k2
  rw [first_part _ hd, k1] at k2
  cases k2
  rw [h.draws] at h2
  have hpl := twin_plain h.net.layers
  cases need
  · simp only [Bool.false_eq_true, if_false] at h1 h2
    obtain ⟨⟨o, n, c1⟩, l1, h1⟩ := Res.bind_eq_ok.1 h1
    obtain ⟨⟨o', m, c2⟩, l2, h2⟩ := Res.bind_eq_ok.1 h2
    obtain ⟨a0, a1, a2, a3, a4, a5⟩ := h.net.outputForTraining l1 l2
    cases h1; cases h2
    refine ⟨rfl, rfl, ⟨Net.Twin.of_eq (n0 := n) (m0 := m) a1 (plain_kept.outputForTraining hpl l1) n1 n2 a3 a4, a5, h.ticks, hd, h.epoch, h.between, h.stop⟩, rfl⟩
  · simp only [if_true] at h1 h2
    obtain ⟨⟨y, d3⟩, m1, h1⟩ := Res.bind_eq_ok.1 h1
    obtain ⟨⟨y', d4⟩, m2, h2⟩ := Res.bind_eq_ok.1 h2
    obtain ⟨e2, hd'⟩ := outputs_part hd m2 m1
    subst e2
    obtain ⟨⟨n, c1⟩, l1, h1⟩ := Res.bind_eq_ok.1 h1
    obtain ⟨⟨m, c2⟩, l2, h2⟩ := Res.bind_eq_ok.1 h2
    obtain ⟨a1, a2, a3, a4, a5⟩ := h.net.trainOnce l1 l2
    cases h1; cases h2
    refine ⟨rfl, rfl, ⟨Net.Twin.of_eq (n0 := n) (m0 := m) a1 (plain_kept.trainOnce hpl l1) n1 n2 a3 a4, a5, h.ticks, hd', h.epoch, h.between, h.stop⟩, rfl⟩

theorem stepLoop_nan {env : Env F} {wait : Wait F} {b : Nat} {fuel : Nat} {r r' : Run F} {ret : Bool}
    (h : stepLoop env wait b fuel r = .ok (ret, r')) (hn : r'.snn.net.outputNan = false) : r.snn.net.outputNan = false := by
  obtain ⟨_, m, lo⟩ := stepLoop_spec (SameButBuffers.refl r.data) h
  obtain ⟨net, e, _, _, hm, _⟩ := lo.snn
  rw [e] at hn
  by_contra hc
  simp only [Bool.not_eq_false] at hc
  have := hm hc
  simp_all

theorem Run.Pal.stepLoop {env env' : Env F} (hc : env'.clock = env.clock) {wait : Wait F} (hw : MetricFree wait) {b : Nat} :
    ∀ {f g : Nat} {r q r' q' : Run F} {u v : Bool}, r.Pal q → q.snn.index = r.snn.index →
      Snn.stepLoop env wait b f r = .ok (u, r') → Snn.stepLoop env' wait b g q = .ok (v, q') → r'.snn.net.outputNan = false →
      q'.snn.net.outputNan = false → u = false ∧ v = false ∧ r'.Pal q'
  | 0, g, r, q, r', q', u, v, h, hi, h1, h2, n1, n2 => by cases h1
  | f + 1, 0, r, q, r', q', u, v, h, hi, h1, h2, n1, n2 => by cases h2
  | f + 1, g + 1, r, q, r', q', u, v, h, hi, h1, h2, n1, n2 => by
    unfold Snn.stepLoop at h1 h2
    rw [hi, h.between] at h2
    split at h1
    · rename_i hfit
      rw [if_pos hfit] at h2
      unfold Run.continueTraining at h1 h2
      simp only [h.net.nan, h.net.nan', h.stop, h.ticks, h.epoch, hc,
        hw (env.clock r.ticks) r.snn.epoch q.snn.net.stats.globalRate q.snn.net.stats.mae r.snn.net.stats.globalRate r.snn.net.stats.mae] at h1 h2
      split at h1
      · rename_i hcont
        rw [if_pos hcont] at h2
        obtain ⟨⟨u1, r2⟩, i1, h1⟩ := Res.bind_eq_ok.1 h1
        obtain ⟨⟨v1, q2⟩, i2, h2⟩ := Res.bind_eq_ok.1 h2
        simp only at h1 h2
        have p1 : ({ r with ticks := r.ticks + 1 } : Run F).Pal { q with ticks := r.ticks + 1 } :=
          ⟨h.net, h.draws, rfl, h.data, h.epoch, h.between, h.stop⟩
        have x1 := (trainStep_spec (SameButBuffers.refl _) (by exact h.net.nan) i1).1
        have x2 := (trainStep_spec (SameButBuffers.refl _) (by exact h.net.nan') i2).1
        subst x1 x2
        simp only [Bool.false_eq_true, if_false] at h1 h2
        have y1 := stepLoop_nan h1 n1
        have y2 := stepLoop_nan h2 n2
        obtain ⟨_, _, p2, hi2⟩ := p1.trainStep (by exact hi) i1 i2 (by exact y1) (by exact y2)
        have p3 : ({ r2 with snn := { r2.snn with index := r2.snn.index + b } } : Run F).Pal { q2 with snn := { q2.snn with index := q2.snn.index + b } } :=
          ⟨p2.net, p2.draws, p2.ticks, p2.data, p2.epoch, p2.between, p2.stop⟩
        exact Run.Pal.stepLoop hc hw p3 (by simp only [hi2]) h1 h2 n1 n2
      · rename_i hcont
        rw [if_neg hcont] at h2
        cases h1; cases h2
        exact ⟨rfl, rfl, h.net, h.draws, rfl, h.data, h.epoch, h.between, h.stop⟩
    · rename_i hfit
      rw [if_neg hfit] at h2
      cases h1; cases h2
      exact ⟨rfl, rfl, h⟩

/-- An evaluation of one of the two. -/
theorem Run.Pal.evaluate {env : Env F} {r q q' : Run F} (h : r.Pal q) (he : q.evaluate env = .ok q') (hn : q'.snn.net.outputNan = false) :
    r.Pal q' := by
  have fr := evaluate_frame he
  obtain ⟨kp, _⟩ := InferenceProps.evaluate_keeps he
  refine ⟨⟨evaluate_side h.net.layers he, h.net.nan, hn, fr.training.trans h.net.num, kp.optimizer.trans h.net.opt⟩, fr.draws.trans h.draws,
    fr.ticks.trans h.ticks, by rw [fr.data]; exact h.data, fr.epoch.trans h.epoch, fr.between.trans h.between, ?_⟩
  rcases fr.flags with k | k
  · exact k.1.trans h.stop
  · rw [hn] at k; cases k.1

theorem Net.Twin.symm {n m : Net F} (h : n.Twin m) : m.Twin n :=
  ⟨forall₂_symm (fun _ _ h => h.symm) h.layers, h.nan', h.nan, h.num.symm, h.opt.symm⟩

theorem Run.Pal.symm {r q : Run F} (h : r.Pal q) : q.Pal r :=
  ⟨h.net.symm, h.draws.symm, h.ticks.symm, h.data.symm, h.epoch.symm, h.between.symm, h.stop.symm⟩

/-- Evaluating or not, depending on the epoch. -/
theorem Run.Pal.maybe {env : Env F} {r q q' : Run F} (h : r.Pal q) {c : Prop} [Decidable c]
    (he : (if c then q.evaluate env else .ok q) = .ok q') (hn : q'.snn.net.outputNan = false) : r.Pal q' := by
  split at he
  · exact h.evaluate he hn
  · cases he; exact h

theorem maybe_nan {env : Env F} {q q' : Run F} {c : Prop} [Decidable c] (he : (if c then q.evaluate env else .ok q) = .ok q')
    (hn : q'.snn.net.outputNan = false) : q.snn.net.outputNan = false := by
  by_contra hc
  simp only [Bool.not_eq_false] at hc
  split at he
  · rw [(evaluate_frame he).nan hc] at hn; cases hn
  · cases he; rw [hc] at hn; cases hn

theorem epochBody_pieces {env : Env F} {wait : Wait F} {b : Nat} {ef : Int} {fuel : Nat} {r r' : Run F} {u : Bool}
    (h : r.epochBody env wait b ef fuel = .ok (u, r')) : u = false ∧ ∃ data r2, r.data.shuffle (env.rng r.snn.epoch) = .ok data ∧
      Snn.stepLoop env wait b fuel { r with data := data, snn := { r.snn with index := 0 }, trace := .shuffled :: r.trace } = .ok (false, r2) ∧
      (if ef > 0 ∧ r2.snn.epoch.tmod ef = 0 then r2.evaluate env else .ok r2) = .ok r' := by
  unfold Run.epochBody at h
  obtain ⟨data, h1, h⟩ := Res.bind_eq_ok.1 h
  obtain ⟨⟨u1, r2⟩, h2, h⟩ := Res.bind_eq_ok.1 h
  have := (stepLoop_spec (SameButBuffers.refl _) h2).1
  subst this
  simp only [Bool.false_eq_true, if_false] at h
  split at h
  · rename_i hc
    obtain ⟨r3, h3, h⟩ := Res.bind_eq_ok.1 h
    cases h
    exact ⟨rfl, data, r2, h1, h2, by rw [if_pos hc]; exact h3⟩
  · rename_i hc
    cases h
    exact ⟨rfl, data, _, h1, h2, by rw [if_neg hc]⟩

theorem Run.Pal.epochBody {env env' : Env F} (hc : env'.clock = env.clock) (hr : env'.rng = env.rng) {wait : Wait F} (hw : MetricFree wait) {b : Nat}
    {ef eg : Int} {f g : Nat} {r q r' q' : Run F} {u v : Bool} (h : r.Pal q) (h1 : r.epochBody env wait b ef f = .ok (u, r'))
    (h2 : q.epochBody env' wait b eg g = .ok (v, q')) (n1 : r'.snn.net.outputNan = false) (n2 : q'.snn.net.outputNan = false) : r'.Pal q' := by
  obtain ⟨_, d1, r2, i1, j1, k1⟩ := epochBody_pieces h1
  obtain ⟨_, d2, q2, i2, j2, k2⟩ := epochBody_pieces h2
  have m1 := maybe_nan k1 n1
  have m2 := maybe_nan k2 n2
  rw [hr, h.epoch] at i2
  have p1 : ({ r with data := d1, snn := { r.snn with index := 0 }, trace := .shuffled :: r.trace } : Run F).Pal
      { q with data := d2, snn := { q.snn with index := 0 }, trace := .shuffled :: q.trace } :=
    ⟨h.net, h.draws, h.ticks, shuffle_part h.data i2 i1, h.epoch, h.between, h.stop⟩
  obtain ⟨_, _, p2⟩ := Run.Pal.stepLoop hc hw p1 rfl j1 j2 m1 m2
  exact ((p2.maybe k2 n2).symm.maybe k1 n1).symm

theorem epochLoop_nan {env : Env F} {wait : Wait F} {b : Nat} {ef : Int} {inner fuel : Nat} {r r' : Run F} {u : Bool}
    (h : epochLoop env wait b ef inner fuel r = .ok (u, r')) (hn : r'.snn.net.outputNan = false) : r.snn.net.outputNan = false := by
  by_contra hc
  simp only [Bool.not_eq_false] at hc
  cases fuel with
  | zero => cases h
  | succ fuel =>
    unfold epochLoop Run.continueTraining at h
    simp only [hc, Bool.not_true, Bool.and_false, Bool.false_eq_true, if_false] at h
    cases h
    rw [hc] at hn; cases hn

theorem Run.Pal.epochLoop {env env' : Env F} (hc : env'.clock = env.clock) (hr : env'.rng = env.rng) {wait : Wait F} (hw : MetricFree wait) {b : Nat}
    {ef eg : Int} {fi gi : Nat} : ∀ {f g : Nat} {r q r' q' : Run F} {u v : Bool}, r.Pal q →
      Snn.epochLoop env wait b ef fi f r = .ok (u, r') → Snn.epochLoop env' wait b eg gi g q = .ok (v, q') → r'.snn.net.outputNan = false →
      q'.snn.net.outputNan = false → r'.Pal q'
  | 0, g, r, q, r', q', u, v, h, h1, h2, n1, n2 => by cases h1
  | f + 1, 0, r, q, r', q', u, v, h, h1, h2, n1, n2 => by cases h2
  | f + 1, g + 1, r, q, r', q', u, v, h, h1, h2, n1, n2 => by
    unfold Snn.epochLoop at h1 h2
    unfold Run.continueTraining at h1 h2
    simp only [h.net.nan, h.net.nan', h.stop, h.ticks, h.epoch, hc,
      hw (env.clock r.ticks) r.snn.epoch q.snn.net.stats.globalRate q.snn.net.stats.mae r.snn.net.stats.globalRate r.snn.net.stats.mae] at h1 h2
    split at h1
    · rename_i hcont
      rw [if_pos hcont] at h2
      obtain ⟨⟨u1, r2⟩, i1, h1⟩ := Res.bind_eq_ok.1 h1
      obtain ⟨⟨v1, q2⟩, i2, h2⟩ := Res.bind_eq_ok.1 h2
      simp only at h1 h2
      have p1 : ({ r with ticks := r.ticks + 1 } : Run F).Pal { q with ticks := r.ticks + 1 } :=
        ⟨h.net, h.draws, rfl, h.data, h.epoch, h.between, h.stop⟩
      have x1 := (epochBody_pieces i1).1
      have x2 := (epochBody_pieces i2).1
      subst x1 x2
      simp only [Bool.false_eq_true, if_false] at h1 h2
      have y1 := epochLoop_nan h1 n1
      have y2 := epochLoop_nan h2 n2
      have p2 := Run.Pal.epochBody hc hr hw p1 i1 i2 (by exact y1) (by exact y2)
      have p3 : ({ r2 with snn := { r2.snn with epoch := r2.snn.epoch + 1 } } : Run F).Pal { q2 with snn := { q2.snn with epoch := q2.snn.epoch + 1 } } :=
        ⟨p2.net, p2.draws, p2.ticks, p2.data, by simp only [p2.epoch], p2.between, p2.stop⟩
      exact Run.Pal.epochLoop hc hr hw p3 h1 h2 n1 n2
    · rename_i hcont
      rw [if_neg hcont] at h2
      cases h1; cases h2
      exact ⟨h.net, h.draws, rfl, h.data, h.epoch, h.between, h.stop⟩

/-! ### Calls -/

/-- Two runs after the same lessons. -/
structure Run.Mate (r q : Run F) : Prop where
  net : r.snn.net.Twin q.snn.net
  draws : q.draws = r.draws
  ticks : q.ticks = r.ticks

theorem Run.Mate.train {env env' : Env F} (hc : env'.clock = env.clock) (hr : env'.rng = env.rng) {wait : Wait F} (hw : MetricFree wait) {b : Int}
    {ef eg : Int} {f g : Nat} {r q r' q' : Run F} (h : r.Mate q) (hd : learningPart q.data = learningPart r.data)
    (h1 : r.train env wait b ef f = .ok r') (h2 : q.train env' wait b eg g = .ok q') (n1 : r'.snn.net.outputNan = false)
    (n2 : q'.snn.net.outputNan = false) : r'.Mate q' := by
  obtain ⟨hb, _, r1, r2, i1, j1, e1⟩ := train_pieces h1
  obtain ⟨_, _, q1, q2, i2, j2, e2⟩ := train_pieces h2
  obtain ⟨b, rfl⟩ : ∃ k : Nat, b = k := ⟨b.toNat, by omega⟩
  subst e1 e2
  have m1 := epochLoop_nan j1 (by exact n1)
  have m2 := epochLoop_nan j2 (by exact n2)
  have p0 : ({ r with snn := { r.snn with wantToStopTraining := true } } : Run F).begin.Pal
      ({ q with snn := { q.snn with wantToStopTraining := true } } : Run F).begin := by
    refine ⟨h.net, h.draws, h.ticks, hd, rfl, ?_, rfl⟩
    simp only [Run.begin]
    rw [size_part hd]
  have p1 := ((p0.maybe i2 (by exact m2)).symm.maybe i1 (by exact m1)).symm
  have p2 : ({ r1 with snn := { r1.snn with epoch := 1 } } : Run F).Pal { q1 with snn := { q1.snn with epoch := 1 } } :=
    ⟨p1.net, p1.draws, p1.ticks, p1.data, rfl, p1.between, p1.stop⟩
  have p3 := Run.Pal.epochLoop hc hr hw p2 j1 j2 (by exact n1) (by exact n2)
  exact ⟨p3.net, p3.draws, p3.ticks⟩

/-- A call of one of the two that teaches nothing. -/
theorem Run.Mate.idle {r q q' : Run F} {c : Call F} (h : r.Mate q) (hl : lesson c = none) (hr : c.run q = .ok q')
    (hn : q'.snn.net.outputNan = false) : r.Mate q' := by
  cases c with
  | computeOutput x t =>
    simp only [Call.run, Snn.computeOutput] at hr
    cases h1 : q.snn.net.output x t with
    | ok p =>
      obtain ⟨o, n⟩ := p
      rw [h1] at hr
      cases hr
      obtain ⟨_, k2, k3, _⟩ := Net.output_same h1
      exact ⟨⟨output_side h.net.layers h1, h.net.nan, hn, k3.trans h.net.num, k2.trans h.net.opt⟩, h.draws, h.ticks⟩
    | throw m => rw [h1] at hr; cases hr
    | ub m => rw [h1] at hr; cases hr
  | computeCluster x t =>
    simp only [Call.run, Snn.computeCluster] at hr
    cases h1 : q.snn.net.output x t with
    | ok p =>
      obtain ⟨o, n⟩ := p
      rw [h1] at hr
      cases hr
      obtain ⟨_, k2, k3, _⟩ := Net.output_same h1
      exact ⟨⟨output_side h.net.layers h1, h.net.nan, hn, k3.trans h.net.num, k2.trans h.net.opt⟩, h.draws, h.ticks⟩
    | throw m => rw [h1] at hr; cases hr
    | ub m => rw [h1] at hr; cases hr
  | evaluate env data =>
    have he : Run.evaluate env { q with data := data } = .ok q' := hr
    have fr := evaluate_frame he
    obtain ⟨kp, _⟩ := InferenceProps.evaluate_keeps he
    exact ⟨⟨evaluate_side (r := { q with data := data }) h.net.layers he, h.net.nan, hn, fr.training.trans h.net.num, kp.optimizer.trans h.net.opt⟩,
      fr.draws.trans h.draws, fr.ticks.trans h.ticks⟩
  | train env data wait b ef fuel => cases hl
  | saveAs path =>
    simp only [Call.run, Run.saveAs] at hr
    split at hr
    · cases hr
    · cases hr; exact ⟨⟨h.net.layers, h.net.nan, hn, h.net.num, h.net.opt⟩, h.draws, h.ticks⟩
  | autoSave w path =>
    simp only [Call.run] at hr
    cases hr; exact ⟨⟨h.net.layers, h.net.nan, hn, h.net.num, h.net.opt⟩, h.draws, h.ticks⟩

theorem Run.Mate.symm {r q : Run F} (h : r.Mate q) : q.Mate r := ⟨h.net.symm, h.draws.symm, h.ticks.symm⟩

theorem history_nan {cs : List (Call F)} {r r' : Run F} (h : cs.foldlM Call.run r = .ok r') (hn : r'.snn.net.outputNan = false) :
    r.snn.net.outputNan = false := by
  by_contra hc
  simp only [Bool.not_eq_false] at hc
  rw [C24_sticky cs r r' h hc] at hn
  cases hn

/-- Two histories with the same lessons. -/
theorem Run.Mate.history : ∀ {cs ds : List (Call F)} {r q r' q' : Run F}, r.Mate q → cs.filterMap lesson = ds.filterMap lesson →
    (∀ l ∈ cs.filterMap lesson, MetricFree l.wait) → cs.foldlM Call.run r = .ok r' → ds.foldlM Call.run q = .ok q' →
    r'.snn.net.outputNan = false → q'.snn.net.outputNan = false → r'.Mate q'
  | [], [], r, q, r', q', h, _, _, h1, h2, n1, n2 => by cases h1; cases h2; exact h
  | [], d :: ds, r, q, r', q', h, hl, hm, h1, h2, n1, n2 => by
    rw [List.foldlM_cons] at h2
    obtain ⟨q1, i2, h2⟩ := Res.bind_eq_ok.1 h2
    cases hd : lesson d with
    | none =>
      rw [List.filterMap_cons_none hd] at hl
      exact Run.Mate.history (h.idle hd i2 (history_nan h2 n2)) hl hm h1 h2 n1 n2
    | some l => rw [List.filterMap_cons_some hd] at hl; cases hl
  | c :: cs, ds, r, q, r', q', h, hl, hm, h1, h2, n1, n2 => by
    cases hc : lesson c with
    | none =>
      rw [List.filterMap_cons_none hc] at hl hm
      rw [List.foldlM_cons] at h1
      obtain ⟨r1, i1, h1⟩ := Res.bind_eq_ok.1 h1
      exact Run.Mate.history (h.symm.idle hc i1 (history_nan h1 n1)).symm hl hm h1 h2 n1 n2
    | some l =>
      cases ds with
      | nil => rw [List.filterMap_cons_some hc] at hl; cases hl
      | cons d ds =>
        cases hd : lesson d with
        | none =>
          rw [List.filterMap_cons_none hd] at hl
          rw [List.foldlM_cons] at h2
          obtain ⟨q1, i2, h2⟩ := Res.bind_eq_ok.1 h2
          exact Run.Mate.history (cs := c :: cs) (h.idle hd i2 (history_nan h2 n2)) hl hm h1 h2 n1 n2
        | some l' =>
          rw [List.filterMap_cons_some hc] at hl hm
          rw [List.filterMap_cons_some hd] at hl
          simp only [List.cons.injEq] at hl
          obtain ⟨rfl, hl⟩ := hl
          rw [List.foldlM_cons] at h1 h2
          obtain ⟨r1, i1, t1⟩ := Res.bind_eq_ok.1 h1
          obtain ⟨q1, i2, t2⟩ := Res.bind_eq_ok.1 h2
          cases c <;> simp only [lesson] at hc <;> try (cases hc; done)
          cases d <;> simp only [lesson] at hd <;> try (cases hd; done)
          rename_i env data wait b ef f env' data' wait' b' ef' f'
          rw [← hd] at hc
          simp only [Option.some.injEq, Lesson.mk.injEq] at hc
          obtain ⟨e1, e2, e3, e4, e5⟩ := hc
          subst e4 e5
          have hw : MetricFree wait := by
            have := hm l (by simp)
            simp only [Option.some.injEq] at hd
            rw [← hd] at this
            exact this
          have m0 : ({ r with data := data } : Run F).Mate { q with data := data' } := ⟨h.net, h.draws, h.ticks⟩
          have m1 := Run.Mate.train e1.symm e2.symm hw m0 e3.symm i1 i2 (history_nan t1 n1) (history_nan t2 n2)
          exact Run.Mate.history m1 hl (fun l hl => hm l (by simp [hl])) t1 t2 n1 n2
termination_by cs ds => cs.length + ds.length

end

end Snn
