import Verif.Props.HistoryProps
import Verif.Proofs.LayerKin
import Verif.Proofs.SameProofs
import Verif.Proofs.BuildProofs

/-! What no call changes: the kinds of the layers, their numbers of neurons, their optimizers (up to random masks), and the
network optimizer of every neuron. -/

set_option linter.all false

namespace Snn

open Spec HistoryProps TrainProofs TrainProps

section
variable {F : Type} [Flt F] [FTrans F] [Add F] [Sub F] [Mul F] [Div F] [Neg F]

/-- What no call changes of a layer. -/
structure Layer.Kin (l l' : Layer F) : Prop where
  inputs : l'.numberOfInputs = l.numberOfInputs
  opts : l'.optimizers.map noMask = l.optimizers.map noMask
  body : l.body.Kin l'.body

theorem Layer.Kin.refl (l : Layer F) : l.Kin l := ⟨rfl, rfl, Body.Kin.refl _⟩
theorem Layer.Kin.trans {a b c : Layer F} (h : a.Kin b) (k : b.Kin c) : a.Kin c :=
  ⟨k.1.trans h.1, k.2.trans h.2, h.3.trans k.3⟩
theorem Layer.Same.toKin {l l' : Layer F} (h : l.Same l') : l.Kin l' := ⟨h.1, by rw [h.2], h.3.kin⟩

/-- What no call changes of a network. -/
structure Net.Kin (n n' : Net F) : Prop where
  opt : n'.optimizer = n.optimizer
  layers : List.Forall₂ Layer.Kin n.layers n'.layers
  clusters : n'.stats.clusters.length = n.stats.clusters.length

theorem kinLayers_refl (ls : List (Layer F)) : List.Forall₂ Layer.Kin ls ls := forall₂_refl Layer.Kin.refl _
theorem kinLayers_trans {as bs cs : List (Layer F)} (h : List.Forall₂ Layer.Kin as bs) (k : List.Forall₂ Layer.Kin bs cs) :
    List.Forall₂ Layer.Kin as cs := forall₂_trans (R := Layer.Kin) (fun _ _ _ a b => a.trans b) h k

theorem Net.Kin.refl (n : Net F) : n.Kin n := ⟨rfl, kinLayers_refl _, rfl⟩
theorem Net.Kin.trans {a b c : Net F} (h : a.Kin b) (k : b.Kin c) : a.Kin c :=
  ⟨k.1.trans h.1, kinLayers_trans h.2 k.2, k.3.trans h.3⟩

theorem Net.output_toKin {n n' : Net F} {x y : List F} {t : Bool} (h : n.output x t = .ok (y, n')) : n.Kin n' := by
  obtain ⟨h1, h2, _, h4, _⟩ := Net.output_same h
  exact ⟨h2, h1.imp fun _ _ h => h.toKin, by rw [h4]⟩

theorem Layer.outputForTraining_toKin {l l' : Layer F} {x y : List F} {t : Bool} {d d' : Draws F}
    (h : l.outputForTraining x t d = .ok (y, l', d')) : l.Kin l' := by
  obtain ⟨h1, h2⟩ := Layer.outputForTraining_kin h
  refine ⟨h1, ?_, h2⟩
  unfold Layer.outputForTraining at h
  obtain ⟨⟨_, b⟩, _, h⟩ := Res.bind_eq_ok.1 h
  obtain ⟨⟨_, _, _⟩, h3, h⟩ := Res.bind_eq_ok.1 h
  cases h
  exact trainingHooks_noMask t h3

theorem trainingLoop_toKin (t : Bool) : ∀ {ls ls' : List (Layer F)} {x y : List F} {d d' : Draws F},
    trainingLoop t ls x d = .ok (y, ls', d') → List.Forall₂ Layer.Kin ls ls'
  | [], ls', x, y, d, d', h => by cases h; exact .nil
  | l :: ls, ls', x, y, d, d', h => by
    unfold trainingLoop at h
    obtain ⟨⟨o, l1, d1⟩, h1, h⟩ := Res.bind_eq_ok.1 h
    obtain ⟨⟨o2, ls2, d2⟩, h2, h⟩ := Res.bind_eq_ok.1 h
    cases h
    exact .cons (Layer.outputForTraining_toKin h1) (trainingLoop_toKin t h2)

theorem backLoop_toKin : ∀ {ls ls' : List (Layer F)} {x y : List F},
    backLoop ls x = .ok (y, ls') → List.Forall₂ Layer.Kin ls ls'
  | [], ls', x, y, h => by cases h; exact .nil
  | l :: ls, ls', x, y, h => by
    unfold backLoop at h
    obtain ⟨⟨o, l1⟩, h1, h⟩ := Res.bind_eq_ok.1 h
    obtain ⟨⟨o2, ls2⟩, h2, h⟩ := Res.bind_eq_ok.1 h
    cases h
    obtain ⟨a, b, c⟩ := Layer.backOutput_kin h2
    exact .cons ⟨a, by rw [b], c⟩ (backLoop_toKin h1)

theorem backwardPass_toKin {ls ls' : List (Layer F)} {es : List F} (h : backwardPass ls es = .ok ls') :
    List.Forall₂ Layer.Kin ls ls' := by
  unfold backwardPass at h
  cases ls with
  | nil => first | cases h | (simp at h)
  | cons l ls =>
    simp only at h
    obtain ⟨⟨o, ls1⟩, h1, h⟩ := Res.bind_eq_ok.1 h
    obtain ⟨l1, h2, h⟩ := Res.bind_eq_ok.1 h
    cases h
    obtain ⟨a, b, c⟩ := Layer.train_kin h2
    exact .cons ⟨a, by rw [b], c⟩ (backLoop_toKin h1)

theorem Net.outputForTraining_toKin {n n' : Net F} {x y : List F} {t : Bool} {d d' : Draws F}
    (h : n.outputForTraining x t d = .ok (y, n', d')) : n.Kin n' := by
  unfold Net.outputForTraining at h
  split at h
  · cases h
  · obtain ⟨⟨o, ls, d1⟩, h1, h⟩ := Res.bind_eq_ok.1 h
    cases h
    exact ⟨rfl, trainingLoop_toKin t h1, rfl⟩

theorem Net.trainOnce_toKin {n n' : Net F} {x y : List F} {t : Bool} {d d' : Draws F}
    (h : n.trainOnce x y t d = .ok (n', d')) : n.Kin n' := by
  unfold Net.trainOnce at h
  obtain ⟨⟨m, d1⟩, h1, h⟩ := Res.bind_eq_ok.1 h
  cases h
  have : n.Kin m := by
    unfold Net.backpropagation at h1
    obtain ⟨⟨o, m1, d2⟩, h2, h1⟩ := Res.bind_eq_ok.1 h1
    have hk := Net.outputForTraining_toKin h2
    simp only at h1
    split at h1
    · cases h1; exact hk
    · obtain ⟨es, _, h1⟩ := Res.bind_eq_ok.1 h1
      obtain ⟨ls, h3, h1⟩ := Res.bind_eq_ok.1 h1
      cases h1
      exact hk.trans ⟨rfl, backwardPass_toKin h3, rfl⟩
  exact ⟨this.opt, this.layers, this.clusters⟩

theorem statsEvaluateOnce_clusters {s s' : Stats F} {e : Ev F} (h : s.evaluateOnce e = .ok s') :
    s'.clusters.length = s.clusters.length := by
  have hc : ∀ (t : Stats F) (b : Bool), (t.count b).clusters = t.clusters := fun t b => by unfold Stats.count; cases b <;> rfl
  cases e <;> simp only [Stats.evaluateOnce] at h <;> split at h
  · cases h
  · rename_i hl
    cases h
    simp [hc, List.length_zipWith, List.length_zip]; omega
  · cases h
  · rename_i hl
    cases h
    simp [hc, List.length_zipWith, List.length_zip]; omega
  · cases h
  · rename_i hl
    cases h
    simp [hc, List.length_zipWith]; omega

theorem Snn.evaluateOnce_toKin {s s' : Snn F} {data : Data F} (h : s.evaluateOnce data = .ok s') : s.net.Kin s'.net := by
  unfold Snn.evaluateOnce at h
  obtain ⟨x, _, h⟩ := Res.bind_eq_ok.1 h
  obtain ⟨first, _, h⟩ := Res.bind_eq_ok.1 h
  split at h <;>
  · obtain ⟨y, _, h⟩ := Res.bind_eq_ok.1 h
    obtain ⟨sep, _, h⟩ := Res.bind_eq_ok.1 h
    obtain ⟨⟨out, net⟩, h1, h⟩ := Res.bind_eq_ok.1 h
    obtain ⟨st, h2, h⟩ := Res.bind_eq_ok.1 h
    cases h
    have hk := Net.output_toKin h1
    exact hk.trans ⟨rfl, kinLayers_refl _, statsEvaluateOnce_clusters h2⟩

theorem evaluateLoop_toKin {nan : F} {data : Data F} : ∀ {k : Nat} {s s' : Snn F} {b : Bool},
    evaluateLoop nan data k s = .ok (b, s') → s.net.Kin s'.net
  | 0, s, s', b, h => by cases h; exact .refl _
  | k + 1, s, s', b, h => by
    unfold evaluateLoop at h
    split at h
    · cases h
      exact ⟨rfl, kinLayers_refl _, by simp [Snn.resetTrainingValues, Stats.setResultsAsNan]⟩
    · obtain ⟨need, _, h⟩ := Res.bind_eq_ok.1 h
      obtain ⟨s1, h1, h⟩ := Res.bind_eq_ok.1 h
      refine Net.Kin.trans ?_ (evaluateLoop_toKin h)
      split at h1
      · have hh : s.net.Kin s1.net := Snn.evaluateOnce_toKin h1
        exact hh
      · obtain ⟨x, _, h1⟩ := Res.bind_eq_ok.1 h1
        obtain ⟨first, _, h1⟩ := Res.bind_eq_ok.1 h1
        obtain ⟨⟨_, net⟩, h2, h1⟩ := Res.bind_eq_ok.1 h1
        cases h1
        exact Net.output_toKin h2

theorem stopTesting_clusters (s : Stats F) : s.stopTesting.clusters = s.clusters := by
  rfl

theorem evaluate_toKin {env : Env F} {r r' : Run F} (h : r.evaluate env = .ok r') : r.snn.net.Kin r'.snn.net := by
  unfold Run.evaluate at h
  simp only at h
  obtain ⟨⟨b, s⟩, h1, h⟩ := Res.bind_eq_ok.1 h
  have hk := evaluateLoop_toKin h1
  have h00 : r.snn.net.Kin { r.snn.net with stats := r.snn.net.stats.startTesting } :=
    ⟨rfl, kinLayers_refl _, by simp [Stats.startTesting]⟩
  have h0 : r.snn.net.Kin s.net := h00.trans hk
  simp only at h
  split at h
  · cases h; exact h0
  · have h2 : r.snn.net.Kin { s.net with stats := s.net.stats.stopTesting } :=
      ⟨h0.opt, h0.layers, by simp only [stopTesting_clusters]; exact h0.clusters⟩
    split at h
    · cases h; exact h2
    · cases h; exact h2

theorem trainStep_toKin {env : Env F} {b : Int} {r r' : Run F} {ret : Bool} (h : r.trainStep env b = .ok (ret, r')) :
    r.snn.net.Kin r'.snn.net := by
  unfold Run.trainStep at h
  simp only at h
  split at h
  · cases h
    exact ⟨rfl, kinLayers_refl _, by simp [Snn.resetTrainingValues, Stats.setResultsAsNan]⟩
  · obtain ⟨need, _, h⟩ := Res.bind_eq_ok.1 h
    obtain ⟨⟨x, d1⟩, _, h⟩ := Res.bind_eq_ok.1 h
    obtain ⟨first, _, h⟩ := Res.bind_eq_ok.1 h
    cases need
    · simp only [Bool.false_eq_true, if_false] at h
      obtain ⟨⟨o, net, d⟩, h1, h⟩ := Res.bind_eq_ok.1 h
      cases h
      exact Net.outputForTraining_toKin h1
    · simp only [if_true] at h
      obtain ⟨⟨y, d2⟩, _, h⟩ := Res.bind_eq_ok.1 h
      obtain ⟨⟨net, d⟩, h1, h⟩ := Res.bind_eq_ok.1 h
      cases h
      exact Net.trainOnce_toKin h1

/-- What no call changes of a network. -/
theorem Call.run_kin {r r' : Run F} {c : Call F} (h : c.run r = .ok r') : r.snn.net.Kin r'.snn.net := by
  cases c with
  | computeOutput x t =>
    simp only [Call.run, Snn.computeOutput] at h
    cases h1 : r.snn.net.output x t with
    | ok p =>
      obtain ⟨o, n⟩ := p
      rw [h1] at h
      cases h
      exact Net.output_toKin h1
    | throw m => rw [h1] at h; cases h
    | ub m => rw [h1] at h; cases h
  | computeCluster x t =>
    simp only [Call.run, Snn.computeCluster] at h
    cases h1 : r.snn.net.output x t with
    | ok p =>
      obtain ⟨o, n⟩ := p
      rw [h1] at h
      cases h
      exact Net.output_toKin h1
    | throw m => rw [h1] at h; cases h
    | ub m => rw [h1] at h; cases h
  | evaluate env data => exact evaluate_toKin (r := { r with data := data }) (by exact h)
  | train env data wait b ef fuel =>
    exact train_induct (env := env) (fun n _ _ => r.snn.net.Kin n) (fun _ _ _ h => h)
      (fun q q' b ret hq _ hs => hq.trans (trainStep_toKin hs)) (fun q q' hq he => hq.trans (evaluate_toKin he))
      (by exact Net.Kin.refl _) h
  | saveAs path =>
    simp only [Call.run, Run.saveAs] at h
    split at h
    · cases h
    · cases h; exact .refl _
  | autoSave w path =>
    simp only [Call.run] at h
    cases h; exact .refl _

/-- After any history of calls that returned. -/
theorem history_kin : ∀ {cs : List (Call F)} {r r' : Run F}, cs.foldlM (fun r c => c.run r) r = .ok r' → r.snn.net.Kin r'.snn.net
  | [], r, r', h => by cases h; exact .refl _
  | c :: cs, r, r', h => by
    rw [List.foldlM_cons] at h
    obtain ⟨r1, h1, h⟩ := Res.bind_eq_ok.1 h
    exact (Call.run_kin h1).trans (history_kin h)

/-! ### What the constructor sets -/

/-- Every neuron has this network optimizer. -/
def Body.HasOpt (o : Sgd F) : Body F → Prop
  | .fullyConnected ns => ∀ n ∈ ns, n.optimizer = o
  | .recurrence ns => ∀ n ∈ ns, n.base.optimizer = o
  | .gru ns => ∀ n ∈ ns, n.resetGate.base.optimizer = o ∧ n.updateGate.base.optimizer = o ∧ n.outputGate.base.optimizer = o
  | .filter _ ns _ => ∀ n ∈ ns, n.optimizer = o
  | .pool .. => True

theorem forall₂_forall {α β : Type} {R : α → β → Prop} {P : α → Prop} {Q : β → Prop} {as : List α} {bs : List β}
    (h : List.Forall₂ R as bs) (hp : ∀ a ∈ as, P a) (hq : ∀ a b, R a b → P a → Q b) : ∀ b ∈ bs, Q b := by
  induction h with
  | nil => simp
  | @cons a b as bs h1 _ ih =>
    intro c hc
    rcases List.mem_cons.1 hc with rfl | hc
    · exact hq a _ h1 (hp a (by simp))
    · exact ih (fun x hx => hp x (List.mem_cons_of_mem _ hx)) c hc

theorem Body.Kin.hasOpt {o : Sgd F} {b b' : Body F} (h : b.Kin b') (hb : b.HasOpt o) : b'.HasOpt o := by
  cases b <;> cases b' <;> simp only [Body.Kin] at h <;> simp only [Body.HasOpt] at hb ⊢
  · exact forall₂_forall h hb fun a b hk ha => hk.optimizer.trans ha
  · exact forall₂_forall h hb fun a b hk ha => Eq.trans (Neuron.Kin.optimizer hk) ha
  · exact forall₂_forall h hb fun a b hk ha =>
      ⟨(Neuron.Kin.optimizer hk.r).trans ha.1, (Neuron.Kin.optimizer hk.u).trans ha.2.1, (Neuron.Kin.optimizer hk.o).trans ha.2.2⟩
  · exact forall₂_forall h.2.1 hb fun a b hk ha => hk.optimizer.trans ha

theorem Neuron.make_opt {m : NeuronModel F} {o : Sgd F} {d : Nat → F} {n : Neuron F} (h : Neuron.make m o d = .ok n) : n.optimizer = o := by
  unfold Neuron.make at h
  split at h
  · cases h
  split at h
  · cases h
  · simp only at h
    obtain ⟨_, _, h⟩ := Res.bind_eq_ok.1 h
    obtain ⟨_, _, h⟩ := Res.bind_eq_ok.1 h
    obtain ⟨_, _, h⟩ := Res.bind_eq_ok.1 h
    cases h; rfl

theorem RecNeuron.make_opt {m : NeuronModel F} {o : Sgd F} {d : Nat → F} {n : RecNeuron F} (h : RecNeuron.make m o d = .ok n) :
    n.base.optimizer = o := by
  unfold RecNeuron.make at h
  obtain ⟨b, h1, h⟩ := Res.bind_eq_ok.1 h
  cases h
  exact Neuron.make_opt h1

theorem Gru.make_opt {m : NeuronModel F} {o : Sgd F} {d : Nat → F} {n : Gru F} (h : Gru.make m o d = .ok n) :
    n.resetGate.base.optimizer = o ∧ n.updateGate.base.optimizer = o ∧ n.outputGate.base.optimizer = o := by
  unfold Gru.make at h
  obtain ⟨a, h1, h⟩ := Res.bind_eq_ok.1 h
  obtain ⟨b, h2, h⟩ := Res.bind_eq_ok.1 h
  obtain ⟨c, h3, h⟩ := Res.bind_eq_ok.1 h
  cases h
  exact ⟨RecNeuron.make_opt h1, RecNeuron.make_opt h2, RecNeuron.make_opt h3⟩

theorem LayerOpt.buildAll_length (k : Nat) : ∀ (opts : List (LayerOptModel F)) (d : Draws F), (LayerOpt.buildAll k opts d).1.length = opts.length
  | [], d => rfl
  | o :: os, d => by
    unfold LayerOpt.buildAll
    simp [LayerOpt.buildAll_length k os]

/-- The number of layer optimizers of a layer model. -/
def LayerModel.optCount : LayerModel F → Nat
  | .fullyConnected _ _ opts => opts.length
  | .recurrence _ _ opts => opts.length
  | .gru _ opts => opts.length
  | .locallyConnected _ _ _ opts => opts.length
  | .convolution _ _ _ opts => opts.length
  | _ => 0

theorem buildSimple_set {N : Type} {mk : NeuronModel F → Draws F → Res N} {g : Nat} {wrap : List N → Body F} {ni e n : Int} {act : Act}
    {opts : List (LayerOptModel F)} {d d' : Draws F} {l : Layer F} {P : N → Prop} (hP : ∀ m d n, mk m d = .ok n → P n)
    (h : buildSimple mk g wrap ni e n act opts d = .ok (l, d')) : l.optimizers.length = opts.length ∧ ∃ ns, l.body = wrap ns ∧ ∀ n ∈ ns, P n := by
  unfold buildSimple at h
  obtain ⟨nw, _, h⟩ := Res.bind_eq_ok.1 h
  simp only at h
  obtain ⟨⟨ns, d1⟩, h1, h⟩ := Res.bind_eq_ok.1 h
  have := makeAllNeurons_inv (hP _) h1
  cases h
  exact ⟨LayerOpt.buildAll_length _ _ _, ns, rfl, this.2⟩

theorem buildConvolution_set {o : Sgd F} {ni f k : Int} {shape : List Int} {act : Act} {opts : List (LayerOptModel F)} {d d' : Draws F}
    {l : Layer F} (h : buildConvolution o ni shape f k act opts d = .ok (l, d')) :
    l.optimizers.length = opts.length ∧ l.body.HasOpt o := by
  unfold buildConvolution at h
  split at h
  · split at h
    · cases h
    · obtain ⟨_, _, h⟩ := Res.bind_eq_ok.1 h
      obtain ⟨_, _, h⟩ := Res.bind_eq_ok.1 h
      obtain ⟨_, _, h⟩ := Res.bind_eq_ok.1 h
      obtain ⟨_, _, h⟩ := Res.bind_eq_ok.1 h
      obtain ⟨_, _, h⟩ := Res.bind_eq_ok.1 h
      simp only at h
      obtain ⟨⟨ns, d1⟩, h1, h⟩ := Res.bind_eq_ok.1 h
      simp only at h
      obtain ⟨_, _, h⟩ := Res.bind_eq_ok.1 h
      cases h
      exact ⟨LayerOpt.buildAll_length _ _ _, (makeAllNeurons_inv (fun _ _ h => Neuron.make_opt h) h1).2⟩
  · split at h
    · cases h
    · obtain ⟨_, _, h⟩ := Res.bind_eq_ok.1 h
      obtain ⟨_, _, h⟩ := Res.bind_eq_ok.1 h
      obtain ⟨_, _, h⟩ := Res.bind_eq_ok.1 h
      obtain ⟨_, _, h⟩ := Res.bind_eq_ok.1 h
      obtain ⟨_, _, h⟩ := Res.bind_eq_ok.1 h
      obtain ⟨_, _, h⟩ := Res.bind_eq_ok.1 h
      obtain ⟨_, _, h⟩ := Res.bind_eq_ok.1 h
      obtain ⟨_, _, h⟩ := Res.bind_eq_ok.1 h
      simp only at h
      obtain ⟨⟨ns, d1⟩, h1, h⟩ := Res.bind_eq_ok.1 h
      simp only at h
      obtain ⟨_, _, h⟩ := Res.bind_eq_ok.1 h
      cases h
      exact ⟨LayerOpt.buildAll_length _ _ _, (makeAllNeurons_inv (fun _ _ h => Neuron.make_opt h) h1).2⟩
  · cases h

theorem buildLocallyConnected_set {o : Sgd F} {ni f k : Int} {shape : List Int} {act : Act} {opts : List (LayerOptModel F)} {d d' : Draws F}
    {l : Layer F} (h : buildLocallyConnected o ni shape f k act opts d = .ok (l, d')) :
    l.optimizers.length = opts.length ∧ l.body.HasOpt o := by
  unfold buildLocallyConnected at h
  split at h
  · split at h
    · cases h
    · obtain ⟨_, _, h⟩ := Res.bind_eq_ok.1 h
      obtain ⟨_, _, h⟩ := Res.bind_eq_ok.1 h
      obtain ⟨_, _, h⟩ := Res.bind_eq_ok.1 h
      obtain ⟨_, _, h⟩ := Res.bind_eq_ok.1 h
      obtain ⟨_, _, h⟩ := Res.bind_eq_ok.1 h
      simp only at h
      obtain ⟨⟨ns, d1⟩, h1, h⟩ := Res.bind_eq_ok.1 h
      simp only at h
      obtain ⟨_, _, h⟩ := Res.bind_eq_ok.1 h
      cases h
      exact ⟨LayerOpt.buildAll_length _ _ _, (makeAllNeurons_inv (fun _ _ h => Neuron.make_opt h) h1).2⟩
  · split at h
    · cases h
    · obtain ⟨_, _, h⟩ := Res.bind_eq_ok.1 h
      obtain ⟨_, _, h⟩ := Res.bind_eq_ok.1 h
      obtain ⟨_, _, h⟩ := Res.bind_eq_ok.1 h
      obtain ⟨_, _, h⟩ := Res.bind_eq_ok.1 h
      obtain ⟨_, _, h⟩ := Res.bind_eq_ok.1 h
      obtain ⟨_, _, h⟩ := Res.bind_eq_ok.1 h
      obtain ⟨_, _, h⟩ := Res.bind_eq_ok.1 h
      obtain ⟨_, _, h⟩ := Res.bind_eq_ok.1 h
      simp only at h
      obtain ⟨⟨ns, d1⟩, h1, h⟩ := Res.bind_eq_ok.1 h
      simp only at h
      obtain ⟨_, _, h⟩ := Res.bind_eq_ok.1 h
      cases h
      exact ⟨LayerOpt.buildAll_length _ _ _, (makeAllNeurons_inv (fun _ _ h => Neuron.make_opt h) h1).2⟩
  · cases h

theorem buildMaxPooling_set {ni k : Int} {shape : List Int} {l : Layer F} {o : Sgd F} (h : buildMaxPooling ni shape k = .ok l) :
    l.optimizers.length = 0 ∧ l.body.HasOpt o := by
  unfold buildMaxPooling at h
  split at h
  · split at h
    · cases h
    · obtain ⟨_, _, h⟩ := Res.bind_eq_ok.1 h
      simp only at h
      split at h
      · cases h
      · obtain ⟨_, _, h⟩ := Res.bind_eq_ok.1 h
        obtain ⟨_, _, h⟩ := Res.bind_eq_ok.1 h
        cases h
        exact ⟨rfl, trivial⟩
  · split at h
    · cases h
    · obtain ⟨_, _, h⟩ := Res.bind_eq_ok.1 h
      obtain ⟨_, _, h⟩ := Res.bind_eq_ok.1 h
      obtain ⟨_, _, h⟩ := Res.bind_eq_ok.1 h
      obtain ⟨_, _, h⟩ := Res.bind_eq_ok.1 h
      obtain ⟨_, _, h⟩ := Res.bind_eq_ok.1 h
      split at h
      · cases h
      · obtain ⟨_, _, h⟩ := Res.bind_eq_ok.1 h
        cases h
        exact ⟨rfl, trivial⟩
  · cases h

theorem buildLayer_set {o : Sgd F} {m : LayerModel F} {shape : List Int} {d d' : Draws F} {l : Layer F}
    (h : buildLayer o m shape d = .ok (l, d')) : l.optimizers.length = m.optCount ∧ l.body.HasOpt o := by
  unfold buildLayer at h
  obtain ⟨_, _, h⟩ := Res.bind_eq_ok.1 h
  split at h
  · cases h
  split at h
  · cases h
  cases m with
  | fullyConnected n act opts =>
    simp only at h
    split at h
    · cases h
    · obtain ⟨h1, ns, h2, h3⟩ := buildSimple_set (P := fun n => n.optimizer = o) (fun _ _ _ h => Neuron.make_opt h) h
      exact ⟨h1, by rw [h2]; exact h3⟩
  | recurrence n act opts =>
    obtain ⟨h1, ns, h2, h3⟩ := buildSimple_set (P := fun n => n.base.optimizer = o) (fun _ _ _ h => RecNeuron.make_opt h) h
    exact ⟨h1, by rw [h2]; exact h3⟩
  | gru n opts =>
    obtain ⟨h1, ns, h2, h3⟩ := buildSimple_set (P := fun n : Gru F => n.resetGate.base.optimizer = o ∧ n.updateGate.base.optimizer = o ∧ n.outputGate.base.optimizer = o)
      (fun _ _ _ h => Gru.make_opt h) h
    exact ⟨h1, by rw [h2]; exact h3⟩
  | maxPooling k =>
    simp only at h
    obtain ⟨l1, h1, h⟩ := Res.bind_eq_ok.1 h
    cases h
    exact buildMaxPooling_set h1
  | locallyConnected f k act opts => exact buildLocallyConnected_set h
  | convolution f k act opts => exact buildConvolution_set h
  | input s => cases h

theorem buildLayers_set {o : Sgd F} : ∀ {ms : List (LayerModel F)} {shape : List Int} {d d' : Draws F} {ls : List (Layer F)},
    buildLayers o ms shape d = .ok (ls, d') → ls.map (fun l => l.optimizers.length) = ms.map LayerModel.optCount ∧ ∀ l ∈ ls, l.body.HasOpt o
  | [], shape, d, d', ls, h => by cases h; exact ⟨rfl, by simp⟩
  | m :: ms, shape, d, d', ls, h => by
    unfold buildLayers at h
    obtain ⟨⟨l, d1⟩, h1, h⟩ := Res.bind_eq_ok.1 h
    obtain ⟨⟨ls', d2⟩, h2, h⟩ := Res.bind_eq_ok.1 h
    cases h
    obtain ⟨a, b⟩ := buildLayer_set h1
    obtain ⟨c, e⟩ := buildLayers_set h2
    refine ⟨by simp [a, c], ?_⟩
    intro x hx
    rcases List.mem_cons.1 hx with rfl | hx
    · exact b
    · exact e x hx

/-- What the constructor sets: the numbers of layer optimizers, the network optimizer of every neuron, and one cluster per neuron
of the last layer. -/
theorem Net.make_set {arch : List (LayerModel F)} {o : Sgd F} {d d' : Draws F} {n : Net F} (h : Net.make arch o d = .ok (n, d')) :
    n.layers.map (fun l => l.optimizers.length) = arch.tail.map LayerModel.optCount ∧ (∀ l ∈ n.layers, l.body.HasOpt o) ∧
      n.optimizer = o ∧ ∃ l, backOf n.layers = .ok l ∧ n.stats.clusters.length = l.getNumberOfNeurons := by
  unfold Net.make at h
  obtain ⟨⟨ls, d1⟩, h1, h⟩ := Res.bind_eq_ok.1 h
  obtain ⟨last, h2, h⟩ := Res.bind_eq_ok.1 h
  cases h
  unfold LayerFactory.build at h1
  split at h1
  · cases h1
  · split at h1
    · split at h1
      · cases h1
      · obtain ⟨_, _, h1⟩ := Res.bind_eq_ok.1 h1
        split at h1
        · cases h1
        · obtain ⟨a, b⟩ := buildLayers_set h1
          exact ⟨a, b, rfl, last, h2, by simp [Stats.init, Stats.startTesting]⟩
    · cases h1

end

end Snn
