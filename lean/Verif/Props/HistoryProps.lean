import Verif.Props.TrainProps
import Verif.Demo.Demo

/-!
# C24, C25, C57: histories of calls
-/

set_option linter.all false

namespace Snn.HistoryProps

open Snn.Spec Snn.StatSpec Snn.TrainSpec Snn.TrainProofs Snn.TrainProps

section
variable {F : Type} [Flt F] [FTrans F] [Add F] [Sub F] [Mul F] [Div F] [Neg F]

/-- The public calls of a network used by one thread. -/
inductive Call (F : Type) where
  | computeOutput (inputs : List F) (temporalReset : Bool)
  | computeCluster (inputs : List F) (temporalReset : Bool)
  | evaluate (env : Env F) (data : Data F)
  | train (env : Env F) (data : Data F) (wait : Wait F) (batchSize evaluationFrequency : Int) (fuel : Nat)
  | saveAs (path : String)
  | autoSave (whenBetter : Bool) (path : String)

/-- The state after a call that returned. -/
def Call.run (r : Run F) : Call F → Res (Run F)
  | .computeOutput x t => (fun p => { r with snn := p.2 }) <$> r.snn.computeOutput x t
  | .computeCluster x t => (fun p => { r with snn := p.2 }) <$> r.snn.computeCluster x t
  | .evaluate env data => ({ r with data := data }).evaluate env
  | .train env data wait b ef fuel => ({ r with data := data }).train env wait b ef fuel
  | .saveAs path => r.saveAs path
  | .autoSave w path => .ok { r with snn := { r.snn with autoSaveWhenBetter := w, autoSaveFilePath := path } }

/-! ### An induction principle for training -/

/-- The auto-save settings. -/
def autoSaveOf (r : Run F) : Bool × String := (r.snn.autoSaveWhenBetter, r.snn.autoSaveFilePath)

/-- An invariant of the network and the trace that the steps of a training keep is kept by `train`. -/
theorem train_induct {env : Env F} (P : Net F → Bool × String → List (Event F) → Prop)
    (hshuf : ∀ n a t, P n a t → P n a (.shuffled :: t))
    (hstep : ∀ (r r' : Run F) b ret, P r.snn.net (autoSaveOf r) r.trace → r.snn.net.outputNan = false → r.trainStep env b = .ok (ret, r') →
      P r'.snn.net (autoSaveOf r') r'.trace)
    (heval : ∀ (r r' : Run F), P r.snn.net (autoSaveOf r) r.trace → r.evaluate env = .ok r' → P r'.snn.net (autoSaveOf r') r'.trace)
    {wait : Wait F} {b ef : Int} {fuel : Nat} {r r' : Run F} (h0 : P r.snn.net (autoSaveOf r) r.trace)
    (h : r.train env wait b ef fuel = .ok r') : P r'.snn.net (autoSaveOf r') r'.trace := by
  have hloop : ∀ {fuel : Nat} {q q' : Run F} {ret : Bool}, P q.snn.net (autoSaveOf q) q.trace → stepLoop env wait b fuel q = .ok (ret, q') →
      P q'.snn.net (autoSaveOf q') q'.trace := by
    intro fuel
    induction fuel with
    | zero => intro q q' ret _ hq; cases hq
    | succ fuel ih =>
      intro q q' ret hp hq
      unfold stepLoop at hq
      split at hq
      · unfold Run.continueTraining at hq
        simp only at hq
        split at hq
        · rename_i hc
          simp only [Bool.and_eq_true, Bool.not_eq_true'] at hc
          obtain ⟨⟨c1, c2⟩, c3⟩ := hc
          obtain ⟨⟨ret1, r2⟩, h1, hq⟩ := Res.bind_eq_ok.1 hq
          have hp2 := hstep _ _ _ _ (by exact hp) (by exact c3) h1
          simp only at hq
          cases hr : ret1
          · rw [hr] at hq
            simp only [Bool.false_eq_true, if_false] at hq
            exact ih (by exact hp2) hq
          · rw [hr] at hq
            simp only [if_true] at hq
            cases hq; exact hp2
        · cases hq; exact hp
      · cases hq; exact hp
  have hepoch : ∀ {q q' : Run F} {ret : Bool}, P q.snn.net (autoSaveOf q) q.trace → q.epochBody env wait b ef fuel = .ok (ret, q') →
      P q'.snn.net (autoSaveOf q') q'.trace := by
    intro q q' ret hp hq
    unfold Run.epochBody at hq
    obtain ⟨ds, _, hq⟩ := Res.bind_eq_ok.1 hq
    obtain ⟨⟨ret1, r2⟩, h1, hq⟩ := Res.bind_eq_ok.1 hq
    have hp2 := hloop (by exact hshuf _ _ _ hp) h1
    simp only at hq
    split at hq
    · cases hq; exact hp2
    · split at hq
      · obtain ⟨r3, h3, hq⟩ := Res.bind_eq_ok.1 hq
        cases hq
        exact heval _ _ hp2 h3
      · cases hq; exact hp2
  have hepochs : ∀ {k : Nat} {q q' : Run F} {ret : Bool}, P q.snn.net (autoSaveOf q) q.trace →
      epochLoop env wait b ef fuel k q = .ok (ret, q') → P q'.snn.net (autoSaveOf q') q'.trace := by
    intro k
    induction k with
    | zero => intro q q' ret _ hq; cases hq
    | succ k ih =>
      intro q q' ret hp hq
      unfold epochLoop at hq
      unfold Run.continueTraining at hq
      simp only at hq
      split at hq
      · obtain ⟨⟨ret1, r2⟩, h1, hq⟩ := Res.bind_eq_ok.1 hq
        have hp2 := hepoch (by exact hp) h1
        simp only at hq
        split at hq
        · cases hq; exact hp2
        · exact ih (by exact hp2) hq
      · cases hq; exact hp
  obtain ⟨hb, hi, r1, r2, h1, h2, rfl⟩ := train_pieces h
  have hp1 : P r1.snn.net (autoSaveOf r1) r1.trace := by
    split at h1
    · exact heval _ _ (by exact h0) h1
    · cases h1; exact h0
  have := hepochs (by exact hp1) h2
  exact this

/-! ### C24 -/

theorem trainingHooks_noMask (t : Bool) : ∀ {os os' : List (LayerOpt F)} {x y : List F} {d d' : Draws F},
    trainingHooks t os x d = .ok (y, os', d') → os'.map noMask = os.map noMask
  | [], os', x, y, d, d', h => by cases h; rfl
  | o :: os, os', x, y, d, d', h => by
    unfold trainingHooks at h
    obtain ⟨⟨y1, o1, d1⟩, h1, h⟩ := Res.bind_eq_ok.1 h
    obtain ⟨⟨y2, os2, d2⟩, h2, h⟩ := Res.bind_eq_ok.1 h
    cases h
    have ih := trainingHooks_noMask t h2
    have : noMask o1 = noMask o := by
      unfold LayerOpt.afterOutputForTraining at h1
      cases o <;> simp only at h1
      · cases h1; rfl
      · cases h1; rfl
      · cases h1; rfl
      · cases h1; rfl
      · obtain ⟨out, _, h1⟩ := Res.bind_eq_ok.1 h1
        cases h1; rfl
    simp [ih, this]

theorem outputForTraining_params {l l' : Layer F} {x y : List F} {t : Bool} {d d' : Draws F}
    (h : l.outputForTraining x t d = .ok (y, l', d')) : trainedParams l' = trainedParams l := by
  unfold Layer.outputForTraining at h
  obtain ⟨⟨out, body⟩, h1, h⟩ := Res.bind_eq_ok.1 h
  obtain ⟨⟨out2, opts, d2⟩, h2, h⟩ := Res.bind_eq_ok.1 h
  cases h
  have hb := Body.computeOutput_same h1
  have ho := trainingHooks_noMask t h2
  have hs : ({ l with optimizers := opts } : Layer F).Same { l with body := body, optimizers := opts } := ⟨rfl, rfl, hb⟩
  have hp := hs.params
  unfold trainedParams
  rw [hp]
  simp only [ho]
  unfold layerParams
  cases l.body <;> rfl

theorem trainingLoop_params (t : Bool) : ∀ {ls ls' : List (Layer F)} {x y : List F} {d d' : Draws F},
    trainingLoop t ls x d = .ok (y, ls', d') → ls'.map trainedParams = ls.map trainedParams
  | [], ls', x, y, d, d', h => by cases h; rfl
  | l :: ls, ls', x, y, d, d', h => by
    unfold trainingLoop at h
    obtain ⟨⟨y1, l1, d1⟩, h1, h⟩ := Res.bind_eq_ok.1 h
    obtain ⟨⟨y2, ls2, d2⟩, h2, h⟩ := Res.bind_eq_ok.1 h
    cases h
    simp [trainingLoop_params t h2, outputForTraining_params h1]

/-- **C24**, the weights: a training step that ends with `isNan()` true — because the network already was, or because this very
step computed a NaN — changes no weight, bias, momentum memory nor any other parameter (the random masks of Dropout excepted). -/
theorem C24_no_update (n n' : Net F) (x y : List F) (t : Bool) (d d' : Draws F) (h : n.trainOnce x y t d = .ok (n', d'))
    (hnan : n'.outputNan = true) : n'.optimizer = n.optimizer ∧ n'.layers.map trainedParams = n.layers.map trainedParams := by
  refine ⟨(trainOnce_frame h).2.2.1, ?_⟩
  unfold Net.trainOnce at h
  obtain ⟨⟨n1, d1⟩, h1, h⟩ := Res.bind_eq_ok.1 h
  cases h
  unfold Net.backpropagation at h1
  obtain ⟨⟨out, n2, d2⟩, h2, h1⟩ := Res.bind_eq_ok.1 h1
  simp only at h1
  split at h1
  · cases h1
    unfold Net.outputForTraining at h2
    split at h2
    · cases h2
    · obtain ⟨⟨o, ls, d3⟩, h3, h2⟩ := Res.bind_eq_ok.1 h2
      cases h2
      exact trainingLoop_params t h3
  · rename_i hno
    obtain ⟨errs, _, h1⟩ := Res.bind_eq_ok.1 h1
    obtain ⟨ls, _, h1⟩ := Res.bind_eq_ok.1 h1
    cases h1
    exact absurd hnan hno

/-- One call keeps the flag. -/
theorem call_nan {c : Call F} {r r' : Run F} (h : c.run r = .ok r') (hn : r.snn.net.outputNan = true) :
    r'.snn.net.outputNan = true := by
  cases c with
  | computeOutput x t =>
    simp only [Call.run, Snn.computeOutput] at h
    cases ho : r.snn.net.output x t with
    | ok p =>
      obtain ⟨out, net⟩ := p
      rw [ho] at h
      cases h
      simp [(net_output_frame ho).2.2, hn]
    | throw m => rw [ho] at h; cases h
    | ub m => rw [ho] at h; cases h
  | computeCluster x t =>
    simp only [Call.run, Snn.computeCluster] at h
    cases ho : r.snn.net.output x t with
    | ok p =>
      obtain ⟨out, net⟩ := p
      rw [ho] at h
      cases h
      simp [(net_output_frame ho).2.2, hn]
    | throw m => rw [ho] at h; cases h
    | ub m => rw [ho] at h; cases h
  | evaluate env data => exact (evaluate_frame h).nan hn
  | train env data wait b ef fuel =>
    exact train_induct (r := { r with data := data }) (P := fun n _ _ => n.outputNan = true) (fun _ _ _ h => h)
      (fun r r' b ret hp hf _ => by rw [hp] at hf; cases hf) (fun r r' hp he => (evaluate_frame he).nan hp) hn h
  | saveAs path =>
    simp only [Call.run, Run.saveAs] at h
    split at h
    · cases h
    · cases h; exact hn
  | autoSave w path => cases h; exact hn

/-- **C24**, the flag: once `isNan()` is true it stays true, whatever the calls. -/
theorem C24_sticky (cs : List (Call F)) (r r' : Run F) (h : cs.foldlM Call.run r = .ok r') (hn : r.snn.net.outputNan = true) :
    r'.snn.net.outputNan = true := by
  induction cs generalizing r with
  | nil => cases h; exact hn
  | cons c cs ih =>
    rw [List.foldlM_cons] at h
    obtain ⟨r1, h1, h2⟩ := Res.bind_eq_ok.1 h
    exact ih r1 h2 (call_nan h1 hn)

/-- **C24**, training stops: `train` on a network whose `isNan()` is true makes no training step at all. -/
theorem C24_train_stops (env : Env F) (wait : Wait F) (b ef : Int) (fuel : Nat) (r r' : Run F)
    (hn : r.snn.net.outputNan = true) (h : r.train env wait b ef fuel = .ok r') :
    steps r'.trace = steps r.trace ∧ netParams r'.snn.net = netParams r.snn.net := by
  obtain ⟨hb, hi, r1, r2, h1, h2, rfl⟩ := train_pieces h
  have key : r1.snn.net.outputNan = true ∧ steps r1.trace = steps r.trace ∧ netParams r1.snn.net = netParams r.snn.net := by
    split at h1
    · have eo := evaluate_frame h1
      have k := (InferenceProps.evaluate_keeps h1).1
      exact ⟨eo.nan hn, by rw [eo.steps]; rfl, by unfold netParams; rw [k.optimizer, layersSame_params k.layers]; rfl⟩
    · cases h1; exact ⟨hn, rfl, rfl⟩
  obtain ⟨k1, k2, k3⟩ := key
  cases fuel with
  | zero => cases h2
  | succ fuel =>
    unfold epochLoop Run.continueTraining at h2
    simp only [k1, Bool.not_true, Bool.and_false, Bool.false_eq_true, if_false] at h2
    cases h2
    exact ⟨k2, k3⟩

/-- **C24**, training stops in the middle of an epoch: as soon as `isNan()` is true the inner loop makes no other step. -/
theorem C24_epoch_stops (env : Env F) (wait : Wait F) (b : Int) (fuel : Nat) (r r' : Run F) (ret : Bool)
    (hn : r.snn.net.outputNan = true) (h : stepLoop env wait b fuel r = .ok (ret, r')) :
    r'.trace = r.trace ∧ r'.snn = r.snn := by
  cases fuel with
  | zero => cases h
  | succ fuel =>
    unfold stepLoop Run.continueTraining at h
    simp only [hn, Bool.not_true, Bool.and_false, Bool.false_eq_true, if_false] at h
    split at h
    · cases h; exact ⟨rfl, rfl⟩
    · cases h; exact ⟨rfl, rfl⟩

/-- **C24**, the metrics: on a non-empty testing set, an evaluation of a network whose `isNan()` is true reports `NAN` for every
metric. Missing: the evaluation in which the NaN appears, see `C24_last_example_refuted`. -/
theorem C24_evaluate_partial (env : Env F) (r r' : Run F) (hn : r.snn.net.outputNan = true) (hs : 0 < r.data.testing.size)
    (h : r.evaluate env = .ok r') :
    r'.snn.net.stats.globalRate = env.nan ∧ r'.snn.net.stats.weightedRate = env.nan ∧ r'.snn.net.stats.f1Score = env.nan ∧
    r'.snn.net.stats.mae = env.nan ∧ r'.snn.net.stats.rmse = env.nan := by
  obtain ⟨k, hk⟩ : ∃ k, r.data.testing.size = k + 1 := ⟨r.data.testing.size - 1, by omega⟩
  unfold Run.evaluate at h
  rw [hk] at h
  unfold evaluateLoop at h
  simp only [hn, if_true, Res.ok_bind, Res.pure_eq, Res.ok.injEq] at h
  subst h
  exact ⟨rfl, rfl, rfl, rfl, rfl⟩

/-- The NaN appears during the evaluation, before its last example: the metrics are `NAN` too. -/
theorem C24_during_evaluation_partial (env : Env F) (r : Run F) (k : Nat) (s1 : Snn F) (hk : k < r.data.testing.size)
    (hpre : evaluateLoop env.nan r.data k
      { r.snn with net := { r.snn.net with stats := r.snn.net.stats.startTesting }, index := 0 } = .ok (false, s1))
    (hn : s1.net.outputNan = true) : ∃ r', r.evaluate env = .ok r' ∧
    r'.snn.net.stats.globalRate = env.nan ∧ r'.snn.net.stats.mae = env.nan := by
  have split : ∀ (k j : Nat) (s s1 : Snn F), evaluateLoop env.nan r.data k s = .ok (false, s1) →
      evaluateLoop env.nan r.data (k + j) s = evaluateLoop env.nan r.data j s1 := by
    intro k
    induction k with
    | zero => intro j s s1 h; cases h; simp
    | succ k ih =>
      intro j s s1 h
      have e : k + 1 + j = (k + j) + 1 := by omega
      rw [e]
      unfold evaluateLoop at h
      conv => lhs; unfold evaluateLoop
      split at h
      · cases h
      · rename_i hx
        rw [if_neg hx]
        obtain ⟨need, h1, h⟩ := Res.bind_eq_ok.1 h
        obtain ⟨s2, h2, h⟩ := Res.bind_eq_ok.1 h
        rw [h1]
        simp only [Res.ok_bind]
        rw [h2]
        simp only [Res.ok_bind]
        exact ih j _ _ h
  obtain ⟨j, hj⟩ : ∃ j, r.data.testing.size = k + (j + 1) := ⟨r.data.testing.size - k - 1, by omega⟩
  have h1 := split k (j + 1) _ _ hpre
  rw [← hj] at h1
  unfold Run.evaluate
  simp only
  rw [h1]
  have e2 : evaluateLoop env.nan r.data (j + 1) s1 = .ok (true,
      ({ s1 with net := { s1.net with stats := s1.net.stats.setResultsAsNan env.nan } }).resetTrainingValues) := by
    conv => lhs; unfold evaluateLoop
    simp [hn]
  rw [e2]
  refine ⟨_, rfl, rfl, rfl⟩

end

/-- **C24 is false when the NaN appears on the last testing example**: with a single testing example whose input is NaN, the
network is NaN after the evaluation, yet the reported accuracy is the number 1 (100 %). -/
theorem C24_last_example_refuted :
    let env : Env NF := { clock := fun _ => 0, rng := fun _ _ => 0, nan := .nan }
    let r : Res (Run NF) := do
      let (s, d) ← Snn.make [.input [1], .fullyConnected 1 .identity []] { learningRate := lit (1/10), momentum := lit 0 } (fun _ => lit 1)
      let data ← Data.make2 .multipleClassification [[lit 1]] [[lit 1]] [[.nan]] [[lit 1]] .nonTemporal 0
      Run.evaluate env { snn := s, data := data, draws := d, ticks := 0, trace := [] }
    (do let r ← r; return (r.snn.net.outputNan, r.snn.net.stats.globalRate)) = .ok (true, .num 1) := by
  decide +kernel

/-! ### The hypotheses are met

A network over NaN-able numbers trained on an example that contains a NaN. -/

/-- An environment for the carrier with NaN. -/
def nanEnv : Env NF := { clock := fun _ => 0, rng := fun _ _ => 0, nan := .nan }

/-- A network with one input and one neuron. -/
def nanNet : Snn NF := (Snn.make [.input [1], .fullyConnected 1 .identity []] { learningRate := lit (1/10), momentum := lit 0 } (fun _ => lit 1) |>.get (by decide +kernel)).1

/-- Two training examples, the second one contains a NaN; two testing examples, the first one contains a NaN. -/
def nanData : Data NF :=
  (Data.make2 .regression [[lit 1], [.nan]] [[lit 1], [lit 2]] [[.nan], [lit 1]] [[lit 1], [lit 1]] .nonTemporal 0).get (by decide +kernel)

/-- The state before. -/
def nanRun : Run NF := { snn := nanNet, data := nanData, draws := fun _ => lit 1, ticks := 0, trace := [] }

/-- C24, a step that computes a NaN: it returns with `isNan()` true, and the parameters are those before. -/
example : ∃ n' d', nanNet.net.trainOnce [.nan] [lit 1] true (fun _ => lit 1) = .ok (n', d') ∧ n'.outputNan = true ∧
    n'.layers.map trainedParams = nanNet.net.layers.map trainedParams := by
  have h := Res.eq_get (nanNet.net.trainOnce [.nan] [lit 1] true (fun _ => lit 1)) (by decide +kernel)
  exact ⟨_, _, h, by decide +kernel, (C24_no_update _ _ _ _ _ _ _ h (by decide +kernel)).2⟩

/-- C24, training: it stops at the example with the NaN, the flag is set, and later calls return and keep it. -/
def nanTrained : Run NF := (nanRun.train nanEnv (litEp 5) 1 0 100).get (by decide +kernel)

example : nanTrained.snn.net.outputNan = true ∧ (steps nanTrained.trace).length < 11 := by decide +kernel

example : ∃ r', [Call.computeOutput [lit 3] true, .train nanEnv nanData (litEp 1) 1 1 10, .evaluate nanEnv nanData].foldlM Call.run nanTrained = .ok r' ∧
    r'.snn.net.outputNan = true ∧ r'.snn.net.stats.globalRate = .nan := by
  have h := Res.eq_get ([Call.computeOutput [lit 3] true, .train nanEnv nanData (litEp 1) 1 1 10, .evaluate nanEnv nanData].foldlM Call.run nanTrained) (by decide +kernel)
  exact ⟨_, h, C24_sticky _ _ _ h (by decide +kernel), by decide +kernel⟩

/-- The state after the first testing example. -/
def nanMiddle : Snn NF := (evaluateLoop nanEnv.nan nanRun.data 1
  { nanRun.snn with net := { nanRun.snn.net with stats := nanRun.snn.net.stats.startTesting }, index := 0 } |>.get (by decide +kernel)).2

theorem ok_false {α : Type} {x : Res (Bool × α)} (h : x.isOk = true) (h2 : (x.get h).1 = false) : x = .ok (false, (x.get h).2) := by
  rw [← h2]; exact Res.eq_get x h

/-- C24, the NaN appears on the first of the two testing examples. -/
example : ∃ r', nanRun.evaluate nanEnv = .ok r' ∧ r'.snn.net.stats.globalRate = .nan ∧ r'.snn.net.stats.mae = .nan :=
  C24_during_evaluation_partial nanEnv nanRun 1 nanMiddle (by decide +kernel) (ok_false (by decide +kernel) (by decide +kernel)) (by decide +kernel)

/-- C24, an epoch on a network that already is NaN. -/
example : ∃ ret r', stepLoop nanEnv (litEp 1) 1 10 nanTrained = .ok (ret, r') ∧ r'.trace = nanTrained.trace := by
  have h := Res.eq_get (stepLoop nanEnv (litEp 1) 1 10 nanTrained) (by decide +kernel)
  exact ⟨_, _, h, (C24_epoch_stops _ _ _ _ _ _ _ (by decide +kernel) h).1⟩

end Snn.HistoryProps
