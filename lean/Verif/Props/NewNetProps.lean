import Verif.Props.RaceCallsProps

/-!
# C104 — before the first evaluation

A network that was just made, used in any way but for an evaluation: its results say that nothing was measured, it is idle at epoch 0, and it counts
the examples that it learned.
-/

set_option linter.all false

namespace Snn.NewNetProps

open Snn Snn.Async

variable {F : Type} [Flt F] [FTrans F] [Add F] [Sub F] [Mul F] [Div F] [Neg F]

/-- Every result is -1 and no result is better than the previous ones. -/
def Unmeasured (s : Stats F) : Prop :=
  s.globalRate = lit (-1) ∧ s.weightedRate = lit (-1) ∧ s.f1Score = lit (-1) ∧ s.mae = lit (-1) ∧ s.rmse = lit (-1) ∧
  s.globalRateMax = lit (-1) ∧ s.weightedRateMax = lit (-1) ∧ s.f1ScoreMax = lit (-1) ∧ s.maeMin = lit (-1) ∧ s.rmseMin = lit (-1) ∧
  s.globalBetter = false ∧ s.weightedBetter = false ∧ s.f1Better = false ∧ s.maeBetter = false ∧ s.rmseBetter = false

/-- Calls one after the other; each one returns. -/
def calls : List (Use F) → Run F → Res (Run F)
  | [], r => .ok r
  | u :: us, r => do
    let (_, r') ← u.perform r
    calls us r'

/-- The number of calls that teach an example. -/
def lessons : List (Use F) → Nat
  | [] => 0
  | .trainOnce _ _ _ :: us => lessons us + 1
  | _ :: us => lessons us

/-- Not an evaluation (nor the setting of the length of an epoch). -/
def Plain : Use F → Prop
  | .evaluate _ _ => False
  | .setNumberOfTrainingsBetweenTwoEvaluations _ => False
  | _ => True

/-- What is kept by the plain calls. -/
structure New (n : Int) (s : Snn F) : Prop where
  results : Unmeasured s.net.stats
  idle : s.isIdle = true
  want : s.wantToStopTraining = false
  epoch : s.epoch = 0
  index : s.index = 0
  per : s.numberOfTrainingsBetweenTwoEvaluations = 0
  auto : s.autoSaveWhenBetter = false
  number : s.net.numberOfTraining = n

theorem make_new {arch : List (LayerModel F)} {opt : Sgd F} {d d' : Draws F} {s : Snn F} (hm : Snn.make arch opt d = .ok (s, d')) :
    New 0 s ∧ s.net.outputNan = false ∧ s.autoSaveFilePath = "AutoSave.snn" ∧ s.net.optimizer = opt := by
  obtain ⟨⟨net, d1⟩, h1, hm⟩ := Res.bind_eq_ok.1 hm
  obtain ⟨err, h2, hm⟩ := Res.bind_eq_ok.1 hm
  split at hm
  · cases hm
  cases hm
  unfold Net.make at h1
  obtain ⟨⟨ls, d2⟩, _, h1⟩ := Res.bind_eq_ok.1 h1
  obtain ⟨l, _, h1⟩ := Res.bind_eq_ok.1 h1
  cases h1
  exact ⟨⟨⟨rfl, rfl, rfl, rfl, rfl, rfl, rfl, rfl, rfl, rfl, rfl, rfl, rfl, rfl, rfl⟩, rfl, rfl, rfl, rfl, rfl, rfl, rfl⟩, rfl, rfl, rfl⟩

theorem output_new {k : Int} {s : Snn F} {n' : Net F} {x out : List F} {t : Bool} (hk : New k s) (h : s.net.output x t = .ok (out, n')) : New k { s with net := n' } := by
  obtain ⟨k1, k2, k3⟩ := RaceCallsProps.output_kept h
  exact ⟨by rw [show Snn.net { s with net := n' } = n' from rfl, k1]; exact hk.results, hk.idle, hk.want, hk.epoch, hk.index, hk.per, hk.auto, k2.trans hk.number⟩

/-- One plain call. -/
theorem perform_new {k : Int} {u : Use F} {r r' : Run F} {a : Answer F} (hu : Plain u) (hk : New k r.snn) (h : u.perform r = .ok (a, r')) :
    New (k + lessons [u]) r'.snn := by
  cases u with
  | evaluate env d => exact hu.elim
  | setNumberOfTrainingsBetweenTwoEvaluations v => exact hu.elim
  | computeOutput x t =>
    obtain ⟨⟨out, s⟩, h1, h⟩ := Res.bind_eq_ok.1 h
    unfold Snn.computeOutput at h1
    obtain ⟨⟨out', n⟩, h2, h1⟩ := Res.bind_eq_ok.1 h1
    cases h1
    cases h
    simpa [lessons] using output_new hk h2
  | computeCluster x t =>
    obtain ⟨⟨out, s⟩, h1, h⟩ := Res.bind_eq_ok.1 h
    unfold Snn.computeCluster at h1
    obtain ⟨⟨out', n⟩, h2, h1⟩ := Res.bind_eq_ok.1 h1
    cases h1
    cases h
    simpa [lessons] using output_new hk h2
  | trainOnce x y t =>
    obtain ⟨⟨n, d⟩, h1, h⟩ := Res.bind_eq_ok.1 h
    obtain ⟨k1, k2, _, _⟩ := TrainProofs.trainOnce_frame h1
    cases h
    refine ⟨?_, hk.idle, hk.want, hk.epoch, hk.index, hk.per, hk.auto, ?_⟩
    · simp only [k1]; exact hk.results
    · simp only [k2, hk.number, lessons]; norm_num
  | saveAs path =>
    obtain ⟨r1, h1, h⟩ := Res.bind_eq_ok.1 h
    unfold Run.saveAs at h1
    split at h1
    · cases h1
    cases h1
    cases h
    simp only [lessons, Nat.cast_zero, add_zero]
    exact ⟨hk.results, hk.idle, hk.want, hk.epoch, hk.index, hk.per, hk.auto, hk.number⟩
  | saveFilterLayersAsBitmap path data i =>
    obtain ⟨⟨fs, s⟩, h1, h⟩ := Res.bind_eq_ok.1 h
    unfold Snn.saveFilterLayersAsBitmap at h1
    split at h1
    · cases h1
    · obtain ⟨x, _, h1⟩ := Res.bind_eq_ok.1 h1
      obtain ⟨⟨ys, n⟩, h2, h1⟩ := Res.bind_eq_ok.1 h1
      obtain ⟨f2, _, h1⟩ := Res.bind_eq_ok.1 h1
      unfold Net.getLayerOutputs at h2
      split at h2
      · cases h2
      · obtain ⟨⟨o, ls⟩, _, h2⟩ := Res.bind_eq_ok.1 h2
        cases h2
        cases h1
        cases h
        simp only [lessons, Nat.cast_zero, add_zero]
        exact ⟨hk.results, hk.idle, hk.want, hk.epoch, hk.index, hk.per, hk.auto, hk.number⟩
  | isValid | summary _ | equal _ | saveFeatureMapsAsBitmap _ | copy =>
    obtain ⟨x, _, h⟩ := Res.bind_eq_ok.1 h
    cases h
    simpa [lessons] using hk
  | _ => cases h; simpa [lessons] using hk

theorem lessons_cons (u : Use F) (us : List (Use F)) : lessons (u :: us) = lessons [u] + lessons us := by
  cases u <;> simp [lessons] <;> omega

theorem calls_new : ∀ {us : List (Use F)} {k : Int} {r r' : Run F}, (∀ u ∈ us, Plain u) → New k r.snn → calls us r = .ok r' → New (k + lessons us) r'.snn
  | [], k, r, r', _, hk, h => by cases h; simpa [lessons] using hk
  | u :: us, k, r, r', hu, hk, h => by
    obtain ⟨⟨a, r1⟩, h1, h⟩ := Res.bind_eq_ok.1 h
    have := calls_new (fun u hu' => hu u (List.mem_cons_of_mem _ hu')) (perform_new (hu u (by simp)) hk h1) h
    rw [lessons_cons]
    push_cast
    rwa [← add_assoc]

/-- **C104**, for every carrier: whatever is called on a network that was just made, except an evaluation (and a training, which evaluates), and whatever the
arguments: every result is -1, none is better than the ones before, `isTraining()` is false, the epoch, the index and the length of an epoch are 0, and
`getNumberOfTraining()` is the number of the calls of `trainOnce`. -/
theorem C104_unmeasured {arch : List (LayerModel F)} {opt : Sgd F} {d d' : Draws F} {s : Snn F} (hm : Snn.make arch opt d = .ok (s, d')) {r r' : Run F}
    (hr : r.snn = s) {us : List (Use F)} (hu : ∀ u ∈ us, Plain u) (h : calls us r = .ok r') :
    (∃ st, Use.getResults.perform r' = .ok (.results st, r') ∧ Unmeasured st) ∧
    Use.isTraining.perform r' = .ok (.flag false, r') ∧
    Use.getCurrentEpoch.perform r' = .ok (.number 0, r') ∧ Use.getCurrentIndex.perform r' = .ok (.number 0, r') ∧
    Use.getNumberOfTrainingsBetweenTwoEvaluations.perform r' = .ok (.number 0, r') ∧
    Use.getNumberOfTraining.perform r' = .ok (.number (lessons us), r') := by
  subst hr
  have k := calls_new hu (make_new hm).1 h
  refine ⟨⟨_, rfl, k.results⟩, ?_, ?_, ?_, ?_, ?_⟩
  · simp [Use.perform, k.idle]
  · simp [Use.perform, Snn.getCurrentEpoch, k.epoch]
  · simp [Use.perform, Snn.getCurrentIndex, k.index]
  · simp [Use.perform, Snn.getNumberOfTrainingsBetweenTwoEvaluations, k.per]
  · simp [Use.perform, k.number]

/-- **C104**: a network that was just made has seen no NaN, does not save itself, and would save itself in `AutoSave.snn`. -/
theorem C104_settings {arch : List (LayerModel F)} {opt : Sgd F} {d d' : Draws F} {s : Snn F} (hm : Snn.make arch opt d = .ok (s, d')) {r : Run F} (hr : r.snn = s) :
    Use.hasNan.perform r = .ok (.flag false, r) ∧ s.autoSaveWhenBetter = false ∧ s.autoSaveFilePath = "AutoSave.snn" ∧ s.net.optimizer = opt := by
  obtain ⟨h1, h2, h3, h4⟩ := make_new hm
  subst hr
  exact ⟨by simp [Use.perform, h2], h1.auto, h3, h4⟩

/-! ### Non-vacuity -/

/-- Two lessons, an output, a file and a comparison with the network that was made. -/
def session : List (Use ℚ) := [.trainOnce [1, 2] [1] false, .computeOutput [1, 1] false, .saveAs "a", .trainOnce [0, 2] [1] true, .equal RaceCallsProps.small]

example : ∃ r', calls session RaceCallsProps.smallRun = .ok r' ∧ Use.getNumberOfTraining.perform r' = .ok (.number 2, r') := by
  have hm : Snn.make RaceCallsProps.smallArch Demo.sgd Demo.draws =
      .ok (RaceCallsProps.small, (Res.get (Snn.make RaceCallsProps.smallArch Demo.sgd Demo.draws) (by decide +kernel)).2) := Res.eq_get _ _
  have hc : calls session RaceCallsProps.smallRun = .ok (Res.get (calls session RaceCallsProps.smallRun) (by decide +kernel)) := Res.eq_get _ _
  exact ⟨_, hc, (C104_unmeasured hm rfl (by simp [Plain, session]) hc).2.2.2.2.2⟩

end Snn.NewNetProps
