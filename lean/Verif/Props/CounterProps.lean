import Verif.Props.SaveProps
import Verif.Props.CopyProps
import Verif.Proofs.ReachProofs

/-!
# C71: `getNumberOfTraining`
-/

set_option linter.all false

namespace Snn.CounterProps

open Snn Snn.Spec Snn.TrainSpec Snn.TrainProofs HistoryProps

section
variable {F : Type} [Flt F] [FTrans F] [Add F] [Sub F] [Mul F] [Div F] [Neg F]

theorem call_counts {c : Call F} {r r' : Run F} (h : c.run r = .ok r') :
    r'.snn.net.numberOfTraining - trainedCount r'.trace = r.snn.net.numberOfTraining - trainedCount r.trace := by
  cases c with
  | computeOutput x t =>
    simp only [Call.run, Snn.computeOutput] at h
    cases ho : r.snn.net.output x t with
    | ok p =>
      obtain ⟨out, net⟩ := p
      rw [ho] at h
      cases h
      simp [(net_output_frame ho).2.1]
    | throw e => rw [ho] at h; cases h
    | ub e => rw [ho] at h; cases h
  | computeCluster x t =>
    simp only [Call.run, Snn.computeCluster] at h
    cases ho : r.snn.net.output x t with
    | ok p =>
      obtain ⟨out, net⟩ := p
      rw [ho] at h
      cases h
      simp [(net_output_frame ho).2.1]
    | throw e => rw [ho] at h; cases h
    | ub e => rw [ho] at h; cases h
  | evaluate env data =>
    have := evaluate_frame h
    rw [this.training, this.trainedCount]
  | train env data wait b ef fuel =>
    refine train_induct (env := env) (fun n _ t => n.numberOfTraining - trainedCount t = r.snn.net.numberOfTraining - trainedCount r.trace)
      ?_ ?_ ?_ (r := { r with data := data }) rfl h
    · intro n a t hp
      exact hp
    · intro q q' b ret hp hnan hs
      unfold Run.trainStep at hs
      simp only [hnan, Bool.false_eq_true, if_false] at hs
      obtain ⟨need, _, hs⟩ := Res.bind_eq_ok.1 hs
      obtain ⟨⟨x, data1⟩, _, hs⟩ := Res.bind_eq_ok.1 hs
      obtain ⟨first, _, hs⟩ := Res.bind_eq_ok.1 hs
      simp only at hs
      split at hs
      · obtain ⟨⟨y, data2⟩, _, hs⟩ := Res.bind_eq_ok.1 hs
        obtain ⟨⟨net, d⟩, h1, hs⟩ := Res.bind_eq_ok.1 hs
        cases hs
        have := (trainOnce_frame h1).2.1
        rw [← hp]
        simp only [this, trainedCount, List.countP_cons]
        simp only [if_true]
        omega
      · obtain ⟨⟨y, net, d⟩, h1, hs⟩ := Res.bind_eq_ok.1 hs
        cases hs
        rw [← hp]
        simp [(outputForTraining_frame h1).2.1, trainedCount, List.countP_cons]
    · intro q q' hp he
      have := evaluate_frame he
      rw [← hp, this.training, this.trainedCount]
  | saveAs path =>
    simp only [Call.run, Run.saveAs] at h
    split at h
    · cases h
    · cases h
      simp [Run.saveSync, trainedCount, List.countP_cons]
  | autoSave w path => cases h; rfl

/-- **C71**: over any history of calls, `getNumberOfTraining` grows by exactly the number of training steps made (batches presented to the
learning algorithm, whatever the epochs, the batch sizes and the kind of data); outputs, evaluations and saves do not count. -/
theorem C71_counter {calls : List (Call F)} {r r' : Run F} (h : calls.foldlM Call.run r = .ok r') :
    r'.snn.net.numberOfTraining - r.snn.net.numberOfTraining = (trainedCount r'.trace : Int) - trainedCount r.trace := by
  induction calls generalizing r with
  | nil => cases h; simp
  | cons c cs ih =>
    rw [List.foldlM_cons] at h
    obtain ⟨r1, h1, h2⟩ := Res.bind_eq_ok.1 h
    have a := ih h2
    have b := call_counts h1
    omega

/-- **C71**: a new network has 0, so that the counter of a network that was neither copied nor loaded is the number of steps it made. -/
theorem C71_from_new {arch : List (LayerModel F)} {opt : Sgd F} {d d' : Draws F} {s : Snn F} (hm : Snn.make arch opt d = .ok (s, d'))
    {calls : List (Call F)} {r r' : Run F} (hr : r.snn = s) (ht : r.trace = []) (h : calls.foldlM Call.run r = .ok r') :
    r'.snn.net.numberOfTraining = trainedCount r'.trace := by
  have h0 : s.net.numberOfTraining = 0 := by
    unfold Snn.make at hm
    obtain ⟨⟨net, d1⟩, h1, hm⟩ := Res.bind_eq_ok.1 hm
    obtain ⟨err, _, hm⟩ := Res.bind_eq_ok.1 hm
    split at hm
    · cases hm
    · cases hm
      unfold Net.make at h1
      obtain ⟨_, _, h1⟩ := Res.bind_eq_ok.1 h1
      obtain ⟨_, _, h1⟩ := Res.bind_eq_ok.1 h1
      cases h1
      rfl
  have := C71_counter h
  rw [hr, h0, ht] at this
  simpa [trainedCount] using this

variable [FText F]

/-- **C71**: copies and networks loaded from a file keep the counter. -/
theorem C71_copy_load {arch : List (LayerModel F)} {s : Snn F} (hr : Reach arch s) {t : Snn F} :
    (s.copy = .ok t → t.net.numberOfTraining = s.net.numberOfTraining) ∧
    ∀ {path : String} {files : Files F}, files path = some (Snn.codec.save s) → loadFrom files path = .ok t →
      t.net.numberOfTraining = s.net.numberOfTraining := by
  refine ⟨?_, ?_⟩
  · intro h
    rw [Snn.copy_eq hr.set] at h
    cases h
    rfl
  · intro path files hf h
    simp only [loadFrom, hf] at h
    obtain ⟨⟨t', a⟩, h1, h⟩ := Res.bind_eq_ok.1 h
    cases h
    rcases load_saved_or s with ⟨_, a', h2⟩ | ⟨_, m, h2⟩
    · rw [h2] at h1
      cases h1
      rfl
    · rw [h2] at h1; cases h1

end

/-- The recurrent network of the demo, trained twice on the same series: four steps. -/
example : ∃ r', ([.train Demo.env Demo.series (litEp 1) 1 1 50, .evaluate Demo.env Demo.series, .train Demo.env Demo.series (litEp 1) 1 1 50] :
      List (Call ℚ)).foldlM Call.run (Demo.run Demo.recurrent Demo.series) = .ok r' ∧ r'.snn.net.numberOfTraining = 4 := by
  refine ⟨(([.train Demo.env Demo.series (litEp 1) 1 1 50, .evaluate Demo.env Demo.series, .train Demo.env Demo.series (litEp 1) 1 1 50] :
      List (Call ℚ)).foldlM Call.run (Demo.run Demo.recurrent Demo.series)).get (by decide +kernel), Res.eq_get _ (by decide +kernel), by decide +kernel⟩

end Snn.CounterProps
