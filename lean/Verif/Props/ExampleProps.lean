import Verif.Proofs.ExampleProofs
import Verif.Spec.ExampleSpec

/-!
# C109: the example programs of the repository
-/

set_option linter.all false

namespace Snn.ExampleProps

open Snn.Spec Snn.Goal Snn.HistoryProps Snn.SafeProps Snn.WaitSpec Snn.AccuracyProps Snn.EvalProps Snn.DeadlineProps Snn.GoalProps Snn.Examples

section
variable {F : Type} [Field F] [LinearOrder F] [IsStrictOrderedRing F] [FTrans F]
variable {arch : List (LayerModel F)} {s s' : List Nat} {opt : Sgd F} {env : Env F} {d : Draws F} {data : Data F} {wait : Wait F}

/-- After a training that asked for the accuracy 1 and reached it, the network is right on every testing example. -/
theorem all_right (h : WellFormed arch s s') (he : EndsWithNeurons arch) (hf : Feedforward arch) {snn : Snn F} {d1 : Draws F}
    (hm : Snn.make arch opt d = .ok (snn, d1)) (hd : Fitted s.prod s'.prod data) (hb : 0 < (testingExamples data).length)
    (hnt : data.typeOfTemporal = .nonTemporal) (hp : data.typeOfProblem = .regression → 0 ≤ data.precision) (hw : Requests wait 1) {fuel : Nat} {r' : Run F}
    (ht : ({ snn := snn, data := data, draws := d1, ticks := 0, trace := [] } : Run F).train env wait 1 1 fuel = .ok r')
    (hmax : feq (r'.snn.net.stats.globalRateMax * lit 100) (lit 100) = true) {snn2 : Snn F} (hsame : List.Forall₂ Layer.Same r'.snn.net.layers snn2.net.layers) :
    ∀ x ∈ testingExamples data, Correct snn2 data x := by
  have h1 : r'.snn.net.stats.globalRateMax = 1 := by
    have : r'.snn.net.stats.globalRateMax * 100 = 100 := by simpa [feq, Flt.feq, lit, Flt.lit] using hmax
    linarith
  have hold : snn.net.stats.globalRateMax < 1 := by
    rcases (make_best hm).attained with ⟨_, e⟩ | ⟨p, hp, _⟩
    · rw [e]; norm_num
    · simp [TrainSpec.evaluations] at hp
  have hs := C108_best (a := 1) (env := env) (wait := wait) (b := 1) (ef := 1) (fuel := fuel) (r' := r') h he hf hm [] (by simp)
    (r0 := { snn := snn, data := data, draws := d1, ticks := 0, trace := [] }) rfl rfl hd (le_refl _) hnt hp one_pos hw one_pos ht hold h1.ge
  rw [h1] at hs
  classical
  unfold rightShare at hs
  have hl : ((testingExamples data).length : F) ≠ 0 := by exact_mod_cast hb.ne'
  rw [eq_div_iff hl, one_mul] at hs
  have hs' : (testingExamples data).countP (fun x => decide (Correct r'.snn data x)) = (testingExamples data).length := by exact_mod_cast hs.symm
  intro x hx
  have hpl := (make_plainNet h hf hm).1
  have hpl' := plain_kept.call (c := .train env data wait 1 1 fuel) (r := { snn := snn, data := data, draws := d1, ticks := 0, trace := [] }) hpl ht
  refine (correct_same hsame hpl'.2).1 ?_
  simpa using (List.countP_eq_length.1 hs') x hx

theorem output_same' {s s2 : Snn F} {x out : List F} {t : Bool} (h : s.computeOutput x t = .ok (out, s2)) : List.Forall₂ Layer.Same s.net.layers s2.net.layers := by
  unfold Snn.computeOutput at h
  obtain ⟨⟨o, net⟩, ho, h⟩ := Res.bind_eq_ok.1 h
  cases h
  exact (Net.output_same ho).1

theorem cluster_same {s s2 : Snn F} {x : List F} {k : Int} {t : Bool} (h : s.computeCluster x t = .ok (k, s2)) : List.Forall₂ Layer.Same s.net.layers s2.net.layers := by
  unfold Snn.computeCluster at h
  obtain ⟨⟨o, net⟩, ho, h⟩ := Res.bind_eq_ok.1 h
  cases h
  exact (Net.output_same ho).1

theorem good2 (n : Nat) (h : 0 < n) (h2 : n ≤ 999998) : GoodShape [n] := ⟨by simp, by simpa using h, by simpa using h2⟩

theorem dense_wf {i n m : Nat} {a b : Act} (hi : 0 < i) (hn : 0 < n) (hm : 0 < m) (hi2 : i ≤ 999998) (hn2 : n ≤ 999998) (hm2 : m ≤ 999998) :
    WellFormed (F := F) [.input [(i : Int)], .fullyConnected n a [], .fullyConnected m b []] [i] [m] :=
  ⟨⟨_, _, rfl, .cons (good2 i hi hi2) (Fits.fullyConnected (n := n) hn) (.cons (good2 n hn hn2) (Fits.fullyConnected (n := m) hm) (.nil (good2 m hm hm2)))⟩, by simp⟩

theorem sign_wf : WellFormed (F := F) signArch [3] [2] := dense_wf (i := 3) (n := 5) (m := 2) (by norm_num) (by norm_num) (by norm_num) (by norm_num) (by norm_num) (by norm_num)
theorem logic_wf : WellFormed (F := F) logicArch [2] [3] := dense_wf (i := 2) (n := 8) (m := 3) (by norm_num) (by norm_num) (by norm_num) (by norm_num) (by norm_num) (by norm_num)
theorem mean_wf : WellFormed (F := F) meanArch [3] [1] := dense_wf (i := 3) (n := 5) (m := 1) (by norm_num) (by norm_num) (by norm_num) (by norm_num) (by norm_num) (by norm_num)
theorem sign_data : ∃ data : Data F, Data.make1 .classification signInputs signOutputs .nonTemporal 0 = .ok data ∧ Fitted 3 2 data ∧
    testingExamples data = signInputs.zip signOutputs ∧ data.typeOfTemporal = .nonTemporal ∧ data.typeOfProblem = .classification ∧
    data.training.size = 6 ∧ data.testing.size = 6 := by
  have h : ∃ data : Data F, Data.make1 .classification signInputs signOutputs .nonTemporal 0 = .ok data ∧
    testingExamples data = signInputs.zip signOutputs ∧ data.typeOfTemporal = .nonTemporal ∧ data.typeOfProblem = .classification ∧
    data.training.size = 6 ∧ data.testing.size = 6 := ⟨_, rfl, rfl, rfl, rfl, rfl, rfl⟩
  obtain ⟨data, h1, h2, h3⟩ := h
  refine ⟨data, h1, .make1 h1 ⟨rfl, ?_, ?_⟩ ?_ (by intro h; cases h), h2, h3⟩
  · intro r hr; simp [signInputs] at hr; rcases hr with rfl | rfl | rfl | rfl | rfl | rfl <;> simp
  · intro r hr; simp [signOutputs] at hr; rcases hr with rfl | rfl <;> simp
  · intro _ r hr; simp [signOutputs] at hr; rcases hr with rfl | rfl <;> simp [lit, Flt.lit]

theorem logic_data : ∃ data0 data : Data F, Data.make1 .multipleClassification logicInputs logicOutputs .nonTemporal 0 = .ok data0 ∧
    data0.setSeparator (lit (1/2)) = .ok data ∧ Fitted 2 3 data ∧
    testingExamples data = logicInputs.zip logicOutputs ∧ data.typeOfTemporal = .nonTemporal ∧ data.typeOfProblem = .multipleClassification ∧
    data.separator = lit (1/2) ∧ data.training.size = 4 ∧ data.testing.size = 4 := by
  have h : ∃ data0 data : Data F, Data.make1 .multipleClassification logicInputs logicOutputs .nonTemporal 0 = .ok data0 ∧
    data0.setSeparator (lit (1/2)) = .ok data ∧
    testingExamples data = logicInputs.zip logicOutputs ∧ data.typeOfTemporal = .nonTemporal ∧ data.typeOfProblem = .multipleClassification ∧
    data.separator = lit (1/2) ∧ data.training.size = 4 ∧ data.testing.size = 4 := ⟨_, _, rfl, rfl, rfl, rfl, rfl, rfl, rfl, rfl⟩
  obtain ⟨data0, data, h1, h2, h3⟩ := h
  refine ⟨data0, data, h1, h2, .setSeparator (.make1 h1 ⟨rfl, ?_, ?_⟩ (by intro h; cases h) (by intro h; cases h)) h2, h3⟩
  · intro r hr; simp [logicInputs] at hr; rcases hr with rfl | rfl | rfl | rfl <;> simp
  · intro r hr; simp [logicOutputs] at hr; rcases hr with rfl | rfl | rfl <;> simp

theorem mean_data : ∃ data0 data : Data F, Data.make1 .regression meanInputs meanOutputs .nonTemporal 0 = .ok data0 ∧
    data0.setPrecision (lit (1/10)) = .ok data ∧ Fitted 3 1 data ∧
    testingExamples data = meanInputs.zip meanOutputs ∧ data.typeOfTemporal = .nonTemporal ∧ data.typeOfProblem = .regression ∧
    data.precision = lit (1/10) ∧ data.training.size = 6 ∧ data.testing.size = 6 := by
  have h : ∃ data0 data : Data F, Data.make1 .regression meanInputs meanOutputs .nonTemporal 0 = .ok data0 ∧
    data0.setPrecision (lit (1/10)) = .ok data ∧
    testingExamples data = meanInputs.zip meanOutputs ∧ data.typeOfTemporal = .nonTemporal ∧ data.typeOfProblem = .regression ∧
    data.precision = lit (1/10) ∧ data.training.size = 6 ∧ data.testing.size = 6 := ⟨_, _, rfl, rfl, rfl, rfl, rfl, rfl, rfl, rfl⟩
  obtain ⟨data0, data, h1, h2, h3⟩ := h
  refine ⟨data0, data, h1, h2, .setPrecision (.make1 h1 ⟨rfl, ?_, ?_⟩ (by intro h; cases h) (by intro h; cases h)) h2, h3⟩
  · intro r hr; simp [meanInputs] at hr; rcases hr with rfl | rfl | rfl | rfl | rfl | rfl <;> simp
  · intro r hr; simp [meanOutputs] at hr; rcases hr with rfl | rfl | rfl | rfl <;> simp

/-- **C109**, what success of the classification example means: the network at the end of the program answers the right class for
each of the six examples, those with a negative sum and those with a positive sum. -/
theorem C109_classification_success {fuel : Nat} {snn : Snn F} (h : classificationExample env d fuel = .ok (true, snn)) :
    ∀ x ∈ (signInputs : List (List F)).zip (signOutputs : List (List F)), ∃ (k : Nat) (snn' : Snn F), snn.computeCluster x.1 false = .ok ((k : Int), snn') ∧ IsClass x.2 k := by
  obtain ⟨data, e1, hfit, htest, hnt, hp, hs1, hs2⟩ := sign_data (F := F)
  obtain ⟨w, e2, _, hw⟩ := goal_ok (F := F)
  unfold classificationExample at h
  simp only [e1, e2, Res.ok_bind] at h
  obtain ⟨⟨net0, d1⟩, hm, h⟩ := Res.bind_eq_ok.1 h
  obtain ⟨r, ht, h⟩ := Res.bind_eq_ok.1 h
  obtain ⟨x0, _, h⟩ := Res.bind_eq_ok.1 h
  obtain ⟨⟨cl, snn2⟩, hcl, h⟩ := Res.bind_eq_ok.1 h
  obtain ⟨lab, _, h⟩ := Res.bind_eq_ok.1 h
  obtain ⟨v, _, h⟩ := Res.bind_eq_ok.1 h
  simp only [Res.pure_eq, Res.ok.injEq, Prod.mk.injEq, Bool.and_eq_true] at h
  obtain ⟨⟨⟨hmax, _⟩, _⟩, rfl⟩ := h
  have hff : Feedforward (signArch : List (LayerModel F)) := by intro m hm; simp [signArch] at hm; rcases hm with rfl | rfl | rfl <;> trivial
  have hall := all_right sign_wf (by simp [EndsWithNeurons, signArch]) hff hm hfit (by rw [htest]; simp [signInputs, signOutputs]) hnt (by rw [hp]; intro h; cases h) hw ht hmax (cluster_same hcl)
  intro x hx
  rw [← htest] at hx
  have := hall x hx
  unfold Correct at this
  rw [hp] at this
  exact this

/-- **C109**, what success of the multiple classification example means: for each of the four pairs of bits the three outputs of the
network at the end of the program are on the right side of 1/2. -/
theorem C109_multiple_success {fuel : Nat} {snn : Snn F} (h : multipleClassificationExample env d fuel = .ok (true, snn)) :
    ∀ x ∈ (logicInputs : List (List F)).zip (logicOutputs : List (List F)), ∃ out snn', snn.computeOutput x.1 false = .ok (out, snn') ∧
      List.Forall₂ (fun o e => 1 / 2 < o ↔ 1 / 2 < e) out x.2 := by
  obtain ⟨data0, data, e0, e1, hfit, htest, hnt, hp, hsep, hs1, hs2⟩ := logic_data (F := F)
  obtain ⟨w, e2, _, hw⟩ := goal_ok (F := F)
  unfold multipleClassificationExample at h
  simp only [e0, e1, e2, Res.ok_bind] at h
  obtain ⟨⟨net0, d1⟩, hm, h⟩ := Res.bind_eq_ok.1 h
  obtain ⟨r, ht, h⟩ := Res.bind_eq_ok.1 h
  obtain ⟨x0, _, h⟩ := Res.bind_eq_ok.1 h
  obtain ⟨⟨cl, snn2⟩, hcl, h⟩ := Res.bind_eq_ok.1 h
  obtain ⟨o0, _, h⟩ := Res.bind_eq_ok.1 h
  obtain ⟨o1, _, h⟩ := Res.bind_eq_ok.1 h
  obtain ⟨o2, _, h⟩ := Res.bind_eq_ok.1 h
  obtain ⟨v, _, h⟩ := Res.bind_eq_ok.1 h
  simp only [Res.pure_eq, Res.ok.injEq, Prod.mk.injEq, Bool.and_eq_true] at h
  obtain ⟨⟨⟨⟨⟨hmax, _⟩, _⟩, _⟩, _⟩, rfl⟩ := h
  have hff : Feedforward (logicArch : List (LayerModel F)) := by intro m hm; simp [logicArch] at hm; rcases hm with rfl | rfl | rfl <;> trivial
  have hall := all_right logic_wf (by simp [EndsWithNeurons, logicArch]) hff hm hfit (by rw [htest]; simp [logicInputs, logicOutputs]) hnt (by rw [hp]; intro h; cases h) hw ht hmax
    (output_same' hcl)
  intro x hx
  rw [← htest] at hx
  have := hall x hx
  unfold Correct at this
  rw [hp, hsep] at this
  simpa [lit, Flt.lit] using this

/-- **C109**, what success of the regression example means: for each of the six examples the output of the network at the end of the
program is at most 1/10 away from the expected one. -/
theorem C109_regression_success {fuel : Nat} {snn : Snn F} (h : regressionExample env d fuel = .ok (true, snn)) :
    ∀ x ∈ (meanInputs : List (List F)).zip (meanOutputs : List (List F)), ∃ out snn', snn.computeOutput x.1 false = .ok (out, snn') ∧
      List.Forall₂ (fun o e => |o - e| ≤ 1 / 10) out x.2 := by
  obtain ⟨data0, data, e0, e1, hfit, htest, hnt, hp, hsep, hs1, hs2⟩ := mean_data (F := F)
  obtain ⟨w, e2, _, hw⟩ := goal_ok (F := F)
  unfold regressionExample at h
  simp only [e0, e1, e2, Res.ok_bind] at h
  obtain ⟨⟨net0, d1⟩, hm, h⟩ := Res.bind_eq_ok.1 h
  obtain ⟨r, ht, h⟩ := Res.bind_eq_ok.1 h
  obtain ⟨x0, _, h⟩ := Res.bind_eq_ok.1 h
  obtain ⟨⟨cl, snn2⟩, hcl, h⟩ := Res.bind_eq_ok.1 h
  obtain ⟨y, _, h⟩ := Res.bind_eq_ok.1 h
  obtain ⟨o0, _, h⟩ := Res.bind_eq_ok.1 h
  obtain ⟨o1, _, h⟩ := Res.bind_eq_ok.1 h
  obtain ⟨v, _, h⟩ := Res.bind_eq_ok.1 h
  simp only [Res.pure_eq, Res.ok.injEq, Prod.mk.injEq, Bool.and_eq_true] at h
  obtain ⟨⟨⟨hmax, _⟩, _⟩, rfl⟩ := h
  have hff : Feedforward (meanArch : List (LayerModel F)) := by intro m hm; simp [meanArch] at hm; rcases hm with rfl | rfl | rfl <;> trivial
  have hall := all_right mean_wf (by simp [EndsWithNeurons, meanArch]) hff hm hfit (by rw [htest]; simp [meanInputs, meanOutputs]) hnt
    (by intro _; rw [hsep]; norm_num [lit, Flt.lit]) hw ht hmax (output_same' hcl)
  intro x hx
  rw [← htest] at hx
  have := hall x hx
  unfold Correct at this
  rw [hp, hsep] at this
  simpa [lit, Flt.lit] using this

/-- **C109**, what success of the recurrence example means: the greatest accuracy that an evaluation of the training reported is 1,
and the mean absolute error that the last one reported is less than 1/2. (For a recurrent network the report is about the outputs
during that evaluation, see C28.) -/
theorem C109_recurrence_success {fuel : Nat} {snn : Snn F} (h : recurrenceExample env d fuel = .ok (true, snn)) :
    snn.net.stats.globalRateMax = 1 ∧ snn.net.stats.mae < 1 / 2 ∧ snn.net.isValid = .ok 0 := by
  unfold recurrenceExample at h
  obtain ⟨data0, e0, h⟩ := Res.bind_eq_ok.1 h
  obtain ⟨data, e1, h⟩ := Res.bind_eq_ok.1 h
  obtain ⟨⟨net0, d1⟩, hm, h⟩ := Res.bind_eq_ok.1 h
  obtain ⟨w, _, h⟩ := Res.bind_eq_ok.1 h
  obtain ⟨r, ht, h⟩ := Res.bind_eq_ok.1 h
  obtain ⟨v, hv, h⟩ := Res.bind_eq_ok.1 h
  simp only [Res.pure_eq, Res.ok.injEq, Prod.mk.injEq, Bool.and_eq_true, decide_eq_true_eq] at h
  obtain ⟨⟨⟨hmax, hmae⟩, rfl⟩, rfl⟩ := h
  refine ⟨?_, ?_, hv⟩
  · have : r.snn.net.stats.globalRateMax * 100 = 100 := by simpa [feq, Flt.feq, lit, Flt.lit] using hmax
    linarith
  · simpa [flt, Flt.flt, lit, Flt.lit] using hmae

end

section
variable {arch : List (LayerModel ℝ)} {s s' : List Nat} {opt : Sgd ℝ} {env : Env ℝ} {d : Draws ℝ} {data : Data ℝ} {wait : Wait ℝ} {N : Nat}

theorem plays (h : WellFormed arch s s') (he : EndsWithNeurons arch) (h1 : 0 < opt.learningRate) (h2 : opt.learningRate < 1) (h3 : 0 ≤ opt.momentum)
    (h4 : opt.momentum ≤ 1) (hdr : ∀ i, 0 ≤ d i ∧ d i ≤ 1) (hd : Fitted s.prod s'.prod data) (hb : (1 : Int) ≤ data.training.size)
    (hc : ClockPasses env N) (hl : LimitedTo wait N) :
    ∃ snn d1, Snn.make arch opt d = .ok (snn, d1) ∧ ∃ fuel r',
      ({ snn := snn, data := data, draws := d1, ticks := 0, trace := [] } : Run ℝ).train env wait 1 1 fuel = .ok r' ∧
      After arch s.prod s'.prod data r' := by
  obtain ⟨snn, d1, hm⟩ := ArchProps.C49_accepted_if h h1 h2 h3 h4 hdr
  obtain ⟨elapsed, k, c1, c2, c3, c4⟩ := hc
  obtain ⟨fuel, r', hr'⟩ := C107_returns_partial (env := env) (b := 1) (ef := 1) (wait := wait) (r := { snn := snn, data := data, draws := d1, ticks := 0, trace := [] })
    h he hm [] (by simp) _ rfl rfl hd (le_refl _) hb (fun h => absurd rfl h) c1 c2 hl c3 c4 (Nat.zero_le _)
  exact ⟨snn, d1, hm, fuel, r', hr', after_train (r := { snn := snn, data := data, draws := d1, ticks := 0, trace := [] }) h he hm rfl hd hb hr'⟩

/-- The outputs of a network after a training, on the first testing example. -/
theorem consult {ni no : Nat} {r : Run ℝ} (h : After arch ni no data r) (ht : 0 < data.testing.size) :
    ∃ x out net c, r.data.getData .testing 0 = .ok x ∧ r.snn.net.output x false = .ok (out, net) ∧ out.length = no ∧ net.isValid = .ok c := by
  have hk : 0 < r.data.testing.size := by rw [h.frame.testing]; exact ht
  obtain ⟨x, hx, hl⟩ := getTestingData_safe h.rows hk
  obtain ⟨out, net, ho, hol, _⟩ := Net.output_ok h.net.wf x hl false
  obtain ⟨c, hc⟩ := h.used x false out net ho
  exact ⟨x, out, net, c, hx, ho, hol, hc⟩

end

theorem sum_wf : WellFormed (F := ℝ) sumArch [1] [1] :=
  ⟨⟨_, _, rfl, .cons (good2 1 (by norm_num) (by norm_num)) (Fits.recurrence (n := 10) (by norm_num)) (.cons (good2 10 (by norm_num) (by norm_num)) (Fits.fullyConnected (n := 1) (by norm_num))
    (.nil (good2 1 (by norm_num) (by norm_num))))⟩, by simp [sumArch]⟩
theorem readme_wf : WellFormed (F := ℝ) readmeArch [1, 28, 28] [10] :=
  ⟨⟨_, _, rfl, .cons ⟨by simp, by simp, by norm_num⟩ (Fits.convolution2D (f := 16) (k := 3) (c := 1) (x := 28) (y := 28) (by norm_num) (by norm_num) (by norm_num) (by norm_num))
    (.cons ⟨by simp, by simp, by norm_num⟩ (Fits.fullyConnected (n := 92) (by norm_num)) (.cons (good2 92 (by norm_num) (by norm_num)) (Fits.fullyConnected (n := 10) (by norm_num))
      (.nil (good2 10 (by norm_num) (by norm_num)))))⟩, by simp [readmeArch]⟩

theorem sum_data : ∃ data0 data : Data ℝ, Data.make1 .regression sumInputs sumOutputs .timeSeries 1 = .ok data0 ∧
    data0.setPrecision (lit (1/2)) = .ok data ∧ Fitted 1 1 data ∧ data.training.size = 25 ∧ data.testing.size = 25 := by
  have h : ∃ data0 data : Data ℝ, Data.make1 .regression sumInputs sumOutputs .timeSeries 1 = .ok data0 ∧
    data0.setPrecision (lit (1/2)) = .ok data ∧ data.training.size = 25 ∧ data.testing.size = 25 := ⟨_, _, rfl, rfl, rfl, rfl⟩
  obtain ⟨data0, data, h1, h2, h3⟩ := h
  refine ⟨data0, data, h1, h2, .setPrecision (.make1 h1 ⟨rfl, ?_, ?_⟩ (by intro h; cases h) (by intro _; simp [sumOutputs])) h2, h3⟩
  · intro r hr
    have : ∀ r ∈ (sumInputs : List (List ℝ)), r.length = 1 := by unfold sumInputs; simp
    exact this r hr
  · intro r hr
    have : ∀ r ∈ (sumOutputs : List (List ℝ)), r.length = 1 := by unfold sumOutputs; simp
    exact this r hr

section
variable {env : Env ℝ} {d : Draws ℝ}

theorem default_rate : 0 < (defaultOptimizer : Sgd ℝ).learningRate ∧ (defaultOptimizer : Sgd ℝ).learningRate < 1 ∧ 0 ≤ (defaultOptimizer : Sgd ℝ).momentum ∧
    (defaultOptimizer : Sgd ℝ).momentum ≤ 1 := by
  simp only [defaultOptimizer, lit, Flt.lit]
  norm_num

/-- **C109**, the classification example returns: whatever the draws and the clock, the program ends with EXIT_SUCCESS or
EXIT_FAILURE: no exception, no access out of bounds, no endless loop. -/
theorem C109_classification_returns (hd : ∀ i, 0 ≤ d i ∧ d i ≤ 1) (hc : ClockPasses env 2000) :
    ∃ fuel success snn, classificationExample env d fuel = .ok (success, snn) := by
  obtain ⟨data, e1, hfit, _, _, hp, hs1, hs2⟩ := sign_data (F := ℝ)
  obtain ⟨w, e2, hl, _⟩ := goal_ok (F := ℝ)
  obtain ⟨r1, r2, r3, r4⟩ := default_rate
  obtain ⟨snn, d1, hm, fuel, r', ht, ha⟩ := plays (opt := defaultOptimizer) sign_wf (by simp [EndsWithNeurons, signArch]) r1 r2 r3 r4 hd hfit (by rw [hs1]; norm_num) hc hl
  obtain ⟨x, out, net, c, k1, k2, k3, k4⟩ := consult ha (by rw [hs2]; norm_num)
  obtain ⟨lab, k5⟩ := getTestingLabel_safe ha.rows (k := 0) (by rw [ha.frame.testing, hs2]; norm_num) (by rw [ha.frame.problem, hp])
  have k5' : r'.data.getLabel .testing 0 = .ok lab := k5
  refine ⟨fuel, ?_⟩
  unfold classificationExample
  simp only [e1, hm, e2, ht, k1, k5', Res.ok_bind, Snn.computeCluster, k2, Res.pure_eq, k4]
  exact ⟨_, _, rfl⟩

/-- **C109**, the multiple classification example returns. -/
theorem C109_multiple_returns (hd : ∀ i, 0 ≤ d i ∧ d i ≤ 1) (hc : ClockPasses env 2000) :
    ∃ fuel success snn, multipleClassificationExample env d fuel = .ok (success, snn) := by
  obtain ⟨data0, data, e0, e1, hfit, _, _, hp, _, hs1, hs2⟩ := logic_data (F := ℝ)
  obtain ⟨w, e2, hl, _⟩ := goal_ok (F := ℝ)
  obtain ⟨r1, r2, r3, r4⟩ := default_rate
  obtain ⟨snn, d1, hm, fuel, r', ht, ha⟩ := plays (opt := defaultOptimizer) logic_wf (by simp [EndsWithNeurons, logicArch]) r1 r2 r3 r4 hd hfit (by rw [hs1]; norm_num) hc hl
  obtain ⟨x, out, net, c, k1, k2, k3, k4⟩ := consult ha (by rw [hs2]; norm_num)
  have k3' : out.length = 3 := by simpa using k3
  obtain ⟨o0, o1, o2, rfl⟩ : ∃ a b c, out = [a, b, c] := by
    match out, k3' with
    | [a, b, c], _ => exact ⟨a, b, c, rfl⟩
  refine ⟨fuel, ?_⟩
  unfold multipleClassificationExample
  simp only [e0, e1, hm, e2, ht, k1, Res.ok_bind, Snn.computeOutput, k2, Res.pure_eq, k4]
  exact ⟨_, _, rfl⟩

/-- **C109**, the regression example returns. -/
theorem C109_regression_returns (hd : ∀ i, 0 ≤ d i ∧ d i ≤ 1) (hc : ClockPasses env 2000) :
    ∃ fuel success snn, regressionExample env d fuel = .ok (success, snn) := by
  obtain ⟨data0, data, e0, e1, hfit, _, _, hp, _, hs1, hs2⟩ := mean_data (F := ℝ)
  obtain ⟨w, e2, hl, _⟩ := goal_ok (F := ℝ)
  obtain ⟨r1, r2, r3, r4⟩ := default_rate
  obtain ⟨snn, d1, hm, fuel, r', ht, ha⟩ := plays (opt := defaultOptimizer) mean_wf (by simp [EndsWithNeurons, meanArch]) r1 r2 r3 r4 hd hfit (by rw [hs1]; norm_num) hc hl
  obtain ⟨x, out, net, c, k1, k2, k3, k4⟩ := consult ha (by rw [hs2]; norm_num)
  have k3' : out.length = 1 := by simpa using k3
  obtain ⟨o0, rfl⟩ : ∃ a, out = [a] := by
    match out, k3' with
    | [a], _ => exact ⟨a, rfl⟩
  obtain ⟨y, k5, k6⟩ := getTestingOutputs_safe ha.rows (k := 0) (by rw [ha.frame.testing, hs2]; norm_num) (by rw [ha.frame.problem, hp]; simp)
  have k6' : y.length = 1 := by simpa using k6
  obtain ⟨y0, rfl⟩ : ∃ a, y = [a] := by
    match y, k6' with
    | [a], _ => exact ⟨a, rfl⟩
  have k5' : r'.data.getOutputs .testing 0 = .ok [y0] := k5
  refine ⟨fuel, ?_⟩
  unfold regressionExample
  simp only [e0, e1, hm, e2, ht, k1, k5', Res.ok_bind, Snn.computeOutput, k2, Res.pure_eq, k4]
  exact ⟨_, _, rfl⟩

/-- **C109**, the recurrence example returns. -/
theorem C109_recurrence_returns (hd : ∀ i, 0 ≤ d i ∧ d i ≤ 1) (hc : ClockPasses env 2000) :
    ∃ fuel success snn, recurrenceExample env d fuel = .ok (success, snn) := by
  obtain ⟨data0, data, e0, e1, hfit, hs1, hs2⟩ := sum_data
  obtain ⟨w, e2, hl, _⟩ := goal_ok (F := ℝ)
  obtain ⟨snn, d1, hm, fuel, r', ht, ha⟩ := plays (opt := { learningRate := lit (1/100), momentum := lit (8/10) }) sum_wf (by simp [EndsWithNeurons, sumArch])
    (by norm_num [lit, Flt.lit]) (by norm_num [lit, Flt.lit]) (by norm_num [lit, Flt.lit]) (by norm_num [lit, Flt.lit]) hd hfit (by rw [hs1]; norm_num) hc hl
  obtain ⟨c, k4⟩ := ha.valid
  refine ⟨fuel, ?_⟩
  unfold recurrenceExample
  simp only [e0, e1, hm, e2, ht, Res.ok_bind, Res.pure_eq, k4]
  exact ⟨_, _, rfl⟩

theorem readme_data {inputData expectedOutputs : List (List ℝ)} (hx : Examples 784 10 inputData expectedOutputs) (hy : ∀ y ∈ expectedOutputs, (1 : ℝ) ∈ y)
    (hne : inputData ≠ []) : ∃ data : Data ℝ, Data.make1 .classification inputData expectedOutputs .nonTemporal 0 = .ok data ∧ Fitted 784 10 data ∧
      data.typeOfTemporal = .nonTemporal ∧ data.typeOfProblem = .classification ∧ (1 : Int) ≤ data.training.size ∧
      testingExamples data = inputData.zip expectedOutputs := by
  have hne2 : expectedOutputs ≠ [] := by
    intro e
    have := hx.count
    rw [e] at this
    exact hne (List.length_eq_zero_iff.1 this)
  have hmake : ∃ data : Data ℝ, Data.make1 .classification inputData expectedOutputs .nonTemporal 0 = .ok data := by
    obtain ⟨y, ys, rfl⟩ := List.exists_cons_of_ne_nil hne2
    have hy10 : y.length = 10 := hx.labels y (by simp)
    unfold Data.make1 Data.initialize
    obtain ⟨a, ha⟩ : ∃ a, backOf inputData = .ok a := by
      unfold backOf
      obtain ⟨z, zs, rfl⟩ := List.exists_cons_of_ne_nil hne
      simp [List.getLast?_cons]
    obtain ⟨b, hb⟩ : ∃ b, backOf (y :: ys) = .ok b := by
      unfold backOf
      simp [List.getLast?_cons]
    simp only [ha, hb, Res.ok_bind, Data.makeTemporalComposite, Data.blank, Data.isValid, Data.problemIsValid, Data.temporalIsValid, DSet.empty, rd]
    simp [hy10]
  obtain ⟨data, hmake⟩ := hmake
  obtain ⟨_, _, _, i1, i2, i3, _, i4, i5, _⟩ := make1_inv _ _ _ _ _ _ hmake
  refine ⟨data, hmake, .make1 hmake hx ?_ (by intro h; cases h), i4, i5, ?_, by unfold testingExamples; rw [i1, i2]⟩
  · intro _ y hyy
    exact ⟨1, hy y hyy, by simp [feq, Flt.feq, lit, Flt.lit]⟩
  · rw [i3]
    have := List.length_pos_of_ne_nil hne2
    omega

theorem readme_wait : ∃ s w : Wait ℝ, litS 20 = .ok s ∧ (litAcc (lit (9/10))).or s = .ok w ∧ LimitedTo w 20000 ∧ Requests w (9/10) := by
  have h20 : toInt32 20 = 20 := by decide
  have h2000 : toInt32 20000 = 20000 := by decide
  have hs : (litS 20 : Res (Wait ℝ)) = .ok (litMs 20000) := by
    unfold litS mulInt32
    rw [h20, if_pos (by norm_num)]
    simp only [litMs, h2000, Res.ok_bind, Res.pure_eq]
    norm_num
  have e : (litAcc (lit (9/10))).or (litMs 20000 : Wait ℝ) = (Expr.or (.crit (.acc (9/10 : ℝ))) (.crit (.ms 20000))).eval := by
    simp only [Expr.eval, Crit.wait, Res.ok_bind]
    norm_num [lit, Flt.lit]
  obtain ⟨w, h1, h2⟩ := C107_limits (F := ℝ) (N := 20000) (.or (.crit (.acc (9/10 : ℝ))) (.crit (.ms 20000))) (by simp [Expr.onlyOr])
    (by intro c hc; simp [Expr.crits] at hc; rcases hc with rfl | rfl <;> simp [Crit.writable] <;> norm_num)
    (by intro c hc; simp [Expr.crits] at hc; rcases hc with rfl | rfl <;> simp [Crit.positive] <;> norm_num) (by simp [Expr.crits])
  obtain ⟨w', h1', h2'⟩ := C108_requests (a := (9/10 : ℝ)) (.or (.crit (.acc (9/10 : ℝ))) (.crit (.ms 20000))) (by simp [Expr.onlyOr])
    (by intro c hc; simp [Expr.crits] at hc; rcases hc with rfl | rfl <;> simp [Crit.writable] <;> norm_num)
    (by intro c hc; simp [Expr.crits] at hc; rcases hc with rfl | rfl <;> simp [Crit.positive] <;> norm_num) (by simp [Expr.crits])
  rw [h1] at h1'
  cases h1'
  exact ⟨_, w, hs, by rw [e, h1], h2, h2'⟩

/-- **C109**, the program of the README returns, on every data made of rows of 784 values with one of 10 classes each. -/
theorem C109_readme_returns (hd : ∀ i, 0 ≤ d i ∧ d i ≤ 1) (hc : ClockPasses env 20000) {inputData expectedOutputs : List (List ℝ)}
    (hx : Examples 784 10 inputData expectedOutputs) (hy : ∀ y ∈ expectedOutputs, (1 : ℝ) ∈ y) (hne : inputData ≠ []) :
    ∃ fuel accuracy snn, readmeExample env d inputData expectedOutputs fuel = .ok (accuracy, snn) := by
  obtain ⟨data, e1, hfit, _, _, hs, _⟩ := readme_data hx hy hne
  obtain ⟨s, w, e2, e3, hl, _⟩ := readme_wait
  obtain ⟨r1, r2, r3, r4⟩ := default_rate
  obtain ⟨snn, d1, hm, fuel, r', ht, ha⟩ := plays (opt := defaultOptimizer) readme_wf (by simp [EndsWithNeurons, readmeArch]) r1 r2 r3 r4 hd hfit hs hc hl
  refine ⟨fuel, ?_⟩
  unfold readmeExample
  simp only [e1, hm, e2, e3, ht, Res.ok_bind, Res.pure_eq]
  exact ⟨_, _, rfl⟩

open Classical in
/-- **C109**, the accuracy that the program of the README retrieves: when it is 90% or more, it is the share of the data for which the
network at the end of the program answers the right class. -/
theorem C109_readme_accuracy {inputData expectedOutputs : List (List ℝ)} (hx : Examples 784 10 inputData expectedOutputs)
    (hy : ∀ y ∈ expectedOutputs, (1 : ℝ) ∈ y) (hne : inputData ≠ []) {fuel : Nat} {accuracy : ℝ} {snn : Snn ℝ}
    (h : readmeExample env d inputData expectedOutputs fuel = .ok (accuracy, snn)) (ha : 9 / 10 ≤ accuracy) :
    accuracy = (((inputData.zip expectedOutputs).countP fun x => decide (∃ (k : Nat) (snn' : Snn ℝ),
      snn.computeCluster x.1 false = .ok ((k : Int), snn') ∧ IsClass x.2 k) : Nat) : ℝ) / (inputData.zip expectedOutputs).length := by
  obtain ⟨data, e1, hfit, hnt, hp, hs, htest⟩ := readme_data hx hy hne
  obtain ⟨s, w, e2, e3, _, hw⟩ := readme_wait
  unfold readmeExample at h
  simp only [e1, e2, e3, Res.ok_bind] at h
  obtain ⟨⟨net0, d1⟩, hm, h⟩ := Res.bind_eq_ok.1 h
  obtain ⟨r, ht, h⟩ := Res.bind_eq_ok.1 h
  cases h
  have := C108_goal (a := 9/10) (env := env) (b := 1) (ef := 1) readme_wf (by simp [EndsWithNeurons, readmeArch])
    (by intro m hm; simp [readmeArch] at hm; rcases hm with rfl | rfl | rfl | rfl <;> trivial) hm [] (by simp)
    (r0 := { snn := net0, data := data, draws := d1, ticks := 0, trace := [] }) rfl rfl hfit (le_refl _) hnt (by rw [hp]; intro h; cases h) (by norm_num) hw (by norm_num)
    (r' := r) ht ha
  rw [this]
  simp only [rightShare, htest, Correct, hp]

end

/-- Success is possible: with these draws (and the placeholders of ℚ for the transcendental functions) the classification example
succeeds, and the network at its end answers the six right classes. -/
def luckyDraws : Draws ℚ := fun i => ((i * i * 4 + i * 9 + 2) % 11 : Nat) / 10
def lucky : Bool × Snn ℚ := (classificationExample Demo.env luckyDraws 1).get (by decide +kernel)

example : lucky.1 = true ∧ ∀ x ∈ (signInputs : List (List ℚ)).zip (signOutputs : List (List ℚ)), ∃ (k : Nat) (snn' : Snn ℚ),
    lucky.2.computeCluster x.1 false = .ok ((k : Int), snn') ∧ IsClass x.2 k := by
  have h1 : lucky.1 = true := by decide +kernel
  have h2 : classificationExample Demo.env luckyDraws 1 = .ok (true, lucky.2) := by
    rw [← h1]
    exact Res.eq_get _ _
  exact ⟨h1, C109_classification_success h2⟩

/-- The hypotheses are met: with a clock that advances of 100 milliseconds at each check and draws 1/2, all the programs return. -/
example (env : Env ℝ) (h : env.clock = shownClock fun i => 100 * i) (fuel : Nat) : (∃ fuel success snn, classificationExample env (fun _ => 1 / 2) fuel = .ok (success, snn)) ∧
    (∃ fuel success snn, multipleClassificationExample env (fun _ => 1 / 2) fuel = .ok (success, snn)) ∧
    (∃ fuel success snn, regressionExample env (fun _ => 1 / 2) fuel = .ok (success, snn)) ∧
    ∃ fuel success snn, recurrenceExample env (fun _ => 1 / 2) fuel = .ok (success, snn) := by
  have hc : ClockPasses env 2000 := ⟨_, 20, h, fun a b h => Nat.mul_le_mul_left _ h, by norm_num, by norm_num⟩
  exact ⟨C109_classification_returns (fun i => by norm_num) hc, C109_multiple_returns (fun i => by norm_num) hc, C109_regression_returns (fun i => by norm_num) hc,
    C109_recurrence_returns (fun i => by norm_num) hc⟩

end Snn.ExampleProps
