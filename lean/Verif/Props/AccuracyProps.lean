import Verif.Spec.AccuracySpec
import Verif.Props.OrderProps
import Verif.Props.SafeProps
import Verif.Props.DataProps
import Verif.Props.EvalProps
import Verif.Props.LeakProps

/-! C66: the reported accuracy is the proportion of right predictions. C67: evaluating again gives the same metrics. -/

set_option linter.all false

namespace Snn.AccuracyProps

open Snn.Spec Snn.StatSpec Snn.OrderProps HistoryProps SafeProps EvalProps InferenceProps TrainSpec

section
variable {F : Type} [Field F] [LinearOrder F] [IsStrictOrderedRing F] [FTrans F]

theorem history_safe {ni no : Nat} {calls : List (Call F)} (hc : ∀ c ∈ calls, CallFits ni no c) {r r' : Run F} (hn : SafeNet ni no r.snn.net)
    (hi : r.snn.isIdle = true) (h : calls.foldlM Call.run r = .ok r') : SafeNet ni no r'.snn.net ∧ r'.snn.isIdle = true := by
  induction calls generalizing r with
  | nil => cases h; exact ⟨hn, hi⟩
  | cons c cs ih =>
    obtain ⟨r1, h1, h2, h3⟩ := call_safe (hc c (by simp)) hn hi
    rw [List.foldlM_cons, h1] at h
    exact ih (fun c' hc' => hc c' (by simp [hc'])) h2 h3 h

theorem firstOne_class {l : List F} {k : Nat} (h : firstOne l 0 = some k) : IsClass l k := by
  have := firstOne_spec l 0
  rw [h] at this
  obtain ⟨_, ⟨x, hx, hx1⟩, hj⟩ := this
  simp only [Nat.sub_zero] at hx hj
  refine ⟨?_, ?_⟩
  · have : x = 1 := by simpa [feq, Flt.feq] using hx1
    rw [hx, this]
  · intro j hlt he
    have := hj j hlt 1 he
    simp [feq, Flt.feq] at this

theorem isClass_unique {l : List F} {k j : Nat} (h : IsClass l k) (h' : IsClass l j) : j = k := by
  rcases Nat.lt_trichotomy j k with hlt | rfl | hlt
  · exact absurd h'.1 (h.2 j hlt)
  · rfl
  · exact absurd h.1 (h'.2 k hlt)

theorem judged_classification {no : Nat} {out : List F} {k : Nat} {sep : F} : judged no (.classification out (k : Int) sep) ↔ argmaxLoop out = (k : Int) := by
  unfold judged right aboveFloor
  by_cases hfl : ∃ x ∈ out, -2 < x
  · obtain ⟨j, hj, hj2⟩ := argmaxLoop_spec hfl
    rw [hj]
    constructor
    · rintro ⟨⟨j', h1, h2⟩, _⟩
      have : (j' : Int) = j := by rw [hj2.unique h1]
      omega
    · intro h
      exact ⟨⟨j, hj2, h⟩, hfl⟩
  · rw [argmaxLoop_floor hfl]
    constructor
    · rintro ⟨_, h⟩; exact absurd h hfl
    · intro h; omega

theorem forall₂_getD {R : F → F → Prop} {l m : List F} {n : Nat} (hl : l.length = n) (hm : m.length = n) :
    List.Forall₂ R l m ↔ ∀ i < n, R (l.getD i 0) (m.getD i 0) := by
  rw [List.forall₂_iff_get]
  constructor
  · rintro ⟨_, h⟩ i hi
    have := h i (by omega) (by omega)
    simpa [List.getD_eq_getElem?_getD, List.getElem?_eq_getElem (show i < l.length by omega), List.getElem?_eq_getElem (show i < m.length by omega)] using this
  · intro h
    refine ⟨by omega, ?_⟩
    intro i h1 h2
    have := h i (by omega)
    simpa [List.getD_eq_getElem?_getD, List.getElem?_eq_getElem h1, List.getElem?_eq_getElem h2] using this

/-- One example: the evaluation counts it as well classified exactly when the prediction is right. -/
theorem judged_correct {s : Snn F} {data : Data F} {ni no : Nat} (hs : SafeNet ni no s.net) {row : List F × List F} (hx : row.1.length = ni)
    (hy : row.2.length = no) (hp : data.typeOfProblem = .regression → 0 ≤ data.precision) {e : Ev F} (he : Judges data s.net row e) :
    wf no e ∧ (judged no e ↔ Correct s data row) := by
  obtain ⟨out, ho, he⟩ := he
  obtain ⟨net, hnet⟩ := map_fst_ok ho
  obtain ⟨y, net', h1, h2, _⟩ := Net.output_ok hs.wf row.1 hx false
  rw [hnet] at h1
  cases h1
  cases hpr : data.typeOfProblem with
  | classification =>
    rw [hpr] at he
    obtain ⟨k, hk, rfl⟩ := he
    refine ⟨⟨h2, by omega⟩, ?_⟩
    rw [judged_classification]
    unfold Correct
    rw [hpr]
    simp only [Snn.computeCluster, hnet]
    constructor
    · intro h
      exact ⟨k, _, by simp only [Res.ok_bind, h]; rfl, firstOne_class hk⟩
    · rintro ⟨k', s', h3, h4⟩
      have := isClass_unique (firstOne_class hk) h4
      subst this
      simp only [Res.ok_bind] at h3
      have h3 := Res.ok.inj h3
      exact congrArg Prod.fst h3
  | multipleClassification =>
    rw [hpr] at he
    subst he
    refine ⟨⟨h2, hy⟩, ?_⟩
    unfold judged right aboveFloor Correct
    rw [hpr]
    simp only [Snn.computeOutput, hnet, Res.ok_bind, and_true]
    rw [← forall₂_getD (R := fun o e => data.separator < o ↔ data.separator < e) h2 hy]
    constructor
    · intro h; exact ⟨out, _, rfl, h⟩
    · rintro ⟨o, s', h3, h4⟩; cases h3; exact h4
  | regression =>
    rw [hpr] at he
    subst he
    refine ⟨⟨h2, hy, hp hpr⟩, ?_⟩
    unfold judged right aboveFloor Correct
    rw [hpr]
    simp only [Snn.computeOutput, hnet, Res.ok_bind, and_true]
    rw [← forall₂_getD (R := fun o e => |o - e| ≤ data.precision) h2 hy]
    constructor
    · intro h; exact ⟨out, _, rfl, h⟩
    · rintro ⟨o, s', h3, h4⟩; cases h3; exact h4

open Classical in
theorem countP_forall₂ {α β : Type} {R : α → β → Prop} {p : α → Prop} {q : β → Prop} (h : ∀ a b, R a b → (q b ↔ p a)) :
    ∀ {l : List α} {m : List β}, List.Forall₂ R l m → m.countP (fun b => decide (q b)) = l.countP (fun a => decide (p a))
  | _, _, .nil => rfl
  | _, _, .cons hab hs => by
    rw [List.countP_cons, List.countP_cons, countP_forall₂ h hs]
    simp [h _ _ hab]

open Classical in
/-- An evaluation of a feedforward network. -/
theorem evaluate_counts {ni no : Nat} {env : Env F} {r : Run F} (hs : SafeNet ni no r.snn.net) (hrec : ∀ l ∈ r.snn.net.layers, NonRecurrent l)
    (hnan : r.snn.net.outputNan = false) (hd : SafeData ni no r.data) (hnt : r.data.typeOfTemporal = .nonTemporal)
    (hp : r.data.typeOfProblem = .regression → 0 ≤ r.data.precision) :
    ∃ r' es st, r.evaluate env = .ok r' ∧ List.Forall₂ (Judges r.data r.snn.net) (testingExamples r.data) es ∧
      es.foldlM Stats.evaluateOnce r.snn.net.stats.startTesting = .ok st ∧ r'.snn.net.stats = st.stopTesting ∧
      StatSpec.Run no r.snn.net.stats.startTesting es st ∧
      es.countP (fun e => decide (judged no e)) = (testingExamples r.data).countP (fun x => decide (Correct r.snn r.data x)) ∧
      es.length = r.data.testing.size := by
  obtain ⟨r', h, _, _⟩ := evaluate_safe env hs hd
  have hsize : r.data.testing.inputs.length = r.data.testing.size := by rw [hd.testSize, hd.test.1]
  have h0 := h
  unfold Run.evaluate at h
  obtain ⟨⟨b, s⟩, hl, h⟩ := Res.bind_eq_ok.1 h
  obtain ⟨rfl, es, hes, hfold⟩ := loop_judges (net0 := r.snn.net) hnt hrec (by intro x _ out _; simp [hasBadValue]) hsize hd.testSize.symm r.data.testing.size 0 (by omega) (by rfl)
    (by exact hnan) (by exact forall₂_refl Layer.Same.refl _) hl
  obtain ⟨r1', e1, e2⟩ := evaluate_stats hl
  rw [h0] at e1
  cases e1
  simp only [List.drop_zero] at hes
  have hrow : ∀ row ∈ testingExamples r.data, row.1.length = ni ∧ row.2.length = no := by
    intro row hrow
    have := List.of_mem_zip (a := row.1) (b := row.2) hrow
    exact ⟨hd.test.inputs _ this.1, hd.test.labels _ this.2⟩
  have hes' : List.Forall₂ (fun row e => Judges r.data r.snn.net row e ∧ row.1.length = ni ∧ row.2.length = no) (testingExamples r.data) es := by
    have : ∀ {l : List (List F × List F)} {m : List (Ev F)}, List.Forall₂ (Judges r.data r.snn.net) l m → (∀ row ∈ l, row.1.length = ni ∧ row.2.length = no) →
        List.Forall₂ (fun row e => Judges r.data r.snn.net row e ∧ row.1.length = ni ∧ row.2.length = no) l m := by
      intro l m h
      induction h with
      | nil => intro _; exact .nil
      | cons h1 _ ih => intro hr; exact .cons ⟨h1, hr _ (by simp)⟩ (ih fun row h => hr row (by simp [h]))
    exact this hes hrow
  have hwf : ∀ e ∈ es, wf no e := by
    intro e he
    obtain ⟨i, hi, rfl⟩ := List.mem_iff_getElem.1 he
    have hlen := hes'.length_eq
    have := (List.forall₂_iff_get.1 hes').2 i (by omega) hi
    exact (judged_correct hs this.2.1 this.2.2 hp this.1).1
  obtain ⟨st, k1, k2⟩ := run_evaluate no es r.snn.net.stats.startTesting (by simp [Stats.startTesting, hs.clusters]) hwf
  have hfold' : es.foldlM Stats.evaluateOnce r.snn.net.stats.startTesting = .ok s.net.stats := hfold
  rw [k1] at hfold'
  simp only [Res.ok.injEq] at hfold'
  refine ⟨r', es, st, h0, hes, k1, by rw [e2, hfold'], k2, ?_, ?_⟩
  · exact countP_forall₂ (fun row e h => (judged_correct hs h.2.1 h.2.2 hp h.1).2) hes'
  · rw [← hes.length_eq]
    show (r.data.testing.inputs.zip r.data.testing.labels).length = _
    rw [List.length_zip, hsize, ← hd.testSize, Nat.min_self]

theorem finite_call {c : Call F} {r r' : Run F} (h : c.run r = .ok r') (hI : r.snn.net.outputNan = false) : r'.snn.net.outputNan = false := by
  cases c with
  | computeOutput x t =>
    simp only [Call.run, Snn.computeOutput] at h
    cases ho : r.snn.net.output x t with
    | ok p =>
      obtain ⟨out, net⟩ := p
      rw [ho] at h
      cases h
      obtain ⟨_, _, _, _, b⟩ := Net.output_same ho
      simp [b, hI, hasBadValue]
    | throw m => rw [ho] at h; cases h
    | ub m => rw [ho] at h; cases h
  | computeCluster x t =>
    simp only [Call.run, Snn.computeCluster] at h
    cases ho : r.snn.net.output x t with
    | ok p =>
      obtain ⟨out, net⟩ := p
      rw [ho] at h
      cases h
      obtain ⟨_, _, _, _, b⟩ := Net.output_same ho
      simp [b, hI, hasBadValue]
    | throw m => rw [ho] at h; cases h
    | ub m => rw [ho] at h; cases h
  | evaluate env data => exact (evaluate_save (r := { r with data := data }) (by exact hI) h).1
  | train env data wait b ef fuel =>
    exact train_induct (r := { r with data := data }) (P := fun n _ t => n.outputNan = false)
      (fun n a t h => h)
      (fun r r' b ret hp hf hs => (step_facts hf hs).1)
      (fun r r' hp he => (evaluate_save hp he).1) (by exact hI) h
  | saveAs path =>
    simp only [Call.run, Run.saveAs] at h
    split at h
    · cases h
    · cases h; exact hI
  | autoSave w path => cases h; exact hI

theorem finite_calls {cs : List (Call F)} {r r' : Run F} (h : cs.foldlM Call.run r = .ok r') (hI : r.snn.net.outputNan = false) :
    r'.snn.net.outputNan = false := by
  induction cs generalizing r with
  | nil => cases h; exact hI
  | cons c cs ih =>
    rw [List.foldlM_cons] at h
    obtain ⟨r1, h1, h2⟩ := Res.bind_eq_ok.1 h
    exact ih h2 (finite_call h1 hI)

/-- In exact arithmetic no output is NaN. -/
theorem history_finite {arch : List (LayerModel F)} {opt : Sgd F} {d d' : Draws F} {snn : Snn F} (hm : Snn.make arch opt d = .ok (snn, d'))
    {calls : List (Call F)} {r r' : Run F} (hr : r.snn = snn) (hrun : calls.foldlM Call.run r = .ok r') : r'.snn.net.outputNan = false := by
  have h0 := (make_best hm).nan
  rw [← hr] at h0
  exact finite_calls hrun h0

open Classical in
/-- **C66.** Make a network from any well formed feedforward architecture that ends with neurons, and use it in any way (train,
evaluate, infer, save, in any order and number). Then `evaluate` on non temporal data that fit the network
returns, and the accuracy it reports is exactly the proportion of the testing examples on which the network is right: for a
classification those where `computeCluster` answers their class, for a multiple classification those whose outputs are all on the
right side of the separator, for a regression those whose outputs are all within the precision. -/
theorem C66_accuracy {arch : List (LayerModel F)} {s s' : List Nat} (h : WellFormed arch s s') (he : EndsWithNeurons arch) (hf : Feedforward arch)
    {opt : Sgd F} {d d' : Draws F} {snn : Snn F} (hm : Snn.make arch opt d = .ok (snn, d')) (calls : List (Call F))
    (hc : ∀ c ∈ calls, CallFits s.prod s'.prod c) (r r' : Run F) (hr : r.snn = snn) (hrun : calls.foldlM Call.run r = .ok r')
    (env : Env F) (data : Data F) (hd : Fitted s.prod s'.prod data)
    (hnt : data.typeOfTemporal = .nonTemporal) (hp : data.typeOfProblem = .regression → 0 ≤ data.precision) :
    ∃ r2, ({ r' with data := data } : Run F).evaluate env = .ok r2 ∧
      r2.snn.net.stats.globalRate =
        (((testingExamples data).countP fun x => decide (Correct r'.snn data x) : Nat) : F) / ((testingExamples data).length : Nat) := by
  obtain ⟨hn, hi⟩ := make_safe h he hm
  obtain ⟨hpl, _⟩ := make_plainNet h hf hm
  rw [← hr] at hn hi hpl
  have hnan : r'.snn.net.outputNan = false := history_finite hm hr hrun
  obtain ⟨hn', _⟩ := history_safe hc hn hi hrun
  have hpl' := plain_kept.history hpl hrun
  obtain ⟨r2, es, st, e1, e2, e3, e4, e5, e6, e7⟩ := evaluate_counts (r := { r' with data := data }) (env := env) hn' hpl'.2 hnan hd.safe hnt hp
  refine ⟨r2, e1, ?_⟩
  rw [e4]
  have hg : st.stopTesting.globalRate = st.computeGlobalRate := rfl
  rw [hg]
  unfold Stats.computeGlobalRate
  have hw := e5.well
  have hmis := e5.mis
  have hcount : (es.countP fun e => decide (judged s'.prod e)) + (es.countP fun e => decide (¬ judged s'.prod e)) = es.length := by
    clear e2 e3 e5 e6 e7 hw hmis
    induction es with
    | nil => rfl
    | cons e es ih =>
      simp only [List.countP_cons, List.length_cons]
      by_cases hj : judged s'.prod e <;> simp only [hj, decide_true, decide_false, not_true_eq_false, not_false_eq_true, if_true, if_false, Bool.false_eq_true] <;> omega
  have hz : (r'.snn.net.stats.startTesting : Stats F).wellClassified = 0 ∧ (r'.snn.net.stats.startTesting : Stats F).misclassified = 0 := by
    simp [Stats.startTesting]
  simp only at hw hmis e6 e7
  rw [hz.1, zero_add] at hw
  rw [hz.2, zero_add] at hmis
  rw [hw, hmis, ← Nat.cast_add, hcount, e6, ← e2.length_eq]

/-- A call that is not a training. -/
theorem idle_call {c : Call F} {r r' : Run F} (hl : lesson c = none) (h : c.run r = .ok r') (hI : r.snn.net.outputNan = false) :
    Keeps r.snn r'.snn ∧ r.snn.net.stats.globalRateMax ≤ r'.snn.net.stats.globalRateMax := by
  cases c with
  | computeOutput x t =>
    simp only [Call.run, Snn.computeOutput] at h
    cases ho : r.snn.net.output x t with
    | ok p =>
      obtain ⟨out, net⟩ := p
      rw [ho] at h
      cases h
      obtain ⟨k1, k2, k3, k4, k5⟩ := Net.output_same ho
      exact ⟨⟨k1, k2, k3⟩, by simp only [k4]; exact le_refl _⟩
    | throw m => rw [ho] at h; cases h
    | ub m => rw [ho] at h; cases h
  | computeCluster x t =>
    simp only [Call.run, Snn.computeCluster] at h
    cases ho : r.snn.net.output x t with
    | ok p =>
      obtain ⟨out, net⟩ := p
      rw [ho] at h
      cases h
      obtain ⟨k1, k2, k3, k4, k5⟩ := Net.output_same ho
      exact ⟨⟨k1, k2, k3⟩, by simp only [k4]; exact le_refl _⟩
    | throw m => rw [ho] at h; cases h
    | ub m => rw [ho] at h; cases h
  | evaluate env data =>
    have h : ({ r with data := data } : Run F).evaluate env = .ok r' := h
    refine ⟨(evaluate_keeps h).1, ?_⟩
    rw [(evaluate_save (by exact hI) h).2.2.1]
    exact le_max_left _ _
  | train env data wait b ef fuel => cases hl
  | saveAs path =>
    simp only [Call.run, Run.saveAs] at h
    split at h
    · cases h
    · cases h; exact ⟨⟨forall₂_refl Layer.Same.refl _, rfl, rfl⟩, le_refl _⟩
  | autoSave w path => cases h; exact ⟨⟨forall₂_refl Layer.Same.refl _, rfl, rfl⟩, le_refl _⟩

theorem idle_calls {cs : List (Call F)} (hl : ∀ c ∈ cs, lesson c = none) {r r' : Run F} (h : cs.foldlM Call.run r = .ok r')
    (hI : r.snn.net.outputNan = false) : Keeps r.snn r'.snn ∧ r.snn.net.stats.globalRateMax ≤ r'.snn.net.stats.globalRateMax := by
  induction cs generalizing r with
  | nil => cases h; exact ⟨Keeps.refl _, le_refl _⟩
  | cons c cs ih =>
    rw [List.foldlM_cons] at h
    obtain ⟨r1, h1, h2⟩ := Res.bind_eq_ok.1 h
    obtain ⟨a, b⟩ := idle_call (hl c (by simp)) h1 hI
    obtain ⟨a', b'⟩ := ih (fun c hc => hl c (by simp [hc])) h2 (finite_call h1 hI)
    exact ⟨a.trans a', b.trans b'⟩

theorem judges_unique {data : Data F} {n m : Net F} (h : List.Forall₂ Layer.Same n.layers m.layers) (hn : ∀ l ∈ n.layers, NonRecurrent l)
    {row : List F × List F} {e e' : Ev F} (h1 : Judges data n row e) (h2 : Judges data m row e') : e' = e := by
  obtain ⟨o1, a1, b1⟩ := h1
  obtain ⟨o2, a2, b2⟩ := h2
  have := Net.output_rel h hn row.1 false false
  rw [a1, a2] at this
  cases this
  cases hp : data.typeOfProblem with
  | classification =>
    rw [hp] at b1 b2
    obtain ⟨k, c1, rfl⟩ := b1
    obtain ⟨k', c2, rfl⟩ := b2
    rw [c1] at c2; cases c2; rfl
  | multipleClassification => rw [hp] at b1 b2; rw [b1, b2]
  | regression => rw [hp] at b1 b2; rw [b1, b2]

theorem forall₂_unique {α β : Type} {R S : α → β → Prop} (h : ∀ a b c, R a b → S a c → c = b) : ∀ {l : List α} {m k : List β},
    List.Forall₂ R l m → List.Forall₂ S l k → k = m
  | _, _, _, .nil, .nil => rfl
  | _, _, _, .cons h1 t1, .cons h2 t2 => by rw [h _ _ _ h1 h2, forall₂_unique h t1 t2]

/-- The counters after the same evaluations are the same. -/
theorem run_unique {n : Nat} {s t s' t' : Stats F} {es : List (Ev F)} (hs : s.clusters.length = n) (ht : t.clusters.length = n)
    (h1 : StatSpec.Run n s.startTesting es s') (h2 : StatSpec.Run n t.startTesting es t') :
    t'.clusters = s'.clusters ∧ t'.wellClassified = s'.wellClassified ∧ t'.misclassified = s'.misclassified := by
  refine ⟨?_, by rw [h1.well, h2.well]; rfl, by rw [h1.mis, h2.mis]; rfl⟩
  apply List.ext_getElem?
  intro i
  by_cases hi : i < n
  · obtain ⟨c, hc, a1, a2, a3, a4, a5⟩ := h1.tp i hi Cluster.zero (by simp [Stats.startTesting, hs, hi])
    obtain ⟨c', hc', b1, b2, b3, b4, b5⟩ := h2.tp i hi Cluster.zero (by simp [Stats.startTesting, ht, hi])
    rw [hc, hc']
    congr 1
    cases c; cases c'
    simp_all
  · rw [List.getElem?_eq_none (by rw [h2.len]; omega), List.getElem?_eq_none (by rw [h1.len]; omega)]

/-- **C67.** For every network made from a well formed feedforward architecture that ends with neurons, after every history: evaluate
it on non temporal data, then do anything but training (inferences, evaluations on other data, saves, in any order and number), and
evaluate it again on the same data. The second evaluation reports the same confusion counts, accuracy, weighted accuracy, F1 score,
mean absolute error and RMSE as the first, is no improvement, and so writes no file. -/
theorem C67_evaluate_again {arch : List (LayerModel F)} {s s' : List Nat} (h : WellFormed arch s s') (he : EndsWithNeurons arch)
    (hf : Feedforward arch) {opt : Sgd F} {d d' : Draws F} {snn : Snn F} (hm : Snn.make arch opt d = .ok (snn, d'))
    (calls between : List (Call F)) (hc : ∀ c ∈ calls, CallFits s.prod s'.prod c) (hb : ∀ c ∈ between, CallFits s.prod s'.prod c)
    (hidle : ∀ c ∈ between, lesson c = none) (env env' : Env F) (data : Data F) (hd : Fitted s.prod s'.prod data)
    (hnt : data.typeOfTemporal = .nonTemporal) (hp : data.typeOfProblem = .regression → 0 ≤ data.precision)
    (r r0 r1 r2 r3 : Run F) (hr : r.snn = snn) (hrun : calls.foldlM Call.run r = .ok r0) (hev : Call.run r0 (.evaluate env data) = .ok r1)
    (hbet : between.foldlM Call.run r1 = .ok r2) (hev' : Call.run r2 (.evaluate env' data) = .ok r3) :
    r3.snn.net.stats.clusters = r1.snn.net.stats.clusters ∧ r3.snn.net.stats.wellClassified = r1.snn.net.stats.wellClassified ∧
      r3.snn.net.stats.misclassified = r1.snn.net.stats.misclassified ∧ r3.snn.net.stats.globalRate = r1.snn.net.stats.globalRate ∧
      r3.snn.net.stats.weightedRate = r1.snn.net.stats.weightedRate ∧ r3.snn.net.stats.f1Score = r1.snn.net.stats.f1Score ∧
      r3.snn.net.stats.mae = r1.snn.net.stats.mae ∧ r3.snn.net.stats.rmse = r1.snn.net.stats.rmse ∧
      r3.snn.net.stats.globalRateMax = r2.snn.net.stats.globalRateMax ∧ saves r3.trace = saves r2.trace := by
  obtain ⟨hn, hi⟩ := make_safe h he hm
  obtain ⟨hpl, _⟩ := make_plainNet h hf hm
  rw [← hr] at hn hi hpl
  have hnan0 : r0.snn.net.outputNan = false := history_finite hm hr hrun
  have hnan1 := finite_call hev hnan0
  have hnan2 := finite_calls hbet hnan1
  obtain ⟨hn0, hi0⟩ := history_safe hc hn hi hrun
  obtain ⟨hn1, hi1⟩ := history_safe (calls := [.evaluate env data]) (by simpa [CallFits] using hd) hn0 hi0 (by rw [List.foldlM_cons, hev]; rfl)
  obtain ⟨hn2, _⟩ := history_safe hb hn1 hi1 hbet
  have hpl0 := plain_kept.history hpl hrun
  have hpl1 := plain_kept.call hpl0 hev
  have hpl2 := plain_kept.history hpl1 hbet
  have hk01 := (idle_call rfl hev hnan0).1
  obtain ⟨hk12, hmax⟩ := idle_calls hidle hbet hnan1
  obtain ⟨q1, es, st, a1, a2, a3, a4, a5, a6, a7⟩ := evaluate_counts (r := { r0 with data := data }) (env := env) hn0 hpl0.2 hnan0 hd.safe hnt hp
  obtain ⟨q3, es', st', b1, b2, b3, b4, b5, b6, b7⟩ := evaluate_counts (r := { r2 with data := data }) (env := env') hn2 hpl2.2 hnan2 hd.safe hnt hp
  have hev1 : ({ r0 with data := data } : Run F).evaluate env = .ok r1 := hev
  have hev3 : ({ r2 with data := data } : Run F).evaluate env' = .ok r3 := hev'
  rw [hev1] at a1; cases a1
  rw [hev3] at b1; cases b1
  have hes : es' = es := forall₂_unique (R := Judges data r0.snn.net) (S := Judges data r2.snn.net)
    (fun row e e' h1 h2 => judges_unique (hk01.trans hk12).layers hpl0.2 h1 h2) a2 b2
  subst hes
  obtain ⟨c1, c2, c3⟩ := run_unique hn0.clusters hn2.clusters a5 b5
  have hg : st'.computeGlobalRate = st.computeGlobalRate := by simp only [Stats.computeGlobalRate, c2, c3]
  have hs1 := evaluate_save (by exact hnan0) hev1
  have hs3 := evaluate_save (by exact hnan2) hev3
  have hrate : r3.snn.net.stats.globalRate = r1.snn.net.stats.globalRate := by
    rw [a4, b4]; exact hg
  have hle : r3.snn.net.stats.globalRate ≤ r2.snn.net.stats.globalRateMax := by
    rw [hrate]
    refine le_trans ?_ hmax
    rw [hs1.2.2.1]
    exact le_max_right _ _
  refine ⟨?_, ?_, ?_, hrate, ?_, ?_, ?_, ?_, ?_, ?_⟩
  · rw [a4, b4]; exact c1
  · rw [a4, b4]; exact c2
  · rw [a4, b4]; exact c3
  · rw [a4, b4]; simp only [Stats.stopTesting, Stats.computeWeightedRate, c1]
  · rw [a4, b4]; simp only [Stats.stopTesting, Stats.computeF1Score, c1]
  · rw [a4, b4]; simp only [Stats.stopTesting, Stats.computeMae, c1, c2, c3]
  · rw [a4, b4]; simp only [Stats.stopTesting, Stats.computeRmse, c1, c2, c3]
  · rw [hs3.2.2.1]; exact max_eq_left hle
  · rw [hs3.2.2.2, if_neg (by rintro ⟨_, hlt⟩; exact absurd hlt (not_lt.2 hle)), List.append_nil]

end

/-! ### Witness -/

open LeakProps (convArch convNet conv_wellFormed dataA dataB)

theorem dataA_fitted : Fitted [1, 3, 4].prod [2].prod dataA :=
  .make2 (p := .classification) (ti := [[1, 0, 2, 0, 1, 1, 0, 2, 1, 0, 0, 1], [0, 1, 1, 2, 0, 1, 1, 0, 2, 1, 0, 1]]) (tl := [[1, 0], [0, 1]])
    (si := [[1, 1, 1, 0, 0, 0, 1, 1, 1, 0, 0, 0]]) (sl := [[0, 1]]) (nat := .nonTemporal) (rec := 0) (Res.eq_get _ _)
    ⟨rfl, by intro r hr; simp at hr; rcases hr with rfl | rfl <;> rfl, by intro r hr; simp at hr; rcases hr with rfl | rfl <;> rfl⟩
    ⟨rfl, by intro r hr; simp at hr; subst hr; rfl, by intro r hr; simp at hr; subst hr; rfl⟩
    (by intro _ l hl; simp at hl; subst hl; exact ⟨1, by simp, by decide +kernel⟩) (by intro h; cases h)

/-- The convolutional network after a training. -/
def convTrained : Run ℚ := (Call.run (Demo.run convNet dataA) (.train Demo.env dataA (litEp 2) 1 1 50)).get (by decide +kernel)
/-- After an evaluation. -/
def evaluated1 : Run ℚ := (Call.run convTrained (.evaluate Demo.env dataA)).get (by decide +kernel)
/-- After other calls. -/
def between : List (Call ℚ) := [.computeOutput [9, 8, 7, 6, 5, 4, 3, 2, 1, 0, 1, 2] true, .autoSave true "x.snn", .saveAs "y.snn"]
/-- The state after them. -/
def evaluated2 : Run ℚ := (between.foldlM Call.run evaluated1).get (by decide +kernel)
/-- After the second evaluation. -/
def evaluated3 : Run ℚ := (Call.run evaluated2 (.evaluate Demo.env dataA)).get (by decide +kernel)

theorem convFeedforward : Feedforward convArch := by
  intro m hm
  simp only [convArch, List.mem_cons, List.not_mem_nil, or_false] at hm
  rcases hm with rfl | rfl | rfl | rfl | rfl <;> trivial

theorem training_fits : ∀ c ∈ [Call.train Demo.env dataA (litEp 2) 1 1 50], CallFits [1, 3, 4].prod [2].prod c := by
  intro c hc
  simp only [List.mem_cons, List.not_mem_nil, or_false] at hc
  subst hc
  exact ⟨dataA_fitted, by decide, by decide +kernel, fun h => absurd rfl h, 3, overFrom_ep 2 (by decide), by decide, by decide +kernel⟩

theorem convMade : Snn.make convArch Demo.sgd Demo.draws = .ok (convNet, ((Snn.make convArch Demo.sgd Demo.draws).get (by decide +kernel)).2) :=
  Res.eq_get _ (by decide +kernel)

theorem convRun : [Call.train Demo.env dataA (litEp 2) 1 1 50].foldlM Call.run (Demo.run convNet dataA) = .ok convTrained := by
  rw [List.foldlM_cons]
  rw [show Call.run (Demo.run convNet dataA) (.train Demo.env dataA (litEp 2) 1 1 50) = .ok convTrained from Res.eq_get _ _]
  rfl

open Classical in
/-- C66 and C67 apply to a trained convolutional network. -/
example : (∃ r2, ({ convTrained with data := dataA } : Run ℚ).evaluate Demo.env = .ok r2 ∧
      r2.snn.net.stats.globalRate = (((testingExamples dataA).countP fun x => decide (Correct convTrained.snn dataA x) : Nat) : ℚ) /
        ((testingExamples dataA).length : Nat)) ∧
    evaluated3.snn.net.stats.clusters = evaluated1.snn.net.stats.clusters ∧ saves evaluated3.trace = saves evaluated2.trace := by
  refine ⟨C66_accuracy conv_wellFormed trivial convFeedforward convMade _ training_fits (Demo.run convNet dataA) convTrained rfl convRun Demo.env dataA
    dataA_fitted (by decide +kernel) (by intro h; exact absurd h (by decide +kernel)), ?_⟩
  have := C67_evaluate_again conv_wellFormed trivial convFeedforward convMade _ between training_fits (by
      intro c hc
      simp only [between, List.mem_cons, List.not_mem_nil, or_false] at hc
      rcases hc with rfl | rfl | rfl
      · rfl
      · trivial
      · trivial) (by
      intro c hc
      simp only [between, List.mem_cons, List.not_mem_nil, or_false] at hc
      rcases hc with rfl | rfl | rfl <;> rfl) Demo.env Demo.env dataA dataA_fitted (by decide +kernel) (by intro h; exact absurd h (by decide +kernel))
      (Demo.run convNet dataA) convTrained evaluated1 evaluated2 evaluated3 rfl convRun (Res.eq_get _ _) (Res.eq_get _ _) (Res.eq_get _ _)
  exact ⟨this.1, this.2.2.2.2.2.2.2.2.2⟩

/-- The accuracy of the example, computed. -/
example : evaluated1.snn.net.stats.globalRate = 1 ∨ evaluated1.snn.net.stats.globalRate = 0 := by decide +kernel

end Snn.AccuracyProps
