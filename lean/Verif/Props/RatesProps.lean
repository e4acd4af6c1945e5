import Verif.Spec.RatesSpec
import Verif.Props.AccuracyProps

/-! C82: the weighted clustering rate is the mean recall, the F1 score the mean F1, the mean absolute error the mean distance. -/

set_option linter.all false

namespace Snn.RatesProps

open Snn.Spec Snn.StatSpec Snn.OrderProps HistoryProps SafeProps EvalProps InferenceProps TrainSpec AccuracyProps

section
variable {F : Type} [Field F] [LinearOrder F] [IsStrictOrderedRing F] [FTrans F]

theorem getD_lt {l : List F} {i : Nat} (h : i < l.length) (a : F) : (∃ v, l[i]? = some v ∧ a < v) ↔ a < l.getD i 0 := by
  rw [List.getD_eq_getElem?_getD, List.getElem?_eq_getElem h]
  simp

/-- One example and one label: the verdict of the evaluation. -/
theorem cell_spec {s : Snn F} {data : Data F} {ni no : Nat} (hs : SafeNet ni no s.net) {row : List F × List F} (hx : row.1.length = ni)
    (hy : row.2.length = no) {e : Ev F} (he : Judges data s.net row e) {i : Nat} (hi : i < no) :
    (cell i e = .tp ↔ Predicts s data row i ∧ HasLabel data row i) ∧
    (data.typeOfProblem ≠ .regression → (cell i e = .fp ↔ Predicts s data row i ∧ ¬ HasLabel data row i) ∧
      (cell i e = .fn ↔ ¬ Predicts s data row i ∧ HasLabel data row i)) ∧
    absError i e = |(answer s row.1).getD i 0 - target data row i| := by
  obtain ⟨out, ho, he⟩ := he
  obtain ⟨net, hnet⟩ := map_fst_ok ho
  obtain ⟨y, net', h1, h2, _⟩ := Net.output_ok hs.wf row.1 hx false
  rw [hnet] at h1
  cases h1
  have hans : answer s row.1 = out := by simp only [answer, Snn.computeOutput, hnet, Res.ok_bind]; rfl
  have hpred : Predicts s data row i ↔ data.separator < out.getD i 0 := by
    rw [← getD_lt (by omega)]
    unfold Predicts
    simp only [Snn.computeOutput, hnet, Res.ok_bind]
    constructor
    · rintro ⟨o, s', h3, h4⟩; cases h3; exact h4
    · intro h; exact ⟨out, _, rfl, h⟩
  rw [hpred, hans]
  cases hpr : data.typeOfProblem with
  | classification =>
    rw [hpr] at he
    obtain ⟨k, hk, rfl⟩ := he
    have hlab : HasLabel data row i ↔ i = k := by
      unfold HasLabel
      rw [hpr]
      constructor
      · intro h; exact isClass_unique (firstOne_class hk) h
      · rintro rfl; exact firstOne_class hk
    have hcl : IsClass row.2 i ↔ i = k := by
      rw [← hlab]; unfold HasLabel; rw [hpr]
    rw [hlab]
    have hik : ((i : Int) = (k : Int)) ↔ i = k := by omega
    refine ⟨?_, fun _ => ⟨?_, ?_⟩, ?_⟩
    · simp only [cell]; split_ifs <;> simp_all
    · simp only [cell]; split_ifs <;> simp_all
    · simp only [cell]; split_ifs <;> simp_all
    · simp only [absError, target, hpr, hik, hcl]
  | multipleClassification =>
    rw [hpr] at he
    subst he
    have hlab : HasLabel data row i ↔ data.separator < row.2.getD i 0 := by
      unfold HasLabel
      rw [hpr]
      exact getD_lt (by omega) _
    rw [hlab]
    refine ⟨?_, fun _ => ⟨?_, ?_⟩, ?_⟩
    · simp only [cell]; split_ifs <;> simp_all
    · simp only [cell]; split_ifs <;> simp_all
    · simp only [cell]; split_ifs <;> simp_all
    · simp only [absError, target, hpr]
  | regression =>
    rw [hpr] at he
    subst he
    have hlab : HasLabel data row i ↔ False := by unfold HasLabel; rw [hpr]
    rw [hlab]
    refine ⟨?_, fun h => absurd rfl h, ?_⟩
    · simp only [cell]; split_ifs <;> simp_all
    · simp only [absError, target, hpr]

theorem countP_rel {α β : Type} {R : α → β → Prop} {p : α → Prop} {q : β → Prop} [DecidablePred p] [DecidablePred q] (h : ∀ a b, R a b → (q b ↔ p a)) :
    ∀ {l : List α} {m : List β}, List.Forall₂ R l m → m.countP (fun b => decide (q b)) = l.countP (fun a => decide (p a))
  | _, _, .nil => rfl
  | _, _, .cons hab hs => by
    rw [List.countP_cons, List.countP_cons, countP_rel h hs]
    simp [h _ _ hab]

open Classical in
theorem countP_two {α : Type} (l : List α) (p q : α → Prop) :
    l.countP (fun a => decide (p a)) = l.countP (fun a => decide (p a ∧ q a)) + l.countP (fun a => decide (p a ∧ ¬ q a)) := by
  induction l with
  | nil => rfl
  | cons a l ih =>
    simp only [List.countP_cons, ih]
    by_cases hp : p a <;> by_cases hq : q a <;> simp [hp, hq] <;> omega

theorem foldl_clusters (l : List (Cluster F)) (g : Cluster F → F) (f : F → Cluster F → F) (h : ∀ c ∈ l, ∀ r, f r c = r + g c) (r : F) :
    l.foldl f r = r + (l.map g).sum := by
  induction l generalizing r with
  | nil => simp
  | cons c l ih =>
    simp only [List.foldl_cons, List.map_cons, List.sum_cons]
    rw [h c (by simp), ih (fun c hc => h c (by simp [hc]))]
    ring

/-- The arithmetic of the F1 score. -/
theorem f1_arith {t p n : F} (ht : 0 < t) (hp : 0 ≤ p) (hn : 0 ≤ n) :
    2 * ((t / (t + p)) * (t / (t + n)) / (t / (t + p) + t / (t + n))) = 2 * t / ((t + p) + (t + n)) := by
  have h1 : t + p ≠ 0 := by positivity
  have h2 : t + n ≠ 0 := by positivity
  have h3 : (t + p) + (t + n) ≠ 0 := by positivity
  have h4 : t / (t + p) + t / (t + n) ≠ 0 := by positivity
  have h5 : t / (t + p) + t / (t + n) = t * ((t + p) + (t + n)) / ((t + p) * (t + n)) := by
    field_simp; ring
  have ht' : t ≠ 0 := ht.ne'
  rw [h5]
  field_simp

open Classical in
/-- **C82.** Make a network from any well formed feedforward architecture that ends with neurons, and use it in any way. Then
`evaluate` on non temporal data that fit the network returns, and: the weighted clustering rate it reports is the mean over the
labels of their recall, the F1 score the mean over the labels of their F1 score, where a label is predicted when its output is
above the separator; and the mean absolute error is the mean over the examples of the distance (sum over the outputs of the absolute
differences) between the outputs and the expected ones. In a regression there are no labels: both rates are 0. -/
theorem C82_rates_partial {arch : List (LayerModel F)} {s s' : List Nat} (h : WellFormed arch s s') (he : EndsWithNeurons arch) (hf : Feedforward arch)
    {opt : Sgd F} {d d' : Draws F} {snn : Snn F} (hm : Snn.make arch opt d = .ok (snn, d')) (calls : List (Call F))
    (hc : ∀ c ∈ calls, CallFits s.prod s'.prod c) (r r' : Run F) (hr : r.snn = snn) (hrun : calls.foldlM Call.run r = .ok r')
    (env : Env F) (data : Data F) (hd : Fitted s.prod s'.prod data)
    (hnt : data.typeOfTemporal = .nonTemporal) (hp : data.typeOfProblem = .regression → 0 ≤ data.precision) :
    ∃ r2, ({ r' with data := data } : Run F).evaluate env = .ok r2 ∧
      r2.snn.net.stats.weightedRate = ((List.range s'.prod).map fun k => recall r'.snn data k).sum / (s'.prod : Nat) ∧
      r2.snn.net.stats.f1Score = ((List.range s'.prod).map fun k => f1 r'.snn data k).sum / (s'.prod : Nat) ∧
      r2.snn.net.stats.mae = ((testingExamples data).map fun x =>
        ((List.range s'.prod).map fun k => |(answer r'.snn x.1).getD k 0 - target data x k|).sum).sum / ((testingExamples data).length : Nat) := by
  obtain ⟨hn, hi⟩ := make_safe h he hm
  obtain ⟨hpl, _⟩ := make_plainNet h hf hm
  rw [← hr] at hn hi hpl
  have hnan : r'.snn.net.outputNan = false := history_finite hm hr hrun
  obtain ⟨hn', _⟩ := history_safe hc hn hi hrun
  have hpl' := plain_kept.history hpl hrun
  obtain ⟨r2, es, st, e1, e2, e3, e4, e5, e6, e7⟩ := evaluate_counts (r := { r' with data := data }) (env := env) hn' hpl'.2 hnan hd.safe hnt hp
  simp only at e2 e3 e4 e5 e6 e7
  have hrow : ∀ row ∈ testingExamples data, row.1.length = s.prod ∧ row.2.length = s'.prod := by
    intro row hrow
    have := List.of_mem_zip (a := row.1) (b := row.2) hrow
    exact ⟨hd.safe.test.inputs _ this.1, hd.safe.test.labels _ this.2⟩
  have hes : List.Forall₂ (fun row e => Judges data r'.snn.net row e ∧ row.1.length = s.prod ∧ row.2.length = s'.prod) (testingExamples data) es := by
    have : ∀ {l : List (List F × List F)} {m : List (Ev F)}, List.Forall₂ (Judges data r'.snn.net) l m → (∀ row ∈ l, row.1.length = s.prod ∧ row.2.length = s'.prod) →
        List.Forall₂ (fun row e => Judges data r'.snn.net row e ∧ row.1.length = s.prod ∧ row.2.length = s'.prod) l m := by
      intro l m h
      induction h with
      | nil => intro _; exact .nil
      | cons h1 _ ih => intro hr; exact .cons ⟨h1, hr _ (by simp)⟩ (ih fun row h => hr row (by simp [h]))
    exact this e2 hrow
  have hwf : ∀ e ∈ es, wf r'.snn.net.stats.clusters.length e := by
    intro e he
    obtain ⟨i, hi, rfl⟩ := List.mem_iff_getElem.1 he
    have hlen := hes.length_eq
    have := (List.forall₂_iff_get.1 hes).2 i (by omega) hi
    rw [hn'.clusters]
    exact (judged_correct hn' this.2.1 this.2.2 hp this.1).1
  -- the counters
  have htp : ∀ i < s'.prod, es.countP (fun e => decide (cell i e = .tp)) = hits r'.snn data i := fun i hi =>
    countP_rel (fun row e h => (cell_spec hn' h.2.1 h.2.2 h.1 hi).1) hes
  have hclu : ∀ i, (hi : i < s'.prod) → ∃ c, st.clusters[i]? = some c ∧ c.truePositive = (hits r'.snn data i : F) ∧
      c.falsePositive = (es.countP (fun e => decide (cell i e = .fp)) : Nat) ∧
      c.falseNegative = (es.countP (fun e => decide (cell i e = .fn)) : Nat) := by
    intro i hi
    obtain ⟨c', hc', ht, htn, hfp, hfn, _⟩ := e5.tp i hi Cluster.zero (by simp [Stats.startTesting, hn'.clusters, hi])
    simp only [Cluster.zero, lit_eq, Rat.cast_zero, zero_add] at ht hfp hfn
    exact ⟨c', hc', by rw [ht, htp i hi], hfp, hfn⟩
  have hpos : ∀ i, i < s'.prod → hits r'.snn data i ≠ 0 → data.typeOfProblem ≠ .regression := by
    intro i hi h0 hreg
    apply h0
    unfold hits
    rw [List.countP_eq_zero]
    intro x _
    simp [HasLabel, hreg]
  have hsup : ∀ i, (hi : i < s'.prod) → data.typeOfProblem ≠ .regression →
      hits r'.snn data i + es.countP (fun e => decide (cell i e = .fn)) = support data i ∧
      hits r'.snn data i + es.countP (fun e => decide (cell i e = .fp)) = predicted r'.snn data i := by
    intro i hi hreg
    have hfn : es.countP (fun e => decide (cell i e = .fn)) = (testingExamples data).countP (fun x => decide (¬ Predicts r'.snn data x i ∧ HasLabel data x i)) :=
      countP_rel (fun row e h => ((cell_spec hn' h.2.1 h.2.2 h.1 hi).2.1 hreg).2) hes
    have hfp : es.countP (fun e => decide (cell i e = .fp)) = (testingExamples data).countP (fun x => decide (Predicts r'.snn data x i ∧ ¬ HasLabel data x i)) :=
      countP_rel (fun row e h => ((cell_spec hn' h.2.1 h.2.2 h.1 hi).2.1 hreg).1) hes
    constructor
    · rw [hfn]
      unfold hits support
      rw [countP_two _ (fun x => HasLabel data x i) (fun x => Predicts r'.snn data x i)]
      simp only [and_comm]
    · rw [hfp]
      unfold hits predicted
      rw [countP_two _ (fun x => Predicts r'.snn data x i) (fun x => HasLabel data x i)]
  have hmap : ∀ (g : Cluster F → F) (q : Nat → F), (∀ i c, i < s'.prod → st.clusters[i]? = some c → g c = q i) →
      st.clusters.map g = (List.range s'.prod).map q := by
    intro g q hgq
    apply List.ext_getElem
    · simp [e5.len]
    · intro i h1 h2
      simp only [List.getElem_map, List.getElem_range]
      have hi' : i < s'.prod := by simpa [e5.len] using h1
      have hi : i < st.clusters.length := by simpa using h1
      exact hgq i _ hi' (List.getElem?_eq_getElem hi)
  refine ⟨r2, e1, ?_, ?_, ?_⟩
  · rw [e4]
    show st.computeWeightedRate = _
    unfold Stats.computeWeightedRate
    rw [foldl_clusters st.clusters (fun c => if 0 < c.truePositive then c.truePositive / (c.truePositive + c.falseNegative) else 0) _ (by
      intro c _ r
      simp only [flt_iff, lit_eq, Rat.cast_zero]
      split <;> simp)]
    rw [hmap _ (fun k => recall r'.snn data k) (by
      intro i c hi hc
      obtain ⟨c', hc', h1, h2, h3⟩ := hclu i hi
      rw [hc] at hc'
      cases hc'
      unfold recall
      split
      · rename_i h0
        have hreg := hpos i hi (by rintro h; rw [h1, h] at h0; simp at h0)
        rw [h1, h3, ← (hsup i hi hreg).1]
        push_cast
        rfl
      · rename_i h0
        have : hits r'.snn data i = 0 := by
          by_contra hne
          exact h0 (by rw [h1]; exact_mod_cast Nat.pos_of_ne_zero hne)
        rw [this]; simp)]
    simp only [lit_eq, Rat.cast_zero, zero_add, e5.len, Rat.cast_natCast]
  · rw [e4]
    show st.computeF1Score = _
    unfold Stats.computeF1Score
    rw [foldl_clusters st.clusters (fun c => if 0 < c.truePositive then
        (c.truePositive / (c.truePositive + c.falsePositive)) * (c.truePositive / (c.truePositive + c.falseNegative)) /
          (c.truePositive / (c.truePositive + c.falsePositive) + c.truePositive / (c.truePositive + c.falseNegative)) else 0) _ (by
      intro c _ r
      simp only [flt_iff, lit_eq, Rat.cast_zero]
      split <;> simp)]
    rw [hmap _ (fun k => f1 r'.snn data k / 2) (by
      intro i c hi hc
      obtain ⟨c', hc', h1, h2, h3⟩ := hclu i hi
      rw [hc] at hc'
      cases hc'
      unfold f1
      split
      · rename_i h0
        have hreg := hpos i hi (by rintro h; rw [h1, h] at h0; simp at h0)
        have := f1_arith (t := c.truePositive) (p := c.falsePositive) (n := c.falseNegative) h0 (by rw [h2]; positivity) (by rw [h3]; positivity)
        rw [eq_div_iff (two_ne_zero), mul_comm, this]
        rw [← (hsup i hi hreg).1, ← (hsup i hi hreg).2, h1, h2, h3]
        push_cast
        rfl
      · rename_i h0
        have : hits r'.snn data i = 0 := by
          by_contra hne
          exact h0 (by rw [h1]; exact_mod_cast Nat.pos_of_ne_zero hne)
        rw [this]; simp)]
    have hsum : ∀ l : List Nat, (l.map fun k => f1 r'.snn data k / 2).sum = (l.map fun k => f1 r'.snn data k).sum / 2 := by
      intro l
      induction l with
      | nil => simp
      | cons a l ih => simp only [List.map_cons, List.sum_cons, ih]; ring
    rw [hsum]
    simp only [lit_eq, Rat.cast_zero, zero_add, e5.len, Rat.cast_natCast]
    congr 1
    push_cast
    ring
  · rw [e4]
    obtain ⟨s2, k1, k2⟩ := C15_mae_partial r'.snn.net.stats es hwf
    have : s2 = st.stopTesting := by
      simp only [Stats.testingPhase, e3, Res.ok_bind] at k1
      exact (Res.ok.inj k1).symm
    rw [← this, k2, hn'.clusters, ← hes.length_eq]
    congr 1
    have hmaps : es.map (fun e => ((List.range s'.prod).map fun i => absError i e).sum) = (testingExamples data).map fun x =>
        ((List.range s'.prod).map fun k => |(answer r'.snn x.1).getD k 0 - target data x k|).sum := by
      have : ∀ {l : List (List F × List F)} {m : List (Ev F)}, List.Forall₂ (fun row e => Judges data r'.snn.net row e ∧ row.1.length = s.prod ∧ row.2.length = s'.prod) l m →
          m.map (fun e => ((List.range s'.prod).map fun i => absError i e).sum) = l.map fun x =>
            ((List.range s'.prod).map fun k => |(answer r'.snn x.1).getD k 0 - target data x k|).sum := by
        intro l m h
        induction h with
        | nil => rfl
        | cons h1 _ ih =>
          simp only [List.map_cons, ih]
          congr 2
          apply List.map_congr_left
          intro i hi
          exact (cell_spec hn' h1.2.1 h1.2.2 h1.1 (List.mem_range.1 hi)).2.2
      exact this hes
    rw [hmaps]

end

/-! ### Refutation: the weighted rate does not weigh the predictions that the accuracy counts -/

/-- One input, two neurons. -/
def flatArch : List (LayerModel ℚ) := [.input [1], .fullyConnected 2 .identity []]
/-- Draws that make the second neuron answer less than the first. -/
def flatDraws : Draws ℚ := fun i => if i < 2 then 1 / 4 else 1 / 8
/-- The network. -/
def flat : Snn ℚ := (Snn.make flatArch Demo.sgd flatDraws |>.get (by decide +kernel)).1
/-- A classification whose only testing example has class 0. -/
def flatData : Data ℚ :=
  (Data.make2 .classification [[1], [2]] [[1, 0], [0, 1]] [[1]] [[1, 0]] .nonTemporal 0).get (by decide +kernel)
/-- The evaluation. -/
def flatRun : Run ℚ := ((Demo.run flat flatData).evaluate Demo.env).get (by decide +kernel)

/-- **C82, refutation for classifications.** Every testing example is classified right (`computeCluster` answers its class, and the
accuracy is 1), the only class with testing examples is therefore always found; but its recall in the weighted rate is 0, and so is
its F1 score, because these compare the output with the separator (1/2 by default) and not the outputs with each other. -/
theorem C82_found_refuted :
    (∀ x ∈ testingExamples flatData, Correct flat flatData x) ∧ flatRun.snn.net.stats.globalRate = 1 ∧
      flatRun.snn.net.stats.weightedRate = 0 ∧ flatRun.snn.net.stats.f1Score = 0 := by
  refine ⟨?_, by decide +kernel, by decide +kernel, by decide +kernel⟩
  intro x hx
  have : testingExamples flatData = [([1], [1, 0])] := by decide +kernel
  rw [this] at hx
  simp only [List.mem_cons, List.not_mem_nil, or_false] at hx
  subst hx
  unfold Correct
  rw [show flatData.typeOfProblem = .classification by decide +kernel]
  refine ⟨0, ((flat.computeCluster [1] false).get (by decide +kernel)).2, ?_, rfl, by intro j hj; omega⟩
  refine (Res.eq_get (flat.computeCluster [1] false) (by decide +kernel)).trans ?_
  congr 1
  exact Prod.ext (by decide +kernel) rfl

/-! ### Witness -/

/-- C82 applies to a trained convolutional network. -/
example : ∃ r2, ({ convTrained with data := LeakProps.dataA } : Run ℚ).evaluate Demo.env = .ok r2 ∧
    r2.snn.net.stats.weightedRate = ((List.range [2].prod).map fun k => recall convTrained.snn LeakProps.dataA k).sum / ([2].prod : Nat) := by
  obtain ⟨r2, h1, h2, _⟩ := C82_rates_partial LeakProps.conv_wellFormed trivial convFeedforward convMade _ training_fits (Demo.run LeakProps.convNet LeakProps.dataA)
    convTrained rfl convRun Demo.env LeakProps.dataA dataA_fitted (by decide +kernel) (by intro h; exact absurd h (by decide +kernel))
  exact ⟨r2, h1, h2⟩

/-- The rates of the example, computed. -/
example : evaluated1.snn.net.stats.weightedRate = 1 / 2 ∨ evaluated1.snn.net.stats.weightedRate = 0 := by decide +kernel

end Snn.RatesProps
