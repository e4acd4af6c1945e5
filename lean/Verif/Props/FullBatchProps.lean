import Verif.Props.DataProps
import Verif.Props.TrainProps
import Verif.Spec.SafeSpec
import Verif.Proofs.GSim

/-!
# C79 (a training whose batch is the whole training set does not depend on the order of the examples) and C80 (what a batch does)
-/

set_option linter.all false

namespace Snn.FullBatchProps

open Spec
open G (relBind)

section
variable {F : Type} [Field F] [LinearOrder F] [IsStrictOrderedRing F] [FTrans F]

/-- Two data objects with the same training examples up to their order (and any content of the batch buffers). -/
structure SameSet (n w v : Nat) (d e : Data F) : Prop where
  problem : e.typeOfProblem = d.typeOfProblem
  dt : d.typeOfTemporal = .nonTemporal
  et : e.typeOfTemporal = .nonTemporal
  precision : e.precision = d.precision
  separator : e.separator = d.separator
  dw : d.sizeOfData = w
  ew : e.sizeOfData = w
  dv : d.numberOfLabels = v
  ev : e.numberOfLabels = v
  testing : e.testing = d.testing
  dn : d.training.size = n
  en : e.training.size = n
  dorder : d.training.shuffledIndexes.Perm (List.range n)
  eorder : e.training.shuffledIndexes.Perm (List.range n)
  dlen : d.training.inputs.length = n
  elen : e.training.inputs.length = n
  inputs : d.training.inputs.Perm e.training.inputs
  labels : d.training.labels.Perm e.training.labels
  dlenl : d.training.labels.length = n
  elenl : e.training.labels.length = n
  rows : Rows w d.training.inputs
  rowsl : Rows v d.training.labels

theorem meanRows_perm {w : Nat} {xs ys : List (List F)} (h : xs.Perm ys) : meanRows w xs = meanRows w ys := by
  unfold meanRows
  rw [h.length_eq]
  refine List.map_congr_left fun c _ => ?_
  rw [(h.map _).sum_eq]

/-- The whole set as one batch: the mean of the rows, whatever the order. -/
theorem getBatched_all {n w : Nat} {order : List Nat} {rows : List (List F)} (hn : 1 ≤ n) (ho : order.Perm (List.range n))
    (hl : rows.length = n) (hw : Rows w rows) (buffer : List F) :
    ∃ b, getBatched order rows w buffer 0 (n : Int) = .ok (meanRows w rows, b) := by
  have hlo : order.length = n := by simpa using ho.length_eq
  have hb : ∀ t, (h : t < n) → order.getD t 0 < rows.length := by
    intro t ht
    rw [List.getD_eq_getElem?_getD, List.getElem?_eq_getElem (by omega), Option.getD_some, hl]
    exact List.mem_range.1 (ho.subset (List.getElem_mem _))
  have hx : (List.range n).mapM (fun t => rd order ((0 + t : Nat) : Int) >>= fun k => rd rows (k : Int))
      = .ok ((List.range n).map fun t => rows.getD (order.getD t 0) []) := by
    apply mapM_ok
    intro t ht
    have ht := List.mem_range.1 ht
    have h1 := hb t ht
    have h0 : t < order.length := by omega
    rw [List.getD_eq_getElem?_getD, List.getElem?_eq_getElem h0, Option.getD_some] at h1
    rw [Nat.zero_add, rd_nat order t h0]
    simp only [Res.ok_bind]
    rw [List.getD_eq_getElem?_getD (l := order), List.getElem?_eq_getElem h0, Option.getD_some]
    rw [rd_nat rows _ h1, List.getD_eq_getElem?_getD, List.getElem?_eq_getElem h1, Option.getD_some]
  have hp : ((List.range n).map fun t => rows.getD (order.getD t 0) []).Perm rows := by
    have h1 := range_map_ix order (fun k => rows.getD k [])
    rw [hlo] at h1
    rw [h1]
    exact read_perm order rows (hl ▸ ho)
  have h := getBatched_ok w order rows buffer 0 n hn _ hx (fun x hx => hw x (hp.subset hx))
  rw [meanRows_perm hp] at h
  simp only [Nat.cast_zero] at h
  cases hg : getBatched order rows w buffer 0 (n : Int) with
  | ok q => rw [hg] at h; simp at h; exact ⟨q.2, by rw [← h]⟩
  | throw m => rw [hg] at h; simp at h
  | ub m => rw [hg] at h; simp at h


/-- Two runs on the same network, with the same training examples up to their order. -/
structure RSim (n w v : Nat) (a b : Run F) : Prop where
  snn : b.snn = a.snn
  draws : b.draws = a.draws
  ticks : b.ticks = a.ticks
  trace : b.trace = a.trace
  data : SameSet n w v a.data b.data

variable {n w v : Nat}

theorem SameSet.evaluateOnce {d e : Data F} (h : SameSet n w v d e) (s : Snn F) : s.evaluateOnce e = s.evaluateOnce d := by
  unfold Snn.evaluateOnce Data.getTestingData Data.isFirstTesting Data.getTestingLabel Data.getSeparator Data.getTestingOutputs
    Data.getPrecision
  simp only [h.problem, h.dt, h.et, h.precision, h.separator, h.testing]

theorem SameSet.evaluateLoop {d e : Data F} (h : SameSet n w v d e) (nan : F) : ∀ (k : Nat) (s : Snn F),
    evaluateLoop nan e k s = evaluateLoop nan d k s
  | 0, s => rfl
  | k + 1, s => by
    unfold Snn.evaluateLoop Data.needToEvaluate Data.getTestingData Data.isFirstTesting
    simp only [h.dt, h.et, h.testing, h.evaluateOnce, SameSet.evaluateLoop h nan k]

theorem RSim.evaluate {env env' : Env F} (hn : env'.nan = env.nan) {a b : Run F} (h : RSim n w v a b) :
    Res.Rel (RSim n w v) (a.evaluate env) (b.evaluate env') := by
  unfold Run.evaluate
  simp only [hn, h.data.testing, h.data.evaluateLoop, h.snn]
  refine Res.Rel.bind (Res.Rel.eq (β := Bool × Snn F)) ?_
  rintro ⟨st, s⟩ _ rfl
  simp only
  split
  · exact ⟨rfl, h.draws, h.ticks, by simp [h.trace], h.data⟩
  · split
    · exact ⟨rfl, h.draws, h.ticks, by simp [Run.saveSync, h.trace], h.data⟩
    · exact ⟨rfl, h.draws, h.ticks, by simp [h.trace], h.data⟩

theorem RSim.continueTraining {env env' : Env F} (hc : env'.clock = env.clock) (wait : Wait F) {a b : Run F} (h : RSim n w v a b) :
    (b.continueTraining env' wait).1 = (a.continueTraining env wait).1 ∧
      RSim n w v (a.continueTraining env wait).2 (b.continueTraining env' wait).2 := by
  unfold Run.continueTraining
  simp only [hc, h.snn, h.ticks, true_and]
  exact ⟨rfl, h.draws, rfl, h.trace, h.data⟩

theorem SameSet.inputsAll {d e : Data F} (h : SameSet n w v d e) (hn : 1 ≤ n) : ∃ x d' e', d.getTrainingData 0 n = .ok (x, d') ∧
    e.getTrainingData 0 n = .ok (x, e') ∧ SameSet n w v d' e' := by
  obtain ⟨b, hb⟩ := getBatched_all hn h.dorder h.dlen h.rows d.batchedData
  obtain ⟨c, hc⟩ := getBatched_all hn h.eorder h.elen (fun r hr => h.rows r (h.inputs.symm.subset hr)) e.batchedData
  refine ⟨meanRows w d.training.inputs, { d with batchedData := b }, { e with batchedData := c }, ?_, ?_, ?_⟩
  · unfold Data.getTrainingData
    rw [h.dw, hb]
    rfl
  · unfold Data.getTrainingData
    rw [h.ew, hc, meanRows_perm h.inputs]
    rfl
  · cases h; constructor <;> assumption

theorem SameSet.labelsAll {d e : Data F} (h : SameSet n w v d e) (hn : 1 ≤ n) : ∃ x d' e', d.getTrainingOutputs 0 n = .ok (x, d') ∧
    e.getTrainingOutputs 0 n = .ok (x, e') ∧ SameSet n w v d' e' := by
  obtain ⟨b, hb⟩ := getBatched_all hn h.dorder h.dlenl h.rowsl d.batchedLabels
  obtain ⟨c, hc⟩ := getBatched_all hn h.eorder h.elenl (fun r hr => h.rowsl r (h.labels.symm.subset hr)) e.batchedLabels
  refine ⟨meanRows v d.training.labels, { d with batchedLabels := b }, { e with batchedLabels := c }, ?_, ?_, ?_⟩
  · unfold Data.getTrainingOutputs
    rw [h.dv, hb]
    rfl
  · unfold Data.getTrainingOutputs
    rw [h.ev, hc, meanRows_perm h.labels]
    rfl
  · cases h; constructor <;> assumption

/-- Related results of a loop, the second component in a state between two passes. -/
def BSim (n w v : Nat) (p q : Bool × Run F) : Prop := q.1 = p.1 ∧ RSim n w v p.2 q.2

theorem RSim.trainStep (hn : 1 ≤ n) {env env' : Env F} (hnan : env'.nan = env.nan) {a b : Run F} (h : RSim n w v a b) (hi : a.snn.index = 0) :
    Res.Rel (BSim n w v) (a.trainStep env n) (b.trainStep env' n) := by
  unfold Run.trainStep
  rw [h.snn, hnan]
  simp only [hi]
  split
  · exact ⟨rfl, rfl, h.draws, h.ticks, h.trace, h.data⟩
  · obtain ⟨x, d1, e1, h1, h2, h3⟩ := h.data.inputsAll hn
    obtain ⟨y, d2, e2, h4, h5, h6⟩ := h3.labelsAll hn
    unfold Data.needToLearn Data.isFirstTraining
    simp only [h.data.dt, h.data.et, Res.ok_bind, h1, h2, h3.dt, h3.et, if_true, h4, h5, h.draws]
    refine Res.Rel.bind (Res.Rel.eq (β := Net F × Draws F)) ?_
    rintro ⟨m, dr⟩ _ rfl
    exact ⟨rfl, rfl, rfl, h.ticks, by simp [h.trace], h6⟩

theorem trainStep_index {env : Env F} {b : Int} {a : Run F} {p : Bool × Run F} (h : a.trainStep env b = .ok p) (hp : p.1 = false) :
    p.2.snn.index = a.snn.index ∧
      p.2.snn.numberOfTrainingsBetweenTwoEvaluations = a.snn.numberOfTrainingsBetweenTwoEvaluations := by
  unfold Run.trainStep at h
  simp only at h
  split at h
  · cases h; simp at hp
  · obtain ⟨need, h1, h⟩ := Res.bind_eq_ok.1 h
    obtain ⟨⟨x, d1⟩, h2, h⟩ := Res.bind_eq_ok.1 h
    obtain ⟨f, h3, h⟩ := Res.bind_eq_ok.1 h
    simp only at h
    split at h
    · obtain ⟨⟨y, d2⟩, h4, h⟩ := Res.bind_eq_ok.1 h
      obtain ⟨⟨m, d3⟩, h5, h⟩ := Res.bind_eq_ok.1 h
      cases h
      exact ⟨rfl, rfl⟩
    · obtain ⟨⟨o, m, d3⟩, h5, h⟩ := Res.bind_eq_ok.1 h
      cases h
      exact ⟨rfl, rfl⟩

/-- An epoch: one step at position 0, then the position is past the end. -/
theorem RSim.stepLoop (hn : 1 ≤ n) {env env' : Env F} (hc : env'.clock = env.clock) (hnan : env'.nan = env.nan) (wait : Wait F) :
    ∀ (fuel : Nat) {a b : Run F}, RSim n w v a b → a.snn.index = 0 ∨ a.snn.index = n →
      a.snn.numberOfTrainingsBetweenTwoEvaluations = n →
      Res.Rel (BSim n w v) (stepLoop env wait n fuel a) (stepLoop env' wait n fuel b)
  | 0, a, b, _, _, _ => rfl
  | fuel + 1, a, b, h, hi, hN => by
    unfold Snn.stepLoop
    rw [h.snn]
    split
    case isFalse => exact ⟨rfl, h⟩
    case isTrue hlt =>
      have hi0 : a.snn.index = 0 := by
        rcases hi with hi | hi
        · exact hi
        · rw [hi, hN] at hlt; omega
      have hcont := h.continueTraining hc wait
      have e1 : (a.continueTraining env wait).2.snn = a.snn := rfl
      generalize a.continueTraining env wait = pa at hcont e1 ⊢
      generalize b.continueTraining env' wait = pb at hcont ⊢
      obtain ⟨ca, a1⟩ := pa
      obtain ⟨cb, b1⟩ := pb
      obtain ⟨rfl, h1⟩ := hcont
      simp only at h1 e1 ⊢
      split
      · refine relBind (RSim.trainStep hn hnan h1 (by rw [e1, hi0])) ?_
        rintro ⟨ra, a2⟩ ⟨rb, b2⟩ hst ⟨hr, h2⟩
        simp only at hr h2 ⊢
        subst hr
        split
        case isTrue => exact ⟨rfl, h2⟩
        case isFalse hf =>
          obtain ⟨k1, k2⟩ := trainStep_index hst (by simpa using hf)
          simp only at k1 k2
          refine RSim.stepLoop hn hc hnan wait fuel ⟨by simp [h2.snn], h2.draws, h2.ticks, h2.trace, h2.data⟩ ?_ ?_
          · right
            simp only
            rw [k1, e1, hi0]
            simp
          · simp only
            rw [k2, e1, hN]
      · exact ⟨rfl, h1⟩

theorem SameSet.shuffle {d e : Data F} (h : SameSet n w v d e) (r r' : Rng) :
    ∃ d' e', d.shuffle r = .ok d' ∧ e.shuffle r' = .ok e' ∧ SameSet n w v d' e' := by
  refine ⟨_, _, by unfold Data.shuffle; rw [h.dt], by unfold Data.shuffle; rw [h.et], ?_⟩
  have h1 := (shuffleList_perm r d.training.shuffledIndexes).trans h.dorder
  have h2 := (shuffleList_perm r' e.training.shuffledIndexes).trans h.eorder
  obtain ⟨k1, k2, k3, k4, k5, k6, k7, k8, k9, k10, k11, k12, k13, k14, k15, k16, k17, k18, k19, k20, k21, k22⟩ := h
  exact ⟨k1, rfl, rfl, k4, k5, k6, k7, k8, k9, k10, k11, k12, h1, h2, k15, k16, k17, k18, k19, k20, k21, k22⟩

theorem stepLoop_fields {env : Env F} {wait : Wait F} {b : Int} : ∀ (fuel : Nat) {a : Run F} {p : Bool × Run F},
    Snn.stepLoop env wait b fuel a = .ok p → p.1 = false →
      p.2.snn.numberOfTrainingsBetweenTwoEvaluations = a.snn.numberOfTrainingsBetweenTwoEvaluations
  | 0, a, p, h, _ => by simp [Snn.stepLoop] at h
  | fuel + 1, a, p, h, hp => by
    unfold Snn.stepLoop at h
    split at h
    · simp only at h
      split at h
      · obtain ⟨⟨r, r2⟩, h1, h⟩ := Res.bind_eq_ok.1 h
        simp only at h
        split at h
        · cases h; simp at hp
        · have h3 := stepLoop_fields fuel h hp
          have h4 := (trainStep_index h1 (Bool.eq_false_of_not_eq_true ‹_›)).2
          exact h3.trans h4
      · cases h; rfl
    · cases h; rfl

theorem evaluateOnce_fields {s s' : Snn F} {d : Data F} (h : s.evaluateOnce d = .ok s') :
    s'.numberOfTrainingsBetweenTwoEvaluations = s.numberOfTrainingsBetweenTwoEvaluations := by
  unfold Snn.evaluateOnce at h
  obtain ⟨x, _, h⟩ := Res.bind_eq_ok.1 h
  obtain ⟨f, _, h⟩ := Res.bind_eq_ok.1 h
  split at h
  all_goals
    obtain ⟨y, _, h⟩ := Res.bind_eq_ok.1 h
    obtain ⟨z, _, h⟩ := Res.bind_eq_ok.1 h
    obtain ⟨⟨o, m⟩, _, h⟩ := Res.bind_eq_ok.1 h
    obtain ⟨st, _, h⟩ := Res.bind_eq_ok.1 h
    cases h
    rfl

theorem evaluateLoop_fields {nan : F} {d : Data F} : ∀ (k : Nat) {s : Snn F} {p : Bool × Snn F}, Snn.evaluateLoop nan d k s = .ok p →
    p.2.numberOfTrainingsBetweenTwoEvaluations = s.numberOfTrainingsBetweenTwoEvaluations
  | 0, s, p, h => by cases h; rfl
  | k + 1, s, p, h => by
    unfold Snn.evaluateLoop at h
    split at h
    · cases h; rfl
    · obtain ⟨need, _, h⟩ := Res.bind_eq_ok.1 h
      obtain ⟨s1, h1, h⟩ := Res.bind_eq_ok.1 h
      have h2 := evaluateLoop_fields k h
      rw [h2]
      simp only
      split at h1
      · exact evaluateOnce_fields h1
      · obtain ⟨x, _, h1⟩ := Res.bind_eq_ok.1 h1
        obtain ⟨f, _, h1⟩ := Res.bind_eq_ok.1 h1
        obtain ⟨⟨o, m⟩, _, h1⟩ := Res.bind_eq_ok.1 h1
        cases h1
        rfl

theorem evaluate_fields {env : Env F} {a b : Run F} (h : a.evaluate env = .ok b) :
    b.snn.numberOfTrainingsBetweenTwoEvaluations = a.snn.numberOfTrainingsBetweenTwoEvaluations := by
  unfold Run.evaluate at h
  obtain ⟨⟨st, s⟩, h1, h⟩ := Res.bind_eq_ok.1 h
  have h2 := evaluateLoop_fields _ h1
  simp only at h h2
  split at h
  · cases h; exact h2
  · split at h <;> cases h <;> exact h2

theorem epochBody_fields {env : Env F} {wait : Wait F} {b ef : Int} {fuel : Nat} {a : Run F} {p : Bool × Run F}
    (h : a.epochBody env wait b ef fuel = .ok p) (hp : p.1 = false) :
      p.2.snn.numberOfTrainingsBetweenTwoEvaluations = a.snn.numberOfTrainingsBetweenTwoEvaluations := by
  unfold Run.epochBody at h
  obtain ⟨d, _, h⟩ := Res.bind_eq_ok.1 h
  obtain ⟨⟨r, r2⟩, h1, h⟩ := Res.bind_eq_ok.1 h
  simp only at h
  split at h
  · cases h; simp at hp
  · have h2 := stepLoop_fields _ h1 (Bool.eq_false_of_not_eq_true ‹_›)
    split at h
    · obtain ⟨r3, h3, h⟩ := Res.bind_eq_ok.1 h
      cases h
      exact (evaluate_fields h3).trans h2
    · cases h; exact h2

theorem RSim.epochBody (hn : 1 ≤ n) {env env' : Env F} (hc : env'.clock = env.clock) (hnan : env'.nan = env.nan) (wait : Wait F)
    (ef : Int) (fuel : Nat) {a b : Run F} (h : RSim n w v a b) (hN : a.snn.numberOfTrainingsBetweenTwoEvaluations = n) :
    Res.Rel (BSim n w v) (a.epochBody env wait n ef fuel) (b.epochBody env' wait n ef fuel) := by
  unfold Run.epochBody
  obtain ⟨d, e, h1, h2, h3⟩ := h.data.shuffle (env.rng a.snn.epoch) (env'.rng b.snn.epoch)
  rw [h1, h2]
  simp only [Res.ok_bind]
  refine Res.Rel.bind (RSim.stepLoop hn hc hnan wait fuel ⟨by simp [h.snn], h.draws, h.ticks, by simp [h.trace], h3⟩ (Or.inl rfl) hN) ?_
  rintro ⟨ra, a2⟩ ⟨rb, b2⟩ ⟨hr, h4⟩
  simp only at hr h4 ⊢
  subst hr
  rw [h4.snn]
  split
  · exact ⟨rfl, h4⟩
  · split
    · refine Res.Rel.bind (h4.evaluate hnan) ?_
      intro a3 b3 h5
      exact ⟨rfl, h5⟩
    · exact ⟨rfl, h4⟩

theorem RSim.epochLoop (hn : 1 ≤ n) {env env' : Env F} (hc : env'.clock = env.clock) (hnan : env'.nan = env.nan) (wait : Wait F)
    (ef : Int) (inner : Nat) : ∀ (fuel : Nat) {a b : Run F}, RSim n w v a b → a.snn.numberOfTrainingsBetweenTwoEvaluations = n →
    Res.Rel (BSim n w v) (epochLoop env wait n ef inner fuel a) (epochLoop env' wait n ef inner fuel b)
  | 0, a, b, _, _ => rfl
  | fuel + 1, a, b, h, hN => by
    unfold Snn.epochLoop
    have hcont := h.continueTraining hc wait
    have e1 : (a.continueTraining env wait).2.snn = a.snn := rfl
    generalize a.continueTraining env wait = pa at hcont e1 ⊢
    generalize b.continueTraining env' wait = pb at hcont ⊢
    obtain ⟨ca, a1⟩ := pa
    obtain ⟨cb, b1⟩ := pb
    obtain ⟨rfl, h1⟩ := hcont
    simp only at h1 e1 ⊢
    split
    · refine relBind (RSim.epochBody hn hc hnan wait ef inner h1 (by rw [e1, hN])) ?_
      rintro ⟨ra, a2⟩ ⟨rb, b2⟩ hst ⟨hr, h2⟩
      simp only at hr h2 ⊢
      subst hr
      split
      · exact ⟨rfl, h2⟩
      · refine RSim.epochLoop hn hc hnan wait ef inner fuel ⟨by simp [h2.snn], h2.draws, h2.ticks, h2.trace, h2.data⟩ ?_
        exact (epochBody_fields hst (Bool.eq_false_of_not_eq_true ‹_›)).trans (by rw [e1, hN])
    · exact ⟨rfl, h1⟩

theorem RSim.train (hn : 1 ≤ n) {env env' : Env F} (hc : env'.clock = env.clock) (hnan : env'.nan = env.nan) (wait : Wait F)
    (ef : Int) (fuel : Nat) {a b : Run F} (h : RSim n w v a b) :
    Res.Rel (RSim n w v) (a.train env wait n ef fuel) (b.train env' wait n ef fuel) := by
  unfold Run.train
  have hv : b.snn.validData b.data n = a.snn.validData a.data n := by
    unfold Snn.validData
    rw [h.snn, h.data.dw, h.data.ew, h.data.dv, h.data.ev, h.data.dt, h.data.et, h.data.dn, h.data.en]
  rw [hv]
  refine Res.Rel.bind (Res.Rel.eq (β := Unit)) ?_
  rintro _ _ rfl
  rw [h.snn]
  split
  · rfl
  · unfold Run.trainSync
    have hb : RSim n w v ({ a with snn := { a.snn with wantToStopTraining := true } } : Run F).begin
        ({ b with snn := { a.snn with wantToStopTraining := true } } : Run F).begin :=
      ⟨by simp [Run.begin, h.data.dn, h.data.en], h.draws, h.ticks, h.trace, h.data⟩
    have hN : ({ a with snn := { a.snn with wantToStopTraining := true } } : Run F).begin.snn.numberOfTrainingsBetweenTwoEvaluations = n := by
      simp [Run.begin, h.data.dn]
    have he : Res.Rel (fun p q => RSim n w v p q ∧ p.snn.numberOfTrainingsBetweenTwoEvaluations = n)
        (if ef > 0 then ({ a with snn := { a.snn with wantToStopTraining := true } } : Run F).begin.evaluate env
          else .ok ({ a with snn := { a.snn with wantToStopTraining := true } } : Run F).begin)
        (if ef > 0 then ({ b with snn := { a.snn with wantToStopTraining := true } } : Run F).begin.evaluate env'
          else .ok ({ b with snn := { a.snn with wantToStopTraining := true } } : Run F).begin) := by
      split
      · have h1 := hb.evaluate hnan
        generalize hx : Run.evaluate env _ = x at h1 ⊢
        generalize Run.evaluate env' _ = y at h1 ⊢
        cases x <;> cases y <;> simp only [Res.Rel] at h1 ⊢
        · exact ⟨h1, (evaluate_fields hx).trans hN⟩
        · exact h1
        · exact h1
      · exact ⟨hb, hN⟩
    refine Res.Rel.bind he ?_
    intro a1 b1 ⟨h1, h2⟩
    refine Res.Rel.bind (RSim.epochLoop hn hc hnan wait ef fuel fuel ⟨by simp [h1.snn], h1.draws, h1.ticks, h1.trace, h1.data⟩ h2) ?_
    rintro ⟨ra, a2⟩ ⟨rb, b2⟩ ⟨hr, h3⟩
    simp only at hr h3 ⊢
    subst hr
    split
    · exact h3
    · exact ⟨by simp [h3.snn], h3.draws, h3.ticks, h3.trace, h3.data⟩

/-- The data object made from non temporal examples of the same sizes. -/
theorem make2_nt {p : Problem} {ti tl si sl : List (List F)} {rec : Int} {d : Data F} (h : Data.make2 p ti tl si sl .nonTemporal rec = .ok d)
    (hw : Rows w ti) (hv : Rows v tl) :
    d = { Data.blank p .nonTemporal rec with
      precision := lit (1/10), separator := lit (1/2), sizeOfData := w, numberOfLabels := v
      training := { (DSet.empty : DSet F) with inputs := ti, labels := tl, size := tl.length, shuffledIndexes := List.range tl.length }
      testing := { (DSet.empty : DSet F) with inputs := si, labels := sl, size := sl.length } } := by
  unfold Data.make2 Data.initialize at h
  obtain ⟨li, hli, h⟩ := Res.bind_eq_ok.1 h
  obtain ⟨ll, hll, h⟩ := Res.bind_eq_ok.1 h
  obtain ⟨d2, hd2, h⟩ := Res.bind_eq_ok.1 h
  obtain ⟨err, herr, h⟩ := Res.bind_eq_ok.1 h
  split at h
  · exact absurd h (by simp)
  simp only [Res.pure_eq, Res.ok.injEq] at h
  subst h
  have h1 : li.length = w := by
    apply hw
    unfold backOf at hli
    cases hx : ti.getLast? with
    | none => rw [hx] at hli; simp at hli
    | some x => rw [hx] at hli; simp at hli; subst hli; exact List.mem_of_getLast? hx
  have h2 : ll.length = v := by
    apply hv
    unfold backOf at hll
    cases hx : tl.getLast? with
    | none => rw [hx] at hll; simp at hll
    | some x => rw [hx] at hll; simp at hll; subst hll; exact List.mem_of_getLast? hx
  unfold Data.makeTemporalComposite Data.blank at hd2
  simp only [Res.ok.injEq] at hd2
  subst hd2
  rw [h1, h2]
  rfl

theorem sameSet_make {p : Problem} {ex ex' : List (List F × List F)} (hperm : ex.Perm ex') (hw : ∀ e ∈ ex, e.1.length = w ∧ e.2.length = v)
    {si sl : List (List F)} {rec rec' : Int} {d d' : Data F}
    (hd : Data.make2 p (ex.map (·.1)) (ex.map (·.2)) si sl .nonTemporal rec = .ok d)
    (hd' : Data.make2 p (ex'.map (·.1)) (ex'.map (·.2)) si sl .nonTemporal rec' = .ok d')
    {ops ops' : List OrderOp} {d1 d1' : Data F} (ho : d.orderOps ops = .ok d1) (ho' : d'.orderOps ops' = .ok d1') :
    SameSet ex.length w v d1 d1' := by
  have hw' : ∀ e ∈ ex', e.1.length = w ∧ e.2.length = v := fun e he => hw e (hperm.symm.subset he)
  have a1 : Rows w (ex.map (·.1)) := by intro r hr; obtain ⟨e, he, rfl⟩ := List.mem_map.1 hr; exact (hw e he).1
  have a2 : Rows v (ex.map (·.2)) := by intro r hr; obtain ⟨e, he, rfl⟩ := List.mem_map.1 hr; exact (hw e he).2
  have b1 : Rows w (ex'.map (·.1)) := by intro r hr; obtain ⟨e, he, rfl⟩ := List.mem_map.1 hr; exact (hw' e he).1
  have b2 : Rows v (ex'.map (·.2)) := by intro r hr; obtain ⟨e, he, rfl⟩ := List.mem_map.1 hr; exact (hw' e he).2
  have e1 := make2_nt hd a1 a2
  have e2 := make2_nt hd' b1 b2
  obtain ⟨i1, _, _, _, _, _, _, t1, _⟩ := make2_inv p _ _ si sl _ rec d hd
  obtain ⟨i2, _, _, _, _, _, _, t2, _⟩ := make2_inv p _ _ si sl _ rec' d' hd'
  obtain ⟨x, hx, j1, f1, _⟩ := orderOps_ok ops d i1 (by intro hh; rw [t1] at hh; cases hh)
  obtain ⟨y, hy, j2, f2, _⟩ := orderOps_ok ops' d' i2 (by intro hh; rw [t2] at hh; cases hh)
  rw [ho] at hx
  rw [ho'] at hy
  cases hx
  cases hy
  have hl := hperm.length_eq
  have g1 := j1.nonTemporal (f1.temporal.trans t1)
  have g2 := j2.nonTemporal (f2.temporal.trans t2)
  have s1 : d1.training.size = ex.length := by rw [f1.size, e1]; simp
  have s2 : d1'.training.size = ex.length := by rw [f2.size, e2]; simp [hl]
  rw [s1] at g1
  rw [s2] at g2
  have u1 : d1.training.inputs = ex.map (·.1) := by rw [f1.inputs, e1]
  have u2 : d1'.training.inputs = ex'.map (·.1) := by rw [f2.inputs, e2]
  have u3 : d1.training.labels = ex.map (·.2) := by rw [f1.labels, e1]
  have u4 : d1'.training.labels = ex'.map (·.2) := by rw [f2.labels, e2]
  refine ⟨?_, f1.temporal.trans t1, f2.temporal.trans t2, ?_, ?_, ?_, ?_, ?_, ?_, ?_, s1, s2, g1, g2, ?_, ?_, ?_, ?_, ?_, ?_, ?_, ?_⟩
  · rw [f1.problem, f2.problem, e1, e2]; rfl
  · rw [f1.precision, f2.precision, e1, e2]
  · rw [f1.separator, f2.separator, e1, e2]
  · rw [f1.sizeOfData, e1]
  · rw [f2.sizeOfData, e2]
  · rw [f1.numberOfLabels, e1]
  · rw [f2.numberOfLabels, e2]
  · rw [f1.testing, f2.testing, e1, e2]
  · simp [u1]
  · simp [u2, hl]
  · rw [u1, u2]; exact hperm.map _
  · rw [u3, u4]; exact hperm.map _
  · simp [u3]
  · simp [u4, hl]
  · rw [u1]; exact a1
  · rw [u3]; exact a2

/-- **C79.** Two data objects made from the same training examples given in two orders (`ex` and `ex'`, all of the same sizes), with the
same testing set, each shuffled and unshuffled any number of times; two environments that differ at most in their random generators.
Then from the same network `train` with the whole training set as batch (`ex.length`), with any waiting criterion and evaluation
frequency, gives twice the same outcome: the same exception, or the same network (weights, metrics, counters), the same random draws
left, the same number of clock readings and the same events (the examples learned, the evaluations, the files saved). Exact arithmetic. -/
theorem C79_full_batch (p : Problem) (w v : Nat) (ex ex' : List (List F × List F)) (hperm : ex.Perm ex')
    (hsizes : ∀ e ∈ ex, e.1.length = w ∧ e.2.length = v) (testI testL : List (List F)) (rec rec' : Int) (d d' : Data F)
    (hd : Data.make2 p (ex.map (·.1)) (ex.map (·.2)) testI testL .nonTemporal rec = .ok d)
    (hd' : Data.make2 p (ex'.map (·.1)) (ex'.map (·.2)) testI testL .nonTemporal rec' = .ok d')
    (ops ops' : List OrderOp) (d1 d1' : Data F) (ho : d.orderOps ops = .ok d1) (ho' : d'.orderOps ops' = .ok d1')
    (env env' : Env F) (hclock : env'.clock = env.clock) (hnan : env'.nan = env.nan)
    (s : Snn F) (draws : Draws F) (ticks : Nat) (trace : List (Event F)) (wait : Wait F) (ef : Int) (fuel : Nat) :
    Res.Rel (fun a b => a.snn = b.snn ∧ a.draws = b.draws ∧ a.ticks = b.ticks ∧ a.trace = b.trace)
      (Run.train env wait ex.length ef fuel { snn := s, data := d1, draws := draws, ticks := ticks, trace := trace })
      (Run.train env' wait ex.length ef fuel { snn := s, data := d1', draws := draws, ticks := ticks, trace := trace }) := by
  have h := sameSet_make hperm hsizes hd hd' ho ho'
  have hn : 1 ≤ ex.length := by
    obtain ⟨_, _, _, _, _, _, _, _, _, _, hne, _⟩ := make2_inv p _ _ testI testL _ rec d hd
    cases ex with
    | nil => exact absurd rfl hne
    | cons => simp
  have := RSim.train hn hclock hnan wait ef fuel (a := { snn := s, data := d1, draws := draws, ticks := ticks, trace := trace })
    (b := { snn := s, data := d1', draws := draws, ticks := ticks, trace := trace }) ⟨rfl, rfl, rfl, rfl, h⟩
  generalize Run.train env wait _ ef fuel _ = x at this ⊢
  generalize Run.train env' wait _ ef fuel _ = y at this ⊢
  cases x <;> cases y <;> simp only [Res.Rel] at this ⊢
  · exact ⟨this.snn.symm, this.draws.symm, this.ticks.symm, this.trace.symm⟩
  · exact this
  · exact this

end

/-! ### The hypotheses are met

The dense network (ReLU, Dropout) on three examples given in two orders, one of them shuffled before the training, and two random
generators. With batches of one example the two trainings give different networks. -/

/-- Another random generator. -/
def env2 : Env ℚ := { Demo.env with rng := fun _ i => i }

/-- The examples of `Demo.classification`. -/
def ex : List (List ℚ × List ℚ) := [([1, 0], [1, 0]), ([0, 1], [0, 1]), ([1, 1], [0, 1])]

/-- The same examples in another order. -/
def ex' : List (List ℚ × List ℚ) := [([1, 1], [0, 1]), ([1, 0], [1, 0]), ([0, 1], [0, 1])]

/-- The data object of `ex'`. -/
def data' : Data ℚ :=
  (Data.make2 .classification (ex'.map (·.1)) (ex'.map (·.2)) [[1, 2], [2, 1]] [[0, 1], [1, 0]] .nonTemporal 0).get (by decide +kernel)

/-- `data'` after a shuffle. -/
def data1' : Data ℚ := (data'.orderOps [.shuffle fun i => 3 * i + 1]).get (by decide +kernel)

/-- A training of two epochs whose batch is the whole set. -/
def trained : Run ℚ := ((Demo.run Demo.dense Demo.classification).train Demo.env (litEp 2) 3 1 100).get (by decide +kernel)

example : ex.Perm ex' := by decide +kernel

example : data1'.training.shuffledIndexes ≠ Demo.classification.training.shuffledIndexes ∧
    data'.orderOps [.shuffle fun i => 3 * i + 1] = .ok data1' := ⟨by decide +kernel, Res.eq_get _ _⟩

/-- C79 on it: the same network from the other order and the other generator. -/
example : ∃ b, Run.train env2 (litEp 2) 3 1 100 (Demo.run Demo.dense data1') = .ok b ∧ b.snn = trained.snn ∧
    b.snn ≠ Demo.dense := by
  have h := C79_full_batch .classification 2 2 ex ex' (by decide +kernel) (by decide +kernel) [[1, 2], [2, 1]] [[0, 1], [1, 0]] 0 0
    Demo.classification data' (Res.eq_get _ _) (Res.eq_get _ _) [] [.shuffle fun i => 3 * i + 1] _ data1' rfl (Res.eq_get _ _)
    Demo.env env2 rfl rfl Demo.dense Demo.draws 0 [] (litEp 2) 1 100
  have e : Run.train Demo.env (litEp 2) ((ex.length : Nat) : Int) 1 100
      { snn := Demo.dense, data := Demo.classification, draws := Demo.draws, ticks := 0, trace := [] } = .ok trained := Res.eq_get _ _
  rw [e] at h
  obtain ⟨b, hb, h1⟩ := h.ok_left
  exact ⟨b, hb, h1.1.symm, by rw [← h1.1]; decide +kernel⟩

/-- An epoch with batches of one example. -/
def single : Run ℚ := (Run.train Demo.env (litEp 1) 1 0 100 (Demo.run Demo.dense Demo.classification)).get (by decide +kernel)

/-- The same with the other order and the other generator. -/
def single' : Run ℚ := (Run.train env2 (litEp 1) 1 0 100 (Demo.run Demo.dense data1')).get (by decide +kernel)

/-- With batches of one example the order matters: the two trainings give different networks. -/
example : single.snn.net.layers.map (fun l => l.body.weights) ≠ single'.snn.net.layers.map (fun l => l.body.weights) := by
  decide +kernel

/-! ### C80: what a batch does -/

section
variable {F : Type} [Field F] [LinearOrder F] [IsStrictOrderedRing F] [FTrans F]

/-- The result of reading one batch of non temporal data and learning it. -/
theorem step_eq {env : Env F} {b : Int} {r : Run F} {x y : List F} (hnt : r.data.typeOfTemporal = .nonTemporal)
    (hnan : r.snn.net.outputNan = false)
    (hx : (·.1) <$> r.data.getTrainingData r.snn.index b = .ok x)
    (hy : ∀ d', (∃ x, r.data.getTrainingData r.snn.index b = .ok (x, d')) → (·.1) <$> d'.getTrainingOutputs r.snn.index b = .ok y) :
    (fun q : Bool × Run F => (q.2.snn.net, q.2.draws)) <$> r.trainStep env b = r.snn.net.trainOnce x y true r.draws := by
  unfold Run.trainStep
  simp only [hnan, Bool.false_eq_true, if_false]
  unfold Data.needToLearn
  rw [hnt]
  simp only [Res.ok_bind, if_true]
  cases hg : r.data.getTrainingData r.snn.index b with
  | throw m => rw [hg] at hx; simp at hx
  | ub m => rw [hg] at hx; simp at hx
  | ok q =>
    obtain ⟨x', d1⟩ := q
    rw [hg] at hx
    simp only [Res.map_ok, Res.ok.injEq] at hx
    subst hx
    have h1 := hy d1 ⟨_, hg⟩
    have ht : d1.typeOfTemporal = .nonTemporal := by
      unfold Data.getTrainingData at hg
      obtain ⟨⟨_, _⟩, _, hg⟩ := Res.bind_eq_ok.1 hg
      cases hg
      exact hnt
    simp only [Res.ok_bind]
    unfold Data.isFirstTraining
    rw [ht]
    simp only [Res.ok_bind]
    cases hg2 : d1.getTrainingOutputs r.snn.index b with
    | throw m => rw [hg2] at h1; simp at h1
    | ub m => rw [hg2] at h1; simp at h1
    | ok q2 =>
      obtain ⟨y', d2⟩ := q2
      rw [hg2] at h1
      simp only [Res.map_ok, Res.ok.injEq] at h1
      subst h1
      simp only [Res.ok_bind]
      cases r.snn.net.trainOnce x' y' true r.draws <;> rfl

/-- **C80, what holds.** Non temporal examples of the same sizes, after any history of shuffles; a batch of `b` examples at position `i`.
One training step on the batch is exactly one training step on a single example: the mean of the inputs of the batch with the mean of its
labels (`xs` and `ys` are the examples read one by one). In particular a batch of copies of one example trains like that example alone.
Exact arithmetic. -/
theorem C80_mean_example_partial (p : Problem) (inputs labels testI testL : List (List F)) (rec : Int) (d : Data F)
    (h : Data.make2 p inputs labels testI testL .nonTemporal rec = .ok d) (hlen : inputs.length = labels.length) (ops : List OrderOp)
    (w v : Nat) (hw : Rows w inputs) (hv : Rows v labels) (i b : Nat) (hb : 1 ≤ b) (hib : i + b ≤ inputs.length)
    (env : Env F) (r : Run F) (hr : d.orderOps ops = .ok r.data) (hi : r.snn.index = i) (hnan : r.snn.net.outputNan = false) :
    ∃ xs ys, (List.range b).mapM (fun t => r.data.readInput (i + t)) = .ok xs ∧
      (List.range b).mapM (fun t => r.data.readOutput (i + t)) = .ok ys ∧
      (fun q : Bool × Run F => (q.2.snn.net, q.2.draws)) <$> r.trainStep env b
        = r.snn.net.trainOnce (meanRows w xs) (meanRows v ys) true r.draws ∧
      ∀ x y, (∀ t < b, r.data.readInput (i + t) = .ok x ∧ r.data.readOutput (i + t) = .ok y) →
        (fun q : Bool × Run F => (q.2.snn.net, q.2.draws)) <$> r.trainStep env b = r.snn.net.trainOnce x y true r.draws := by
  obtain ⟨d', h', xs, ys, hX, hY, hxl, hyl, hx, hy⟩ := C03_batch_mean p inputs labels testI testL .nonTemporal rec d h hlen
    (by intro h; cases h) ops w v hw hv r.data.batchedData r.data.batchedLabels i b hb hib
  rw [hr] at h'
  cases h'
  have hin : r.data.training.inputs = inputs ∧ r.data.training.labels = labels := by
    obtain ⟨i1, u1, u2, _, _, _, _, t1, _⟩ := make2_inv p _ _ testI testL _ rec d h
    obtain ⟨x, hx, _, f1, _⟩ := orderOps_ok ops d i1 (by intro hh; rw [t1] at hh; cases hh)
    rw [hr] at hx
    cases hx
    exact ⟨f1.inputs.trans u1, f1.labels.trans u2⟩
  have ht : r.data.typeOfTemporal = .nonTemporal := by
    obtain ⟨i1, _, _, _, _, _, _, t1, _⟩ := make2_inv p _ _ testI testL _ rec d h
    obtain ⟨x, hx, _, f1, _⟩ := orderOps_ok ops d i1 (by intro hh; rw [t1] at hh; cases hh)
    rw [hr] at hx
    cases hx
    exact f1.temporal.trans t1
  have main : (fun q : Bool × Run F => (q.2.snn.net, q.2.draws)) <$> r.trainStep env b
        = r.snn.net.trainOnce (meanRows w xs) (meanRows v ys) true r.draws := by
    refine step_eq ht hnan (by rw [hi]; exact hx) ?_
    intro d1 ⟨x, hd1⟩
    unfold Data.getTrainingData at hd1
    obtain ⟨⟨_, _⟩, _, hd1⟩ := Res.bind_eq_ok.1 hd1
    cases hd1
    rw [hi]
    rw [← hy]
    unfold Data.getTrainingOutputs
    simp only
    cases getBatched r.data.training.shuffledIndexes r.data.training.labels r.data.numberOfLabels r.data.batchedLabels (i : Int) (b : Int) <;> rfl
  refine ⟨xs, ys, hX, hY, main, ?_⟩
  intro x y hxy
  have ex : xs = List.replicate b x := by
    have : (List.range b).mapM (fun t => r.data.readInput (i + t)) = .ok ((List.range b).map fun _ => x) :=
      Snn.mapM_ok _ _ _ fun t ht => (hxy t (List.mem_range.1 ht)).1
    rw [hX] at this
    cases this
    simp [List.map_const']
  have ey : ys = List.replicate b y := by
    have : (List.range b).mapM (fun t => r.data.readOutput (i + t)) = .ok ((List.range b).map fun _ => y) :=
      Snn.mapM_ok _ _ _ fun t ht => (hxy t (List.mem_range.1 ht)).2
    rw [hY] at this
    cases this
    simp [List.map_const']
  have mean : ∀ (w : Nat) (x : List F), x.length = w → meanRows w (List.replicate b x) = x := by
    intro w x hl
    unfold meanRows
    apply List.ext_getElem
    · simp [hl]
    · intro j h1 h2
      have hb' : (b : F) ≠ 0 := by exact_mod_cast (by omega : b ≠ 0)
      simp [List.getD_eq_getElem?_getD, h2, hb']
  have hlx : x.length = w := by
    have h1 := (hxy 0 (by omega)).1
    rw [readInput_eq] at h1
    obtain ⟨k, _, h1⟩ := Res.bind_eq_ok.1 h1
    refine hw x ?_
    rw [← hin.1]
    obtain ⟨_, h2⟩ := rd_eq_ok.1 h1
    exact List.mem_of_getElem? h2
  have hly : y.length = v := by
    have h1 := (hxy 0 (by omega)).2
    rw [readOutput_eq] at h1
    obtain ⟨k, _, h1⟩ := Res.bind_eq_ok.1 h1
    refine hv y ?_
    rw [← hin.2]
    obtain ⟨_, h2⟩ := rd_eq_ok.1 h1
    exact List.mem_of_getElem? h2
  rw [main, ex, ey, mean w x hlx, mean v y hly]

end

/-- One input, one identity neuron. -/
def line : Snn ℚ := (Snn.make (F := ℚ) [.input [1], .fullyConnected 1 .identity []] { learningRate := 1/10, momentum := 0 } Demo.draws |>.get (by decide +kernel)).1

/-- Two examples of `y = x` whose mean is zero. -/
def twoPoints : Data ℚ := (Data.make2 .regression [[1], [-1]] [[1], [-1]] [] [] .nonTemporal 0).get (by decide +kernel)

/-- The weight on the input (the neuron has this one and the one of its bias). -/
def slope (s : Snn ℚ) : List ℚ := s.net.layers.flatMap fun l => l.body.weights.map fun ws => ws.headD 0

/-- An epoch whose batch is the two examples. -/
def afterBatch : Run ℚ := (Run.train Demo.env (litEp 1) 2 0 100 (Demo.run line twoPoints)).get (by decide +kernel)
/-- One step on the first example. -/
def afterFirst : Bool × Run ℚ := (Run.trainStep Demo.env 1 (Demo.run line twoPoints)).get (by decide +kernel)
/-- One step on the second example. -/
def afterSecond : Bool × Run ℚ :=
  (Run.trainStep Demo.env 1 { Demo.run line twoPoints with snn := { line with index := 1 } }).get (by decide +kernel)

/-- **C80, refuted.** A batch step is not the mean of the steps on its examples (mini-batch gradient descent). The examples `1 ↦ 1` and
`-1 ↦ -1` each increase the slope of a linear neuron, but learned as one batch of two they leave it unchanged. -/
theorem C80_gradient_refuted :
    Run.train Demo.env (litEp 1) 2 0 100 (Demo.run line twoPoints) = .ok afterBatch ∧
    Run.trainStep Demo.env 1 (Demo.run line twoPoints) = .ok afterFirst ∧
    Run.trainStep Demo.env 1 { Demo.run line twoPoints with snn := { line with index := 1 } } = .ok afterSecond ∧
    slope afterBatch.snn = slope line ∧ afterBatch.snn.net.numberOfTraining = 1 ∧
    ∃ a b c, slope line = [a] ∧ slope afterFirst.2.snn = [b] ∧ slope afterSecond.2.snn = [c] ∧ a < b ∧ a < c :=
  ⟨Res.eq_get _ _, Res.eq_get _ _, Res.eq_get _ _, by decide +kernel, by decide +kernel,
    (slope line).headD 0, (slope afterFirst.2.snn).headD 0, (slope afterSecond.2.snn).headD 0,
    by decide +kernel, by decide +kernel, by decide +kernel, by decide +kernel, by decide +kernel⟩

/-- The hypotheses of the positive part are met: the batch of the last two of the three examples of `Demo.classification`. -/
example : ∃ xs ys, (List.range 2).mapM (fun t => Demo.classification.readInput (1 + t)) = .ok xs ∧
    (List.range 2).mapM (fun t => Demo.classification.readOutput (1 + t)) = .ok ys ∧
    (fun q : Bool × Run ℚ => (q.2.snn.net, q.2.draws)) <$> Run.trainStep Demo.env 2
      { Demo.run Demo.dense Demo.classification with snn := { Demo.dense with index := 1 } }
      = Demo.dense.net.trainOnce (meanRows 2 xs) (meanRows 2 ys) true Demo.draws := by
  obtain ⟨xs, ys, h1, h2, h3, _⟩ := C80_mean_example_partial (F := ℚ) .classification [[1, 0], [0, 1], [1, 1]] [[1, 0], [0, 1], [0, 1]]
    [[1, 2], [2, 1]] [[0, 1], [1, 0]] 0 Demo.classification (Res.eq_get _ _) rfl [] 2 2 (by unfold Rows; decide +kernel)
    (by unfold Rows; decide +kernel) 1 2 (by norm_num) (by decide)
    Demo.env { Demo.run Demo.dense Demo.classification with snn := { Demo.dense with index := 1 } } rfl rfl (by decide +kernel)
  exact ⟨xs, ys, h1, h2, h3⟩

end Snn.FullBatchProps
