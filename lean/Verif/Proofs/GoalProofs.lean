import Verif.Spec.GoalSpec
import Verif.Props.AccuracyProps

/-! What is true at the end of a training that was asked for an accuracy. -/

set_option linter.all false

namespace Snn.Goal

open Snn.Spec TrainProofs TrainProps EvalProps InferenceProps AccuracyProps

section
variable {F : Type} [Flt F] [FTrans F] [Add F] [Sub F] [Mul F] [Div F] [Neg F]
variable {env : Env F} {wait : Wait F} {b ef : Int}

/-- An invariant of the networks that the training steps keep. -/
theorem loop_net {P : Net F → Prop} (hstep : ∀ (r r' : Run F) ret, P r.snn.net → r.snn.net.outputNan = false → r.trainStep env b = .ok (ret, r') → P r'.snn.net) :
    ∀ {fuel : Nat} {q q' : Run F} {ret : Bool}, P q.snn.net → stepLoop env wait b fuel q = .ok (ret, q') → P q'.snn.net := by
  intro fuel
  induction fuel with
  | zero => intro q q' ret _ hq; cases hq
  | succ fuel ih =>
    intro q q' ret hp hq
    unfold stepLoop at hq
    split at hq
    · unfold Run.continueTraining at hq
      simp only at hq
      split at hq
      · rename_i hc
        simp only [Bool.and_eq_true, Bool.not_eq_true'] at hc
        obtain ⟨⟨c1, c2⟩, c3⟩ := hc
        obtain ⟨⟨ret1, r2⟩, h1, hq⟩ := Res.bind_eq_ok.1 hq
        have hp2 := hstep _ _ _ (by exact hp) (by exact c3) h1
        simp only at hq
        cases hr : ret1
        · rw [hr] at hq
          simp only [Bool.false_eq_true, if_false] at hq
          exact ih (by exact hp2) hq
        · rw [hr] at hq
          simp only [if_true] at hq
          cases hq; exact hp2
      · cases hq; exact hp
    · cases hq; exact hp

/-- T holds at the beginning of each epoch and at the end, U while an epoch is learned. -/
theorem phases {U T : Run F → Prop} {inner : Nat}
    (htick : ∀ (r : Run F) t e, T r → T { r with ticks := t, snn := { r.snn with epoch := e } })
    (hgo : ∀ (r : Run F), T r → (∃ t e, wait.isOver t e r.snn.net.stats.globalRate r.snn.net.stats.mae = false) → U r)
    (hsteps : ∀ (r r2 : Run F) ds ret, U r → r.data.shuffle (env.rng r.snn.epoch) = .ok ds →
      stepLoop env wait b inner { r with data := ds, snn := { r.snn with index := 0 }, trace := .shuffled :: r.trace } = .ok (ret, r2) → U r2)
    (hrest : ∀ r, U r → T r) (heval : ∀ r r', U r → r.evaluate env = .ok r' → T r') :
    ∀ {fuel : Nat} {r r' : Run F} {ret : Bool}, T r → epochLoop env wait b ef inner fuel r = .ok (ret, r') → T r'
  | 0, r, r', ret, _, h => by cases h
  | fuel + 1, r, r', ret, ht, h => by
    unfold epochLoop at h
    simp only [continue_fields] at h
    split at h
    · rename_i hc
      have hover : wait.isOver (env.clock r.ticks) r.snn.epoch r.snn.net.stats.globalRate r.snn.net.stats.mae = false := by
        unfold Run.continueTraining at hc
        simp only [Bool.and_eq_true, Bool.not_eq_true'] at hc
        exact hc.1.2
      obtain ⟨⟨ret1, r2⟩, h1, h⟩ := Res.bind_eq_ok.1 h
      have hu : U { r with ticks := r.ticks + 1 } := hgo _ (htick r _ r.snn.epoch ht) ⟨_, _, hover⟩
      have ht2 : T r2 := by
        unfold Run.epochBody at h1
        obtain ⟨ds, hs, h1⟩ := Res.bind_eq_ok.1 h1
        obtain ⟨⟨ret2, r3⟩, h2, h1⟩ := Res.bind_eq_ok.1 h1
        have hu2 := hsteps _ _ _ _ hu hs h2
        simp only at h1
        split at h1
        · cases h1; exact hrest _ hu2
        · split at h1
          · obtain ⟨r4, h4, h1⟩ := Res.bind_eq_ok.1 h1
            cases h1; exact heval _ _ hu2 h4
          · cases h1; exact hrest _ hu2
      simp only at h
      split at h
      · cases h; exact ht2
      · have q := htick r2 r2.ticks (r2.snn.epoch + 1) ht2
        exact phases htick hgo hsteps hrest heval q h
    · cases h; exact htick r _ r.snn.epoch ht

end

section
variable {F : Type} [Field F] [LinearOrder F] [IsStrictOrderedRing F] [FTrans F]
variable {env : Env F} {wait : Wait F} {b ef : Int} {ni no : Nat} {data : Data F}

/-- What is true of all the states of a training. -/
structure Facts (ni no : Nat) (b : Int) (data : Data F) (r : Run F) : Prop where
  safe : SafeRun ni no b r
  plain : Plain r.snn.net.layers
  nan : r.snn.net.outputNan = false
  frame : Frame data r.data

theorem Facts.tick {r : Run F} (h : Facts ni no b data r) (t : Nat) (e : Int) : Facts ni no b data { r with ticks := t, snn := { r.snn with epoch := e } } :=
  ⟨⟨h.safe.net, h.safe.data, h.safe.size, h.safe.batch⟩, h.plain, h.nan, h.frame⟩

theorem frame_trans {a b c : Data F} (h : Frame a b) (k : Frame b c) : Frame a c :=
  ⟨k.problem.trans h.problem, k.temporal.trans h.temporal, k.recur.trans h.recur, k.precision.trans h.precision, k.separator.trans h.separator,
    k.sizeOfData.trans h.sizeOfData, k.numberOfLabels.trans h.numberOfLabels, k.size.trans h.size, k.inputs.trans h.inputs, k.labels.trans h.labels, k.testing.trans h.testing⟩

theorem Facts.steps {r r2 : Run F} {ds : Data F} {ret : Bool} {inner : Nat} (h : Facts ni no b data r) (hs : r.data.shuffle (env.rng r.snn.epoch) = .ok ds)
    (hl : stepLoop env wait b inner { r with data := ds, snn := { r.snn with index := 0 }, trace := .shuffled :: r.trace } = .ok (ret, r2)) :
    Facts ni no b data r2 ∧ r2.snn.net.stats = r.snn.net.stats := by
  obtain ⟨d1, s1, s2, s3⟩ := shuffle_safe h.safe.data (env.rng r.snn.epoch)
  rw [hs] at s1
  cases s1
  have hsafe := stepLoop_safe (env := env) (wait := wait) inner
    { r with data := ds, snn := { r.snn with index := 0 }, trace := .shuffled :: r.trace }
    ⟨h.safe.net, s2, by simp only [h.safe.size, s3.size], h.safe.batch⟩ (by simp) (by simp)
  have hnet := loop_net (P := fun n => Plain n.layers ∧ n.outputNan = false ∧ n.stats = r.snn.net.stats) (env := env) (wait := wait) (b := b)
    (fun q q' ret hp hn hst => ⟨plain_kept.trainStep hp.1 hst, (step_facts hn hst).1, (step_facts hn hst).2.1.trans hp.2.2⟩)
    (by exact ⟨h.plain, h.nan, rfl⟩) hl
  obtain ⟨b', hb'⟩ : ∃ b' : Nat, b = (b' : Int) := ⟨b.toNat, by have := h.safe.batch; omega⟩
  have hdata : SameButBuffers ds r2.data := by
    rw [hb'] at hl
    obtain ⟨_, m, lo⟩ := stepLoop_spec (ds := ds) (SameButBuffers.refl _) hl
    exact lo.data
  rcases hsafe with ⟨⟨ret', r2'⟩, i1, _, i3, _⟩ | ⟨_, i2⟩
  · rw [hl] at i1
    cases i1
    exact ⟨⟨i3, hnet.1, hnet.2.1, frame_trans (frame_trans h.frame s3) hdata.frame⟩, hnet.2.2⟩
  · rw [hl] at i2; cases i2

theorem Facts.evaluate {r r' : Run F} (h : Facts ni no b data r) (he : r.evaluate env = .ok r') : Facts ni no b data r' := by
  obtain ⟨q, j1, j2, j3⟩ := evaluate_safe env h.safe.net h.safe.data
  rw [he] at j1
  cases j1
  exact ⟨⟨j2, by rw [j3.data]; exact h.safe.data, by rw [j3.between, j3.data]; exact h.safe.size, h.safe.batch⟩, plain_kept.evaluate h.plain he,
    (evaluate_save h.nan he).1, by rw [j3.data]; exact h.frame⟩

/-- Networks with the same weights are right on the same examples. -/
theorem correct_same {s s' : Snn F} {x : List F × List F} (h : List.Forall₂ Layer.Same s.net.layers s'.net.layers) (hn : ∀ l ∈ s.net.layers, NonRecurrent l) :
    Correct s data x ↔ Correct s' data x := by
  have e := Net.output_rel h hn x.1 false false
  unfold Correct Snn.computeCluster Snn.computeOutput
  cases hs : s.net.output x.1 false with
  | ok p =>
    obtain ⟨y, n⟩ := p
    rw [hs] at e
    obtain ⟨n', hs'⟩ := OrderProps.map_fst_ok e.symm
    rw [hs']
    cases data.typeOfProblem with
    | classification =>
      constructor
      · rintro ⟨k, t, h1, h2⟩
        have h3 : argmaxLoop y = (k : Int) := congrArg Prod.fst (Res.ok.inj h1)
        exact ⟨k, _, by rw [← h3]; rfl, h2⟩
      · rintro ⟨k, t, h1, h2⟩
        have h3 : argmaxLoop y = (k : Int) := congrArg Prod.fst (Res.ok.inj h1)
        exact ⟨k, _, by rw [← h3]; rfl, h2⟩
    | multipleClassification =>
      constructor
      · rintro ⟨o, t, h1, h2⟩
        have h3 : y = o := congrArg Prod.fst (Res.ok.inj h1)
        exact ⟨o, _, by rw [← h3]; rfl, h2⟩
      · rintro ⟨o, t, h1, h2⟩
        have h3 : y = o := congrArg Prod.fst (Res.ok.inj h1)
        exact ⟨o, _, by rw [← h3]; rfl, h2⟩
    | regression =>
      constructor
      · rintro ⟨o, t, h1, h2⟩
        have h3 : y = o := congrArg Prod.fst (Res.ok.inj h1)
        exact ⟨o, _, by rw [← h3]; rfl, h2⟩
      · rintro ⟨o, t, h1, h2⟩
        have h3 : y = o := congrArg Prod.fst (Res.ok.inj h1)
        exact ⟨o, _, by rw [← h3]; rfl, h2⟩
  | throw m =>
    rw [hs] at e
    have hs' : s'.net.output x.1 false = .throw m := by
      cases h' : s'.net.output x.1 false with
      | ok p => rw [h'] at e; cases e
      | throw m' => rw [h'] at e; cases e; rfl
      | ub m' => rw [h'] at e; cases e
    rw [hs']
    cases data.typeOfProblem <;> simp
  | ub m =>
    rw [hs] at e
    have hs' : s'.net.output x.1 false = .ub m := by
      cases h' : s'.net.output x.1 false with
      | ok p => rw [h'] at e; cases e
      | throw m' => rw [h'] at e; cases e
      | ub m' => rw [h'] at e; cases e; rfl
    rw [hs']
    cases data.typeOfProblem <;> simp

theorem correct_frame {s : Snn F} {d d' : Data F} (h : Frame d d') {x : List F × List F} : Correct s d' x ↔ Correct s d x := by
  unfold Correct
  rw [h.problem, h.separator, h.precision]

open Classical in
/-- After an evaluation the reported accuracy is the share of the examples on which the network is right. -/
theorem Facts.rated {r r' : Run F} (h : Facts ni no b data r) (he : r.evaluate env = .ok r') (hnt : data.typeOfTemporal = .nonTemporal)
    (hp : data.typeOfProblem = .regression → 0 ≤ data.precision) : r'.snn.net.stats.globalRate = rightShare r'.snn data := by
  obtain ⟨r2, es, st, e1, e2, e3, e4, e5, e6, e7⟩ := evaluate_counts (r := r) (env := env) h.safe.net h.plain.2 h.nan h.safe.data
    (by rw [h.frame.temporal]; exact hnt) (by rw [h.frame.problem, h.frame.precision]; exact hp)
  rw [he] at e1
  cases e1
  have hk := (evaluate_keeps he).1.layers
  rw [e4]
  have hg : st.stopTesting.globalRate = st.computeGlobalRate := rfl
  rw [hg]
  unfold Stats.computeGlobalRate
  have hw := e5.well
  have hmis := e5.mis
  have hcount : (es.countP fun e => decide (StatSpec.judged no e)) + (es.countP fun e => decide (¬ StatSpec.judged no e)) = es.length := by
    clear e2 e3 e5 e6 e7 hw hmis
    induction es with
    | nil => rfl
    | cons e es ih =>
      simp only [List.countP_cons, List.length_cons]
      by_cases hj : StatSpec.judged no e <;> simp only [hj, decide_true, decide_false, not_true_eq_false, not_false_eq_true, if_true, if_false, Bool.false_eq_true] <;> omega
  have hz : (r.snn.net.stats.startTesting : Stats F).wellClassified = 0 ∧ (r.snn.net.stats.startTesting : Stats F).misclassified = 0 := by
    simp [Stats.startTesting]
  rw [hz.1, zero_add] at hw
  rw [hz.2, zero_add] at hmis
  rw [hw, hmis, ← Nat.cast_add, hcount, e6, ← e2.length_eq]
  have ht : testingExamples r.data = testingExamples data := by unfold testingExamples; rw [h.frame.testing]
  unfold rightShare
  rw [ht]
  congr 2
  refine List.countP_congr ?_
  intro x _
  simp only [decide_eq_true_eq]
  exact (correct_frame h.frame).trans (correct_same hk h.plain.2)

/-- A training that evaluates. -/
theorem train_goal {a : F} {fuel : Nat} {r r' : Run F} (h0 : Facts ni no b data ({ r with snn := { r.snn with wantToStopTraining := true } } : Run F).begin)
    (hnt : data.typeOfTemporal = .nonTemporal) (hp : data.typeOfProblem = .regression → 0 ≤ data.precision) (ha : 0 < a) (hw : Requests wait a) (hef : 0 < ef)
    (h : r.train env wait b ef fuel = .ok r') :
    (a ≤ r'.snn.net.stats.globalRate → r'.snn.net.stats.globalRate = rightShare r'.snn data) ∧
    (r.snn.net.stats.globalRateMax < a → a ≤ r'.snn.net.stats.globalRateMax → r'.snn.net.stats.globalRateMax = r'.snn.net.stats.globalRate) := by
  obtain ⟨_, _, r1, r2, h1, h2, rfl⟩ := train_pieces h
  rw [if_pos hef] at h1
  set M := r.snn.net.stats.globalRateMax with hM
  let T : Run F → Prop := fun q => Facts ni no b data q ∧ (a ≤ q.snn.net.stats.globalRate → q.snn.net.stats.globalRate = rightShare q.snn data) ∧
    (M < a → q.snn.net.stats.globalRateMax < a ∨ q.snn.net.stats.globalRateMax = q.snn.net.stats.globalRate)
  let U : Run F → Prop := fun q => Facts ni no b data q ∧ q.snn.net.stats.globalRate < a ∧ (M < a → q.snn.net.stats.globalRateMax < a)
  have hshare : ∀ (s : Snn F) (e : Int), rightShare ({ s with epoch := e } : Snn F) data = rightShare s data := by
    intro s e
    classical
    unfold rightShare
    congr 2
    refine List.countP_congr ?_
    intro x _
    simp only [decide_eq_true_eq]
    unfold Correct Snn.computeCluster Snn.computeOutput
    cases data.typeOfProblem <;> cases s.net.output x.1 false <;> simp [Res.pure_eq]
  have hstart : T r1 := by
    have f1 := h0.evaluate h1
    have em := (evaluate_save h0.nan h1).2.2.1
    refine ⟨f1, fun _ => h0.rated h1 hnt hp, fun hlt => ?_⟩
    rw [em]
    rcases le_total (M) (r1.snn.net.stats.globalRate) with hle | hle
    · right; exact max_eq_right hle
    · left; exact max_lt hlt (lt_of_le_of_lt hle hlt)
  have htick : ∀ (q : Run F) t e, T q → T { q with ticks := t, snn := { q.snn with epoch := e } } := by
    intro q t e hq
    exact ⟨hq.1.tick t e, fun hle => by rw [show rightShare _ data = _ from hshare q.snn e]; exact hq.2.1 hle, hq.2.2⟩
  have hend : T r2 := by
    refine phases (U := U) (T := T) htick ?_ ?_ ?_ ?_ (htick r1 r1.ticks 1 hstart) h2
    · rintro q hq ⟨t, e, ho⟩
      have hlt : q.snn.net.stats.globalRate < a := by
        by_contra hc
        push Not at hc
        rw [hw _ _ _ _ hc (lt_of_lt_of_le ha hc)] at ho
        cases ho
      refine ⟨hq.1, hlt, fun hm => ?_⟩
      rcases hq.2.2 hm with h' | h'
      · exact h'
      · rw [h']; exact hlt
    · intro q q2 ds ret hq hs hl
      obtain ⟨f, e⟩ := hq.1.steps hs hl
      exact ⟨f, by rw [e]; exact hq.2.1, by rw [e]; exact hq.2.2⟩
    · intro q hq
      exact ⟨hq.1, fun hle => absurd hle (not_le.2 hq.2.1), fun hm => Or.inl (hq.2.2 hm)⟩
    · intro q q' hq he
      have em := (evaluate_save hq.1.nan he).2.2.1
      refine ⟨hq.1.evaluate he, fun _ => hq.1.rated he hnt hp, fun hm => ?_⟩
      rw [em]
      rcases le_total q.snn.net.stats.globalRateMax q'.snn.net.stats.globalRate with hle | hle
      · right; exact max_eq_right hle
      · left; exact max_lt (hq.2.2 hm) (lt_of_le_of_lt hle (hq.2.2 hm))
  obtain ⟨_, t2, t3⟩ := hend
  constructor
  · intro hle
    have : rightShare ({ r2 with snn := r2.snn.resetTrainingValues } : Run F).snn data = rightShare r2.snn data := by
      classical
      unfold rightShare
      congr 2
      refine List.countP_congr ?_
      intro x _
      simp only [decide_eq_true_eq]
      unfold Correct Snn.computeCluster Snn.computeOutput Snn.resetTrainingValues
      cases data.typeOfProblem <;> cases r2.snn.net.output x.1 false <;> simp [Res.pure_eq]
    rw [this]
    exact t2 hle
  · intro hm hle
    rcases t3 hm with h' | h'
    · exact absurd (show a ≤ r2.snn.net.stats.globalRateMax from hle) (not_le.2 h')
    · exact h'

end

end Snn.Goal
