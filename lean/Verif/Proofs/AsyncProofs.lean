import Verif.Spec.AsyncSpec
import Verif.Proofs.SafeProofs

/-! Proofs about the asynchronous training. -/

set_option linter.all false

namespace Snn.Async

open Snn Snn.Spec Snn.Async.Spec Snn.TrainProofs

section
variable {F : Type} [Flt F] [FTrans F] [Add F] [Sub F] [Mul F] [Div F] [Neg F]

/-! ### At most one loop -/

/-- The part of the invariant that does not depend on the flags. -/
structure Shape (σ : Sys F) : Prop where
  owner : ∀ i j pc, σ.threads[i]? = some (j, pc) → pc ≠ .done → σ.handle = some i
  free : match σ.client with
    | .stopped _ => σ.handle = none
    | .training _ _ => σ.handle = none
    | .destroyed => σ.handle = none
    | .terminated => False
    | _ => True

theorem shape_client {p : Program F} {σ τ : Sys F} (h : Shape σ) (hs : ClientStep p σ τ) : Shape τ := by
  obtain ⟨ho, hf⟩ := h
  cases hs with
  | callStart j hp hr hw hv => exact ⟨ho, trivial⟩
  | callTrain j hp hr hv hi => exact ⟨ho, trivial⟩
  | callThrows hr => exact ⟨ho, hf⟩
  | callStop hr => exact ⟨ho, trivial⟩
  | callDestructor hr => exact ⟨ho, trivial⟩
  | setWant k hc => exact ⟨ho, trivial⟩
  | notJoinable k hc hh => exact ⟨ho, hh⟩
  | join k i j hc hh hd =>
    refine ⟨?_, rfl⟩
    intro i' j' pc' ht hne
    exfalso
    have e := ho i' j' pc' ht hne
    rw [hh] at e
    cases e
    rw [show σ.threads[i]? = some (j', pc') from ht] at hd
    cases hd
    exact hne rfl
  | returnStop hc => exact ⟨ho, trivial⟩
  | endDestructor hc => rw [hc] at hf; exact ⟨ho, hf⟩
  | spawn j hc hh =>
    refine ⟨?_, trivial⟩
    intro i' j' pc' ht hne
    simp only at ht ⊢
    by_cases hi : i' < σ.threads.length
    · rw [List.getElem?_append_left hi] at ht
      have e := ho i' j' pc' ht hne
      rw [hh] at e; cases e
    · rw [List.getElem?_append_right (by omega)] at ht
      rcases Nat.eq_zero_or_pos (i' - σ.threads.length) with h0 | h0
      · congr 1; omega
      · rw [List.getElem?_eq_none (by simp; omega)] at ht; cases ht
  | spawnTerminates j hc hh => rw [hc] at hf; exact absurd hf hh
  | enterTrain j hc => rw [hc] at hf; exact ⟨ho, hf⟩
  | trainAction j pc pc' r' hc hne hn => rw [hc] at hf; exact ⟨ho, hf⟩
  | trainReturns j hc => exact ⟨ho, trivial⟩
  | callWait w hr => exact ⟨ho, trivial⟩
  | poll w t hc =>
    refine ⟨ho, ?_⟩
    simp only
    split <;> rename_i h <;> split at h <;> first | trivial | (cases h; done)
  | use r' hr hu => exact ⟨ho, hf⟩

theorem shape_thread {i : Nat} {σ τ : Sys F} (h : Shape σ) (hs : ThreadStep i σ τ) : Shape τ := by
  obtain ⟨ho, hf⟩ := h
  cases hs with
  | action j pc pc' r' ht hne hn =>
    refine ⟨?_, hf⟩
    intro i' j' pc'' ht' hne'
    simp only at ht' ⊢
    by_cases hi : i = i'
    · subst hi; exact ho i j pc ht hne
    · rw [List.getElem?_set_ne hi] at ht'
      exact ho i' j' pc'' ht' hne'

theorem reach_shape {p : Program F} {r0 : Run F} {σ : Sys F} (h : Reach p r0 σ) : Shape σ := by
  induction h with
  | start => exact ⟨by intro i j pc h; simp [Sys.start] at h, trivial⟩
  | step _ hs ih =>
    rcases hs with hs | ⟨i, hs⟩
    · exact shape_client ih hs
    · exact shape_thread ih hs

theorem filter_le_one {α : Type} (q : α → Bool) : ∀ (l : List α), (∀ (i i' : Nat) (a a' : α), l[i]? = some a → l[i']? = some a' → q a = true → q a' = true → i = i') →
    (l.filter q).length ≤ 1
  | [], _ => by simp
  | a :: l, h => by
    have ih := filter_le_one q l (fun i i' b b' h1 h2 h3 h4 => by
      have := h (i + 1) (i' + 1) b b' (by simpa using h1) (by simpa using h2) h3 h4
      omega)
    by_cases hq : q a = true
    · rw [List.filter_cons_of_pos hq]
      have : l.filter q = [] := by
        rw [List.filter_eq_nil_iff]
        intro b hb hqb
        obtain ⟨i, hi⟩ := List.getElem?_of_mem hb
        have := h 0 (i + 1) a b rfl (by simpa using hi) hq hqb
        omega
      simp [this]
    · rw [List.filter_cons_of_neg hq]; exact ih

theorem live_threads {σ : Sys F} (h : Shape σ) : ((σ.threads.map (·.2)).filter (fun pc => pc ≠ .done)).length ≤ 1 := by
  apply filter_le_one
  intro i i' a a' h1 h2 h3 h4
  rw [List.getElem?_map] at h1 h2
  obtain ⟨⟨j, pc⟩, g1, g2⟩ := Option.map_eq_some_iff.1 h1
  obtain ⟨⟨j', pc'⟩, g3, g4⟩ := Option.map_eq_some_iff.1 h2
  subst g2; subst g4
  have e := h.owner i j pc g1 (by simpa using h3)
  have e' := h.owner i' j' pc' g3 (by simpa using h4)
  rw [e] at e'
  exact Option.some.inj e'

theorem no_live_threads {σ : Sys F} (h : Shape σ) (hh : σ.handle = none) : (σ.threads.map (·.2)).filter (fun pc => pc ≠ .done) = [] := by
  rw [List.filter_eq_nil_iff]
  intro pc hpc hne
  obtain ⟨⟨j, pc⟩, hm, rfl⟩ := List.mem_map.1 hpc
  obtain ⟨i, hi⟩ := List.getElem?_of_mem hm
  have := h.owner i j pc hi (by simpa using hne)
  rw [hh] at this; cases this

theorem live_le_one {σ : Sys F} (h : Shape σ) : (liveLoops σ).length ≤ 1 := by
  unfold liveLoops
  rw [List.filter_append, List.length_append]
  cases hc : σ.client with
  | training j pc =>
    have hf := h.free
    rw [hc] at hf
    rw [no_live_threads h hf]
    simp only [List.length_nil, zero_add]
    exact (List.length_filter_le _ _).trans (by simp)
  | _ => simpa using live_threads h

/-! ### One action never goes wrong -/

/-- What holds of the state at each point of the loop. -/
def LoopInv (ni no : Nat) (j : Job F) (pc : Pc) (r : Run F) : Prop :=
  pc = .enter ∨ pc = .done ∨ (SafeRun ni no j.batchSize r ∧
    match pc with
    | .evaluating _ k => 0 ≤ r.snn.index ∧ r.snn.index + (k : Int) ≤ (r.data.testing.size : Int)
    | .evalReset _ => r.snn.net.outputNan = true
    | .evalIdle _ => r.snn.net.outputNan = true
    | .stepTest => 0 ≤ r.snn.index
    | .stepBody => 0 ≤ r.snn.index ∧ r.snn.index + j.batchSize ≤ r.snn.numberOfTrainingsBetweenTwoEvaluations
    | _ => True)

/-- What an action that is not at the beginning does to the rest. -/
structure Keeps (r r' : Run F) : Prop where
  nan : r.snn.net.outputNan = true → r'.snn.net.outputNan = true
  testing : r'.data.testing.size = r.data.testing.size

theorem evaluatePosition_frame {r r' : Run F} (h : evaluatePosition r = .ok r') :
    (r.snn.net.outputNan = true → r'.snn.net.outputNan = true) ∧ r'.data = r.data ∧ r'.snn.index = r.snn.index + 1 ∧
      r'.snn.wantToStopTraining = r.snn.wantToStopTraining ∧ r'.snn.isIdle = r.snn.isIdle ∧ r'.snn.epoch = r.snn.epoch ∧
      r'.snn.numberOfTrainingsBetweenTwoEvaluations = r.snn.numberOfTrainingsBetweenTwoEvaluations := by
  unfold evaluatePosition at h
  obtain ⟨need, _, h⟩ := Res.bind_eq_ok.1 h
  obtain ⟨s1, h1, h⟩ := Res.bind_eq_ok.1 h
  have k1 : EvalKeep r.snn s1 ∧ s1.wantToStopTraining = r.snn.wantToStopTraining ∧ s1.isIdle = r.snn.isIdle ∧ s1.index = r.snn.index := by
    split at h1
    · exact evaluateOnce_frame h1
    · obtain ⟨_, _, h1⟩ := Res.bind_eq_ok.1 h1
      obtain ⟨_, _, h1⟩ := Res.bind_eq_ok.1 h1
      obtain ⟨⟨out, net⟩, h2, h1⟩ := Res.bind_eq_ok.1 h1
      cases h1
      obtain ⟨k1, k2, k3⟩ := net_output_frame h2
      exact ⟨⟨rfl, rfl, fun h => by simp [k3, h], k2, rfl, rfl⟩, rfl, rfl, rfl⟩
  cases h
  obtain ⟨k, a, b, c⟩ := k1
  exact ⟨k.nan, rfl, by simp [c], a, b, k.epoch, k.between⟩

theorem evaluatePosition_safe {ni no : Nat} {r : Run F} (hn : SafeNet ni no r.snn.net) (hd : SafeData ni no r.data)
    (h0 : 0 ≤ r.snn.index) (h1 : r.snn.index < (r.data.testing.size : Int)) :
    ∃ r', evaluatePosition r = .ok r' ∧ SafeNet ni no r'.snn.net := by
  obtain ⟨j, hj⟩ := Int.eq_ofNat_of_zero_le h0
  have hj' : j < r.data.testing.size := by omega
  obtain ⟨need, h1⟩ := needToEvaluate_safe hd hj'
  unfold evaluatePosition
  simp only
  rw [hj, h1, ← hj]
  simp only [Res.ok_bind]
  cases need
  · simp only [Bool.false_eq_true, if_false]
    obtain ⟨x, hx1, hx2⟩ := getTestingData_safe hd hj'
    obtain ⟨f, hf⟩ := isFirstTesting_safe hd hj'
    obtain ⟨y, net, hy1, hy2, hy3, hy4⟩ := Net.output_ok hn.wf x hx2 f
    rw [hj, hx1, ← hj]
    simp only [Res.ok_bind]
    rw [hj, hf, ← hj]
    simp only [Res.ok_bind]
    rw [hy1]
    exact ⟨_, rfl, ⟨hy3, by simp only [hy4]; exact hn.clusters⟩⟩
  · simp only [if_true]
    obtain ⟨s1, h2, h3, h4⟩ := snnEvaluateOnce_safe hn hd hj hj'
    rw [h2]
    exact ⟨_, rfl, h3⟩

theorem evaluateEnd_fields (r : Run F) : (evaluateEnd r).snn.net.outputNan = r.snn.net.outputNan ∧ (evaluateEnd r).data = r.data ∧
    (evaluateEnd r).snn.net.layers = r.snn.net.layers ∧ (evaluateEnd r).snn.net.stats.clusters = r.snn.net.stats.clusters ∧
    (evaluateEnd r).snn.wantToStopTraining = r.snn.wantToStopTraining ∧ (evaluateEnd r).snn.isIdle = r.snn.isIdle ∧
    (evaluateEnd r).snn.epoch = r.snn.epoch ∧
    (evaluateEnd r).snn.numberOfTrainingsBetweenTwoEvaluations = r.snn.numberOfTrainingsBetweenTwoEvaluations := by
  unfold evaluateEnd
  simp only
  split <;> exact ⟨rfl, rfl, rfl, by simp [Stats.stopTesting, Run.saveSync], rfl, rfl, rfl, rfl⟩

theorem trainStep_frame {ni no : Nat} {env : Env F} {b : Int} {r r' : Run F} {ret : Bool} (hn : r.snn.net.outputNan = false)
    (h : r.trainStep env b = .ok (ret, r')) : r'.snn.wantToStopTraining = r.snn.wantToStopTraining ∧ r'.snn.isIdle = r.snn.isIdle ∧
      r'.data.testing.size = r.data.testing.size ∧ r'.snn.epoch = r.snn.epoch := by
  obtain ⟨_, h1⟩ := trainStep_spec (SameButBuffers.refl r.data) hn h
  obtain ⟨net, e, _⟩ := h1.snn
  refine ⟨by rw [e], by rw [e], ?_, by rw [e]⟩
  rw [h1.data.frame.testing]

theorem safe_of {ni no : Nat} {b : Int} {r r' : Run F} (h : SafeRun ni no b r) (h1 : r'.snn.net.layers = r.snn.net.layers)
    (h2 : r'.snn.net.stats.clusters.length = r.snn.net.stats.clusters.length) (h3 : r'.data = r.data)
    (h4 : r'.snn.numberOfTrainingsBetweenTwoEvaluations = r.snn.numberOfTrainingsBetweenTwoEvaluations) : SafeRun ni no b r' :=
  ⟨⟨⟨by rw [h1]; exact h.net.wf.layers, by rw [h1]; exact h.net.wf.ne, by rw [h1]; exact h.net.wf.last⟩, by rw [h2]; exact h.net.clusters⟩,
    by rw [h3]; exact h.data, by rw [h3, h4]; exact h.size, h.batch⟩

theorem next_ok {ni no : Nat} {j : Job F} {pc : Pc} {r : Run F} (hn : SafeNet ni no r.snn.net) (hd : SafeData ni no j.data)
    (hb : 1 ≤ j.batchSize) (h : LoopInv ni no j pc r) :
    ∃ pc' r', next j pc r = .ok (pc', r') ∧ LoopInv ni no j pc' r' ∧ SafeNet ni no r'.snn.net := by
  rcases h with rfl | rfl | ⟨hs, h⟩
  · have : SafeRun ni no j.batchSize { r with data := j.data, snn := { r.snn with epoch := 0, numberOfTrainingsBetweenTwoEvaluations := j.data.training.size, wantToStopTraining := false } } :=
      ⟨hn, hd, rfl, hb⟩
    exact ⟨_, _, rfl, Or.inr (Or.inr ⟨this, trivial⟩), hn⟩
  · exact ⟨_, _, rfl, Or.inr (Or.inl rfl), hn⟩
  · have after : ∀ (s : Site) (r1 : Run F), SafeRun ni no j.batchSize r1 →
        LoopInv ni no j (afterEvaluate s r1).1 (afterEvaluate s r1).2 ∧ SafeNet ni no (afterEvaluate s r1).2.snn.net := by
      intro s r1 h1
      cases s
      · exact ⟨Or.inr (Or.inr ⟨safe_of h1 rfl rfl rfl rfl, trivial⟩), h1.net⟩
      · exact ⟨Or.inr (Or.inr ⟨safe_of h1 rfl rfl rfl rfl, trivial⟩), h1.net⟩
    cases pc with
    | enter =>
      have : SafeRun ni no j.batchSize { r with data := j.data, snn := { r.snn with epoch := 0, numberOfTrainingsBetweenTwoEvaluations := j.data.training.size, wantToStopTraining := false } } :=
        ⟨hn, hd, rfl, hb⟩
      exact ⟨_, _, rfl, Or.inr (Or.inr ⟨this, trivial⟩), hn⟩
    | busy => exact ⟨_, _, rfl, Or.inr (Or.inr ⟨safe_of hs rfl rfl rfl rfl, trivial⟩), hn⟩
    | evalTest s =>
      have key : ∀ (c : Bool), ∃ pc' r', (if c = true then
          (.ok (.evaluating s r.data.testing.size, { r with snn := { r.snn with
            net := { r.snn.net with stats := r.snn.net.stats.startTesting }
            index := 0 } }) : Res (Pc × Run F))
          else .ok (afterEvaluate s r)) = .ok (pc', r') ∧ LoopInv ni no j pc' r' ∧ SafeNet ni no r'.snn.net := by
        intro c
        cases c
        · exact ⟨_, _, rfl, (after s r hs).1, (after s r hs).2⟩
        · have := safe_of (r' := { r with snn := { r.snn with net := { r.snn.net with stats := r.snn.net.stats.startTesting }, index := 0 } })
            hs rfl (by simp [Stats.startTesting]) rfl rfl
          exact ⟨_, _, rfl, Or.inr (Or.inr ⟨this, by simp⟩), this.net⟩
      exact key _
    | evaluating s k =>
      cases k with
      | zero =>
        obtain ⟨a, b, c, d, e, f, g, i⟩ := evaluateEnd_fields r
        exact ⟨_, _, rfl, after s _ (safe_of hs c (by rw [d]) b i)⟩
      | succ k =>
        obtain ⟨h0, h1⟩ := h
        simp only [next]
        by_cases hnan : r.snn.net.outputNan = true
        · rw [if_pos hnan]
          have := safe_of (r' := nanResults j.env.nan r) hs rfl (by simp [nanResults, Stats.setResultsAsNan]) rfl rfl
          exact ⟨_, _, rfl, Or.inr (Or.inr ⟨this, hnan⟩), this.net⟩
        · rw [if_neg hnan]
          obtain ⟨r', e1, e2⟩ := evaluatePosition_safe hs.net hs.data h0 (by push_cast at h1; omega)
          obtain ⟨f1, f2, f3, f4, f5, f6, f7⟩ := evaluatePosition_frame e1
          rw [e1]
          refine ⟨_, _, rfl, Or.inr (Or.inr ⟨⟨e2, by rw [f2]; exact hs.data, by rw [f2, f7]; exact hs.size, hb⟩, ?_⟩), e2⟩
          simp only [f3, f2]
          push_cast at h1
          constructor <;> omega
    | evalReset s => exact ⟨_, _, rfl, Or.inr (Or.inr ⟨safe_of hs rfl rfl rfl rfl, h⟩), hn⟩
    | evalIdle s =>
      have := safe_of (r' := { r with snn := { r.snn with isIdle := true }, trace := .evaluated r.snn.epoch r.snn.net.stats :: r.trace }) hs rfl rfl rfl rfl
      exact ⟨_, _, rfl, after s _ this⟩
    | epochTest =>
      refine ⟨_, _, rfl, ?_, hn⟩
      split
      · exact Or.inr (Or.inr ⟨hs.tick _, trivial⟩)
      · exact Or.inr (Or.inr ⟨hs.tick _, trivial⟩)
    | shuffling =>
      obtain ⟨d1, s1, s2, s3⟩ := shuffle_safe hs.data (j.env.rng r.snn.epoch)
      simp only [next]
      rw [s1]
      exact ⟨_, _, rfl, Or.inr (Or.inr ⟨⟨hs.net, s2, by simp only [hs.size, s3.size], hb⟩, by simp⟩), hn⟩
    | stepTest =>
      simp only [next]
      by_cases hc : r.snn.index + j.batchSize ≤ r.snn.numberOfTrainingsBetweenTwoEvaluations
      · rw [if_pos hc]
        refine ⟨_, _, rfl, ?_, hn⟩
        split
        · exact Or.inr (Or.inr ⟨hs.tick _, ⟨h, hc⟩⟩)
        · exact Or.inr (Or.inr ⟨hs.tick _, trivial⟩)
      · rw [if_neg hc]
        exact ⟨_, _, rfl, Or.inr (Or.inr ⟨hs, trivial⟩), hn⟩
    | stepBody =>
      simp only [next]
      by_cases hnan : r.snn.net.outputNan = true
      · rw [if_pos hnan]
        have := safe_of (r' := nanResults j.env.nan r) hs rfl (by simp [nanResults, Stats.setResultsAsNan]) rfl rfl
        exact ⟨_, _, rfl, Or.inr (Or.inr ⟨this, trivial⟩), this.net⟩
      · rw [if_neg hnan]
        obtain ⟨r', e1, e2, e3, e4, e5⟩ := trainStep_safe (env := j.env) hs h.1 h.2 (by simpa using hnan)
        rw [e1]
        refine ⟨_, _, rfl, Or.inr (Or.inr ⟨⟨e2.net, e2.data, e2.size, hb⟩, ?_⟩), e2.net⟩
        simp only [e3]
        have := h.1
        omega
    | reset => exact ⟨_, _, rfl, Or.inr (Or.inr ⟨safe_of hs rfl rfl rfl rfl, trivial⟩), hn⟩
    | idle => exact ⟨_, _, rfl, Or.inr (Or.inl rfl), hn⟩
    | done => exact ⟨_, _, rfl, Or.inr (Or.inl rfl), hn⟩


/-! ### The invariant of the system -/

def SafeJob (ni no : Nat) (j : Job F) : Prop := SafeData ni no j.data ∧ 1 ≤ j.batchSize

def thenJob : Then F → Option (Job F)
  | .spawn j => some j
  | .trainHere j => some j
  | _ => none

structure SysInv (ni no : Nat) (σ : Sys F) : Prop where
  shape : Shape σ
  net : SafeNet ni no σ.run.snn.net
  jobs : ∀ (i : Nat) (j : Job F) (pc : Pc), σ.threads[i]? = some (j, pc) → SafeJob ni no j
  loops : ∀ (i : Nat) (j : Job F) (pc : Pc), σ.threads[i]? = some (j, pc) → LoopInv ni no j pc σ.run
  client : match σ.client with
    | .stopping k => ∀ j, thenJob k = some j → SafeJob ni no j
    | .joining k => ∀ j, thenJob k = some j → SafeJob ni no j
    | .stopped k => ∀ j, thenJob k = some j → SafeJob ni no j
    | .training j pc => SafeJob ni no j ∧ LoopInv ni no j pc σ.run
    | _ => True

theorem loopInv_use {ni no : Nat} {j : Job F} {pc : Pc} {r r' : Run F} (h : LoopInv ni no j pc r) (hn : SafeNet ni no r'.snn.net)
    (hd : r'.data = r.data) (hi : r'.snn.index = r.snn.index)
    (hb : r'.snn.numberOfTrainingsBetweenTwoEvaluations = r.snn.numberOfTrainingsBetweenTwoEvaluations)
    (hnan : r.snn.net.outputNan = true → r'.snn.net.outputNan = true) : LoopInv ni no j pc r' := by
  rcases h with h | h | ⟨hs, h⟩
  · exact Or.inl h
  · exact Or.inr (Or.inl h)
  · refine Or.inr (Or.inr ⟨⟨hn, by rw [hd]; exact hs.data, by rw [hd, hb]; exact hs.size, hs.batch⟩, ?_⟩)
    cases pc <;> simp only [hd, hi, hb] at h ⊢ <;> first | exact h | exact hnan h | trivial

theorem validData_batch {s : Snn F} {d : Data F} {b : Int} (h : s.validData d b = .ok ()) : 1 ≤ b ∧ b ≤ d.training.size := by
  unfold Snn.validData at h
  obtain ⟨no, _, h⟩ := Res.bind_eq_ok.1 h
  obtain ⟨ni, _, h⟩ := Res.bind_eq_ok.1 h
  split at h
  · cases h
  split at h
  · cases h
  split at h
  · cases h
  split at h
  · cases h
  · omega

theorem SysInv.thread {ni no : Nat} {i : Nat} {σ τ : Sys F} (h : SysInv ni no σ) (hs : ThreadStep i σ τ) : SysInv ni no τ := by
  have hsh := shape_thread h.shape hs
  cases hs with
  | action j pc pc' r' ht hne hn =>
    have hj := h.jobs i j pc ht
    obtain ⟨pc1, r1, e1, e2, e3⟩ := next_ok h.net hj.1 hj.2 (h.loops i j pc ht)
    rw [hn] at e1
    cases e1
    have hh := h.shape.owner i j pc ht hne
    have hlt : i < σ.threads.length := by
      by_contra hge
      rw [List.getElem?_eq_none (by omega)] at ht; cases ht
    refine ⟨hsh, e3, ?_, ?_, ?_⟩
    · intro i' j' pc'' ht'
      simp only at ht'
      by_cases hi : i = i'
      · subst hi
        rw [List.getElem?_set_self hlt] at ht'
        cases ht'; exact hj
      · rw [List.getElem?_set_ne hi] at ht'
        exact h.jobs i' j' pc'' ht'
    · intro i' j' pc'' ht'
      simp only at ht' ⊢
      by_cases hi : i = i'
      · subst hi
        rw [List.getElem?_set_self hlt] at ht'
        cases ht'; exact e2
      · rw [List.getElem?_set_ne hi] at ht'
        right; left
        by_contra hne'
        have := h.shape.owner i' j' pc'' ht' hne'
        rw [hh] at this
        exact hi (Option.some.inj this)
    · have hc := h.client
      have hf := h.shape.free
      simp only
      cases hcl : σ.client with
      | training j' pc'' => rw [hcl] at hf; simp only at hf; rw [hh] at hf; cases hf
      | stopping k => rw [hcl] at hc; exact hc
      | joining k => rw [hcl] at hc; exact hc
      | stopped k => rw [hcl] at hc; exact hc
      | _ => trivial

theorem SysInv.cstep {ni no : Nat} {p : Program F} (hp : Fits ni no p) {σ τ : Sys F} (h : SysInv ni no σ) (hs : ClientStep p σ τ) :
    SysInv ni no τ := by
  have hsh := shape_client h.shape hs
  obtain ⟨_, hn, hj, hl, hc⟩ := h
  cases hs with
  | callStart j hsub hr hw hv =>
    exact ⟨hsh, hn, hj, hl, by intro j' e; cases e; exact ⟨(hp.data j hsub).safe, (validData_batch hv).1⟩⟩
  | callTrain j hsub hr hv hi =>
    exact ⟨hsh, hn, hj, hl, by intro j' e; cases e; exact ⟨(hp.data j hsub).safe, (validData_batch hv).1⟩⟩
  | callThrows hr => exact ⟨hsh, hn, hj, hl, hc⟩
  | callStop hr => exact ⟨hsh, hn, hj, hl, by intro j' e; cases e⟩
  | callDestructor hr => exact ⟨hsh, hn, hj, hl, by intro j' e; cases e⟩
  | setWant k hc' =>
    rw [hc'] at hc
    exact ⟨hsh, hn, hj, fun i j pc ht => loopInv_use (hl i j pc ht) hn rfl rfl rfl id, hc⟩
  | notJoinable k hc' hh => rw [hc'] at hc; exact ⟨hsh, hn, hj, hl, hc⟩
  | join k i j hc' hh hd => rw [hc'] at hc; exact ⟨hsh, hn, hj, hl, hc⟩
  | returnStop hc' => exact ⟨hsh, hn, hj, hl, trivial⟩
  | endDestructor hc' => exact ⟨hsh, hn, hj, hl, trivial⟩
  | spawn j hc' hh =>
    rw [hc'] at hc
    refine ⟨hsh, hn, ?_, ?_, trivial⟩
    · intro i' j' pc' ht
      simp only at ht
      by_cases hi : i' < σ.threads.length
      · rw [List.getElem?_append_left hi] at ht; exact hj i' j' pc' ht
      · rw [List.getElem?_append_right (by omega)] at ht
        have := List.mem_of_getElem? ht
        simp at this
        rw [this.1]
        exact hc j rfl
    · intro i' j' pc' ht
      simp only at ht
      by_cases hi : i' < σ.threads.length
      · rw [List.getElem?_append_left hi] at ht; exact hl i' j' pc' ht
      · rw [List.getElem?_append_right (by omega)] at ht
        have := List.mem_of_getElem? ht
        simp at this
        exact Or.inl this.2
  | spawnTerminates j hc' hh => exact absurd hsh.free (by simp)
  | enterTrain j hc' =>
    rw [hc'] at hc
    exact ⟨hsh, hn, hj, hl, hc j rfl, Or.inl rfl⟩
  | trainAction j pc pc' r' hc' hne hnx =>
    rw [hc'] at hc
    obtain ⟨pc1, r1, e1, e2, e3⟩ := next_ok hn hc.1.1 hc.1.2 hc.2
    rw [hnx] at e1
    cases e1
    refine ⟨hsh, e3, hj, ?_, hc.1, e2⟩
    intro i' j' pc'' ht
    right; left
    by_contra hne'
    have := hsh.owner i' j' pc'' ht hne'
    have hf := hsh.free
    simp only at hf this
    rw [this] at hf; cases hf
  | trainReturns j hc' => exact ⟨hsh, hn, hj, hl, trivial⟩
  | callWait w hr => exact ⟨hsh, hn, hj, hl, trivial⟩
  | poll w t hc' =>
    refine ⟨hsh, hn, hj, hl, ?_⟩
    simp only
    split <;> rename_i h <;> split at h <;> first | trivial | (cases h; done)
  | use r' hr hu =>
    rcases hp.other _ _ hu with ⟨x, t, out, net, hx, ho, rfl⟩ | ⟨path, hsv⟩
    · obtain ⟨y, net', e1, e2, e3, e4⟩ := Net.output_ok hn.wf x hx t
      rw [ho] at e1
      cases e1
      have hn' : SafeNet ni no net := ⟨e3, by rw [e4]; exact hn.clusters⟩
      have hnan : σ.run.snn.net.outputNan = true → net.outputNan = true := by
        intro hh; rw [(net_output_frame ho).2.2, hh]; rfl
      refine ⟨hsh, hn', hj, fun i j pc ht => loopInv_use (hl i j pc ht) hn' rfl rfl rfl hnan, ?_⟩
      simp only [hr]
    · unfold Run.saveAs at hsv
      split at hsv
      · cases hsv
      · cases hsv
        refine ⟨hsh, hn, hj, fun i j pc ht => loopInv_use (hl i j pc ht) hn rfl rfl rfl id, ?_⟩
        simp only [hr]

theorem SysInv.step {ni no : Nat} {p : Program F} (hp : Fits ni no p) {σ τ : Sys F} (h : SysInv ni no σ) (hs : Step p σ τ) :
    SysInv ni no τ := by
  rcases hs with hs | ⟨i, hs⟩
  · exact h.cstep hp hs
  · exact h.thread hs

theorem SysInv.start {ni no : Nat} {r0 : Run F} (h : SafeNet ni no r0.snn.net) : SysInv ni no (Sys.start r0) :=
  ⟨⟨by intro i j pc h; simp [Sys.start] at h, trivial⟩, h, by intro i j pc h; simp [Sys.start] at h, by intro i j pc h; simp [Sys.start] at h, trivial⟩

/-! ### The loop ends when it is told to -/

/-- The loop has been told to stop (or it stops by itself). -/
def Told (pc : Pc) (r : Run F) : Prop :=
  match pc with
  | .enter => False
  | .reset => True
  | .idle => True
  | .done => True
  | .evalReset _ => r.snn.net.outputNan = true
  | .evalIdle _ => r.snn.net.outputNan = true
  | _ => r.snn.wantToStopTraining = true ∨ r.snn.net.outputNan = true

/-- A bound on the number of actions left. -/
def rank (pc : Pc) (r : Run F) : Nat :=
  match pc with
  | .done => 0
  | .idle => 1
  | .reset => 2
  | .epochTest => 3
  | .evalIdle _ => 4
  | .evalReset _ => 5
  | .evaluating _ k => 5 + k
  | .evalTest _ => 6 + r.data.testing.size
  | .stepTest => 7 + r.data.testing.size
  | .stepBody => 8 + r.data.testing.size
  | .shuffling => 8 + r.data.testing.size
  | .busy => 7 + r.data.testing.size
  | .enter => 0

theorem afterEvaluate_told (s : Site) (r : Run F) (h : r.snn.wantToStopTraining = true ∨ r.snn.net.outputNan = true) :
    Told (afterEvaluate s r).1 (afterEvaluate s r).2 ∧ rank (afterEvaluate s r).1 (afterEvaluate s r).2 = 3 := by
  cases s <;> exact ⟨h, rfl⟩

theorem continue_told {env : Env F} {w : Wait F} {r : Run F} (h : r.snn.wantToStopTraining = true ∨ r.snn.net.outputNan = true) :
    (r.continueTraining env w).1 = false := by
  unfold Run.continueTraining
  rcases h with h | h <;> simp [h]

theorem next_told {ni no : Nat} {j : Job F} {pc pc' : Pc} {r r' : Run F} (hinv : LoopInv ni no j pc r) (ht : Told pc r) (hne : pc ≠ .done)
    (hn : next j pc r = .ok (pc', r')) : Told pc' r' ∧ rank pc' r' < rank pc r := by
  cases pc with
  | enter => exact ht.elim
  | busy =>
    cases hn
    exact ⟨ht, by simp only [rank]; omega⟩
  | evalTest s =>
    have ht : r.snn.wantToStopTraining = true ∨ r.snn.net.outputNan = true := ht
    have key : ∀ (c : Bool), (if c = true then
          (.ok (.evaluating s r.data.testing.size, { r with snn := { r.snn with
            net := { r.snn.net with stats := r.snn.net.stats.startTesting }
            index := 0 } }) : Res (Pc × Run F))
          else .ok (afterEvaluate s r)) = .ok (pc', r') → Told pc' r' ∧ rank pc' r' < rank (.evalTest s) r := by
      intro c hn
      cases c
      · have hn : afterEvaluate s r = (pc', r') := by injection hn
        have := afterEvaluate_told s r ht
        rw [hn] at this
        exact ⟨this.1, by rw [this.2]; simp only [rank]; omega⟩
      · cases hn
        exact ⟨ht, by simp only [rank]; omega⟩
    exact key _ hn
  | evaluating s k =>
    have ht : r.snn.wantToStopTraining = true ∨ r.snn.net.outputNan = true := ht
    cases k with
    | zero =>
      obtain ⟨a, b, c, d, e, f, g, i⟩ := evaluateEnd_fields r
      have hn : afterEvaluate s (evaluateEnd r) = (pc', r') := by simpa [next] using hn
      have := afterEvaluate_told s (evaluateEnd r) (by rw [a, e]; exact ht)
      rw [hn] at this
      exact ⟨this.1, by rw [this.2]; simp only [rank]; omega⟩
    | succ k =>
      simp only [next] at hn
      split at hn
      · rename_i hnan
        cases hn
        exact ⟨hnan, by simp only [rank]; omega⟩
      · obtain ⟨r1, h1, hn⟩ := Res.bind_eq_ok.1 hn
        cases hn
        obtain ⟨f1, f2, f3, f4, f5, f6, f7⟩ := evaluatePosition_frame h1
        refine ⟨?_, by simp only [rank]; omega⟩
        rcases ht with h | h
        · exact Or.inl (by rw [f4]; exact h)
        · exact Or.inr (f1 h)
  | evalReset s => cases hn; exact ⟨ht, by simp [rank]⟩
  | evalIdle s =>
    have ht : r.snn.net.outputNan = true := ht
    have hn : afterEvaluate s { r with snn := { r.snn with isIdle := true }, trace := .evaluated r.snn.epoch r.snn.net.stats :: r.trace } = (pc', r') := by
      simpa [next] using hn
    have := afterEvaluate_told s { r with snn := { r.snn with isIdle := true }, trace := .evaluated r.snn.epoch r.snn.net.stats :: r.trace } (Or.inr ht)
    rw [hn] at this
    exact ⟨this.1, by rw [this.2]; simp [rank]⟩
  | epochTest =>
    have ht : r.snn.wantToStopTraining = true ∨ r.snn.net.outputNan = true := ht
    simp only [next, continue_told ht] at hn
    cases hn
    exact ⟨trivial, by simp [rank]⟩
  | shuffling =>
    have ht : r.snn.wantToStopTraining = true ∨ r.snn.net.outputNan = true := ht
    simp only [next] at hn
    obtain ⟨d1, h1, hn⟩ := Res.bind_eq_ok.1 hn
    cases hn
    rcases hinv with h | h | ⟨hs, _⟩
    · cases h
    · cases h
    obtain ⟨d2, s1, s2, s3⟩ := shuffle_safe hs.data (j.env.rng r.snn.epoch)
    rw [h1] at s1
    cases s1
    exact ⟨ht, by simp only [rank]; rw [s3.testing]; omega⟩
  | stepTest =>
    have ht : r.snn.wantToStopTraining = true ∨ r.snn.net.outputNan = true := ht
    simp only [next] at hn
    split at hn
    · simp only [continue_told ht] at hn
      cases hn
      exact ⟨ht, by simp [rank, Run.continueTraining]⟩
    · cases hn
      exact ⟨ht, by simp only [rank]; omega⟩
  | stepBody =>
    have ht : r.snn.wantToStopTraining = true ∨ r.snn.net.outputNan = true := ht
    simp only [next] at hn
    split at hn
    · cases hn
      exact ⟨trivial, by simp only [rank]; omega⟩
    · rename_i hnan
      obtain ⟨⟨ret, r1⟩, h1, hn⟩ := Res.bind_eq_ok.1 hn
      cases hn
      have hnan' : r.snn.net.outputNan = false := by simpa using hnan
      obtain ⟨a, b, c, d⟩ := trainStep_frame (ni := ni) (no := no) hnan' h1
      refine ⟨Or.inl ?_, by simp only [rank]; rw [c]; omega⟩
      rcases ht with h | h
      · simp only [a]; exact h
      · rw [hnan'] at h; cases h
  | reset => cases hn; exact ⟨trivial, by simp [rank]⟩
  | idle => cases hn; exact ⟨trivial, by simp [rank]⟩
  | done => exact absurd rfl hne

end

end Snn.Async
