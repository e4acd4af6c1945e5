import Verif.Proofs.AsyncLive

/-! Proofs about the asynchronous training: the flag `isIdle`, a thread alone, a stop that is lost. -/

set_option linter.all false

namespace Snn.Async

open Snn Snn.Spec Snn.Async.Spec Snn.TrainProofs

section
variable {F : Type} [Flt F] [FTrans F] [Add F] [Sub F] [Mul F] [Div F] [Neg F]

/-! ### `isTraining()` -/

/-- Past line 95. -/
def Past (pc : Pc) : Prop := pc ≠ .enter ∧ pc ≠ .busy ∧ pc ≠ .done

theorem afterEvaluate_past (s : Site) (r : Run F) : Past (afterEvaluate s r).1 := by cases s <;> simp [Past, afterEvaluate]

theorem next_past {j : Job F} {pc pc' : Pc} {r r' : Run F} (hne : pc ≠ .done) (h : next j pc r = .ok (pc', r')) :
    Past pc' ∨ r'.snn.isIdle = true ∨ (pc = .enter ∧ r'.snn.isIdle = r.snn.isIdle) := by
  cases pc with
  | enter => cases h; exact Or.inr (Or.inr ⟨rfl, rfl⟩)
  | busy => cases h; exact Or.inl (by simp [Past])
  | evalTest s =>
    have key : ∀ (c : Bool), (if c = true then
      (.ok (.evaluating s r.data.testing.size, { r with snn := { r.snn with
        net := { r.snn.net with stats := r.snn.net.stats.startTesting }
        index := 0 } }) : Res (Pc × Run F))
      else .ok (afterEvaluate s r)) = .ok (pc', r') → Past pc' := by
      intro c hn
      cases c
      · have hn : afterEvaluate s r = (pc', r') := by injection hn
        have := afterEvaluate_past s r
        rw [hn] at this; exact this
      · cases hn; simp [Past]
    exact Or.inl (key _ h)
  | evaluating s k =>
    cases k with
    | zero =>
      have hn : afterEvaluate s (evaluateEnd r) = (pc', r') := by simpa [next] using h
      have := afterEvaluate_past s (evaluateEnd r)
      rw [hn] at this; exact Or.inl this
    | succ k =>
      simp only [next] at h
      split at h
      · cases h; exact Or.inl (by simp [Past])
      · obtain ⟨_, _, h⟩ := Res.bind_eq_ok.1 h; cases h; exact Or.inl (by simp [Past])
  | evalReset s => cases h; exact Or.inl (by simp [Past])
  | evalIdle s =>
    have hn : afterEvaluate s { r with snn := { r.snn with isIdle := true }, trace := .evaluated r.snn.epoch r.snn.net.stats :: r.trace } = (pc', r') := by
      simpa [next] using h
    have := afterEvaluate_past s { r with snn := { r.snn with isIdle := true }, trace := .evaluated r.snn.epoch r.snn.net.stats :: r.trace }
    rw [hn] at this; exact Or.inl this
  | epochTest =>
    simp only [next] at h
    injection h with h
    have := (Prod.mk.inj h).1
    left
    split at this <;> subst this <;> simp [Past]
  | shuffling => obtain ⟨_, _, h⟩ := Res.bind_eq_ok.1 h; cases h; exact Or.inl (by simp [Past])
  | stepTest =>
    simp only [next] at h
    left
    split at h
    · injection h with h
      have := (Prod.mk.inj h).1
      split at this <;> subst this <;> simp [Past]
    · cases h; simp [Past]
  | stepBody =>
    simp only [next] at h
    left
    split at h
    · cases h; simp [Past]
    · obtain ⟨_, _, h⟩ := Res.bind_eq_ok.1 h; cases h; simp [Past]
  | reset => cases h; exact Or.inl (by simp [Past])
  | idle => cases h; exact Or.inr (Or.inl rfl)
  | done => exact absurd rfl hne

/-- Some loop is past line 95. -/
def SomePast (σ : Sys F) : Prop :=
  (∃ (i : Nat) (j : Job F) (pc : Pc), σ.threads[i]? = some (j, pc) ∧ Past pc) ∨ ∃ j pc, σ.client = .training j pc ∧ Past pc

theorem flag_thread {i : Nat} {σ τ : Sys F} (hsh : Shape σ) (h : σ.run.snn.isIdle = false → SomePast σ) (hs : ThreadStep i σ τ) :
    τ.run.snn.isIdle = false → SomePast τ := by
  cases hs with
  | action j pc pc' r' ht hne hn =>
    have hlt : i < σ.threads.length := by
      by_contra hge
      rw [List.getElem?_eq_none (by omega)] at ht; cases ht
    intro hi
    rcases next_past hne hn with hp | hp | ⟨hp, he⟩
    · exact Or.inl ⟨i, j, pc', List.getElem?_set_self hlt, hp⟩
    · simp only at hi; rw [hp] at hi; cases hi
    · exfalso
      simp only at hi
      rw [he] at hi
      have hh := hsh.owner i j pc ht hne
      rcases h hi with ⟨i', j', pc'', g1, g2⟩ | ⟨j', pc'', g1, g2⟩
      · have := hsh.owner i' j' pc'' g1 g2.2.2
        rw [hh] at this
        cases this
        rw [ht] at g1; cases g1
        exact g2.1 hp
      · have hf := hsh.free
        rw [g1] at hf
        simp only at hf
        rw [hh] at hf; cases hf

theorem flag_client {ni no : Nat} {p : Program F} (hp : Fits ni no p) {σ τ : Sys F} (hsh : Shape σ) (h : σ.run.snn.isIdle = false → SomePast σ)
    (hs : ClientStep p σ τ) : τ.run.snn.isIdle = false → SomePast τ := by
  have thr : ∀ (c : Client F), (∀ j pc, σ.client ≠ .training j pc) → ∀ τ : Sys F, τ.run.snn.isIdle = σ.run.snn.isIdle → τ.threads = σ.threads →
      τ.run.snn.isIdle = false → SomePast τ := by
    intro c hc τ e1 e2 hi
    rw [e1] at hi
    rcases h hi with ⟨i, j, pc, g1, g2⟩ | ⟨j, pc, g1, g2⟩
    · exact Or.inl ⟨i, j, pc, by rw [e2]; exact g1, g2⟩
    · exact absurd g1 (hc j pc)
  cases hs with
  | callStart j hsub hr hw hv => exact thr .ready (by rw [hr]; intro _ _ h; cases h) _ rfl rfl
  | callTrain j hsub hr hv hi => exact thr .ready (by rw [hr]; intro _ _ h; cases h) _ rfl rfl
  | callThrows hr => exact h
  | callStop hr => exact thr .ready (by rw [hr]; intro _ _ h; cases h) _ rfl rfl
  | callDestructor hr => exact thr .ready (by rw [hr]; intro _ _ h; cases h) _ rfl rfl
  | setWant k hr => exact thr .ready (by rw [hr]; intro _ _ h; cases h) _ rfl rfl
  | notJoinable k hr hh => exact thr .ready (by rw [hr]; intro _ _ h; cases h) _ rfl rfl
  | join k i j hr hh hd => exact thr .ready (by rw [hr]; intro _ _ h; cases h) _ rfl rfl
  | returnStop hr => exact thr .ready (by rw [hr]; intro _ _ h; cases h) _ rfl rfl
  | endDestructor hr => exact thr .ready (by rw [hr]; intro _ _ h; cases h) _ rfl rfl
  | spawn j hr hh =>
    intro hi
    rcases h hi with ⟨i, j', pc, g1, g2⟩ | ⟨j', pc, g1, g2⟩
    · have := hsh.owner i j' pc g1 g2.2.2
      rw [hh] at this; cases this
    · rw [hr] at g1; cases g1
  | spawnTerminates j hr hh =>
    have hf := hsh.free
    rw [hr] at hf
    exact absurd hf hh
  | enterTrain j hr => exact thr .ready (by rw [hr]; intro _ _ h; cases h) _ rfl rfl
  | trainAction j pc pc' r' hc hne hn =>
    intro hi
    rcases next_past hne hn with hp' | hp' | ⟨hp', he⟩
    · exact Or.inr ⟨j, pc', rfl, hp'⟩
    · simp only at hi; rw [hp'] at hi; cases hi
    · exfalso
      simp only at hi
      rw [he] at hi
      have hf := hsh.free
      rw [hc] at hf
      rcases h hi with ⟨i', j', pc'', g1, g2⟩ | ⟨j', pc'', g1, g2⟩
      · have := hsh.owner i' j' pc'' g1 g2.2.2
        rw [hf] at this; cases this
      · rw [hc] at g1; cases g1
        exact g2.1 hp'
  | trainReturns j hc =>
    intro hi
    rcases h hi with ⟨i, j', pc, g1, g2⟩ | ⟨j', pc, g1, g2⟩
    · exact Or.inl ⟨i, j', pc, g1, g2⟩
    · rw [hc] at g1; cases g1; exact absurd rfl g2.2.2
  | callWait w hr => exact thr .ready (by rw [hr]; intro _ _ h; cases h) _ rfl rfl
  | poll w t hr => exact thr .ready (by rw [hr]; intro _ _ h; cases h) _ rfl rfl
  | use r' hr hu =>
    rcases hp.other _ _ hu with ⟨x, t, out, net, hx, ho, rfl⟩ | ⟨path, hsv⟩
    · exact thr .ready (by rw [hr]; intro _ _ h; cases h) _ rfl rfl
    · unfold Run.saveAs at hsv
      split at hsv
      · cases hsv
      · cases hsv
        exact thr .ready (by rw [hr]; intro _ _ h; cases h) _ rfl rfl

theorem reach_flag {ni no : Nat} {p : Program F} (hp : Fits ni no p) {r0 : Run F} (h0 : r0.snn.isIdle = true) {σ : Sys F}
    (h : Reach p r0 σ) : σ.run.snn.isIdle = false → SomePast σ := by
  induction h with
  | start => intro hi; simp [Sys.start, h0] at hi
  | step hr hs ih =>
    rcases hs with hs | ⟨i, hs⟩
    · exact flag_client hp (reach_shape hr) ih hs
    · exact flag_thread (reach_shape hr) ih hs

theorem not_notYetCleared {σ : Sys F} (hsh : Shape σ) (h : σ.run.snn.isIdle = false → SomePast σ) (hi : σ.run.snn.isIdle = false) :
    ¬ NotYetCleared σ := by
  rintro ⟨i, j, g1, g2⟩
  rcases h hi with ⟨i', j', pc, g3, g4⟩ | ⟨j', pc, g3, g4⟩
  · have := hsh.owner i' j' pc g3 g4.2.2
    rw [g1] at this; cases this
    rw [g2] at g3; cases g3
    exact g4.1 rfl
  · have hf := hsh.free
    rw [g3] at hf
    simp only at hf
    rw [g1] at hf; cases hf

theorem exec_reach {p : Program F} {r0 : Run F} {E : Nat → Sys F} (hE : Execution p r0 E) (n : Nat) : Reach p r0 (E n) := by
  induction n with
  | zero => rw [hE.start]; exact .start
  | succ n ih =>
    rcases hE.step n with h | h
    · exact .step ih h
    · rw [h]; exact ih

/-! ### A thread alone -/

/-- The actions of one loop that nothing interrupts. -/
inductive Alone (j : Job F) : Pc × Run F → Pc × Run F → Prop
  | refl {x : Pc × Run F} : Alone j x x
  | cons {pc pc' : Pc} {r r' : Run F} {y : Pc × Run F} (h : next j pc r = .ok (pc', r')) (hr : Alone j (pc', r') y) : Alone j (pc, r) y

theorem Alone.trans {j : Job F} {x y z : Pc × Run F} (h : Alone j x y) (k : Alone j y z) : Alone j x z := by
  induction h with
  | refl => exact k
  | cons h _ ih => exact .cons h (ih k)

theorem Alone.one {j : Job F} {pc pc' : Pc} {r r' : Run F} (h : next j pc r = .ok (pc', r')) : Alone j (pc, r) (pc', r') := .cons h .refl

theorem alone_evaluateLoop {j : Job F} (s : Site) : ∀ (k : Nat) (r : Run F) (b : Bool) (s' : Snn F),
    evaluateLoop j.env.nan r.data k r.snn = .ok (b, s') →
      (b = false ∧ Alone j (.evaluating s k, r) (.evaluating s 0, { r with snn := s' })) ∨
      (b = true ∧ Alone j (.evaluating s k, r) (afterEvaluate s { r with snn := s', trace := .evaluated s'.epoch s'.net.stats :: r.trace }))
  | 0, r, b, s', h => by cases h; exact Or.inl ⟨rfl, .refl⟩
  | k + 1, r, b, s', h => by
    unfold evaluateLoop at h
    split at h
    · rename_i hn
      cases h
      refine Or.inr ⟨rfl, ?_⟩
      refine .cons (pc' := .evalReset s) (r' := nanResults j.env.nan r) (by simp only [next, if_pos hn]) ?_
      refine .cons rfl ?_
      exact .cons rfl .refl
    · rename_i hn
      obtain ⟨need, h1, h⟩ := Res.bind_eq_ok.1 h
      obtain ⟨s1, h2, h⟩ := Res.bind_eq_ok.1 h
      have e : evaluatePosition r = .ok { r with snn := { s1 with index := s1.index + 1 } } := by
        unfold evaluatePosition
        simp only
        rw [h1]
        simp only [Res.ok_bind]
        rw [h2]; rfl
      have hstep : next j (.evaluating s (k + 1)) r = .ok (.evaluating s k, { r with snn := { s1 with index := s1.index + 1 } }) := by
        simp only [next, if_neg hn]
        rw [e]; rfl
      rcases alone_evaluateLoop s k { r with snn := { s1 with index := s1.index + 1 } } b s' h with ⟨a, c⟩ | ⟨a, c⟩
      · exact Or.inl ⟨a, .cons hstep c⟩
      · exact Or.inr ⟨a, .cons hstep c⟩

theorem alone_evaluate {j : Job F} (s : Site) {r r' : Run F} (h : r.evaluate j.env = .ok r') :
    Alone j (.evaluating s r.data.testing.size, { r with snn := { r.snn with
      net := { r.snn.net with stats := r.snn.net.stats.startTesting }
      index := 0 } }) (afterEvaluate s r') := by
  unfold Run.evaluate at h
  obtain ⟨⟨b, s1⟩, h1, h⟩ := Res.bind_eq_ok.1 h
  rcases alone_evaluateLoop s r.data.testing.size { r with snn := { r.snn with
      net := { r.snn.net with stats := r.snn.net.stats.startTesting }
      index := 0 } } b s1 h1 with ⟨a, c⟩ | ⟨a, c⟩
  · subst a
    refine c.trans (.one ?_)
    have : r' = evaluateEnd { r with snn := s1 } := by
      simp only [Bool.false_eq_true, if_false] at h
      unfold evaluateEnd
      simp only
      split at h
      · rename_i hc; rw [if_pos hc]; cases h; rfl
      · rename_i hc; rw [if_neg hc]; cases h; rfl
    rw [this]
    rfl
  · subst a
    simp only [if_true] at h
    cases h
    exact c

theorem alone_stepLoop {j : Job F} : ∀ (fuel : Nat) (r r' : Run F) (b : Bool), stepLoop j.env j.wait j.batchSize fuel r = .ok (b, r') →
    b = false ∧ Alone j (.stepTest, r) (.evalTest .inLoop, r')
  | 0, r, r', b, h => by cases h
  | fuel + 1, r, r', b, h => by
    unfold stepLoop at h
    split at h
    · rename_i hc
      simp only at h
      cases hcont : (r.continueTraining j.env j.wait).1
      · rw [hcont] at h
        simp only [Bool.false_eq_true, if_false] at h
        cases h
        refine ⟨rfl, .one ?_⟩
        simp only [next, if_pos hc, hcont, Bool.false_eq_true, if_false]
      · rw [hcont] at h
        simp only [if_true] at h
        obtain ⟨⟨ret, r2⟩, h1, h⟩ := Res.bind_eq_ok.1 h
        have hnan : r.snn.net.outputNan = false := by
          unfold Run.continueTraining at hcont
          simp only [Bool.and_eq_true, Bool.not_eq_true'] at hcont
          exact hcont.2
        have hret := (trainStep_spec (SameButBuffers.refl _) (by exact hnan) h1).1
        subst hret
        simp only [Bool.false_eq_true, if_false] at h
        obtain ⟨g1, g2⟩ := alone_stepLoop fuel _ r' b h
        refine ⟨g1, ?_⟩
        refine .cons (pc' := .stepBody) (r' := (r.continueTraining j.env j.wait).2) (by simp only [next, if_pos hc, hcont, if_true]) ?_
        refine .cons ?_ g2
        have hnan' : ¬ (r.continueTraining j.env j.wait).2.snn.net.outputNan = true := by
          show ¬ r.snn.net.outputNan = true
          simp [hnan]
        simp only [next, if_neg hnan']
        rw [h1]; rfl
    · rename_i hc
      cases h
      exact ⟨rfl, .one (by simp only [next, if_neg hc])⟩

theorem alone_epochLoop {j : Job F} {inner : Nat} : ∀ (fuel : Nat) (r r' : Run F) (b : Bool),
    epochLoop j.env j.wait j.batchSize j.evaluationFrequency inner fuel r = .ok (b, r') →
    b = false ∧ Alone j (.epochTest, r) (.reset, r')
  | 0, r, r', b, h => by cases h
  | fuel + 1, r, r', b, h => by
    unfold epochLoop at h
    simp only at h
    cases hcont : (r.continueTraining j.env j.wait).1
    · rw [hcont] at h
      simp only [Bool.false_eq_true, if_false] at h
      cases h
      exact ⟨rfl, .one (by simp only [next, hcont, Bool.false_eq_true, if_false])⟩
    · rw [hcont] at h
      simp only [if_true] at h
      obtain ⟨⟨ret, r2⟩, h1, h⟩ := Res.bind_eq_ok.1 h
      unfold Run.epochBody at h1
      obtain ⟨ds, hs, h1⟩ := Res.bind_eq_ok.1 h1
      obtain ⟨⟨ret1, r3⟩, h3, h1⟩ := Res.bind_eq_ok.1 h1
      obtain ⟨e1, a1⟩ := alone_stepLoop _ _ _ _ h3
      subst e1
      simp only [Bool.false_eq_true, if_false] at h1
      have start : Alone j (.epochTest, r) (.evalTest .inLoop, r3) := by
        refine .cons (pc' := .shuffling) (r' := (r.continueTraining j.env j.wait).2) (by simp only [next, hcont, if_true]) ?_
        refine .cons ?_ a1
        simp only [next]
        rw [hs]; rfl
      have body : ret = false ∧ Alone j (.evalTest .inLoop, r3) (.epochTest, { r2 with snn := { r2.snn with epoch := r2.snn.epoch + 1 } }) := by
        split at h1
        · rename_i hef
          obtain ⟨r4, h4, h1⟩ := Res.bind_eq_ok.1 h1
          cases h1
          refine ⟨rfl, .cons ?_ (alone_evaluate .inLoop h4)⟩
          simp only [next, decide_eq_true hef, if_true]
        · rename_i hef
          cases h1
          refine ⟨rfl, .one ?_⟩
          simp only [next, decide_eq_false hef, Bool.false_eq_true, if_false, afterEvaluate]
      obtain ⟨e2, a2⟩ := body
      subst e2
      simp only [Bool.false_eq_true, if_false] at h
      obtain ⟨e3, a3⟩ := alone_epochLoop fuel _ r' b h
      exact ⟨e3, (start.trans a2).trans a3⟩

theorem alone_trainSync {j : Job F} {fuel : Nat} {r r' : Run F}
    (h : Run.trainSync j.env j.wait j.batchSize j.evaluationFrequency fuel { r with data := j.data } = .ok r') :
    Alone j (.enter, r) (.done, r') := by
  unfold Run.trainSync at h
  obtain ⟨r1, h1, h⟩ := Res.bind_eq_ok.1 h
  obtain ⟨⟨ret, r2⟩, h2, h⟩ := Res.bind_eq_ok.1 h
  obtain ⟨e, a⟩ := alone_epochLoop _ _ _ _ h2
  subst e
  simp only [Bool.false_eq_true, if_false] at h
  cases h
  have a1 : Alone j (.evalTest .before, ({ r with data := j.data } : Run F).begin) (.epochTest, { r1 with snn := { r1.snn with epoch := 1 } }) := by
    split at h1
    · rename_i hef
      refine .cons ?_ (alone_evaluate .before h1)
      simp only [next, decide_eq_true hef, if_true]
    · rename_i hef
      cases h1
      refine .one ?_
      simp only [next, decide_eq_false hef, Bool.false_eq_true, if_false, afterEvaluate]
  refine .cons rfl ?_
  refine .cons rfl ?_
  exact (a1.trans a).trans (.cons rfl (.cons rfl .refl))

end

/-! ### A stop that is lost -/

section
variable {F : Type} [Field F] [LinearOrder F] [IsStrictOrderedRing F] [FTrans F]

/-- A loop that nothing stops. -/
def Free (ni no : Nat) (j : Job F) (x : Pc × Run F) : Prop :=
  LoopInv ni no j x.1 x.2 ∧ SafeNet ni no x.2.snn.net ∧ x.2.snn.net.outputNan = false ∧
    (x.1 = .enter ∨ (x.2.snn.wantToStopTraining = false ∧ x.1 ≠ .reset ∧ x.1 ≠ .idle ∧ x.1 ≠ .done))

theorem default_never (t e : Int) (a m : F) : (Wait.default : Wait F).isOver t e a m = false := by
  unfold Wait.isOver Wait.default
  have h1 : (0 : F) ≤ -1 ↔ False := by
    constructor
    · intro h; have : (0 : F) < 1 := one_pos; linarith
    · exact False.elim
  simp [h1]

theorem continue_free {env : Env F} {r : Run F} (h1 : r.snn.wantToStopTraining = false) (h2 : r.snn.net.outputNan = false) :
    (r.continueTraining env Wait.default).1 = true := by
  unfold Run.continueTraining
  simp [h1, h2, default_never]

theorem output_noNan {n n' : Net F} {x out : List F} {t : Bool} (hn : n.outputNan = false) (h : n.output x t = .ok (out, n')) :
    n'.outputNan = false := by
  rw [(net_output_frame h).2.2]; simp [hn, hasBadValue]

theorem evaluatePosition_noNan {r r' : Run F} (hn : r.snn.net.outputNan = false) (h : evaluatePosition r = .ok r') : r'.snn.net.outputNan = false := by
  unfold evaluatePosition at h
  obtain ⟨need, _, h⟩ := Res.bind_eq_ok.1 h
  obtain ⟨s1, h1, h⟩ := Res.bind_eq_ok.1 h
  cases h
  show s1.net.outputNan = false
  split at h1
  · unfold Snn.evaluateOnce at h1
    obtain ⟨x, _, h1⟩ := Res.bind_eq_ok.1 h1
    obtain ⟨first, _, h1⟩ := Res.bind_eq_ok.1 h1
    split at h1
    all_goals
      obtain ⟨_, _, h1⟩ := Res.bind_eq_ok.1 h1
      obtain ⟨_, _, h1⟩ := Res.bind_eq_ok.1 h1
      obtain ⟨⟨out, net⟩, h2, h1⟩ := Res.bind_eq_ok.1 h1
      obtain ⟨st, _, h1⟩ := Res.bind_eq_ok.1 h1
      cases h1
      have := output_noNan hn h2
      exact this
  · obtain ⟨_, _, h1⟩ := Res.bind_eq_ok.1 h1
    obtain ⟨_, _, h1⟩ := Res.bind_eq_ok.1 h1
    obtain ⟨⟨out, net⟩, h2, h1⟩ := Res.bind_eq_ok.1 h1
    cases h1
    exact output_noNan hn h2

theorem trainStep_noNan {env : Env F} {b : Int} {r r' : Run F} {ret : Bool} (hn : r.snn.net.outputNan = false)
    (h : r.trainStep env b = .ok (ret, r')) : r'.snn.net.outputNan = false := by
  unfold Run.trainStep at h
  simp only [hn, Bool.false_eq_true, if_false] at h
  obtain ⟨need, hneed, h⟩ := Res.bind_eq_ok.1 h
  obtain ⟨⟨x, data1⟩, hx, h⟩ := Res.bind_eq_ok.1 h
  obtain ⟨first, hf, h⟩ := Res.bind_eq_ok.1 h
  simp only at hf h
  cases need
  · simp only [Bool.false_eq_true, if_false] at h
    obtain ⟨⟨out, net2, d⟩, ht, h⟩ := Res.bind_eq_ok.1 h
    cases h
    have hq := (outputForTraining_frame ht).2.2.2
    show net2.outputNan = false
    rw [hq]; simp [hn, hasBadValue]
  · simp only [if_true] at h
    obtain ⟨⟨y, data2⟩, hy, h⟩ := Res.bind_eq_ok.1 h
    obtain ⟨⟨net2, d⟩, ht, h⟩ := Res.bind_eq_ok.1 h
    cases h
    unfold Net.trainOnce at ht
    obtain ⟨⟨n1, d1⟩, h1, ht⟩ := Res.bind_eq_ok.1 ht
    cases ht
    unfold Net.backpropagation at h1
    obtain ⟨⟨out, n2, d2⟩, h2, h1⟩ := Res.bind_eq_ok.1 h1
    have hq : n2.outputNan = false := by rw [(outputForTraining_frame h2).2.2.2]; simp [hn, hasBadValue]
    simp only [hq, Bool.false_eq_true, if_false] at h1
    obtain ⟨errs, _, h1⟩ := Res.bind_eq_ok.1 h1
    obtain ⟨ls, _, h1⟩ := Res.bind_eq_ok.1 h1
    cases h1
    first | rfl | exact hq

theorem next_free {ni no : Nat} {j : Job F} (hd : SafeData ni no j.data) (hb : 1 ≤ j.batchSize) (hw : j.wait = Wait.default)
    (x : Pc × Run F) (h : Free ni no j x) : ∃ y, next j x.1 x.2 = .ok y ∧ Free ni no j y := by
  obtain ⟨pc, r⟩ := x
  obtain ⟨h1, h2, h3, h4⟩ := h
  simp only at h1 h2 h3 h4 ⊢
  obtain ⟨pc', r', e1, e2, e3⟩ := next_ok h2 hd hb h1
  refine ⟨(pc', r'), e1, e2, e3, ?_⟩
  simp only
  rcases h4 with rfl | ⟨hwant, g1, g2, g3⟩
  · cases e1
    exact ⟨h3, Or.inr ⟨rfl, by simp, by simp, by simp⟩⟩
  · have after : ∀ (s : Site) (r1 : Run F), afterEvaluate s r1 = (pc', r') → r1.snn.net.outputNan = false → r1.snn.wantToStopTraining = false →
        r'.snn.net.outputNan = false ∧ (pc' = .enter ∨ (r'.snn.wantToStopTraining = false ∧ pc' ≠ .reset ∧ pc' ≠ .idle ∧ pc' ≠ .done)) := by
      intro s r1 h a b
      cases s <;> cases h <;> exact ⟨a, Or.inr ⟨b, by simp, by simp, by simp⟩⟩
    cases pc with
    | enter => cases e1; exact ⟨h3, Or.inr ⟨rfl, by simp, by simp, by simp⟩⟩
    | busy => cases e1; exact ⟨h3, Or.inr ⟨hwant, by simp, by simp, by simp⟩⟩
    | evalTest s =>
      have key : ∀ (c : Bool), (if c = true then
        (.ok (.evaluating s r.data.testing.size, { r with snn := { r.snn with
          net := { r.snn.net with stats := r.snn.net.stats.startTesting }
          index := 0 } }) : Res (Pc × Run F))
        else .ok (afterEvaluate s r)) = .ok (pc', r') →
        r'.snn.net.outputNan = false ∧ (pc' = .enter ∨ (r'.snn.wantToStopTraining = false ∧ pc' ≠ .reset ∧ pc' ≠ .idle ∧ pc' ≠ .done)) := by
        intro c hn
        cases c
        · exact after s r (by injection hn) h3 hwant
        · cases hn; exact ⟨h3, Or.inr ⟨hwant, by simp, by simp, by simp⟩⟩
      exact key _ e1
    | evaluating s k =>
      cases k with
      | zero =>
        obtain ⟨a, b, c, d, e, f, g, i⟩ := evaluateEnd_fields r
        exact after s (evaluateEnd r) (by simpa [next] using e1) (by rw [a]; exact h3) (by rw [e]; exact hwant)
      | succ k =>
        simp only [next, h3, Bool.false_eq_true, if_false] at e1
        obtain ⟨r1, e4, e1⟩ := Res.bind_eq_ok.1 e1
        cases e1
        obtain ⟨f1, f2, f3, f4, f5, f6, f7⟩ := evaluatePosition_frame e4
        exact ⟨evaluatePosition_noNan h3 e4, Or.inr ⟨by rw [f4]; exact hwant, by simp, by simp, by simp⟩⟩
    | evalReset s =>
      rcases h1 with h | h | ⟨_, h⟩
      · cases h
      · cases h
      · simp only at h; rw [h3] at h; cases h
    | evalIdle s =>
      rcases h1 with h | h | ⟨_, h⟩
      · cases h
      · cases h
      · simp only at h; rw [h3] at h; cases h
    | epochTest =>
      simp only [next, hw, continue_free hwant h3, if_true] at e1
      cases e1
      exact ⟨h3, Or.inr ⟨hwant, by simp, by simp, by simp⟩⟩
    | shuffling =>
      obtain ⟨_, _, e1⟩ := Res.bind_eq_ok.1 e1
      cases e1
      exact ⟨h3, Or.inr ⟨hwant, by simp, by simp, by simp⟩⟩
    | stepTest =>
      simp only [next, hw, continue_free hwant h3, if_true] at e1
      split at e1
      · cases e1
        exact ⟨h3, Or.inr ⟨hwant, by simp, by simp, by simp⟩⟩
      · cases e1
        exact ⟨h3, Or.inr ⟨hwant, by simp, by simp, by simp⟩⟩
    | stepBody =>
      simp only [next, h3, Bool.false_eq_true, if_false] at e1
      obtain ⟨⟨ret, r1⟩, e4, e1⟩ := Res.bind_eq_ok.1 e1
      cases e1
      have := trainStep_frame (ni := ni) (no := no) h3 e4
      have hq := trainStep_noNan h3 e4
      exact ⟨hq, Or.inr ⟨by simp only [this.1]; exact hwant, by simp, by simp, by simp⟩⟩
    | reset => exact absurd rfl g1
    | idle => exact absurd rfl g2
    | done => exact absurd rfl g3

/-- An infinite run of a loop that nothing stops. -/
theorem free_forever {ni no : Nat} {j : Job F} (hd : SafeData ni no j.data) (hb : 1 ≤ j.batchSize) (hw : j.wait = Wait.default)
    (x : Pc × Run F) (h : Free ni no j x) : ∃ T : Nat → Pc × Run F, T 0 = x ∧ ∀ n, next j (T n).1 (T n).2 = .ok (T (n + 1)) ∧ (T n).1 ≠ .done := by
  classical
  let f : {x : Pc × Run F // Free ni no j x} → {x : Pc × Run F // Free ni no j x} := fun x =>
    ⟨(next_free hd hb hw x.1 x.2).choose, (next_free hd hb hw x.1 x.2).choose_spec.2⟩
  refine ⟨fun n => (f^[n] ⟨x, h⟩).1, rfl, fun n => ⟨?_, ?_⟩⟩
  · simp only [Function.iterate_succ_apply']
    exact (next_free hd hb hw (f^[n] ⟨x, h⟩).1 (f^[n] ⟨x, h⟩).2).choose_spec.1
  · rcases (f^[n] ⟨x, h⟩).2.2.2.2 with h | h
    · rw [h]; simp
    · exact h.2.2.2

end

end Snn.Async
