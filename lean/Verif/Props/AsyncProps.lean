import Verif.Proofs.AsyncSolo
import Verif.Props.SafeProps
import Verif.Demo.DemoSave

/-!
# C29, C30, C62, C63: asynchronous training
-/

set_option linter.all false

namespace Snn.AsyncProps

open Snn Snn.Spec Snn.Async Snn.Async.Spec

section
variable {F : Type} [Flt F] [FTrans F] [Add F] [Sub F] [Mul F] [Div F] [Neg F]

/-- **C29**: whatever the client calls (any trainings, other calls with any effect on the network), under every interleaving at most
one call of the training loop has not returned, counting the threads and the client, and no `std::thread` is overwritten while it is
joinable. -/
theorem C29_one_loop {p : Program F} {r0 : Run F} {σ : Sys F} (h : Reach p r0 σ) :
    (liveLoops σ).length ≤ 1 ∧ ∀ τ, Step p σ τ → τ.client ≠ .terminated := by
  refine ⟨live_le_one (reach_shape h), ?_⟩
  intro τ hs hc
  have := (reach_shape (.step h hs)).free
  rw [hc] at this
  exact this

/-- No loop runs and the client is not about to start one. -/
structure Quiet (σ : Sys F) : Prop where
  shape : Shape σ
  handle : σ.handle = none
  client : ∀ j pc, σ.client ≠ .training j pc

theorem Quiet.noThread {σ τ : Sys F} (h : Quiet σ) (i : Nat) : ¬ ThreadStep i σ τ := by
  intro hs
  cases hs with
  | action j pc pc' r' ht hne hn =>
    have := h.shape.owner i j pc ht hne
    rw [h.handle] at this; cases this

theorem Quiet.noLoop {σ : Sys F} (h : Quiet σ) : liveLoops σ = [] := by
  unfold liveLoops
  rw [List.filter_append, no_live_threads h.shape h.handle]
  cases hc : σ.client with
  | training j pc => exact absurd hc (h.client j pc)
  | _ => rfl

theorem Quiet.step {p : Program F} {σ τ : Sys F} (h : Quiet σ) (hs : Step p σ τ)
    (hp : ∀ j, σ.client ≠ .stopped (.spawn j) ∧ σ.client ≠ .stopped (.trainHere j)) : Quiet τ := by
  rcases hs with hs | ⟨i, hs⟩
  · have hsh := shape_client h.shape hs
    refine ⟨hsh, ?_, ?_⟩
    · have hh := h.handle
      cases hs with
      | spawn j hc hh' => exact absurd hc (hp j).1
      | join k i j hc hh' hd => rfl
      | _ => exact hh
    · have hcl := h.client
      cases hs with
      | enterTrain j hc => exact absurd hc (hp j).2
      | trainAction j pc pc' r' hc hne hn => exact absurd hc (hcl j pc)
      | callThrows hr => exact hcl
      | use r' hr hu => exact hcl
      | poll w t hc =>
        intro j pc
        simp only
        split <;> (intro h; cases h)
      | _ => intro j pc h; cases h
  · exact absurd hs (h.noThread i)

/-- **C30**, first half: when a call of `stopTrainingAsync` returns, then in every state the system goes through until a new training
starts, no training loop is running, so that no thread can act on the network. -/
theorem C30_no_step_after_stop {p : Program F} {r0 : Run F} {σ τ : Sys F} (h : Reach p r0 σ) (hc : σ.client = .stopped .ret)
    (hp : Path p (fun υ => ∀ j, υ.client ≠ .stopped (.spawn j) ∧ υ.client ≠ .stopped (.trainHere j)) σ τ) :
    liveLoops τ = [] ∧ ∀ i υ, ¬ ThreadStep i τ υ := by
  have q : Quiet σ := by
    have hsh := reach_shape h
    have hf := hsh.free
    rw [hc] at hf
    exact ⟨hsh, hf, by rw [hc]; intro j pc h; cases h⟩
  have key : Quiet τ ∧ ∀ j, τ.client ≠ .stopped (.spawn j) ∧ τ.client ≠ .stopped (.trainHere j) := by
    clear hc h
    induction hp with
    | refl h => exact ⟨q, h⟩
    | tail _ hs hpu ih => exact ⟨ih.1.step hs ih.2, hpu⟩
  exact ⟨key.1.noLoop, fun i υ => key.1.noThread i⟩

/-- **C30**, second half, proved part: for every network made from a well formed architecture, every client that submits fitting
trainings, every fair execution: a call of `stopTrainingAsync` (also the one in `startTrainingAsync`, in `train` and in the
destructor) made when the thread has executed line 94 of `trainSync` returns. Missing: a stop before the first instructions of the
thread, for which it is false (`C30_lost_stop_refuted`). -/
theorem C30_stop_returns_partial {arch : List (LayerModel F)} {s s' : List Nat} (h : WellFormed arch s s') (he : EndsWithNeurons arch)
    {opt : Sgd F} {d d' : Draws F} {snn : Snn F} (hm : Snn.make arch opt d = .ok (snn, d')) {p : Program F}
    (hp : Fits s.prod s'.prod p) {r0 : Run F} (hr : r0.snn = snn) {E : Nat → Sys F} (hE : Execution p r0 E) (hF : Fair p E)
    (k : Then F) (n : Nat) (hc : (E n).client = .stopping k) (hn : ¬ NotYetCleared (E n)) : ∃ m, n ≤ m ∧ (E m).client = .stopped k := by
  obtain ⟨hs, _⟩ := SafeProps.make_safe h he hm
  rw [← hr] at hs
  exact stop_returns hp hs hE hF n hc hn

/-- **C30**, a sufficient condition that a client can check: if `isTraining()` is true when `stopTrainingAsync` is called, then the
call returns under every fair schedule. -/
theorem C30_stop_when_training_partial {arch : List (LayerModel F)} {s s' : List Nat} (h : WellFormed arch s s') (he : EndsWithNeurons arch)
    {opt : Sgd F} {d d' : Draws F} {snn : Snn F} (hm : Snn.make arch opt d = .ok (snn, d')) {p : Program F}
    (hp : Fits s.prod s'.prod p) {r0 : Run F} (hr : r0.snn = snn) {E : Nat → Sys F} (hE : Execution p r0 E) (hF : Fair p E)
    (n : Nat) (hc : (E n).client = .stopping .ret) (hi : (E n).run.snn.isIdle = false) : ∃ m, n ≤ m ∧ (E m).client = .stopped .ret := by
  obtain ⟨hs, hidle⟩ := SafeProps.make_safe h he hm
  rw [← hr] at hs hidle
  have hreach := exec_reach hE n
  exact stop_returns hp hs hE hF n hc (not_notYetCleared (reach_shape hreach) (reach_flag hp hidle hreach) hi)

theorem alone_det {j : Job F} {x y : Pc × Run F} {b : Run F} (h : Alone j x y) (k : Alone j x (.done, b)) : Alone j y (.done, b) := by
  induction h with
  | refl => exact k
  | cons hn _ ih =>
    cases k with
    | refl => cases hn; exact ih .refl
    | cons hn' k' => rw [hn] at hn'; cases hn'; exact ih k'

theorem alone_done {j : Job F} {a b : Run F} (k : Alone j (.done, a) (.done, b)) : b = a := by
  generalize hx : ((.done, a) : Pc × Run F) = x at k
  generalize hy : ((.done, b) : Pc × Run F) = y at k
  induction k with
  | refl => subst hx; cases hy; rfl
  | cons hn _ ih => cases hx; cases hn; exact ih rfl hy

/-- **C62**: a call of `train` made in the concurrent system does what it does without threads: from the moment its call of
`stopTrainingAsync` returned, the only actions possible are those of the client, and if `trainSync` of the one-thread model returns
`r'`, then the client reaches the end of `train` in exactly the state `r'`, whatever path it takes. -/
theorem C62_train_is_sequential {p : Program F} {r0 : Run F} {σ : Sys F} (h : Reach p r0 σ) (j : Job F)
    (hc : σ.client = .stopped (.trainHere j)) {fuel : Nat} {r' : Run F}
    (hr : Run.trainSync j.env j.wait j.batchSize j.evaluationFrequency fuel { σ.run with data := j.data } = .ok r') :
    Path p (fun _ => True) σ { σ with run := r', client := .ready } ∧
    ∀ τ, Path p (fun υ => υ.client = .stopped (.trainHere j) ∨ ∃ pc, υ.client = .training j pc) σ τ →
      τ.client = .training j .done → τ.run = r' := by
  have halone := alone_trainSync hr
  have hsh := reach_shape h
  have hh : σ.handle = none := by have hf := hsh.free; rw [hc] at hf; exact hf
  constructor
  · have key : ∀ (x y : Pc × Run F), Alone j x y → ∀ υ : Sys F, Path p (fun _ => True) σ υ → υ = { σ with run := x.2, client := .training j x.1 } →
        Path p (fun _ => True) σ { σ with run := y.2, client := .training j y.1 } := by
      intro x y hxy
      induction hxy with
      | refl => intro υ hp e; rw [← e]; exact hp
      | @cons pc pc' r r' y hn _ ih =>
        intro υ hp e
        by_cases hd : pc = .done
        · subst hd
          cases hn
          exact ih υ hp e
        · refine ih _ (.tail hp (Or.inl (.trainAction j pc pc' r' (by rw [e]) hd (by rw [e]; exact hn))) trivial) ?_
          rw [e]
    have h1 : Path p (fun _ => True) σ { σ with client := .training j .enter } := .tail (.refl trivial) (Or.inl (.enterTrain j hc)) trivial
    have h2 := key _ _ halone _ h1 rfl
    exact .tail h2 (Or.inl (.trainReturns j rfl)) trivial
  · intro τ hp hd
    have key : (Shape τ ∧ τ.handle = none) ∧ (τ.client = .stopped (.trainHere j) ∧ τ.run = σ.run ∨
        ∃ pc, τ.client = .training j pc ∧ Alone j (.enter, σ.run) (pc, τ.run)) := by
      clear hd
      induction hp with
      | refl h => exact ⟨⟨hsh, hh⟩, Or.inl ⟨hc, rfl⟩⟩
      | tail _ hs hpu ih =>
        rename_i τ υ _
        obtain ⟨⟨i1, i2⟩, i3⟩ := ih
        have noThread : ∀ i, ¬ ThreadStep i τ υ := by
          intro i ht
          cases ht with
          | action j' pc pc' r1 ht hne hn =>
            have := i1.owner i j' pc ht hne
            rw [i2] at this; cases this
        rcases hs with hs | ⟨i, hs⟩
        · have hsh' := shape_client i1 hs
          rcases i3 with ⟨c1, c2⟩ | ⟨pc, c1, c2⟩
          · cases hs with
            | enterTrain j' hr => rw [c1] at hr; cases hr; exact ⟨⟨hsh', i2⟩, Or.inr ⟨_, rfl, by simp only [c2]; exact .refl⟩⟩
            | setWant k' hr => rw [c1] at hr; cases hr
            | notJoinable k' hr hh => rw [c1] at hr; cases hr
            | join k' i j hr hh hd => rw [c1] at hr; cases hr
            | callThrows hr => rw [c1] at hr; cases hr
            | callStart j hp hr hw hv => rw [c1] at hr; cases hr
            | callTrain j hp hr hv hi => rw [c1] at hr; cases hr
            | callStop hr => rw [c1] at hr; cases hr
            | callDestructor hr => rw [c1] at hr; cases hr
            | returnStop hr => rw [c1] at hr; cases hr
            | endDestructor hr => rw [c1] at hr; cases hr
            | spawn j hr hh => rw [c1] at hr; cases hr
            | spawnTerminates j hr hh => rw [c1] at hr; cases hr
            | trainAction j pc pc' r' hr hne hn => rw [c1] at hr; cases hr
            | trainReturns j hr => rw [c1] at hr; cases hr
            | callWait w hr => rw [c1] at hr; cases hr
            | poll w t hr => rw [c1] at hr; cases hr
            | use r' hr hu => rw [c1] at hr; cases hr
          · cases hs with
            | trainAction j' pc' pc'' r1 hr hne hn =>
              rw [c1] at hr; cases hr
              exact ⟨⟨hsh', i2⟩, Or.inr ⟨_, rfl, c2.trans (.one hn)⟩⟩
            | trainReturns j' hr => rcases hpu with h | ⟨_, h⟩ <;> cases h
            | enterTrain j' hr => rw [c1] at hr; cases hr
            | setWant k' hr => rw [c1] at hr; cases hr
            | notJoinable k' hr hh => rw [c1] at hr; cases hr
            | join k' i j hr hh hd => rw [c1] at hr; cases hr
            | callThrows hr => rw [c1] at hr; cases hr
            | callStart j hp hr hw hv => rw [c1] at hr; cases hr
            | callTrain j hp hr hv hi => rw [c1] at hr; cases hr
            | callStop hr => rw [c1] at hr; cases hr
            | callDestructor hr => rw [c1] at hr; cases hr
            | returnStop hr => rw [c1] at hr; cases hr
            | endDestructor hr => rw [c1] at hr; cases hr
            | spawn j hr hh => rw [c1] at hr; cases hr
            | spawnTerminates j hr hh => rw [c1] at hr; cases hr
            | callWait w hr => rw [c1] at hr; cases hr
            | poll w t hr => rw [c1] at hr; cases hr
            | use r' hr hu => rw [c1] at hr; cases hr
        · exact absurd hs (noThread i)
    rcases key.2 with ⟨c1, _⟩ | ⟨pc, c1, c2⟩
    · rw [hd] at c1; cases c1
    · rw [hd] at c1
      cases c1
      exact (alone_done (alone_det c2 halone)).symm

/-- The number of epochs begun in a run: the shuffles. -/
def epochsBegun (t : List (Event F)) : Nat := (t.filter fun e => match e with | .shuffled => true | _ => false).length

/-- Inside an epoch, after its shuffle. -/
def Late : Pc → Bool
  | .stepTest => true
  | .stepBody => true
  | .evalTest .inLoop => true
  | .evaluating .inLoop _ => true
  | .evalReset .inLoop => true
  | .evalIdle .inLoop => true
  | _ => false

/-- The epoch number is at most the number of epochs begun, plus one outside of an epoch. -/
def EpochOk (pc : Pc) (r : Run F) : Prop :=
  r.snn.epoch ≤ epochsBegun r.trace + 1 ∧ (Late pc = true → r.snn.epoch ≤ epochsBegun r.trace)

theorem afterEvaluate_epochOk {s : Site} {r : Run F} (h : EpochOk (.evalTest s) r) : EpochOk (afterEvaluate s r).1 (afterEvaluate s r).2 := by
  cases s
  · exact ⟨by simp [afterEvaluate], by simp [afterEvaluate, Late]⟩
  · exact ⟨by simpa [afterEvaluate] using h.2 rfl, by simp [afterEvaluate, Late]⟩

theorem epochsBegun_cons {e : Event F} {t : List (Event F)} (h : e ≠ .shuffled) : epochsBegun (e :: t) = epochsBegun t := by
  unfold epochsBegun
  rw [List.filter_cons_of_neg]
  cases e <;> simp at h ⊢

theorem next_epochOk {j : Job F} {pc pc' : Pc} {r r' : Run F} (h : EpochOk pc r) (hn : next j pc r = .ok (pc', r')) : EpochOk pc' r' := by
  cases pc with
  | enter => cases hn; exact ⟨by simp; omega, by simp [Late]⟩
  | busy => cases hn; exact ⟨h.1, by simp [Late]⟩
  | evalTest s =>
    have key : ∀ (c : Bool), (if c = true then
      (.ok (.evaluating s r.data.testing.size, { r with snn := { r.snn with
        net := { r.snn.net with stats := r.snn.net.stats.startTesting }
        index := 0 } }) : Res (Pc × Run F))
      else .ok (afterEvaluate s r)) = .ok (pc', r') → EpochOk pc' r' := by
      intro c hn
      cases c
      · have hn : afterEvaluate s r = (pc', r') := by injection hn
        have := afterEvaluate_epochOk h
        rw [hn] at this; exact this
      · cases hn
        cases s <;> exact h
    exact key _ hn
  | evaluating s k =>
    cases k with
    | zero =>
      have hn : afterEvaluate s (evaluateEnd r) = (pc', r') := by simpa [next] using hn
      have e1 := (evaluateEnd_fields r).2.2.2.2.2.2.1
      have e2 : epochsBegun (evaluateEnd r).trace = epochsBegun r.trace := by
        unfold evaluateEnd
        simp only
        split
        · simp only [Run.saveSync]
          rw [epochsBegun_cons (by simp), epochsBegun_cons (by simp)]
        · rw [epochsBegun_cons (by simp)]
      have := afterEvaluate_epochOk (s := s) (r := evaluateEnd r) (by
        unfold EpochOk
        rw [e1, e2]
        cases s <;> exact h)
      rw [hn] at this; exact this
    | succ k =>
      simp only [next] at hn
      split at hn
      · cases hn
        cases s <;> exact h
      · obtain ⟨r1, h1, hn⟩ := Res.bind_eq_ok.1 hn
        cases hn
        obtain ⟨_, _, _, _, _, f6, _⟩ := evaluatePosition_frame h1
        have f8 : r'.trace = r.trace := by
          unfold evaluatePosition at h1
          obtain ⟨_, _, h1⟩ := Res.bind_eq_ok.1 h1
          obtain ⟨_, _, h1⟩ := Res.bind_eq_ok.1 h1
          cases h1; rfl
        unfold EpochOk
        rw [f6, f8]
        cases s <;> exact h
  | evalReset s => cases hn; cases s <;> exact h
  | evalIdle s =>
    have hn : afterEvaluate s { r with snn := { r.snn with isIdle := true }, trace := .evaluated r.snn.epoch r.snn.net.stats :: r.trace } = (pc', r') := by
      simpa [next] using hn
    have := afterEvaluate_epochOk (s := s) (r := { r with snn := { r.snn with isIdle := true }, trace := .evaluated r.snn.epoch r.snn.net.stats :: r.trace }) (by
      unfold EpochOk
      rw [epochsBegun_cons (by simp)]
      cases s <;> exact h)
    rw [hn] at this; exact this
  | epochTest =>
    simp only [next] at hn
    injection hn with hn
    obtain ⟨e1, e2⟩ := Prod.mk.inj hn
    subst e2
    refine ⟨h.1, ?_⟩
    split at e1 <;> subst e1 <;> simp [Late]
  | shuffling =>
    obtain ⟨_, _, hn⟩ := Res.bind_eq_ok.1 hn
    cases hn
    have : epochsBegun (Event.shuffled :: r.trace) = epochsBegun r.trace + 1 := by simp [epochsBegun]
    have h1 := h.1
    unfold EpochOk
    rw [this]
    push_cast
    exact ⟨by omega, fun _ => by omega⟩
  | stepTest =>
    simp only [next] at hn
    split at hn
    · injection hn with hn
      obtain ⟨e1, e2⟩ := Prod.mk.inj hn
      subst e2
      exact ⟨h.1, fun _ => h.2 rfl⟩
    · cases hn; exact ⟨h.1, fun _ => h.2 rfl⟩
  | stepBody =>
    simp only [next] at hn
    split at hn
    · cases hn; exact ⟨h.1, fun _ => h.2 rfl⟩
    · rename_i hnan
      obtain ⟨⟨ret, r1⟩, h1, hn⟩ := Res.bind_eq_ok.1 hn
      cases hn
      obtain ⟨_, hspec⟩ := TrainProofs.trainStep_spec (TrainProofs.SameButBuffers.refl r.data) (by simpa using hnan) h1
      obtain ⟨net, e, _, _, _, ev, ht, hm, _⟩ := hspec.snn
      have hne : ev ≠ .shuffled := by rintro rfl; simp [TrainSpec.mark] at hm
      unfold EpochOk
      simp only [ht, e]
      rw [epochsBegun_cons hne]
      exact ⟨h.1, fun _ => h.2 rfl⟩
  | reset => cases hn; exact ⟨h.1, by simp [Late]⟩
  | idle => cases hn; exact ⟨h.1, by simp [Late]⟩
  | done => cases hn; exact h

/-- The invariant of the epoch number. -/
structure EpochInv (σ : Sys F) : Prop where
  epoch : σ.run.snn.epoch ≤ epochsBegun σ.run.trace + 1
  threads : ∀ (i : Nat) (j : Job F) (pc : Pc), σ.threads[i]? = some (j, pc) → EpochOk pc σ.run
  client : ∀ j pc, σ.client = .training j pc → EpochOk pc σ.run

theorem epochOk_early {pc : Pc} {r : Run F} (h : r.snn.epoch ≤ epochsBegun r.trace + 1) (hl : Late pc = false) : EpochOk pc r :=
  ⟨h, by rw [hl]; intro h; cases h⟩

theorem reach_epoch {ni no : Nat} {p : Program F} (hp : Fits ni no p) {r0 : Run F} (h0 : r0.snn.epoch ≤ epochsBegun r0.trace + 1) {σ : Sys F}
    (h : Reach p r0 σ) : EpochInv σ := by
  induction h with
  | start => exact ⟨h0, by intro i j pc h; simp [Sys.start] at h, by intro j pc h; simp [Sys.start] at h⟩
  | @step σ τ hr hs ih =>
    have hsh := reach_shape hr
    obtain ⟨h1, h2, h3⟩ := ih
    have done : ∀ (r : Run F), r.snn.epoch ≤ epochsBegun r.trace + 1 → EpochOk .done r := fun r h => epochOk_early h rfl
    rcases hs with hs | ⟨i, hs⟩
    · cases hs with
      | callThrows hr => exact ⟨h1, h2, h3⟩
      | setWant k hc => exact ⟨h1, h2, by intro j pc h; cases h⟩
      | spawn j hc hh =>
        refine ⟨h1, ?_, by intro j pc h; cases h⟩
        intro i' j' pc' ht
        simp only at ht
        by_cases hi : i' < σ.threads.length
        · rw [List.getElem?_append_left hi] at ht; exact h2 i' j' pc' ht
        · rw [List.getElem?_append_right (by omega)] at ht
          have := List.mem_of_getElem? ht
          simp at this
          rw [this.2]
          exact epochOk_early h1 rfl
      | spawnTerminates j hc hh =>
        have hf := hsh.free
        rw [hc] at hf
        exact absurd hf hh
      | enterTrain j hc => exact ⟨h1, h2, by intro j pc h; cases h; exact epochOk_early h1 rfl⟩
      | trainAction j pc pc' r' hc hne hn =>
        have e := next_epochOk (h3 j pc hc) hn
        refine ⟨e.1, ?_, by intro j pc h; cases h; exact e⟩
        intro i' j' pc'' ht
        by_cases hd : pc'' = .done
        · subst hd; exact done _ e.1
        · have := hsh.owner i' j' pc'' ht hd
          have hf := hsh.free
          rw [hc] at hf
          simp only at hf
          rw [this] at hf; cases hf
      | poll w t hc =>
        refine ⟨h1, h2, ?_⟩
        intro j pc h
        simp only at h
        split at h <;> cases h
      | use r' hr hu =>
        have : r'.snn.epoch = σ.run.snn.epoch ∧ epochsBegun r'.trace = epochsBegun σ.run.trace := by
          rcases hp.other _ _ hu with ⟨x, t, out, net, hx, ho, rfl⟩ | ⟨path, hsv⟩
          · exact ⟨rfl, rfl⟩
          · unfold Run.saveAs at hsv
            split at hsv
            · cases hsv
            · cases hsv
              exact ⟨rfl, epochsBegun_cons (by simp)⟩
        refine ⟨by simp only [this]; exact h1, ?_, ?_⟩
        · intro i j pc ht
          have := h2 i j pc ht
          unfold EpochOk
          simp only [‹r'.snn.epoch = σ.run.snn.epoch ∧ _›.1, ‹r'.snn.epoch = σ.run.snn.epoch ∧ _›.2]
          exact this
        · intro j pc h; simp only [hr] at h; cases h
      | _ => exact ⟨h1, h2, by intro j pc h; cases h⟩
    · cases hs with
      | action j pc pc' r' ht hne hn =>
        have e := next_epochOk (h2 i j pc ht) hn
        have hh := hsh.owner i j pc ht hne
        have hlt : i < σ.threads.length := by
          by_contra hge
          rw [List.getElem?_eq_none (by omega)] at ht; cases ht
        refine ⟨e.1, ?_, ?_⟩
        · intro i' j' pc'' ht'
          simp only at ht' ⊢
          by_cases hi : i = i'
          · subst hi
            rw [List.getElem?_set_self hlt] at ht'; cases ht'; exact e
          · rw [List.getElem?_set_ne hi] at ht'
            by_cases hd : pc'' = .done
            · subst hd; exact done _ e.1
            · have := hsh.owner i' j' pc'' ht' hd
              rw [hh] at this
              exact absurd (Option.some.inj this) hi
        · intro j' pc'' hc
          have hf := hsh.free
          simp only at hc
          rw [hc] at hf
          simp only at hf
          rw [hh] at hf; cases hf

/-- **C63**, proved part: when `waitFor(n_ep)` returns and no NaN has been seen, at least `n` epochs of training have been begun on
this network object since it was made. Missing: that these epochs belong to the training that was started last, which is false
(`C63_stale_epoch_refuted`); so it is proved when this training is the first one. -/
theorem C63_waitFor_epochs_partial {ni no : Nat} {p : Program F} (hp : Fits ni no p) {r0 : Run F} (h0 : r0.snn.epoch = 0)
    {σ τ : Sys F} (h : Reach p r0 σ) (n : Nat) (hn : n < 2 ^ 31) (hc : σ.client = .waiting (litEp n)) (hs : ClientStep p σ τ) (hτ : τ.client = .ready)
    (hnan : σ.run.snn.net.outputNan = false) (hlit : fle (lit 0 : F) (lit (-1)) = false) : n ≤ epochsBegun σ.run.trace := by
  have hinv := (reach_epoch hp (by rw [h0]; omega) h).epoch
  have e : toInt32 n = (n : Int) := by unfold toInt32; rw [Int.bmod_eq_of_le] <;> omega
  cases hs with
  | poll w t hc' =>
    have hw : w = litEp n := (Client.waiting.inj (hc.symm.trans hc')).symm
    clear hc'
    subst hw
    simp only at hτ
    split at hτ
    · rename_i hover
      rw [hnan] at hover
      simp only [Bool.false_or] at hover
      unfold Wait.isOver litEp Wait.default at hover
      simp [e, hlit] at hover
      omega
    · cases hτ
  | callThrows hr => rw [hc] at hr; cases hr
  | callStart j hp hr hw hv => rw [hc] at hr; cases hr
  | callTrain j hp hr hv hi => rw [hc] at hr; cases hr
  | callStop hr => rw [hc] at hr; cases hr
  | callDestructor hr => rw [hc] at hr; cases hr
  | setWant k' hr => rw [hc] at hr; cases hr
  | notJoinable k' hr hh => rw [hc] at hr; cases hr
  | join k' i j hr hh hd => rw [hc] at hr; cases hr
  | returnStop hr => rw [hc] at hr; cases hr
  | endDestructor hr => rw [hc] at hr; cases hr
  | spawn j hr hh => rw [hc] at hr; cases hr
  | spawnTerminates j hr hh => rw [hc] at hr; cases hr
  | enterTrain j hr => rw [hc] at hr; cases hr
  | trainAction j pc pc' r' hr hne hn => rw [hc] at hr; cases hr
  | trainReturns j hr => rw [hc] at hr; cases hr
  | callWait w hr => rw [hc] at hr; cases hr
  | use r' hr hu => rw [hc] at hr; cases hr

/-- **C63 is false for the second training of a network**: if the last training left the epoch number above `n` (as
`train(data, N_ep)` with N ≥ n does), then after `startTrainingAsync` the call `waitFor(n_ep)` can return before the new thread
executed its first instruction. -/
theorem C63_stale_epoch_refuted {p : Program F} {r0 : Run F} (n : Nat) (hn : n < 2 ^ 31) (he : (n : Int) < r0.snn.epoch) {j : Job F}
    (hsub : p.submits j) (hw : j.wait = Wait.default) (hv : r0.snn.validData j.data j.batchSize = .ok ()) :
    ∃ σ τ : Sys F, Reach p r0 σ ∧ σ.client = .waiting (litEp n) ∧ ClientStep p σ τ ∧ τ.client = .ready ∧
      σ.threads = [(j, .enter)] ∧ σ.run.trace = r0.trace := by
  have e : toInt32 n = (n : Int) := by unfold toInt32; rw [Int.bmod_eq_of_le] <;> omega
  let rw' : Run F := { r0 with snn := { r0.snn with wantToStopTraining := true } }
  let σ1 : Sys F := { Sys.start r0 with client := .stopping (.spawn j) }
  let σ2 : Sys F := { σ1 with run := rw', client := .joining (.spawn j) }
  let σ3 : Sys F := { σ2 with client := .stopped (.spawn j) }
  let σ4 : Sys F := { σ3 with threads := [(j, .enter)], handle := some 0, client := .ready }
  let σ5 : Sys F := { σ4 with client := .waiting (litEp n) }
  have r1 : Reach p r0 σ1 := .step .start (Or.inl (.callStart j hsub rfl hw hv))
  have r2 : Reach p r0 σ2 := .step r1 (Or.inl (.setWant (.spawn j) rfl))
  have r3 : Reach p r0 σ3 := .step r2 (Or.inl (.notJoinable (.spawn j) rfl rfl))
  have r4 : Reach p r0 σ4 := .step r3 (Or.inl (.spawn j rfl rfl))
  have r5 : Reach p r0 σ5 := .step r4 (Or.inl (.callWait (litEp n) rfl))
  refine ⟨σ5, _, r5, rfl, .poll (litEp n) 0 rfl, ?_, rfl, rfl⟩
  have hover : ∀ (t : Int) (a m : F), (litEp n : Wait F).isOver t r0.snn.epoch a m = true := by
    intro t a m
    unfold Wait.isOver litEp Wait.default
    simp [e]
    left
    omega
  have : (litEp n : Wait F).isOver 0 σ5.run.snn.epoch σ5.run.snn.net.stats.globalRate σ5.run.snn.net.stats.mae = true := hover _ _ _
  simp only [this, Bool.or_true, if_true]

end

section
variable {F : Type} [Field F] [LinearOrder F] [IsStrictOrderedRing F] [FTrans F]

/-- **C30 is false when the stop comes before the first instructions of the thread**: for every well formed network and every fitting
training (exact arithmetic), there is a fair execution in which the client calls `startTrainingAsync` then `stopTrainingAsync`, the
thread then clears `wantToStopTraining` at line 94, and the call of `stopTrainingAsync` never returns. -/
theorem C30_lost_stop_refuted {arch : List (LayerModel F)} {s s' : List Nat} (h : WellFormed arch s s') (he : EndsWithNeurons arch)
    {opt : Sgd F} {d d' : Draws F} {snn : Snn F} (hm : Snn.make arch opt d = .ok (snn, d')) (r0 : Run F) (hr : r0.snn = snn)
    (j : Job F) (hd : Fitted s.prod s'.prod j.data) (hw : j.wait = Wait.default) (hv : snn.validData j.data j.batchSize = .ok ()) :
    ∃ (p : Program F) (E : Nat → Sys F), Fits s.prod s'.prod p ∧ Execution p r0 E ∧ Fair p E ∧
      ∃ n, (E n).client = .stopping .ret ∧ ∀ m, n < m → (E m).client = .joining .ret := by
  obtain ⟨hs, hidle⟩ := SafeProps.make_safe h he hm
  rw [← hr] at hs hidle hv
  let rw' : Run F := { r0 with snn := { r0.snn with wantToStopTraining := true } }
  have hnan : r0.snn.net.outputNan = false := by
    rw [hr]
    unfold Snn.make at hm
    obtain ⟨⟨net, d1⟩, h1, hm⟩ := Res.bind_eq_ok.1 hm
    obtain ⟨err, h2, hm⟩ := Res.bind_eq_ok.1 hm
    split at hm
    · cases hm
    cases hm
    obtain ⟨⟨ls, d2⟩, h3, h1⟩ := Res.bind_eq_ok.1 h1
    obtain ⟨last, h4, h1⟩ := Res.bind_eq_ok.1 h1
    cases h1
    rfl
  have hfree : Free s.prod s'.prod j (.enter, rw') := ⟨Or.inl rfl, hs, hnan, Or.inl rfl⟩
  obtain ⟨T, hT0, hT⟩ := free_forever hd.safe (validData_batch hv).1 hw _ hfree
  let p : Program F := { submits := fun j' => j' = j, other := fun _ _ => False }
  let σ0 : Sys F := Sys.start r0
  let σ1 : Sys F := { σ0 with client := .stopping (.spawn j) }
  let σ2 : Sys F := { σ1 with run := rw', client := .joining (.spawn j) }
  let σ3 : Sys F := { σ2 with client := .stopped (.spawn j) }
  let σ4 : Sys F := { σ3 with threads := [(j, .enter)], handle := some 0, client := .ready }
  let σ5 : Sys F := { σ4 with client := .stopping .ret }
  let loop : Nat → Sys F := fun n => { run := (T n).2, threads := [(j, (T n).1)], handle := some 0, client := .joining .ret }
  let E : Nat → Sys F := fun n => match n with
    | 0 => σ0
    | 1 => σ1
    | 2 => σ2
    | 3 => σ3
    | 4 => σ4
    | 5 => σ5
    | n + 6 => loop n
  have thr : ∀ n, ThreadStep 0 (loop n) (loop (n + 1)) := by
    intro n
    exact .action (σ := loop n) j (T n).1 (T (n + 1)).1 (T (n + 1)).2 rfl (hT n).2 (hT n).1
  have hE : Execution p r0 E := by
    refine ⟨rfl, ?_⟩
    intro n
    left
    match n with
    | 0 => exact Or.inl (.callStart j rfl rfl hw hv)
    | 1 => exact Or.inl (.setWant (.spawn j) rfl)
    | 2 => exact Or.inl (.notJoinable (.spawn j) rfl rfl)
    | 3 => exact Or.inl (.spawn j rfl rfl)
    | 4 => exact Or.inl (.callStop rfl)
    | 5 =>
      have hst : ClientStep p σ5 { σ5 with run := { σ5.run with snn := { σ5.run.snn with wantToStopTraining := true } }, client := .joining .ret } :=
        .setWant .ret rfl
      have e : loop 0 = { σ5 with run := { σ5.run with snn := { σ5.run.snn with wantToStopTraining := true } }, client := .joining .ret } := by
        show ({ run := (T 0).2, threads := [(j, (T 0).1)], handle := some 0, client := .joining .ret } : Sys F) = _
        rw [hT0]
      show Step p σ5 (loop 0)
      rw [e]
      exact Or.inl hst
    | n + 6 => exact Or.inr ⟨0, thr n⟩
  refine ⟨p, E, ⟨?_, ?_⟩, hE, ⟨?_, ?_⟩, 5, rfl, ?_⟩
  · intro j' e; rw [show j' = j from e]; exact hd
  · intro r r' h; exact h.elim
  · intro n
    refine ⟨n + 6, by omega, Or.inr ?_⟩
    rintro ⟨τ, hs⟩
    have := (client_of_joining (σ := loop n) (k := .ret) rfl hs).2
    rcases this with h | ⟨i, j', h1, h2⟩
    · cases h
    · have h1 : some 0 = some i := h1
      cases h1
      have h2 : some (j, (T n).1) = some (j', .done) := h2
      injection h2 with h2
      exact (hT n).2 (Prod.mk.inj h2).2
  · intro i n
    cases i with
    | zero => exact ⟨n + 6, by omega, Or.inl (thr n)⟩
    | succ i =>
      refine ⟨n + 6, by omega, Or.inr ?_⟩
      rintro ⟨τ, hs⟩
      have hs : ThreadStep (i + 1) (loop n) τ := hs
      cases hs with
      | action j' pc pc' r' ht hne hn =>
        have ht : [(j, (T n).1)][i + 1]? = some (j', pc) := ht
        simp at ht
  · intro m hm
    match m, hm with
    | n + 6, _ => rfl

end

/-! ### Non-vacuity -/

/-- The demonstration training of the recurrent network on the time series. -/
def demoJob : Job ℚ := { env := Demo.env, data := Demo.series, wait := Wait.default, batchSize := 1, evaluationFrequency := 1 }

/-- A client that submits only this training. -/
def demoClient : Program ℚ := { submits := fun j => j = demoJob, other := fun _ _ => False }

/-- C29 is not vacuous: a state with one running loop is reachable (and with a second call of `startTrainingAsync` under way). -/
example : ∃ σ, Reach demoClient (Demo.run Demo.recurrent Demo.series) σ ∧ liveLoops σ = [.enter] ∧ σ.client = .joining (.spawn demoJob) := by
  have hv : (Demo.run Demo.recurrent Demo.series).snn.validData demoJob.data demoJob.batchSize = .ok () := by decide +kernel
  have r1 := Reach.step (p := demoClient) (r0 := Demo.run Demo.recurrent Demo.series) .start (Or.inl (.callStart demoJob rfl rfl rfl hv))
  have r2 := r1.step (Or.inl (.setWant (.spawn demoJob) rfl))
  have r3 := r2.step (Or.inl (.notJoinable (.spawn demoJob) rfl rfl))
  have r4 := r3.step (Or.inl (.spawn demoJob rfl rfl))
  have r5 := r4.step (Or.inl (.callStart demoJob rfl rfl rfl hv))
  have r6 := r5.step (Or.inl (.setWant (.spawn demoJob) rfl))
  exact ⟨_, r6, rfl, rfl⟩

/-- A path as a function of time. -/
theorem path_exec {F : Type} [Flt F] [FTrans F] [Add F] [Sub F] [Mul F] [Div F] [Neg F] {p : Program F} {P : Sys F → Prop} {σ τ : Sys F}
    (h : Path p P σ τ) : ∃ (N : Nat) (f : Nat → Sys F), f 0 = σ ∧ (∀ n, n < N → Step p (f n) (f (n + 1))) ∧ ∀ n, N ≤ n → f n = τ := by
  induction h with
  | refl h => exact ⟨0, fun _ => _, rfl, by intro n h; omega, fun _ _ => rfl⟩
  | @tail τ υ h hs hp ih =>
    obtain ⟨N, f, h1, h2, h3⟩ := ih
    refine ⟨N + 1, fun n => if n ≤ N then f n else υ, by simp [h1], ?_, ?_⟩
    · intro n hn
      by_cases he : n = N
      · subst he
        simp only [le_refl, if_true]
        rw [if_neg (by omega), h3 n (le_refl _)]
        exact hs
      · beta_reduce
        rw [if_pos (by omega), if_pos (by omega)]
        exact h2 n (by omega)
    · intro n hn
      beta_reduce
      rw [if_neg (by omega)]

theorem next_skip {F : Type} [Flt F] [FTrans F] [Add F] [Sub F] [Mul F] [Div F] [Neg F] {j : Job F} (h : j.evaluationFrequency = 0) (r : Run F) :
    next j (.evalTest .before) r = .ok (.epochTest, { r with snn := { r.snn with epoch := 1 } }) := by
  simp [next, h, afterEvaluate]

theorem next_stop {F : Type} [Flt F] [FTrans F] [Add F] [Sub F] [Mul F] [Div F] [Neg F] {j : Job F} (r : Run F)
    (h : r.snn.wantToStopTraining = true) : next j .epochTest r = .ok (.reset, { r with ticks := r.ticks + 1 }) := by
  simp [next, Run.continueTraining, h]

theorem client_destroyed {F : Type} [Flt F] [FTrans F] [Add F] [Sub F] [Mul F] [Div F] [Neg F] {p : Program F} {σ τ : Sys F}
    (hc : σ.client = .destroyed) (hs : ClientStep p σ τ) : False := by
  cases hs with
  | callThrows hr => rw [hc] at hr; cases hr
  | callStart j hp hr hw hv => rw [hc] at hr; cases hr
  | callTrain j hp hr hv hi => rw [hc] at hr; cases hr
  | callStop hr => rw [hc] at hr; cases hr
  | callDestructor hr => rw [hc] at hr; cases hr
  | setWant k' hr => rw [hc] at hr; cases hr
  | notJoinable k' hr hh => rw [hc] at hr; cases hr
  | join k' i j hr hh hd => rw [hc] at hr; cases hr
  | returnStop hr => rw [hc] at hr; cases hr
  | endDestructor hr => rw [hc] at hr; cases hr
  | spawn j hr hh => rw [hc] at hr; cases hr
  | spawnTerminates j hr hh => rw [hc] at hr; cases hr
  | enterTrain j hr => rw [hc] at hr; cases hr
  | trainAction j pc pc' r' hr hne hn => rw [hc] at hr; cases hr
  | trainReturns j hr => rw [hc] at hr; cases hr
  | callWait w hr => rw [hc] at hr; cases hr
  | poll w t hr => rw [hc] at hr; cases hr
  | use r' hr hu => rw [hc] at hr; cases hr

/-- The states of the example, compactly. -/
def one {F : Type} (j : Job F) (r : Run F) (pc : Pc) (c : Client F) : Sys F := { run := r, threads := [(j, pc)], handle := some 0, client := c }

theorem path_thread {F : Type} [Flt F] [FTrans F] [Add F] [Sub F] [Mul F] [Div F] [Neg F] {p : Program F} {σ : Sys F} {j : Job F} {r r' : Run F}
    {pc pc' : Pc} {c : Client F} (h : Async.Spec.Path p (fun _ => True) σ (one j r pc c)) (hne : pc ≠ .done)
    (hn : next j pc r = .ok (pc', r')) : Async.Spec.Path p (fun _ => True) σ (one j r' pc' c) :=
  h.tail (Or.inr ⟨0, .action (σ := one j r pc c) j pc pc' r' rfl hne hn⟩) trivial

theorem demo_path {F : Type} [Flt F] [FTrans F] [Add F] [Sub F] [Mul F] [Div F] [Neg F] (r0 : Run F) (j : Job F) (p : Program F)
    (hp : p.submits j) (hw : j.wait = Wait.default) (hef : j.evaluationFrequency = 0) (hv : r0.snn.validData j.data j.batchSize = .ok ()) :
    ∃ υ τ : Sys F, Async.Spec.Path p (fun _ => True) (Sys.start r0) υ ∧ Async.Spec.Path p (fun _ => True) υ τ ∧
      υ.client = .stopping .destroy ∧ ¬ NotYetCleared υ ∧ liveLoops υ = [.busy] ∧ τ.client = .destroyed ∧ τ.threads = [(j, .done)] := by
  have r0' : Async.Spec.Path p (fun _ => True) (Sys.start r0) (Sys.start r0) := .refl trivial
  have r1 := r0'.tail (Or.inl (.callStart j hp rfl hw hv)) trivial
  have r2 := r1.tail (Or.inl (.setWant (.spawn j) rfl)) trivial
  have r3 := r2.tail (Or.inl (.notJoinable (.spawn j) rfl rfl)) trivial
  have r4 := r3.tail (Or.inl (.spawn j rfl rfl)) trivial
  obtain ⟨ra, hra⟩ : ∃ ra : Run F, Async.Spec.Path p (fun _ => True) (Sys.start r0) (one j ra .enter .ready) := ⟨_, r4⟩
  obtain ⟨rb, hrb⟩ : ∃ rb : Run F, Async.Spec.Path p (fun _ => True) (Sys.start r0) (one j rb .busy .ready) :=
    ⟨_, path_thread hra (by simp) rfl⟩
  have hrc : Async.Spec.Path p (fun _ => True) (Sys.start r0) (one j rb .busy (.stopping .destroy)) :=
    hrb.tail (Or.inl (.callDestructor (σ := one j rb .busy .ready) rfl)) trivial
  refine ⟨one j rb .busy (.stopping .destroy), ?_⟩
  have q0 : Async.Spec.Path p (fun _ => True) (one j rb .busy (.stopping .destroy)) (one j rb .busy (.stopping .destroy)) := .refl trivial
  obtain ⟨rd, hrd, hwd⟩ : ∃ rd : Run F, Async.Spec.Path p (fun _ => True) (one j rb .busy (.stopping .destroy)) (one j rd .busy (.joining .destroy)) ∧
      rd.snn.wantToStopTraining = true := ⟨_, q0.tail (Or.inl (.setWant (σ := one j rb .busy (.stopping .destroy)) .destroy rfl)) trivial, rfl⟩
  obtain ⟨re, hre, hwe⟩ : ∃ re : Run F, Async.Spec.Path p (fun _ => True) (one j rb .busy (.stopping .destroy)) (one j re (.evalTest .before) (.joining .destroy)) ∧
      re.snn.wantToStopTraining = true := ⟨_, path_thread hrd (by simp) rfl, hwd⟩
  obtain ⟨rf, hrf, hwf⟩ : ∃ rf : Run F, Async.Spec.Path p (fun _ => True) (one j rb .busy (.stopping .destroy)) (one j rf .epochTest (.joining .destroy)) ∧
      rf.snn.wantToStopTraining = true := ⟨_, path_thread hre (by simp) (next_skip hef _), hwe⟩
  obtain ⟨rg, hrg⟩ : ∃ rg : Run F, Async.Spec.Path p (fun _ => True) (one j rb .busy (.stopping .destroy)) (one j rg .reset (.joining .destroy)) :=
    ⟨_, path_thread hrf (by simp) (next_stop _ hwf)⟩
  obtain ⟨rh, hrh⟩ : ∃ rh : Run F, Async.Spec.Path p (fun _ => True) (one j rb .busy (.stopping .destroy)) (one j rh .idle (.joining .destroy)) :=
    ⟨_, path_thread hrg (by simp) rfl⟩
  obtain ⟨ri, hri⟩ : ∃ ri : Run F, Async.Spec.Path p (fun _ => True) (one j rb .busy (.stopping .destroy)) (one j ri .done (.joining .destroy)) :=
    ⟨_, path_thread hrh (by simp) rfl⟩
  have q7 := hri.tail (Or.inl (.join (σ := one j ri .done (.joining .destroy)) .destroy 0 j rfl rfl rfl)) trivial
  have q8 := q7.tail (Or.inl (.endDestructor rfl)) trivial
  refine ⟨_, hrc, q8, rfl, ?_, rfl, rfl, rfl⟩
  rintro ⟨i, j', h1, h2⟩
  have h1 := Option.some.inj h1
  subst h1
  have h2 := Option.some.inj h2
  cases (Prod.mk.inj h2).2

/-- C30's hypotheses are met: a fair execution in which the network is destroyed while its thread trains, after line 94. -/
example : ∃ E : Nat → Sys ℚ, Execution { submits := fun j => j = { demoJob with evaluationFrequency := 0 }, other := fun _ _ => False }
      (Demo.run Demo.recurrent Demo.series) E ∧
    Fair { submits := fun j => j = { demoJob with evaluationFrequency := 0 }, other := fun _ _ => False } E ∧
    ∃ n, (E n).client = .stopping .destroy ∧ ¬ NotYetCleared (E n) ∧ liveLoops (E n) = [.busy] := by
  have hv : (Demo.run Demo.recurrent Demo.series).snn.validData demoJob.data demoJob.batchSize = .ok () := by decide +kernel
  generalize hj : ({ demoJob with evaluationFrequency := 0 } : Job ℚ) = j
  have hv : (Demo.run Demo.recurrent Demo.series).snn.validData j.data j.batchSize = .ok () := by rw [← hj]; exact hv
  have hw : j.wait = Wait.default := by rw [← hj]; rfl
  have hef : j.evaluationFrequency = 0 := by rw [← hj]
  generalize hr : Demo.run Demo.recurrent Demo.series = r0 at hv
  let p : Program ℚ := { submits := fun j' => j' = j, other := fun _ _ => False }
  obtain ⟨υ, τ, r6, q8, u1, u2, u3, t1, t2⟩ := demo_path r0 j p rfl hw hef hv
  obtain ⟨N1, f1, a1, b1, c1⟩ := path_exec r6
  obtain ⟨N2, f2, a2, b2, c2⟩ := path_exec q8
  refine ⟨fun n => if n ≤ N1 then f1 n else f2 (n - N1), ⟨by simp [a1], ?_⟩, ⟨?_, ?_⟩, N1, ?_, ?_, ?_⟩
  · intro n
    by_cases h1 : n < N1
    · left
      beta_reduce
      rw [if_pos (by omega), if_pos (by omega)]; exact b1 n h1
    · beta_reduce
      rw [if_neg (show ¬ n + 1 ≤ N1 by omega)]
      have e : (if n ≤ N1 then f1 n else f2 (n - N1)) = f2 (n - N1) := by
        split
        · rename_i h; have : n = N1 := by omega
          rw [this, Nat.sub_self, a2, c1 _ (le_refl _)]
        · rfl
      rw [e, show n + 1 - N1 = (n - N1) + 1 by omega]
      by_cases h2 : n - N1 < N2
      · exact Or.inl (b2 _ h2)
      · exact Or.inr (by rw [c2 _ (by omega), c2 _ (by omega)])
  · intro n
    refine ⟨n + N1 + N2 + 1, by omega, Or.inr ?_⟩
    beta_reduce
    rw [if_neg (by omega), c2 _ (by omega)]
    rintro ⟨τ, hs⟩
    exact client_destroyed t1 hs
  · intro i n
    refine ⟨n + N1 + N2 + 1, by omega, Or.inr ?_⟩
    beta_reduce
    rw [if_neg (by omega), c2 _ (by omega)]
    rintro ⟨τ, hs⟩
    cases hs with
    | action j' pc pc' r' ht hne hn =>
      rw [t2] at ht
      cases i with
      | zero => have ht := Option.some.inj ht; exact hne (Prod.mk.inj ht).2.symm
      | succ i => cases ht
  · simp only [le_refl, if_true]; rw [c1 _ (le_refl _)]; exact u1
  · simp only [le_refl, if_true]; rw [c1 _ (le_refl _)]; exact u2
  · simp only [le_refl, if_true]; rw [c1 _ (le_refl _)]; exact u3

/-- C63's refutation is not vacuous: after `train(data, 1_ep)` the epoch number is 2. -/
example : (1 : Int) < Demo.trained.snn.epoch ∧ Demo.trained.snn.validData demoJob.data demoJob.batchSize = .ok () := by
  decide +kernel

end Snn.AsyncProps
