import Verif.Spec.LogSpec

/-! The clock and the log. -/

set_option linter.all false

namespace Snn.PaceProofs

open Snn Snn.LogSpec

variable {F : Type}

/-- The time shown by the last line that shows one, since the last accuracy line. -/
def since : Int → List (Line F) → Int
  | a, [] => a
  | a, .message _ :: ls => since a ls
  | _, .accuracy .. :: ls => since 0 ls
  | _, .progress _ _ _ _ d :: ls => since d ls

theorem since_append : ∀ (ls ms : List (Line F)) (a : Int), since a (ls ++ ms) = since (since a ls) ms
  | [], ms, a => rfl
  | .message _ :: ls, ms, a => since_append ls ms a
  | .accuracy .. :: ls, ms, _ => since_append ls ms 0
  | .progress _ _ _ _ d :: ls, ms, _ => since_append ls ms d

theorem paced_append {T : Int} : ∀ (ls ms : List (Line F)) (a : Int), Paced T a (ls ++ ms) ↔ Paced T a ls ∧ Paced T (since a ls) ms
  | [], ms, a => by simp [Paced, since]
  | .message _ :: ls, ms, a => by simpa [Paced, since] using paced_append ls ms a
  | .accuracy .. :: ls, ms, a => by simp [Paced, since, paced_append ls ms 0, and_assoc]
  | .progress _ _ _ _ d :: ls, ms, a => by simp [Paced, since, paced_append ls ms d, and_assoc]

theorem times_append : ∀ (ls ms : List (Line F)), accuracyTimes (ls ++ ms) = accuracyTimes ls ++ accuracyTimes ms
  | [], ms => rfl
  | .message _ :: ls, ms => times_append ls ms
  | .accuracy .. :: ls, ms => by simp [accuracyTimes, times_append ls ms]
  | .progress .. :: ls, ms => times_append ls ms

/-- The console between two statements of a training. -/
structure Timed (T : Int) (clock : Nat → Int) (c : Console F) : Prop where
  pos : 0 < c.now
  watch : ∃ w, c.watch = some w ∧ w.lastTick ≤ clock (c.now - 1) ∧ clock (c.now - 1) < w.lastTick + 100 ∧
    since 0 c.lines.reverse = w.lastTick - w.lastReset ∧ (accuracyTimes c.lines.reverse).sum = w.lastReset - clock 0 ∧ ∃ k < c.now, w.lastReset = clock k
  paced : Paced T 0 c.lines.reverse

variable [Flt F] [FTrans F] [Add F] [Sub F] [Mul F] [Div F] [Neg F]

theorem Timed.say {T : Int} {clock : Nat → Int} {c : Console F} (h : Timed T clock c) (v l : LogLevel) (t : String) : Timed T clock (c.say v l t) := by
  unfold Console.say
  split
  · obtain ⟨w, h1, h2, h3, h4, h5, k0, h6, h7⟩ := h.watch
    exact ⟨h.pos, ⟨w, h1, h2, h3, by simp [since_append, since, h4], by simp [times_append, accuracyTimes, h5], k0, h6, h7⟩, by
      simp only [List.reverse_cons, paced_append]; exact ⟨h.paced, trivial⟩⟩
  · exact h

theorem Timed.inProgress {T : Int} {clock : Nat → Int} (hc : ∀ n, clock n ≤ clock (n + 1) ∧ clock (n + 1) ≤ clock n + T) {c c' : Console F} (h : Timed T clock c)
    {v : LogLevel} {s : Snn F} {n : String} {k : Nat} (hs : c.inProgress v clock s n k = .ok c') : Timed T clock c' := by
  unfold Console.inProgress at hs
  split at hs
  · obtain ⟨w, h1, h2, h3, h4, h5, k0, h6, h7⟩ := h.watch
    have hp := h.pos
    have e1 := hc (c.now - 1)
    rw [show c.now - 1 + 1 = c.now by omega] at e1
    have e2 := hc c.now
    rw [h1] at hs
    simp only at hs
    split at hs
    · cases hs
      refine ⟨by simp, ⟨_, rfl, ?_, ?_, ?_, ?_, k0, ?_, h7⟩, ?_⟩
      · simp
      · simp
      · simp [since_append, since]
      · simp [times_append, accuracyTimes, h5]
      · simp only; omega
      · simp only [List.reverse_cons, paced_append]
        refine ⟨h.paced, ?_⟩
        simp only [Paced, h4]
        refine ⟨?_, ?_, trivial⟩ <;> omega
    · cases hs
      refine ⟨by simp, ⟨w, rfl, ?_, ?_, h4, h5, k0, ?_, h7⟩, h.paced⟩ <;> simp <;> omega
  · cases hs; exact h

theorem Timed.accuracy {T : Int} {clock : Nat → Int} (hc : ∀ n, clock n ≤ clock (n + 1) ∧ clock (n + 1) ≤ clock n + T) {c c' : Console F} (h : Timed T clock c)
    {v : LogLevel} {s : Snn F} {b : Bool} (hs : c.accuracy v clock s b = .ok c') : Timed T clock c' := by
  unfold Console.accuracy at hs
  split at hs
  · obtain ⟨w, h1, h2, h3, h4, h5, k0, h6, h7⟩ := h.watch
    have hp := h.pos
    have e1 := hc (c.now - 1)
    rw [show c.now - 1 + 1 = c.now by omega] at e1
    rw [h1] at hs
    cases hs
    refine ⟨by simp, ⟨_, rfl, ?_, ?_, ?_, ?_, c.now, ?_, rfl⟩, ?_⟩
    · simp
    · simp
    · simp [since_append, since]
    · skip
      simp only [List.reverse_cons, times_append, accuracyTimes, List.sum_append, List.sum_cons, List.sum_nil, h5]; omega
    · simp
    · simp only [List.reverse_cons, paced_append]
      refine ⟨h.paced, ?_⟩
      simp only [Paced, h4]
      refine ⟨?_, ?_, trivial⟩ <;> omega
  · cases hs; exact h

/-- What the three kinds of statements keep is kept by a training. -/
theorem trainL_keeps {v : LogLevel} {clock : Nat → Int} {env : Env F} {wait : Wait F} {b ef : Int} {fuel : Nat} {lines : List (Line F)} (P : Console F → Prop)
    (say : ∀ c l t, P c → P (c.say v l t)) (prog : ∀ c c' s n k, P c → c.inProgress v clock s n k = .ok c' → P c')
    (acc : ∀ c c' s b, P c → c.accuracy v clock s b = .ok c' → P c')
    (start : P { watch := some { lastTick := clock 0, lastReset := clock 0 }, now := 1, lines := lines })
    {r r' : Run F} {c' : Console F} (h : r.trainL v clock env wait b ef fuel lines = .ok (r', c')) : P c' := by
  have evl : ∀ (data : Data F) (k : Nat) (s : Snn F) (c : Console F) (p : Bool × Snn F) (c' : Console F), P c →
      evaluateLoopL v clock env.nan data k s c = .ok (p, c') → P c' := by
    intro data k
    induction k with
    | zero => intro s c p c' hp h; cases h; exact hp
    | succ k ih =>
      intro s c p c' hp h
      unfold evaluateLoopL at h
      split at h
      · cases h; exact hp
      · obtain ⟨need, _, h⟩ := Res.bind_eq_ok.1 h
        obtain ⟨s1, _, h⟩ := Res.bind_eq_ok.1 h
        obtain ⟨c1, h1, h⟩ := Res.bind_eq_ok.1 h
        exact ih _ _ _ _ (prog _ _ _ _ _ hp h1) h
  have ev : ∀ (r r' : Run F) (c c' : Console F), P c → r.evaluateL v clock env c = .ok (r', c') → P c' := by
    intro r r' c c' hp h
    unfold Run.evaluateL at h
    obtain ⟨⟨⟨st, s⟩, c1⟩, h1, h2⟩ := Res.bind_eq_ok.1 h
    have hp1 := evl _ _ _ _ _ _ hp h1
    simp only at h2
    split at h2
    · cases h2; exact hp1
    · split at h2
      · split at h2
        · obtain ⟨c2, h3, h2⟩ := Res.bind_eq_ok.1 h2
          cases h2; exact acc _ _ _ _ hp1 h3
        · cases h2; exact hp1
      · obtain ⟨c2, h3, h2⟩ := Res.bind_eq_ok.1 h2
        cases h2; exact acc _ _ _ _ hp1 h3
  have con : ∀ (r : Run F) (c : Console F), P c → P (r.continueTrainingL v env wait c).2 := by
    intro r c hp
    unfold Run.continueTrainingL
    simp only
    split
    · exact say _ _ _ hp
    · exact hp
  have sl : ∀ (fuel : Nat) (r : Run F) (c : Console F) (p : Bool × Run F) (c' : Console F), P c → stepLoopL v clock env wait b fuel r c = .ok (p, c') → P c' := by
    intro fuel
    induction fuel with
    | zero => intro r c p c' hp h; cases h
    | succ fuel ih =>
      intro r c p c' hp h
      unfold stepLoopL at h
      have hp1 := con r c hp
      revert h hp1
      generalize r.continueTrainingL v env wait c = q
      obtain ⟨⟨go, r1⟩, c1⟩ := q
      intro h hp1
      simp only at h hp1
      split at h
      · split at h
        · obtain ⟨⟨⟨ret, r2⟩, c2⟩, h1, h⟩ := Res.bind_eq_ok.1 h
          have e : P c2 := by
            unfold Run.trainStepL at h1
            obtain ⟨⟨ret', r3⟩, _, h1⟩ := Res.bind_eq_ok.1 h1
            simp only at h1
            split at h1
            · cases h1; exact hp1
            · obtain ⟨c3, h3, h1⟩ := Res.bind_eq_ok.1 h1
              cases h1; exact prog _ _ _ _ _ hp1 h3
          simp only at h
          split at h
          · cases h; exact e
          · exact ih _ _ _ _ e h
        · cases h; exact hp1
      · cases h; exact hp
  have el : ∀ (fuel inner : Nat) (r : Run F) (c : Console F) (p : Bool × Run F) (c' : Console F), P c → epochLoopL v clock env wait b ef inner fuel r c = .ok (p, c') → P c' := by
    intro fuel inner
    induction fuel with
    | zero => intro r c p c' hp h; cases h
    | succ fuel ih =>
      intro r c p c' hp h
      unfold epochLoopL at h
      have hp1 := con r c hp
      revert h hp1
      generalize r.continueTrainingL v env wait c = q
      obtain ⟨⟨go, r1⟩, c1⟩ := q
      intro h hp1
      simp only at h hp1
      split at h
      · obtain ⟨⟨⟨ret, r2⟩, c2⟩, h1, h⟩ := Res.bind_eq_ok.1 h
        have e : P c2 := by
          unfold Run.epochBodyL at h1
          obtain ⟨data, _, h1⟩ := Res.bind_eq_ok.1 h1
          obtain ⟨⟨⟨ret', r3⟩, c3⟩, h2, h1⟩ := Res.bind_eq_ok.1 h1
          have hp3 := sl _ _ _ _ _ hp1 h2
          simp only at h1
          split at h1
          · cases h1; exact hp3
          · split at h1
            · obtain ⟨⟨r4, c4⟩, h3, h1⟩ := Res.bind_eq_ok.1 h1
              cases h1
              exact ev _ _ _ _ hp3 h3
            · cases h1; exact hp3
        simp only at h
        split at h
        · cases h; exact e
        · exact ih _ _ _ _ e h
      · cases h; exact hp1
  unfold Run.trainL at h
  obtain ⟨_, _, h⟩ := Res.bind_eq_ok.1 h
  split at h
  · cases h
  simp only [Run.trainSyncL] at h
  obtain ⟨⟨r1, c1⟩, h1, h⟩ := Res.bind_eq_ok.1 h
  obtain ⟨⟨⟨ret, r2⟩, c2⟩, h2, h⟩ := Res.bind_eq_ok.1 h
  have e1 : P c1 := by
    split at h1
    · exact ev _ _ _ _ (say _ _ _ start) h1
    · cases h1; exact say _ _ _ start
  have e2 := el _ _ _ _ _ _ e1 h2
  simp only at h
  split at h <;> cases h
  · exact e2
  · exact say _ _ _ e2

end Snn.PaceProofs
