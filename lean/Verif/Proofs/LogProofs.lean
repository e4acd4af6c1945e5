import Verif.Spec.LogSpec
import Verif.Proofs.TrainProofs

/-! The functions with their log do what the functions without it do, and the accuracy lines are the evaluations. -/

set_option linter.all false

namespace Snn.LogProofs

open Snn.LogSpec Snn.TrainProofs

/-- `x` is `y` with a console, which satisfies `Q`. -/
def Silent {F α : Type} (x : Res (α × Console F)) (y : Res α) (Q : α → Console F → Prop) : Prop :=
  Prod.fst <$> x = y ∧ ∀ a c, x = .ok (a, c) → Q a c

theorem Silent.ret {F α : Type} {a : α} {c : Console F} {Q : α → Console F → Prop} (h : Q a c) : Silent (.ok (a, c)) (.ok a) Q :=
  ⟨rfl, by rintro _ _ ⟨⟩; exact h⟩

theorem Silent.bind {F α β : Type} {x : Res (α × Console F)} {y : Res α} {Q : α → Console F → Prop} {R : β → Console F → Prop}
    {f : α × Console F → Res (β × Console F)} {g : α → Res β} (h : Silent x y Q) (hf : ∀ a c, y = .ok a → Q a c → Silent (f (a, c)) (g a) R) :
    Silent (x >>= f) (y >>= g) R := by
  obtain ⟨h1, h2⟩ := h
  cases x with
  | ok p =>
    obtain ⟨a, c⟩ := p
    subst h1
    exact hf a c rfl (h2 a c rfl)
  | throw m => subst h1; exact ⟨rfl, by rintro _ _ ⟨⟩⟩
  | ub m => subst h1; exact ⟨rfl, by rintro _ _ ⟨⟩⟩

/-- A computation without console first. -/
theorem Silent.lift {F α β : Type} {y : Res α} {R : β → Console F → Prop} {f : α → Res (β × Console F)} {g : α → Res β}
    (hf : ∀ a, y = .ok a → Silent (f a) (g a) R) : Silent (y >>= f) (y >>= g) R := by
  cases y with
  | ok a => exact hf a rfl
  | throw m => exact ⟨rfl, by rintro _ _ ⟨⟩⟩
  | ub m => exact ⟨rfl, by rintro _ _ ⟨⟩⟩

/-- A log statement that cannot fault. -/
theorem Silent.log {F β : Type} {z : Res (Console F)} {S : Console F → Prop} {R : β → Console F → Prop} {f : Console F → Res (β × Console F)} {y : Res β}
    (hz : ∃ c, z = .ok c ∧ S c) (hf : ∀ c, S c → Silent (f c) y R) : Silent (z >>= f) y R := by
  obtain ⟨c, rfl, h⟩ := hz
  exact hf c h

section
variable {F : Type} [Flt F] [FTrans F] [Add F] [Sub F] [Mul F] [Div F] [Neg F]

/-- The console after some log statements without accuracy line. -/
structure Quiet (c c' : Console F) : Prop where
  watch : c'.watch.isSome = c.watch.isSome
  lines : accuracyLines c'.lines = accuracyLines c.lines

theorem Quiet.refl (c : Console F) : Quiet c c := ⟨rfl, rfl⟩
theorem Quiet.trans {a b c : Console F} (h : Quiet a b) (k : Quiet b c) : Quiet a c := ⟨k.1.trans h.1, k.2.trans h.2⟩

/-- The log cannot fault: nothing is shown, or there is a `Wait`. -/
def CanLog (v : LogLevel) (c : Console F) : Prop := shown .minimal v = false ∨ c.watch.isSome = true

theorem CanLog.quiet {v : LogLevel} {c c' : Console F} (h : CanLog v c) (hw : c'.watch.isSome = c.watch.isSome) : CanLog v c' := by
  unfold CanLog at *; rw [hw]; exact h

theorem say_quiet (v l : LogLevel) (t : String) (c : Console F) : Quiet c (c.say v l t) := by
  unfold Console.say
  split
  · exact ⟨rfl, rfl⟩
  · exact .refl c

theorem inProgress_ok {v : LogLevel} {clock : Nat → Int} {s : Snn F} {name : String} {size : Nat} {c : Console F} (h : CanLog v c) :
    ∃ c', c.inProgress v clock s name size = .ok c' ∧ Quiet c c' := by
  unfold Console.inProgress
  rcases h with h | h
  · simp [h]; exact .refl c
  · obtain ⟨w, hw⟩ := Option.isSome_iff_exists.1 h
    rw [hw]
    simp only
    split
    · split
      · exact ⟨_, rfl, by simp [hw], rfl⟩
      · exact ⟨_, rfl, by simp [hw], rfl⟩
    · exact ⟨c, rfl, .refl c⟩

theorem accuracy_ok {v : LogLevel} {clock : Nat → Int} {s : Snn F} {b : Bool} {c : Console F} (h : CanLog v c) :
    ∃ c', c.accuracy v clock s b = .ok c' ∧ c'.watch.isSome = c.watch.isSome ∧
      (shown .minimal v = true → accuracyLines c'.lines = accuracyLines c.lines ++ [(s.epoch, s.net.stats.globalRate, s.net.stats.mae, b)]) ∧
      (shown .minimal v = false → c' = c) := by
  unfold Console.accuracy
  rcases h with h | h
  · simp [h]
  · obtain ⟨w, hw⟩ := Option.isSome_iff_exists.1 h
    rw [hw]
    simp only
    split
    · exact ⟨_, rfl, rfl, fun _ => rfl, by simp_all⟩
    · exact ⟨c, rfl, by rw [hw], by simp_all, fun _ => rfl⟩

/-- From a state to another with the log: the accuracy lines added are the evaluations made (unless a NaN was seen). -/
structure Logged (v : LogLevel) (r : Run F) (c : Console F) (r' : Run F) (c' : Console F) : Prop where
  watch : c'.watch.isSome = c.watch.isSome
  nan : r'.snn.net.outputNan = false → r.snn.net.outputNan = false
  lines : shown .minimal v = true → c.watch.isSome = true → r'.snn.net.outputNan = false →
    ∃ new, reports r'.trace = reports r.trace ++ new ∧ accuracyLines c'.lines = accuracyLines c.lines ++ new

theorem Logged.trans {v : LogLevel} {r1 r2 r3 : Run F} {c1 c2 c3 : Console F} (h : Logged v r1 c1 r2 c2) (k : Logged v r2 c2 r3 c3) :
    Logged v r1 c1 r3 c3 :=
  ⟨k.watch.trans h.watch, fun hn => h.nan (k.nan hn), fun hv hw hn => by
    obtain ⟨n1, a1, b1⟩ := h.lines hv hw (k.nan hn)
    obtain ⟨n2, a2, b2⟩ := k.lines hv (h.watch.trans hw) hn
    exact ⟨n1 ++ n2, by rw [a2, a1, List.append_assoc], by rw [b2, b1, List.append_assoc]⟩⟩

/-- A step that evaluates nothing. -/
theorem Logged.quiet {v : LogLevel} {r r' : Run F} {c c' : Console F} (hq : Quiet c c') (hn : r'.snn.net.outputNan = false → r.snn.net.outputNan = false)
    (hr : r'.snn.net.outputNan = false → reports r'.trace = reports r.trace) : Logged v r c r' c' :=
  ⟨hq.watch, hn, fun _ _ h => ⟨[], by rw [hr h, List.append_nil], by rw [hq.lines, List.append_nil]⟩⟩

theorem evaluateLoopL_silent {v : LogLevel} {clock : Nat → Int} {nan : F} {data : Data F} : ∀ (k : Nat) (s : Snn F) (c : Console F), CanLog v c →
    Silent (evaluateLoopL v clock nan data k s c) (evaluateLoop nan data k s) (fun _ c' => Quiet c c')
  | 0, s, c, h => Silent.ret (.refl c)
  | k + 1, s, c, h => by
    unfold evaluateLoopL evaluateLoop
    split
    · exact Silent.ret (.refl c)
    · refine Silent.lift fun need _ => ?_
      refine Silent.lift fun s1 _ => ?_
      refine Silent.log (inProgress_ok h) fun c1 h1 => ?_
      obtain ⟨e, q⟩ := evaluateLoopL_silent (nan := nan) (data := data) (clock := clock) k { s1 with index := s1.index + 1 } c1 (h.quiet h1.watch)
      exact ⟨e, fun a c2 hc => h1.trans (q a c2 hc)⟩

theorem evaluateL_silent {v : LogLevel} {clock : Nat → Int} {env : Env F} (r : Run F) (c : Console F) (h : CanLog v c) :
    Silent (r.evaluateL v clock env c) (r.evaluate env) (fun r' c' => Logged v r c r' c') := by
  unfold Run.evaluateL Run.evaluate
  refine Silent.bind (evaluateLoopL_silent _ _ c h) ?_
  rintro ⟨b, s⟩ c1 hs hq
  have fr := evaluateLoop_frame hs
  simp only
  cases b with
  | true =>
    simp only [if_true]
    refine Silent.ret ?_
    have : s.net.outputNan = true := by
      have := fr.2
      simp_all
    exact ⟨hq.watch, by simp [this], by simp [this]⟩
  | false =>
    simp only [Bool.false_eq_true, if_false]
    have hnan : s.net.outputNan = false → r.snn.net.outputNan = false := by
      intro hn
      by_contra hc
      have := fr.1.nan (by simpa using hc)
      rw [hn] at this; cases this
    by_cases hsave : (s.autoSaveWhenBetter && s.net.stats.stopTesting.globalBetter) = true
    · simp only [hsave, if_true]
      by_cases hw : c1.watch.isSome = true
      · rw [if_pos hw]
        obtain ⟨c2, h1, h2, h3, h4⟩ := accuracy_ok (v := v) (clock := clock) (b := true) (c := c1)
          (s := (Run.saveSync { r with snn := { s with net := { s.net with stats := s.net.stats.stopTesting } }, trace := .evaluated s.epoch s.net.stats.stopTesting :: r.trace } s.autoSaveFilePath).snn) (Or.inr hw)
        rw [h1]
        refine Silent.ret ⟨h2.trans hq.watch, hnan, fun hv _ _ => ?_⟩
        refine ⟨_, ?_, (h3 hv).trans (by rw [hq.lines])⟩
        rfl
      · rw [if_neg hw]
        refine Silent.ret ⟨hq.watch, hnan, fun hv hw2 _ => ?_⟩
        rw [hq.watch] at hw
        exact absurd hw2 hw
    · simp only [hsave, if_false, Bool.false_eq_true]
      obtain ⟨c2, h1, h2, h3, h4⟩ := accuracy_ok (v := v) (clock := clock) (b := false) (c := c1)
          (s := { s with net := { s.net with stats := s.net.stats.stopTesting } }) (h.quiet hq.watch)
      rw [h1]
      refine Silent.ret ⟨h2.trans hq.watch, hnan, fun hv _ _ => ?_⟩
      refine ⟨_, ?_, (h3 hv).trans (by rw [hq.lines])⟩
      rfl

theorem continue_quiet (v : LogLevel) (env : Env F) (wait : Wait F) (r : Run F) (c : Console F) : Quiet c (r.continueTrainingL v env wait c).2 := by
  unfold Run.continueTrainingL
  simp only
  split
  · exact say_quiet _ _ _ _
  · exact .refl c

theorem trainStep_nan {env : Env F} {b : Int} {r r' : Run F} {ret : Bool} (h : r.trainStep env b = .ok (ret, r')) :
    (r'.snn.net.outputNan = false → r.snn.net.outputNan = false) ∧ reports r'.trace = reports r.trace := by
  unfold Run.trainStep at h
  simp only at h
  split at h
  · rename_i hn
    cases h
    exact ⟨fun h => h, rfl⟩
  · rename_i hn
    refine ⟨fun _ => by simpa using hn, ?_⟩
    obtain ⟨need, hneed, h⟩ := Res.bind_eq_ok.1 h
    obtain ⟨⟨x, data1⟩, hx, h⟩ := Res.bind_eq_ok.1 h
    obtain ⟨first, hf, h⟩ := Res.bind_eq_ok.1 h
    simp only at h
    split at h
    · obtain ⟨⟨y, data2⟩, hy, h⟩ := Res.bind_eq_ok.1 h
      obtain ⟨⟨net, d⟩, ht, h⟩ := Res.bind_eq_ok.1 h
      cases h
      rfl
    · obtain ⟨⟨o, net, d⟩, ht, h⟩ := Res.bind_eq_ok.1 h
      cases h
      rfl

theorem stepLoopL_silent {v : LogLevel} {clock : Nat → Int} {env : Env F} {wait : Wait F} {b : Int} : ∀ (fuel : Nat) (r : Run F) (c : Console F), CanLog v c →
    Silent (stepLoopL v clock env wait b fuel r c) (stepLoop env wait b fuel r) (fun p c' => Logged v r c p.2 c')
  | 0, r, c, h => ⟨rfl, by rintro _ _ ⟨⟩⟩
  | fuel + 1, r, c, h => by
    unfold stepLoopL stepLoop
    have hq := continue_quiet v env wait r c
    have e : (r.continueTrainingL v env wait c).1 = r.continueTraining env wait := rfl
    split
    · revert hq e
      generalize r.continueTrainingL v env wait c = p
      obtain ⟨⟨go, r1⟩, c1⟩ := p
      rintro hq e
      simp only at hq e
      have er : r1 = { r with ticks := r.ticks + 1 } := by
        have := congrArg Prod.snd e; exact this
      rw [← e]
      simp only
      split
      · have l1 : Logged v r c r1 c1 := by subst er; exact .quiet hq (fun h => h) (fun _ => rfl)
        have h1 := h.quiet hq.watch
        refine Silent.bind (Q := fun p c' => Logged v r1 c1 p.2 c') ?_ ?_
        · unfold Run.trainStepL
          have aux : Silent (do
              let (returned, r2) ← r1.trainStep env b
              if returned then return ((true, r2), c1)
              else do
                let c2 ← c1.inProgress v clock r2.snn "Training  " r2.data.training.size
                return ((false, r2), c2)) (r1.trainStep env b >>= fun p => .ok p) (fun p c' => Logged v r1 c1 p.2 c') := by
            refine Silent.lift ?_
            rintro ⟨ret, r2⟩ hs
            obtain ⟨a1, a2⟩ := trainStep_nan hs
            cases ret with
            | true => exact Silent.ret (.quiet (.refl c1) a1 (fun _ => a2))
            | false =>
              simp only [Bool.false_eq_true, if_false]
              exact Silent.log (inProgress_ok h1) fun c2 h2 => Silent.ret (.quiet h2 a1 (fun _ => a2))
          have : (r1.trainStep env b >>= fun p => Res.ok p) = r1.trainStep env b := by cases r1.trainStep env b <;> rfl
          rw [this] at aux
          exact aux
        · rintro ⟨ret, r2⟩ c2 hs l2
          simp only
          cases ret with
          | true => exact Silent.ret (l1.trans l2)
          | false =>
            simp only [Bool.false_eq_true, if_false]
            obtain ⟨e3, q3⟩ := stepLoopL_silent (clock := clock) (env := env) (wait := wait) (b := b) fuel
              { r2 with snn := { r2.snn with index := r2.snn.index + b } } c2 (h1.quiet l2.watch)
            refine ⟨e3, fun a c3 hc => (l1.trans l2).trans ?_⟩
            have := q3 a c3 hc
            exact ⟨this.watch, this.nan, this.lines⟩
      · subst er
        exact Silent.ret (.quiet hq (fun h => h) (fun _ => rfl))
    · exact Silent.ret (.quiet (.refl c) (fun h => h) (fun _ => rfl))

theorem epochBodyL_silent {v : LogLevel} {clock : Nat → Int} {env : Env F} {wait : Wait F} {b ef : Int} (fuel : Nat) (r : Run F) (c : Console F) (h : CanLog v c) :
    Silent (r.epochBodyL v clock env wait b ef fuel c) (r.epochBody env wait b ef fuel) (fun p c' => Logged v r c p.2 c') := by
  unfold Run.epochBodyL Run.epochBody
  refine Silent.lift fun data _ => ?_
  refine Silent.bind (stepLoopL_silent _ _ c h) ?_
  rintro ⟨ret, r2⟩ c2 _ l2
  have l1 : Logged v r c r2 c2 := ⟨l2.watch, l2.nan, l2.lines⟩
  simp only
  split
  · exact Silent.ret l1
  · split
    · refine Silent.bind (evaluateL_silent r2 c2 (h.quiet l2.watch)) ?_
      intro r3 c3 _ l3
      exact Silent.ret (l1.trans l3)
    · exact Silent.ret l1

theorem epochLoopL_silent {v : LogLevel} {clock : Nat → Int} {env : Env F} {wait : Wait F} {b ef : Int} {inner : Nat} : ∀ (fuel : Nat) (r : Run F) (c : Console F), CanLog v c →
    Silent (epochLoopL v clock env wait b ef inner fuel r c) (epochLoop env wait b ef inner fuel r) (fun p c' => Logged v r c p.2 c')
  | 0, r, c, h => ⟨rfl, by rintro _ _ ⟨⟩⟩
  | fuel + 1, r, c, h => by
    unfold epochLoopL epochLoop
    have hq := continue_quiet v env wait r c
    have e : (r.continueTrainingL v env wait c).1 = r.continueTraining env wait := rfl
    revert hq e
    generalize r.continueTrainingL v env wait c = p
    obtain ⟨⟨go, r1⟩, c1⟩ := p
    rintro hq e
    simp only at hq e
    have er : r1 = { r with ticks := r.ticks + 1 } := by
      have := congrArg Prod.snd e; exact this
    rw [← e]
    simp only
    split
    · have l1 : Logged v r c r1 c1 := by subst er; exact .quiet hq (fun h => h) (fun _ => rfl)
      refine Silent.bind (epochBodyL_silent _ r1 c1 (h.quiet hq.watch)) ?_
      rintro ⟨ret, r2⟩ c2 _ l2
      simp only
      split
      · exact Silent.ret (l1.trans l2)
      · obtain ⟨e3, q3⟩ := epochLoopL_silent (clock := clock) (env := env) (wait := wait) (b := b) (ef := ef) (inner := inner) fuel
          { r2 with snn := { r2.snn with epoch := r2.snn.epoch + 1 } } c2 ((h.quiet hq.watch).quiet l2.watch)
        refine ⟨e3, fun a c3 hc => (l1.trans l2).trans ?_⟩
        have := q3 a c3 hc
        exact ⟨this.watch, this.nan, this.lines⟩
    · subst er
      exact Silent.ret (.quiet hq (fun h => h) (fun _ => rfl))

/-- The console at the beginning of a training. -/
theorem trainL_silent {v : LogLevel} {clock : Nat → Int} {env : Env F} {wait : Wait F} {b ef : Int} {fuel : Nat} (r : Run F) (lines : List (Line F)) :
    Silent (r.trainL v clock env wait b ef fuel lines) (r.train env wait b ef fuel)
      (fun r' c' => Logged v r { watch := some { lastTick := clock 0, lastReset := clock 0 }, now := 1, lines := lines } r' c') := by
  unfold Run.trainL Run.train
  refine Silent.lift fun _ _ => ?_
  split
  · exact ⟨rfl, by rintro _ _ ⟨⟩⟩
  simp only [Run.trainSyncL, Run.trainSync]
  have hq := say_quiet v .minimal "Start training" ({ watch := some { lastTick := clock 0, lastReset := clock 0 }, now := 1, lines := lines } : Console F)
  revert hq
  generalize ({ watch := some { lastTick := clock 0, lastReset := clock 0 }, now := 1, lines := lines } : Console F).say v .minimal "Start training" = c0
  intro hq
  have hl : CanLog v c0 := Or.inr hq.watch
  refine Silent.bind (Q := fun r' c' => Logged v r { watch := some { lastTick := clock 0, lastReset := clock 0 }, now := 1, lines := lines } r' c') ?_ ?_
  · split
    · obtain ⟨e, q⟩ := evaluateL_silent (v := v) (clock := clock) (env := env) ({ r with snn := { r.snn with wantToStopTraining := true } } : Run F).begin c0 hl
      refine ⟨e, fun a c hc => ?_⟩
      have := q a c hc
      exact ⟨this.watch.trans hq.watch, this.nan, fun hv hw hn => by
        obtain ⟨new, a1, a2⟩ := this.lines hv (hq.watch.trans hw) hn
        exact ⟨new, a1, by rw [a2, hq.lines]⟩⟩
    · exact Silent.ret ⟨hq.watch, fun h => h, fun _ _ _ => ⟨[], by simp [Run.begin], by rw [hq.lines]; simp⟩⟩
  · intro r1 c1 _ l1
    refine Silent.bind (epochLoopL_silent _ _ c1 (Or.inr l1.watch)) ?_
    rintro ⟨ret, r2⟩ c2 _ l2
    have l12 := l1.trans (r3 := r2) (c3 := c2) ⟨l2.watch, l2.nan, l2.lines⟩
    simp only
    split
    · exact Silent.ret l12
    · have q2 := say_quiet v .minimal "Stop training" c2
      refine Silent.ret ⟨q2.watch.trans l12.watch, l12.nan, fun hv hw hn => ?_⟩
      obtain ⟨new, a1, a2⟩ := l12.lines hv hw hn
      exact ⟨new, a1, by rw [q2.lines, a2]⟩

end

end Snn.LogProofs
