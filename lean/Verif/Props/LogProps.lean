import Verif.Proofs.ProgressProofs
import Verif.Proofs.PaceProofs
import Verif.Demo.Demo

/-!
# C73: the log tells what happened and changes nothing
-/

set_option linter.all false

namespace Snn.LogProps

open Snn.LogSpec Snn.LogProofs

section
variable {F : Type} [Flt F] [FTrans F] [Add F] [Sub F] [Mul F] [Div F] [Neg F]

/-- **C73**, for every carrier, network, data, criterion, level of the log and clock: `train` with its log returns (throws, goes wrong)
exactly as without it, with the same network, data and saved files. -/
theorem C73_train (v : LogLevel) (clock : Nat → Int) (env : Env F) (wait : Wait F) (b ef : Int) (fuel : Nat) (r : Run F) (lines : List (Line F)) :
    Prod.fst <$> r.trainL v clock env wait b ef fuel lines = r.train env wait b ef fuel :=
  (trainL_silent r lines).1

/-- **C73**: at every level that shows something, the accuracy lines printed by a training that ends without a NaN are its evaluations,
in order, each with its epoch, accuracy, mean absolute error and whether it saved the network. -/
theorem C73_accuracy_lines (v : LogLevel) (hv : v ≠ .none) (clock : Nat → Int) (env : Env F) (wait : Wait F) (b ef : Int) (fuel : Nat) (r r' : Run F)
    (c' : Console F) (h : r.trainL v clock env wait b ef fuel [] = .ok (r', c')) (hn : r'.snn.net.outputNan = false) :
    reports r'.trace = reports r.trace ++ accuracyLines c'.lines := by
  have := (trainL_silent r []).2 r' c' h
  obtain ⟨new, h1, h2⟩ := this.lines (by cases v <;> first | exact absurd rfl hv | rfl) rfl hn
  rw [h1, h2]
  rfl

/-- **C73**: nothing is printed at the level `none`, the one of the library as it is. -/
theorem C73_none_prints_nothing (clock : Nat → Int) (env : Env F) (wait : Wait F) (b ef : Int) (fuel : Nat) (r r' : Run F) (lines : List (Line F))
    (c' : Console F) (h : r.trainL .none clock env wait b ef fuel lines = .ok (r', c')) : c'.lines = lines := by
  have say : ∀ (l : LogLevel) (t : String) (c : Console F), c.say .none l t = c := by
    intro l t c; unfold Console.say; cases l <;> rfl
  have prog : ∀ (s : Snn F) (n : String) (k : Nat) (c : Console F), c.inProgress .none clock s n k = .ok c := fun _ _ _ _ => rfl
  have acc : ∀ (s : Snn F) (b : Bool) (c : Console F), c.accuracy .none clock s b = .ok c := fun _ _ _ => rfl
  have evl : ∀ (data : Data F) (k : Nat) (s : Snn F) (c : Console F) (p : Bool × Snn F) (c' : Console F),
      evaluateLoopL .none clock env.nan data k s c = .ok (p, c') → c' = c := by
    intro data k
    induction k with
    | zero => intro s c p c' h; cases h; rfl
    | succ k ih =>
      intro s c p c' h
      unfold evaluateLoopL at h
      split at h
      · cases h; rfl
      · obtain ⟨need, _, h⟩ := Res.bind_eq_ok.1 h
        obtain ⟨s1, _, h⟩ := Res.bind_eq_ok.1 h
        rw [prog] at h
        exact ih _ _ _ _ h
  have ev : ∀ (r r' : Run F) (c c' : Console F), r.evaluateL .none clock env c = .ok (r', c') → c' = c := by
    intro r r' c c' h
    unfold Run.evaluateL at h
    obtain ⟨⟨⟨st, s⟩, c1⟩, h1, h2⟩ := Res.bind_eq_ok.1 h
    rw [← evl _ _ _ _ _ _ h1]
    simp only [acc, Res.ok_bind] at h2
    split at h2
    · cases h2; rfl
    · split at h2
      · split at h2 <;> cases h2 <;> rfl
      · cases h2; rfl
  have con : ∀ (r : Run F) (c : Console F), r.continueTrainingL .none env wait c = (r.continueTraining env wait, c) := by
    intro r c; unfold Run.continueTrainingL; rw [say]; simp
  have sl : ∀ (fuel : Nat) (r : Run F) (c : Console F) (p : Bool × Run F) (c' : Console F), stepLoopL .none clock env wait b fuel r c = .ok (p, c') → c' = c := by
    intro fuel
    induction fuel with
    | zero => intro r c p c' h; cases h
    | succ fuel ih =>
      intro r c p c' h
      unfold stepLoopL at h
      rw [con] at h
      simp only at h
      split at h
      · split at h
        · obtain ⟨⟨⟨ret, r2⟩, c2⟩, h1, h⟩ := Res.bind_eq_ok.1 h
          have e : c2 = c := by
            unfold Run.trainStepL at h1
            obtain ⟨⟨ret', r1⟩, _, h1⟩ := Res.bind_eq_ok.1 h1
            simp only [prog, Res.ok_bind] at h1
            split at h1 <;> cases h1 <;> rfl
          rw [e] at h
          simp only at h
          split at h
          · cases h; rfl
          · exact ih _ _ _ _ h
        · cases h; rfl
      · cases h; rfl
  have el : ∀ (fuel inner : Nat) (r : Run F) (c : Console F) (p : Bool × Run F) (c' : Console F), epochLoopL .none clock env wait b ef inner fuel r c = .ok (p, c') → c' = c := by
    intro fuel inner
    induction fuel with
    | zero => intro r c p c' h; cases h
    | succ fuel ih =>
      intro r c p c' h
      unfold epochLoopL at h
      rw [con] at h
      simp only at h
      split at h
      · obtain ⟨⟨⟨ret, r2⟩, c2⟩, h1, h⟩ := Res.bind_eq_ok.1 h
        have e : c2 = c := by
          unfold Run.epochBodyL at h1
          obtain ⟨data, _, h1⟩ := Res.bind_eq_ok.1 h1
          obtain ⟨⟨⟨ret', r1⟩, c1⟩, h2, h1⟩ := Res.bind_eq_ok.1 h1
          rw [← sl _ _ _ _ _ h2]
          simp only at h1
          split at h1
          · cases h1; rfl
          · split at h1
            · obtain ⟨⟨r3, c3⟩, h3, h1⟩ := Res.bind_eq_ok.1 h1
              cases h1
              exact ev _ _ _ _ h3
            · cases h1; rfl
        rw [e] at h
        simp only at h
        split at h
        · cases h; rfl
        · exact ih _ _ _ _ h
      · cases h; rfl
  unfold Run.trainL at h
  obtain ⟨_, _, h⟩ := Res.bind_eq_ok.1 h
  split at h
  · cases h
  simp only [Run.trainSyncL, say] at h
  obtain ⟨⟨r1, c1⟩, h1, h⟩ := Res.bind_eq_ok.1 h
  obtain ⟨⟨⟨ret, r2⟩, c2⟩, h2, h⟩ := Res.bind_eq_ok.1 h
  have e1 : c1.lines = lines := by
    split at h1
    · rw [ev _ _ _ _ h1]
    · cases h1; rfl
  have e2 := el _ _ _ _ _ _ h2
  simp only at h
  split at h <;> cases h <;> rw [e2, e1]

/-- **C73**, the progress: at every level, with every clock, each progress line of a training is about the training set during the training
and about the testing set during an evaluation, at a position of that set (the percentage shown is from 0 to less than 100), and the epochs
shown by the lines, from the oldest to the newest, never decrease. -/
theorem C73_progress (v : LogLevel) (clock : Nat → Int) (env : Env F) (wait : Wait F) (b ef : Int) (fuel : Nat) (r r' : Run F)
    (c' : Console F) (h : r.trainL v clock env wait b ef fuel [] = .ok (r', c')) :
    (∀ l ∈ c'.lines, RightLine r.data.training.size r.data.testing.size l) ∧ (c'.lines.reverse.filterMap lineEpoch).Pairwise (· ≤ ·) := by
  unfold Run.trainL at h
  obtain ⟨_, hv, h⟩ := Res.bind_eq_ok.1 h
  have hb : 1 ≤ b := by
    unfold Snn.validData at hv
    obtain ⟨no, _, hv⟩ := Res.bind_eq_ok.1 hv
    obtain ⟨ni, _, hv⟩ := Res.bind_eq_ok.1 hv
    split at hv
    · cases hv
    split at hv
    · cases hv
    split at hv
    · cases hv
    omega
  split at h
  · cases h
  unfold Run.trainSyncL at h
  simp only at h
  obtain ⟨⟨r1, c1⟩, h1, h⟩ := Res.bind_eq_ok.1 h
  obtain ⟨⟨⟨ret, r2⟩, c2⟩, h2, h⟩ := Res.bind_eq_ok.1 h
  have start : ∀ w : Option Watch, Lines r.data.training.size r.data.testing.size 0
      (({ watch := w, now := 1, lines := [] } : Console F).say v .minimal "Start training").lines := fun w =>
    Lines.say ⟨by simp, by simp, by simp⟩ _ _ _
  have t1 : Told r.data.training.size r.data.testing.size r1 c1 ∧ r1.snn.epoch = 0 := by
    split at h1
    · have key := fun A => evaluateL_told (T := r.data.training.size) (E := r.data.testing.size) A h1
      have := key ⟨rfl, rfl, rfl, le_refl _, start _⟩
      exact ⟨this.1, this.2⟩
    · cases h1
      exact ⟨⟨rfl, rfl, rfl, le_refl _, start _⟩, rfl⟩
  have key := fun A => epochLoopL_told (T := r.data.training.size) (E := r.data.testing.size) hb _ _ _ A h2
  have t2 := key ⟨t1.1.1, t1.1.2, t1.1.3, by simp, t1.1.5.mono (by rw [t1.2]; simp)⟩
  have key : Lines r.data.training.size r.data.testing.size r2.snn.epoch c'.lines := by
    simp only at h
    split at h
    · cases h; exact t2.lines
    · cases h; exact t2.lines.say _ _ _
  refine ⟨key.right, ?_⟩
  rw [List.filterMap_reverse, List.pairwise_reverse]
  exact key.order

/-- **C73**, the times: when the clock never goes back and at most `T` milliseconds pass between two of its readings by the log, a progress line comes at
least 100 milliseconds after the last line that shows a time, and at most 100 + 2 `T`; an accuracy line shows the time since the previous accuracy line
(since the start, for the first one), so that together they show the time from the start to the last accuracy line. -/
theorem C73_times (v : LogLevel) (clock : Nat → Int) (T : Int) (hc : ∀ n, clock n ≤ clock (n + 1) ∧ clock (n + 1) ≤ clock n + T) (env : Env F) (wait : Wait F)
    (b ef : Int) (fuel : Nat) (r r' : Run F) (c' : Console F) (h : r.trainL v clock env wait b ef fuel [] = .ok (r', c')) :
    Paced T 0 c'.lines.reverse ∧ ∃ k < c'.now, (accuracyTimes c'.lines.reverse).sum = clock k - clock 0 := by
  have key : PaceProofs.Timed T clock c' := by
    refine PaceProofs.trainL_keeps (PaceProofs.Timed T clock) (fun c l t h => h.say v l t) (fun c c' s n k h hs => h.inProgress hc hs)
      (fun c c' s b h hs => h.accuracy hc hs) ?_ h
    exact ⟨by simp, ⟨_, rfl, by simp, by simp, by simp [PaceProofs.since], by simp [accuracyTimes], 0, by simp, rfl⟩, trivial⟩
  obtain ⟨w, _, _, _, _, h5, k, h6, h7⟩ := key.watch
  exact ⟨key.paced, k, h6, by rw [h5, h7]⟩

/-- **C73**, `evaluate(data)`: at the level `none` it does what it says. Missing: the other levels, see below. -/
theorem C73_evaluate_partial (clock : Nat → Int) (env : Env F) (r : Run F) (lines : List (Line F)) :
    Prod.fst <$> r.evaluatePublicL .none clock env lines = r.evaluate env :=
  (evaluateL_silent r _ (Or.inl rfl)).1

/-- **C73 is false of `evaluate(data)`**, for every network that is not NaN and every testing set with an example that can be evaluated: at any other level
the public `evaluate` uses the null pointer it gave itself (StraightforwardNeuralNetwork.hpp:66, .cpp:141). -/
theorem C73_evaluate_refuted (v : LogLevel) (hv : v ≠ .none) (clock : Nat → Int) (env : Env F) (r : Run F) (lines : List (Line F))
    (hn : r.snn.net.outputNan = false) (hs : 0 < r.data.testing.size) (hok : (r.evaluate env).isOk = true) :
    (r.evaluatePublicL v clock env lines).isUb = true := by
  have hv' : shown .minimal v = true := by cases v <;> first | exact absurd rfl hv | rfl
  obtain ⟨k, hk⟩ : ∃ k, r.data.testing.size = k + 1 := ⟨r.data.testing.size - 1, by omega⟩
  unfold Run.evaluate at hok
  unfold Run.evaluatePublicL Run.evaluateL
  rw [hk] at hok ⊢
  unfold evaluateLoop at hok
  unfold evaluateLoopL
  simp only [hn, Bool.false_eq_true, if_false] at hok ⊢
  have e : ∀ (s : Snn F) (n : String) (m : Nat), ({ watch := none, now := 0, lines := lines } : Console F).inProgress v clock s n m = .ub "null pointer to Wait" := by
    intro s n m
    unfold Console.inProgress
    rw [hv']; rfl
  simp only [e]
  cases hd : r.data.needToEvaluate 0 with
  | throw m => simp [hd] at hok; cases hok
  | ub m => simp [hd] at hok; cases hok
  | ok need =>
    simp only [hd, Res.ok_bind] at hok ⊢
    revert hok
    generalize (if need = true then _ else _ : Res (Snn F)) = z
    intro hok
    cases z with
    | throw m => simp at hok; cases hok
    | ub m => simp at hok; cases hok
    | ok s1 => rfl

end

/-! ### The hypotheses are met -/

/-- A training with the log, two epochs: four lines besides the progress: start, three evaluations, stop. -/
example : ∃ r' c', (Demo.run Demo.dense Demo.classification).trainL .minimal (fun t => 10 * t) Demo.env (litEp 2) 1 1 100 [] = .ok (r', c') ∧
    r'.snn.net.outputNan = false ∧ (accuracyLines c'.lines).length = 3 ∧ c'.lines.length = 5 :=
  ⟨_, _, Res.eq_get _ (by decide +kernel), by decide +kernel, by decide +kernel, by decide +kernel⟩

/-- With a slower machine there are progress lines too. -/
example : ∃ r' c', (Demo.run Demo.dense Demo.classification).trainL .complete (fun t => 101 * t) Demo.env (litEp 1) 1 0 100 [] = .ok (r', c') ∧
    accuracyLines c'.lines = [] ∧ c'.lines.length = 5 :=
  ⟨_, _, Res.eq_get _ (by decide +kernel), by decide +kernel, by decide +kernel⟩

/-- The progress lines of such a training. -/
example : ∃ r' c', (Demo.run Demo.dense Demo.classification).trainL .complete (fun t => 101 * t) Demo.env (litEp 1) 1 1 100 [] = .ok (r', c') ∧
    (c'.lines.filter fun l => match l with | .progress .. => true | _ => false).length = 7 :=
  ⟨_, _, Res.eq_get _ (by decide +kernel), by decide +kernel⟩

/-- A clock for `C73_times`. -/
example : ∀ n : Nat, (fun t : Nat => (101 : Int) * t) n ≤ (fun t : Nat => (101 : Int) * t) (n + 1) ∧ (fun t : Nat => (101 : Int) * t) (n + 1) ≤ (fun t : Nat => (101 : Int) * t) n + 101 := by
  intro n; push_cast; constructor <;> omega

/-- The refutation applies to a usual network and data. -/
example : ((Demo.run Demo.dense Demo.classification).evaluatePublicL .minimal (fun t => t) Demo.env []).isUb = true :=
  C73_evaluate_refuted .minimal (by decide) _ _ _ _ (by decide +kernel) (by decide +kernel) (by decide +kernel)

end Snn.LogProps
