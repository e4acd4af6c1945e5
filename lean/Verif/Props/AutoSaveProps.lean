import Verif.Props.SaveProps

/-!
# C60: a network loaded from an auto-save

Full statement: a network loaded from a file that auto-save wrote can be trained and saved. It is false of the code: the file
contains `isIdle = false`, so that `train` and `saveAs` of the loaded network throw, whatever their arguments.
-/

set_option linter.all false

namespace Snn.AutoSaveProps

open Snn.Spec Snn.HistoryProps Snn.TrainProofs Snn.TrainProps

section
variable {F : Type} [Flt F] [FTrans F] [Add F] [Sub F] [Mul F] [Div F] [Neg F]

/-- Every saved state of the trace is an earlier one or is marked as training. -/
def Marked (old : List (Event F)) (t : List (Event F)) : Prop :=
  ∀ p s, Event.saved p s ∈ t → Event.saved p s ∈ old ∨ s.isIdle = false

theorem Marked.cons {old t : List (Event F)} (h : Marked old t) {e : Event F} (he : ∀ p s, e ≠ .saved p s) : Marked old (e :: t) := by
  intro p s hs
  rcases List.mem_cons.1 hs with h1 | h1
  · exact absurd h1.symm (he p s)
  · exact h p s h1

theorem evaluate_marked {env : Env F} {old : List (Event F)} {r r' : Run F} (hi : r.snn.isIdle = false) (hm : Marked old r.trace)
    (h : r.evaluate env = .ok r') : (r'.snn.isIdle = false ∨ r'.snn.net.outputNan = true) ∧ Marked old r'.trace := by
  unfold Run.evaluate at h
  simp only at h
  obtain ⟨⟨b, s⟩, h1, h⟩ := Res.bind_eq_ok.1 h
  obtain ⟨_, hf⟩ := evaluateLoop_frame h1
  rcases hf with ⟨rfl, _, h3, _⟩ | ⟨rfl, h3, _, _⟩
  · have hs : s.isIdle = false := by rw [h3]; exact hi
    simp only [Bool.false_eq_true, if_false] at h
    split at h
    · cases h
      refine ⟨.inl hs, ?_⟩
      intro p s' hs'
      rcases List.mem_cons.1 hs' with e | e
      · injection e with e1 e2
        subst e2
        exact .inr hs
      · exact (hm.cons (by intro p s e; cases e)) p s' e
    · cases h
      exact ⟨.inl hs, hm.cons (by intro p s e; cases e)⟩
  · simp only [if_true] at h
    cases h
    exact ⟨.inr h3, hm.cons (by intro p s e; cases e)⟩

theorem trainStep_marked {env : Env F} {b : Int} {old : List (Event F)} {r r' : Run F} {ret : Bool} (hi : r.snn.isIdle = false)
    (hm : Marked old r.trace) (h : r.trainStep env b = .ok (ret, r')) :
    (ret = false → r'.snn.isIdle = false) ∧ Marked old r'.trace := by
  unfold Run.trainStep at h
  simp only at h
  split at h
  · cases h
    exact ⟨fun h => (by cases h), hm⟩
  · obtain ⟨need, _, h⟩ := Res.bind_eq_ok.1 h
    obtain ⟨⟨x, d1⟩, _, h⟩ := Res.bind_eq_ok.1 h
    obtain ⟨first, _, h⟩ := Res.bind_eq_ok.1 h
    cases need
    · simp only [Bool.false_eq_true, if_false] at h
      obtain ⟨⟨o, net, d⟩, _, h⟩ := Res.bind_eq_ok.1 h
      cases h
      exact ⟨fun _ => hi, hm.cons (by intro p s e; cases e)⟩
    · simp only [if_true] at h
      obtain ⟨⟨y, d2⟩, _, h⟩ := Res.bind_eq_ok.1 h
      obtain ⟨⟨net, d⟩, _, h⟩ := Res.bind_eq_ok.1 h
      cases h
      exact ⟨fun _ => hi, hm.cons (by intro p s e; cases e)⟩

theorem stepLoop_marked {env : Env F} {wait : Wait F} {b : Int} {old : List (Event F)} : ∀ {fuel : Nat} {r r' : Run F} {ret : Bool},
    r.snn.isIdle = false → Marked old r.trace → stepLoop env wait b fuel r = .ok (ret, r') →
    (ret = false → r'.snn.isIdle = false) ∧ Marked old r'.trace
  | 0, r, r', ret, _, _, h => by cases h
  | fuel + 1, r, r', ret, hi, hm, h => by
    unfold stepLoop at h
    split at h
    · unfold Run.continueTraining at h
      simp only at h
      split at h
      · obtain ⟨⟨ret1, r2⟩, h1, h⟩ := Res.bind_eq_ok.1 h
        obtain ⟨i1, m1⟩ := trainStep_marked (by exact hi) (by exact hm) h1
        cases ret1
        · simp only [Bool.false_eq_true, if_false] at h
          exact stepLoop_marked (by exact i1 rfl) (by exact m1) h
        · simp only [if_true] at h
          cases h
          exact ⟨fun h => (by cases h), m1⟩
      · cases h
        exact ⟨fun _ => hi, hm⟩
    · cases h
      exact ⟨fun _ => hi, hm⟩

theorem epochLoop_marked {env : Env F} {wait : Wait F} {b ef : Int} {inner : Nat} {old : List (Event F)} :
    ∀ {fuel : Nat} {r r' : Run F} {ret : Bool},
    (r.snn.isIdle = false ∨ r.snn.net.outputNan = true) → Marked old r.trace → epochLoop env wait b ef inner fuel r = .ok (ret, r') →
    Marked old r'.trace
  | 0, r, r', ret, _, _, h => by cases h
  | fuel + 1, r, r', ret, hi, hm, h => by
    unfold epochLoop at h
    unfold Run.continueTraining at h
    simp only at h
    split at h
    · rename_i hc
      simp only [Bool.and_eq_true, Bool.not_eq_true'] at hc
      have hi : r.snn.isIdle = false := by
        rcases hi with hi | hi
        · exact hi
        · rw [hc.2] at hi; cases hi
      obtain ⟨⟨ret1, r2⟩, h1, h⟩ := Res.bind_eq_ok.1 h
      unfold Run.epochBody at h1
      obtain ⟨ds, _, h1⟩ := Res.bind_eq_ok.1 h1
      obtain ⟨⟨ret2, r3⟩, h2, h1⟩ := Res.bind_eq_ok.1 h1
      obtain ⟨i2, m2⟩ := stepLoop_marked (old := old) (by exact hi) (by exact hm.cons (by intro p s e; cases e)) h2
      cases ret2
      · simp only [Bool.false_eq_true, if_false] at h1
        split at h1
        · obtain ⟨r4, h4, h1⟩ := Res.bind_eq_ok.1 h1
          cases h1
          obtain ⟨i4, m4⟩ := evaluate_marked (i2 rfl) m2 h4
          simp only [Bool.false_eq_true, if_false] at h
          exact epochLoop_marked (by exact i4) (by exact m4) h
        · cases h1
          simp only [Bool.false_eq_true, if_false] at h
          exact epochLoop_marked (.inl (by exact i2 rfl)) (by exact m2) h
      · simp only [if_true] at h1
        cases h1
        simp only [if_true] at h
        cases h
        exact m2
    · cases h
      exact hm

/-- Every file written by auto-save during a training contains a network that is marked as training. -/
theorem C60_marked {env : Env F} {wait : Wait F} {b ef : Int} {fuel : Nat} {r r' : Run F}
    (h : r.train env wait b ef fuel = .ok r') (p : String) (s : Snn F) (hs : Event.saved p s ∈ r'.trace) :
    Event.saved p s ∈ r.trace ∨ s.isIdle = false := by
  obtain ⟨_, _, r1, r2, h1, h2, rfl⟩ := train_pieces h
  have h0 : Marked r.trace r.trace := fun p s h => .inl h
  have hr1 : (r1.snn.isIdle = false ∨ r1.snn.net.outputNan = true) ∧ Marked r.trace r1.trace := by
    split at h1
    · exact evaluate_marked rfl (by exact h0) h1
    · cases h1
      exact ⟨.inl rfl, h0⟩
  exact epochLoop_marked (by exact hr1.1) (by exact hr1.2) h2 p s hs

variable [FText F]

/-- C60 fails for every auto-save: load the file that auto-save wrote last to `path` during a training; then `train` with any
data and arguments does not return normally, nor does `saveAs`, and `isTraining` is true. -/
theorem C60_autosaved_refuted {env : Env F} {wait : Wait F} {b ef : Int} {fuel : Nat} {r r' : Run F}
    (h : r.train env wait b ef fuel = .ok r') (path : String) (older : List (Event F)) (newer : List (Event F)) (s : Snn F)
    (ht : r'.trace = newer ++ .saved path s :: older) (hlast : ∀ t, Event.saved path t ∉ newer)
    (hnew : Event.saved path s ∉ r.trace) (files : Files F) (loaded : Snn F)
    (hl : loadFrom (filesAfter r'.trace files) path = .ok loaded) :
    (visible loaded).isTraining = true ∧
    (∀ (q : Run F) (env' : Env F) (wait' : Wait F) (b' ef' : Int) (fuel' : Nat) (q' : Run F), q.snn = loaded →
      q.train env' wait' b' ef' fuel' ≠ .ok q' ∧ ∀ p, q.saveAs p ≠ .ok q') := by
  have hi : s.isIdle = false := by
    rcases C60_marked h path s (by rw [ht]; simp) with h1 | h1
    · exact absurd h1 hnew
    · exact h1
  have hfile : filesAfter r'.trace files path = some (Snn.codec.save s) := by
    rw [ht]
    clear ht hl
    induction newer with
    | nil => simp [filesAfter, Event.apply]
    | cons e es ih =>
      have ih := ih fun t ht => hlast t (List.mem_cons_of_mem _ ht)
      cases e with
      | saved p t =>
        have : path ≠ p := fun e => hlast t (by rw [e]; simp)
        simp only [List.cons_append, filesAfter, Event.apply, this, if_false]
        exact ih
      | _ => exact ih
  have hload : loaded.isIdle = false := by
    unfold loadFrom at hl
    rw [hfile] at hl
    obtain ⟨⟨s', a⟩, h1, h2⟩ := Res.bind_eq_ok.1 hl
    cases h2
    rcases load_saved_or s with ⟨_, a', h3⟩ | ⟨_, m, h3⟩
    · rw [h3] at h1
      injection h1 with h1
      rw [← (Prod.mk.inj h1).1]
      exact hi
    · rw [h3] at h1
      cases h1
  refine ⟨by simp [visible, hload], ?_⟩
  intro q env' wait' b' ef' fuel' q' hq
  constructor
  · intro hc
    have := (train_pieces hc).2.1
    rw [hq, hload] at this
    cases this
  · intro p hc
    unfold Run.saveAs at hc
    rw [hq, hload] at hc
    cases hc

end

/-! ### The hypotheses are met -/

/-- A training with auto-save that writes a file which can be loaded. -/
example : (do
    let r ← (Demo.run { Demo.dense with autoSaveWhenBetter := true } Demo.classification).train Demo.env (litEp 2) 1 1 50
    let s ← loadFrom (filesAfter r.trace Demo.noFiles) "AutoSave.snn"
    return (r.snn.isIdle, s.isIdle)) = Res.ok (true, false) := by decide +kernel

end Snn.AutoSaveProps
