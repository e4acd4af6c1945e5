import Verif.Proofs.LogProofs

/-! The progress lines of the log. -/

set_option linter.all false

namespace Snn.LogProofs

open Snn.LogSpec Snn.TrainSpec Snn.TrainProofs

variable {F : Type} [Flt F] [FTrans F] [Add F] [Sub F] [Mul F] [Div F] [Neg F]

/-- Every line so far is right, the epochs are in order and not past `e`. -/
structure Lines (T E : Nat) (e : Int) (ls : List (Line F)) : Prop where
  right : ∀ l ∈ ls, RightLine T E l
  bound : ∀ x ∈ ls.filterMap lineEpoch, 0 ≤ x ∧ x ≤ e
  order : (ls.filterMap lineEpoch).Pairwise (· ≥ ·)

theorem Lines.mono {T E : Nat} {e e' : Int} {ls : List (Line F)} (h : Lines T E e ls) (he : e ≤ e') : Lines T E e' ls :=
  ⟨h.1, fun x hx => ⟨(h.2 x hx).1, (h.2 x hx).2.trans he⟩, h.3⟩

theorem Lines.say {T E : Nat} {e : Int} {c : Console F} (h : Lines T E e c.lines) (v l : LogLevel) (t : String) : Lines T E e (c.say v l t).lines := by
  unfold Console.say
  split
  · refine ⟨?_, ?_, ?_⟩
    · intro l hl
      rcases List.mem_cons.1 hl with rfl | hl
      · trivial
      · exact h.1 l hl
    · exact h.2
    · exact h.3
  · exact h

theorem Lines.cons {T E : Nat} {e : Int} {ls : List (Line F)} (h : Lines T E e ls) (h0 : 0 ≤ e) {l : Line F} (hl : RightLine T E l)
    (he : lineEpoch l = some e) : Lines T E e (l :: ls) := by
  refine ⟨?_, ?_, ?_⟩
  · intro k hk
    rcases List.mem_cons.1 hk with rfl | hk
    · exact hl
    · exact h.1 k hk
  · rw [List.filterMap_cons_some he]
    intro x hx
    rcases List.mem_cons.1 hx with rfl | hx
    · exact ⟨h0, le_refl _⟩
    · exact h.2 x hx
  · rw [List.filterMap_cons_some he]
    exact List.pairwise_cons.2 ⟨fun x hx => (h.2 x hx).2, h.3⟩

theorem Lines.inProgress {T E : Nat} {v : LogLevel} {clock : Nat → Int} {s : Snn F} {name : String} {size : Nat} {c c' : Console F}
    (h : Lines T E s.epoch c.lines) (h0 : 0 ≤ s.epoch) (hi : 0 ≤ s.index) (hs : s.index < size)
    (hn : (name = "Training  " ∧ size = T) ∨ (name = "Evaluation" ∧ size = E)) (hc : c.inProgress v clock s name size = .ok c') :
    Lines T E s.epoch c'.lines := by
  unfold Console.inProgress at hc
  split at hc
  · split at hc
    · cases hc
    · split at hc
      · cases hc
        exact h.cons h0 ⟨hi, hs, hn⟩ rfl
      · cases hc
        exact h
  · cases hc
    exact h

theorem Lines.accuracy {T E : Nat} {v : LogLevel} {clock : Nat → Int} {s : Snn F} {b : Bool} {c c' : Console F}
    (h : Lines T E s.epoch c.lines) (h0 : 0 ≤ s.epoch) (hc : c.accuracy v clock s b = .ok c') : Lines T E s.epoch c'.lines := by
  unfold Console.accuracy at hc
  split at hc
  · split at hc
    · cases hc
    · cases hc
      exact h.cons h0 trivial rfl
  · cases hc
    exact h

theorem evaluateLoopL_lines {T : Nat} {v : LogLevel} {clock : Nat → Int} {nan : F} {data : Data F} : ∀ (k : Nat) (s : Snn F) (c : Console F) {p : Bool × Snn F}
    {c' : Console F}, 0 ≤ s.epoch → 0 ≤ s.index → s.index + k = data.testing.size → Lines T data.testing.size s.epoch c.lines →
    evaluateLoopL v clock nan data k s c = .ok (p, c') → p.2.epoch = s.epoch ∧ Lines T data.testing.size s.epoch c'.lines ∧
      p.2.numberOfTrainingsBetweenTwoEvaluations = s.numberOfTrainingsBetweenTwoEvaluations
  | 0, s, c, p, c', _, _, _, hl, h => by cases h; exact ⟨rfl, hl, rfl⟩
  | k + 1, s, c, p, c', h0, hi, hk, hl, h => by
    unfold evaluateLoopL at h
    split at h
    · cases h; exact ⟨rfl, hl, rfl⟩
    · obtain ⟨need, _, h⟩ := Res.bind_eq_ok.1 h
      obtain ⟨s1, h1, h⟩ := Res.bind_eq_ok.1 h
      obtain ⟨c1, hc1, h⟩ := Res.bind_eq_ok.1 h
      have k1 : EvalKeep s s1 ∧ s1.index = s.index := by
        split at h1
        · exact ⟨(evaluateOnce_frame h1).1, (evaluateOnce_frame h1).2.2.2⟩
        · obtain ⟨_, _, h1⟩ := Res.bind_eq_ok.1 h1
          obtain ⟨_, _, h1⟩ := Res.bind_eq_ok.1 h1
          obtain ⟨⟨out, net⟩, h2, h1⟩ := Res.bind_eq_ok.1 h1
          cases h1
          obtain ⟨k1, k2, k3⟩ := net_output_frame h2
          exact ⟨⟨rfl, rfl, fun h => by simp [k3, h], k2, rfl, rfl⟩, rfl⟩
      have ee := k1.1.epoch
      have l1 := Lines.inProgress (s := s1) (by rw [ee]; exact hl) (by omega) (by rw [k1.2]; omega) (by rw [k1.2]; push_cast at hk; omega)
        (Or.inr ⟨rfl, rfl⟩) hc1
      obtain ⟨a, b, d⟩ := evaluateLoopL_lines k { s1 with index := s1.index + 1 } c1 (by simpa [ee] using h0) (by simp only; rw [k1.2]; omega)
        (by simp only; rw [k1.2]; push_cast at hk; omega) l1 h
      simp only [ee] at a b
      exact ⟨a, b, d.trans k1.1.between⟩

/-- What the parts of a training keep: the sizes, the number of examples of an epoch, and the log. -/
structure Told (T E : Nat) (r : Run F) (c : Console F) : Prop where
  training : r.data.training.size = T
  testing : r.data.testing.size = E
  between : r.snn.numberOfTrainingsBetweenTwoEvaluations = T
  epoch : 0 ≤ r.snn.epoch
  lines : Lines T E r.snn.epoch c.lines

theorem evaluateL_told {T E : Nat} {v : LogLevel} {clock : Nat → Int} {env : Env F} {r r' : Run F} {c c' : Console F} (h : Told T E r c)
    (he : r.evaluateL v clock env c = .ok (r', c')) : Told T E r' c' ∧ r'.snn.epoch = r.snn.epoch := by
  obtain ⟨h1, h2, h3, h4, h5⟩ := h
  unfold Run.evaluateL at he
  obtain ⟨⟨⟨st, s⟩, c1⟩, hl, he⟩ := Res.bind_eq_ok.1 he
  obtain ⟨a, b, d⟩ := evaluateLoopL_lines (T := T) r.data.testing.size _ c (by simpa using h4) (by simp) (by simp) (by rw [h2]; exact h5) hl
  simp only at a b d he
  rw [h2] at b
  split at he
  · cases he
    exact ⟨⟨h1, h2, d.trans h3, by simpa [a] using h4, by simpa [a] using b⟩, a⟩
  · split at he
    · split at he
      · obtain ⟨c2, hc, he⟩ := Res.bind_eq_ok.1 he
        cases he
        refine ⟨⟨h1, h2, d.trans h3, by simpa [Run.saveSync, a] using h4, ?_⟩, a⟩
        refine Lines.accuracy ?_ (by simpa [Run.saveSync, a] using h4) hc
        simpa [Run.saveSync, a] using b
      · cases he
        exact ⟨⟨h1, h2, d.trans h3, by simpa [Run.saveSync, a] using h4, by simpa [Run.saveSync, a] using b⟩, a⟩
    · obtain ⟨c2, hc, he⟩ := Res.bind_eq_ok.1 he
      cases he
      refine ⟨⟨h1, h2, d.trans h3, by simpa [a] using h4, ?_⟩, a⟩
      refine Lines.accuracy ?_ (by simpa [a] using h4) hc
      simpa [a] using b

theorem continueTrainingL_told {T E : Nat} {v : LogLevel} {env : Env F} {wait : Wait F} {r : Run F} {c : Console F} (h : Told T E r c) :
    Told T E (r.continueTrainingL v env wait c).1.2 (r.continueTrainingL v env wait c).2 ∧
      (r.continueTrainingL v env wait c).1.2.snn = r.snn := by
  have e : (r.continueTraining env wait).2.snn = r.snn ∧ (r.continueTraining env wait).2.data = r.data := by
    exact ⟨rfl, rfl⟩
  unfold Run.continueTrainingL
  obtain ⟨h1, h2, h3, h4, h5⟩ := h
  refine ⟨⟨by simpa [e.2] using h1, by simpa [e.2] using h2, by simpa [e.1] using h3, by simpa [e.1] using h4, ?_⟩, e.1⟩
  simp only [e.1]
  split
  · exact h5.say _ _ _
  · exact h5

theorem trainStep_told {env : Env F} {b : Int} {r r' : Run F} {ret : Bool} (h : r.trainStep env b = .ok (ret, r')) :
    r'.snn.numberOfTrainingsBetweenTwoEvaluations = r.snn.numberOfTrainingsBetweenTwoEvaluations ∧ r'.snn.epoch = r.snn.epoch ∧
      (ret = false → r'.snn.index = r.snn.index) ∧ r'.data.training.size = r.data.training.size ∧ r'.data.testing.size = r.data.testing.size := by
  cases hn : r.snn.net.outputNan with
  | false =>
    obtain ⟨h1, h2⟩ := trainStep_spec (SameButBuffers.refl _) hn h
    obtain ⟨net, e, _⟩ := h2.snn
    obtain ⟨b1, b2, hd⟩ := h2.data
    rw [e, hd]
    exact ⟨rfl, rfl, fun _ => rfl, rfl, rfl⟩
  | true =>
    unfold Run.trainStep at h
    simp only [hn, if_true] at h
    cases h
    exact ⟨rfl, rfl, by simp, rfl, rfl⟩

theorem stepLoopL_told {T E : Nat} {v : LogLevel} {clock : Nat → Int} {env : Env F} {wait : Wait F} {b : Int} (hb : 1 ≤ b) :
    ∀ (fuel : Nat) (r : Run F) (c : Console F) {p : Bool × Run F} {c' : Console F}, Told T E r c → 0 ≤ r.snn.index →
    stepLoopL v clock env wait b fuel r c = .ok (p, c') → Told T E p.2 c' ∧ p.2.snn.epoch = r.snn.epoch
  | 0, r, c, p, c', _, _, h => by cases h
  | fuel + 1, r, c, p, c', ht, hi, h => by
    unfold stepLoopL at h
    obtain ⟨t1, e1⟩ := continueTrainingL_told (v := v) (env := env) (wait := wait) ht
    revert h
    generalize hq : r.continueTrainingL v env wait c = q
    rw [hq] at t1 e1
    obtain ⟨⟨go, r1⟩, c1⟩ := q
    simp only at t1 e1 ⊢
    intro h
    split at h
    · rename_i hlt
      split at h
      · obtain ⟨⟨⟨ret, r2⟩, c2⟩, h1, h⟩ := Res.bind_eq_ok.1 h
        unfold Run.trainStepL at h1
        obtain ⟨⟨ret', r3⟩, h2, h1⟩ := Res.bind_eq_ok.1 h1
        obtain ⟨k1, k2, k3, k4, k5⟩ := trainStep_told h2
        simp only at h h1
        have t3 : ∀ c3 : Console F, Lines T E r1.snn.epoch c3.lines → Told T E r3 c3 := fun c3 hc =>
          ⟨k4.trans t1.1, k5.trans t1.2, k1.trans t1.3, by rw [k2]; exact t1.4, by rw [k2]; exact hc⟩
        split at h1
        · cases h1
          simp only [if_true] at h
          cases h
          exact ⟨t3 _ t1.lines, by rw [k2, e1]⟩
        · rename_i hr
          have hr' : ret' = false := by simpa using hr
          obtain ⟨c4, h4, h1⟩ := Res.bind_eq_ok.1 h1
          cases h1
          have hidx := k3 hr'
          have := Lines.inProgress (T := T) (E := E) (t3 c1 t1.lines).lines (t3 c1 t1.lines).epoch (by rw [hidx, e1]; exact hi)
            (by rw [hidx, e1, (t3 c1 t1.lines).training]; have := ht.between; omega) (Or.inl ⟨rfl, (t3 c1 t1.lines).training⟩) h4
          simp only [Bool.false_eq_true, if_false] at h
          have key := fun A B => stepLoopL_told (T := T) (E := E) hb fuel _ _ A B h
          obtain ⟨a1, a2⟩ := key
            ⟨(t3 c1 t1.lines).1, (t3 c1 t1.lines).2, (t3 c1 t1.lines).3, (t3 c1 t1.lines).4, this⟩ (by show 0 ≤ _ + b; rw [hidx, e1]; omega)
          exact ⟨a1, by rw [a2]; simp only; rw [k2, e1]⟩
      · cases h; exact ⟨t1, by rw [e1]⟩
    · cases h; exact ⟨ht, rfl⟩

theorem epochBodyL_told {T E : Nat} {v : LogLevel} {clock : Nat → Int} {env : Env F} {wait : Wait F} {b ef : Int} (hb : 1 ≤ b) {fuel : Nat} {r : Run F}
    {c : Console F} {p : Bool × Run F} {c' : Console F} (ht : Told T E r c) (h : r.epochBodyL v clock env wait b ef fuel c = .ok (p, c')) :
    Told T E p.2 c' ∧ p.2.snn.epoch = r.snn.epoch := by
  unfold Run.epochBodyL at h
  obtain ⟨data, hd, h⟩ := Res.bind_eq_ok.1 h
  obtain ⟨⟨⟨ret, r2⟩, c2⟩, h2, h⟩ := Res.bind_eq_ok.1 h
  have f := shuffle_frame hd
  have key := fun A B => stepLoopL_told (T := T) (E := E) hb fuel _ _ A B h2
  obtain ⟨a1, a2⟩ := key ⟨f.size.trans ht.1, by rw [← ht.2, ← f.testing], ht.3, ht.4, ht.5⟩ (le_refl _)
  simp only at h a1 a2
  split at h
  · cases h; exact ⟨a1, a2⟩
  · split at h
    · obtain ⟨⟨r3, c3⟩, h3, h⟩ := Res.bind_eq_ok.1 h
      cases h
      obtain ⟨b1, b2⟩ := evaluateL_told a1 h3
      exact ⟨b1, b2.trans a2⟩
    · cases h; exact ⟨a1, a2⟩

theorem epochLoopL_told {T E : Nat} {v : LogLevel} {clock : Nat → Int} {env : Env F} {wait : Wait F} {b ef : Int} (hb : 1 ≤ b) {inner : Nat} :
    ∀ (fuel : Nat) (r : Run F) (c : Console F) {p : Bool × Run F} {c' : Console F}, Told T E r c →
    epochLoopL v clock env wait b ef inner fuel r c = .ok (p, c') → Told T E p.2 c'
  | 0, r, c, p, c', _, h => by cases h
  | fuel + 1, r, c, p, c', ht, h => by
    unfold epochLoopL at h
    obtain ⟨t1, e1⟩ := continueTrainingL_told (v := v) (env := env) (wait := wait) ht
    revert h
    generalize hq : r.continueTrainingL v env wait c = q
    rw [hq] at t1 e1
    obtain ⟨⟨go, r1⟩, c1⟩ := q
    simp only at t1 e1 ⊢
    intro h
    split at h
    · obtain ⟨⟨⟨ret, r2⟩, c2⟩, h2, h⟩ := Res.bind_eq_ok.1 h
      obtain ⟨a1, a2⟩ := epochBodyL_told hb t1 h2
      simp only at h a1 a2
      split at h
      · cases h; exact a1
      · exact epochLoopL_told hb fuel { r2 with snn := { r2.snn with epoch := r2.snn.epoch + 1 } } c2
          ⟨a1.1, a1.2, a1.3, by have := a1.4; simp only; omega, a1.lines.mono (by simp)⟩ h
    · cases h; exact t1

end Snn.LogProofs
