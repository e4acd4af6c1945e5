import Verif.Spec.DeadlineSpec
import Verif.Proofs.SafeProofs
import Verif.Props.TrainProps

/-! The clock readings of a training. -/

set_option linter.all false

namespace Snn.Deadline

open Snn.Spec TrainProofs TrainProps

section
variable {F : Type} [Flt F] [FTrans F] [Add F] [Sub F] [Mul F] [Div F] [Neg F]

theorem step_ticks {env : Env F} {b : Int} {r r' : Run F} {ret : Bool} (h : r.trainStep env b = .ok (ret, r')) :
    r'.ticks = r.ticks ∧ stepsMade r'.trace ≤ stepsMade r.trace + 1 := by
  unfold Run.trainStep at h
  simp only at h
  split at h
  · cases h; exact ⟨rfl, by simp⟩
  obtain ⟨need, _, h⟩ := Res.bind_eq_ok.1 h
  obtain ⟨⟨x, d1⟩, _, h⟩ := Res.bind_eq_ok.1 h
  obtain ⟨first, _, h⟩ := Res.bind_eq_ok.1 h
  split at h
  · obtain ⟨⟨y, d2⟩, _, h⟩ := Res.bind_eq_ok.1 h
    obtain ⟨⟨net, dr⟩, _, h⟩ := Res.bind_eq_ok.1 h
    cases h
    exact ⟨rfl, by simp [stepsMade, List.countP_cons, isStep]⟩
  · obtain ⟨⟨o, net, dr⟩, _, h⟩ := Res.bind_eq_ok.1 h
    cases h
    exact ⟨rfl, by simp [stepsMade, List.countP_cons, isStep]⟩

theorem evaluate_ticks {env : Env F} {r r' : Run F} (h : r.evaluate env = .ok r') : r'.ticks = r.ticks ∧ stepsMade r'.trace = stepsMade r.trace := by
  unfold Run.evaluate at h
  obtain ⟨⟨b, s⟩, _, h⟩ := Res.bind_eq_ok.1 h
  simp only at h
  split at h
  · cases h; exact ⟨rfl, by simp [stepsMade, isStep]⟩
  · split at h
    · cases h; exact ⟨rfl, by simp [stepsMade, isStep, Run.saveSync]⟩
    · cases h; exact ⟨rfl, by simp [stepsMade, isStep]⟩

/-- The number of readings for which the criterion may be not over. -/
def open_ (P : Nat → Prop) [DecidablePred P] (a b : Nat) : Nat := ∑ i ∈ Finset.Ico a b, if P i then 1 else 0

theorem open_add {P : Nat → Prop} [DecidablePred P] {a b c : Nat} (h1 : a ≤ b) (h2 : b ≤ c) : open_ P a b + open_ P b c = open_ P a c :=
  Finset.sum_Ico_consecutive _ h1 h2

theorem open_one {P : Nat → Prop} [DecidablePred P] {a : Nat} (h : P a) : open_ P a (a + 1) = 1 := by
  unfold open_
  rw [Nat.Ico_succ_singleton, Finset.sum_singleton, if_pos h]

variable {env : Env F} {wait : Wait F} {P : Nat → Prop} [DecidablePred P]

/-- P holds of the readings at which the criterion is not over. -/
def Opens (env : Env F) (wait : Wait F) (a b : Nat) (P : Nat → Prop) : Prop := ∀ i, a ≤ i → i < b → ∀ e acc mae, wait.isOver (env.clock i) e acc mae = false → P i

theorem goes {r : Run F} (h : (r.continueTraining env wait).1 = true) :
    wait.isOver (env.clock r.ticks) r.snn.epoch r.snn.net.stats.globalRate r.snn.net.stats.mae = false := by
  unfold Run.continueTraining at h
  simp only [Bool.and_eq_true, Bool.not_eq_true'] at h
  exact h.1.2

theorem loop_ticks {b : Int} : ∀ {fuel : Nat} {r r' : Run F} {ret : Bool}, stepLoop env wait b fuel r = .ok (ret, r') →
    r.ticks ≤ r'.ticks ∧ (Opens env wait r.ticks r'.ticks P → stepsMade r'.trace ≤ stepsMade r.trace + open_ P r.ticks r'.ticks)
  | 0, r, r', ret, h => by cases h
  | fuel + 1, r, r', ret, h => by
    unfold stepLoop at h
    split at h
    · simp only [continue_fields] at h
      split at h
      · rename_i hgo
        obtain ⟨⟨ret1, r2⟩, h1, h⟩ := Res.bind_eq_ok.1 h
        obtain ⟨t1, t2⟩ := step_ticks h1
        simp only at h t1 t2
        have key : ∀ {c : Nat}, r.ticks + 1 ≤ c → Opens env wait r.ticks c P → open_ P r.ticks (r.ticks + 1) = 1 :=
          fun hc ho => open_one (ho _ (le_refl _) (by omega) _ _ _ (goes hgo))
        split at h
        · cases h
          refine ⟨by omega, fun ho => ?_⟩
          have := key (by omega) ho
          rw [t1]
          omega
        · obtain ⟨i1, i2⟩ := loop_ticks h
          simp only [t1] at i1 i2
          refine ⟨by omega, fun ho => ?_⟩
          have := key i1 ho
          have i3 := i2 (fun i h1 h2 => ho i (by omega) h2)
          rw [← open_add (show r.ticks ≤ r.ticks + 1 by omega) i1]
          omega
      · cases h
        exact ⟨by simp, fun _ => Nat.le_add_right _ _⟩
    · cases h; exact ⟨le_refl _, fun _ => Nat.le_add_right _ _⟩

theorem body_ticks {b ef : Int} {fuel : Nat} {r r' : Run F} {ret : Bool} (h : r.epochBody env wait b ef fuel = .ok (ret, r')) :
    r.ticks ≤ r'.ticks ∧ (Opens env wait r.ticks r'.ticks P → stepsMade r'.trace ≤ stepsMade r.trace + open_ P r.ticks r'.ticks) := by
  unfold Run.epochBody at h
  obtain ⟨ds, _, h⟩ := Res.bind_eq_ok.1 h
  obtain ⟨⟨ret1, r2⟩, h1, h⟩ := Res.bind_eq_ok.1 h
  have q := loop_ticks (P := P) h1
  have e : stepsMade (Event.shuffled :: r.trace) = stepsMade r.trace := by simp [stepsMade, isStep]
  simp only [e] at q
  simp only at h
  split at h
  · cases h; exact q
  · split at h
    · obtain ⟨r3, h3, h⟩ := Res.bind_eq_ok.1 h
      cases h
      obtain ⟨t1, t2⟩ := evaluate_ticks h3
      rw [t1, t2]; exact q
    · cases h; exact q

theorem epochs_ticks {b ef : Int} {inner : Nat} : ∀ {fuel : Nat} {r r' : Run F} {ret : Bool}, epochLoop env wait b ef inner fuel r = .ok (ret, r') →
    r.ticks < r'.ticks ∧ (Opens env wait r.ticks r'.ticks P → stepsMade r'.trace ≤ stepsMade r.trace + open_ P r.ticks r'.ticks)
  | 0, r, r', ret, h => by cases h
  | fuel + 1, r, r', ret, h => by
    unfold epochLoop at h
    simp only [continue_fields] at h
    split at h
    · obtain ⟨⟨ret1, r2⟩, h1, h⟩ := Res.bind_eq_ok.1 h
      obtain ⟨i1, i2⟩ := body_ticks (P := P) h1
      simp only at i1 i2 h
      split at h
      · cases h
        refine ⟨by omega, fun ho => ?_⟩
        have := i2 (fun i h1 h2 => ho i (by omega) h2)
        rw [← open_add (show r.ticks ≤ r.ticks + 1 by omega) i1]
        omega
      · obtain ⟨j1, j2⟩ := epochs_ticks h
        simp only at j1 j2
        refine ⟨by omega, fun ho => ?_⟩
        have a := i2 (fun i h1 h2 => ho i (by omega) (by omega))
        have c := j2 (fun i h1 h2 => ho i (by omega) h2)
        rw [← open_add (show r.ticks ≤ r.ticks + 1 by omega) (show r.ticks + 1 ≤ r'.ticks by omega), ← open_add i1 j1.le]
        omega
    · cases h
      exact ⟨by simp, fun _ => Nat.le_add_right _ _⟩

/-! ### The checks after the limit -/

variable {k : Nat}

/-- From the reading k to the reading k + 1 the criterion is over. -/
def Shut (env : Env F) (wait : Wait F) (k : Nat) : Prop := ∀ i, k ≤ i → i ≤ k + 1 → ∀ e acc mae, wait.isOver (env.clock i) e acc mae = true

theorem loop_after {b : Int} (hk : Shut env wait k) : ∀ {fuel : Nat} {r r' : Run F} {ret : Bool}, r.ticks ≤ k → stepLoop env wait b fuel r = .ok (ret, r') → r'.ticks ≤ k + 1
  | 0, r, r', ret, hr, h => by cases h
  | fuel + 1, r, r', ret, hr, h => by
    unfold stepLoop at h
    split at h
    · simp only [continue_fields] at h
      split at h
      · rename_i hgo
        have hlt : r.ticks < k := by
          rcases Nat.lt_or_ge r.ticks k with h' | h'
          · exact h'
          · have := hk r.ticks h' (by omega) r.snn.epoch r.snn.net.stats.globalRate r.snn.net.stats.mae
            rw [goes hgo] at this; cases this
        obtain ⟨⟨ret1, r2⟩, h1, h⟩ := Res.bind_eq_ok.1 h
        obtain ⟨t1, t2⟩ := step_ticks h1
        simp only at h t1 t2
        split at h
        · cases h; omega
        · exact loop_after hk (by simp only [t1]; omega) h
      · cases h; simp only; omega
    · cases h; omega

theorem body_after {b ef : Int} {fuel : Nat} (hk : Shut env wait k) {r r' : Run F} {ret : Bool} (hr : r.ticks ≤ k) (h : r.epochBody env wait b ef fuel = .ok (ret, r')) : r'.ticks ≤ k + 1 := by
  unfold Run.epochBody at h
  obtain ⟨ds, _, h⟩ := Res.bind_eq_ok.1 h
  obtain ⟨⟨ret1, r2⟩, h1, h⟩ := Res.bind_eq_ok.1 h
  have q := loop_after hk (by exact hr) h1
  simp only at h
  split at h
  · cases h; exact q
  · split at h
    · obtain ⟨r3, h3, h⟩ := Res.bind_eq_ok.1 h
      cases h
      rw [(evaluate_ticks h3).1]; exact q
    · cases h; exact q

theorem epochs_after {b ef : Int} {inner : Nat} (hk : Shut env wait k) : ∀ {fuel : Nat} {r r' : Run F} {ret : Bool}, r.ticks ≤ k + 1 → epochLoop env wait b ef inner fuel r = .ok (ret, r') → r'.ticks ≤ k + 2
  | 0, r, r', ret, hr, h => by cases h
  | fuel + 1, r, r', ret, hr, h => by
    unfold epochLoop at h
    simp only [continue_fields] at h
    split at h
    · rename_i hgo
      have hlt : r.ticks < k := by
        rcases Nat.lt_or_ge r.ticks k with h' | h'
        · exact h'
        · have := hk r.ticks h' hr r.snn.epoch r.snn.net.stats.globalRate r.snn.net.stats.mae
          rw [goes hgo] at this; cases this
      obtain ⟨⟨ret1, r2⟩, h1, h⟩ := Res.bind_eq_ok.1 h
      have q := body_after hk (by simp only; omega) h1
      simp only at h
      split at h
      · cases h; omega
      · exact epochs_after hk (by exact q) h
    · cases h; simp only; omega

/-! ### The last check -/

/-- A NaN stays. -/
theorem epochs_nan {b ef : Int} {inner : Nat} : ∀ {fuel : Nat} {q q' : Run F} {ret : Bool}, epochLoop env wait b ef inner fuel q = .ok (ret, q') →
    q.snn.net.outputNan = true → q'.snn.net.outputNan = true := by
  intro fuel
  induction fuel with
  | zero => intro q q' ret hq; cases hq
  | succ fuel ih =>
    intro q q' ret hq hqn
    unfold epochLoop at hq
    unfold Run.continueTraining at hq
    simp only [hqn, Bool.not_true, Bool.and_false, Bool.false_eq_true, if_false] at hq
    cases hq
    exact hqn

/-- The evaluation, or a step, may have found a NaN; else the last check found the criterion over. -/
theorem epochs_end {b : Nat} {ef : Int} {inner : Nat} : ∀ {fuel : Nat} {r r' : Run F}, r.snn.wantToStopTraining = false → epochLoop env wait b ef inner fuel r = .ok (false, r') →
    r'.snn.net.outputNan = false → r.ticks < r'.ticks ∧ ∃ e acc mae, wait.isOver (env.clock (r'.ticks - 1)) e acc mae = true
  | 0, r, r', hr, h, hn => by cases h
  | fuel + 1, r, r', hr, h, hn => by
    unfold epochLoop at h
    simp only [continue_fields] at h
    split at h
    · obtain ⟨⟨ret1, r2⟩, h1, h⟩ := Res.bind_eq_ok.1 h
      simp only at h
      split at h
      · cases h
      · have i1 := (body_ticks (P := fun _ => True) h1).1
        simp only at i1
        have hw : r2.snn.wantToStopTraining = false := by
          obtain ⟨_, ds, m, eo⟩ := epochBody_spec h1
          rcases eo.flags with f | f
          · exact f.trans hr
          · have := epochs_nan h (by exact f)
            rw [hn] at this; cases this
        obtain ⟨j1, j2⟩ := epochs_end (by exact hw) h hn
        simp only at j1
        exact ⟨by omega, j2⟩
    · rename_i hgo
      cases h
      refine ⟨by simp, r.snn.epoch, r.snn.net.stats.globalRate, r.snn.net.stats.mae, ?_⟩
      simp only [Nat.add_sub_cancel]
      unfold Run.continueTraining at hgo
      simp only [hr, Bool.not_false, Bool.true_and, Bool.and_eq_true, Bool.not_eq_true'] at hgo
      by_contra hc
      exact hgo ⟨by simpa using hc, hn⟩

/-! ### The training ends -/

theorem epochs_time {ni no : Nat} {b ef : Int} {inner : Nat} (hk : Shut env wait k) : ∀ (fuel : Nat) (r : Run F), SafeRun ni no b r → r.ticks ≤ k + 1 →
    Ends (inner < r.data.training.size + 2 ∨ r.ticks + fuel ≤ k + 1) (fun _ => True) (epochLoop env wait b ef inner fuel r)
  | 0, r, h, hr => Or.inr ⟨Or.inr (by omega), rfl⟩
  | fuel + 1, r, h, hr => by
    unfold epochLoop
    cases hcont : (r.continueTraining env wait).1
    · refine Or.inl ⟨(false, (r.continueTraining env wait).2), ?_, trivial⟩
      simp only [hcont]; rfl
    · have hlt : r.ticks < k := by
        rcases Nat.lt_or_ge r.ticks k with h' | h'
        · exact h'
        · have := hk r.ticks h' hr r.snn.epoch r.snn.net.stats.globalRate r.snn.net.stats.mae
          rw [goes hcont] at this; cases this
      simp only [hcont, continue_fields, if_true]
      have hbody := epochBody_safe (env := env) (wait := wait) (ef := ef) (fuel := inner) (h.tick (r.ticks + 1))
      rcases hbody with ⟨⟨ret, r2⟩, i1, i2, i3, i4, i5⟩ | ⟨i1, i2⟩
      · simp only at i2 i3 i4 i5
        subst i2
        have q1 := (body_ticks (P := fun _ => True) i1).1
        have q2 := body_after hk (by simp only; omega) i1
        simp only at q1
        rw [i1]
        simp only [Res.ok_bind, Bool.false_eq_true, if_false]
        have ih := epochs_time (ef := ef) (inner := inner) hk fuel
          { r2 with snn := { r2.snn with epoch := r2.snn.epoch + 1 } } ⟨i3.net, i3.data, i3.size, h.batch⟩ q2
        rcases ih with ⟨v, j1, j2⟩ | ⟨j1, j2⟩
        · exact Or.inl ⟨v, j1, trivial⟩
        · refine Or.inr ⟨?_, j2⟩
          simp only [i5] at j1
          rcases j1 with j1 | j1
          · exact Or.inl j1
          · exact Or.inr (by omega)
      · exact Or.inr ⟨Or.inl i1, by rw [i2]; rfl⟩

theorem train_time {ni no : Nat} {b ef : Int} {fuel : Nat} {r : Run F} (hk : Shut env wait k) (hr : r.ticks ≤ k) (hn : SafeNet ni no r.snn.net)
    (hd : SafeData ni no r.data) (hb : 1 ≤ b) (hb2 : b ≤ r.data.training.size)
    (hb3 : b ≠ 1 → r.data.typeOfTemporal = .nonTemporal) (hidle : r.snn.isIdle = true) (hf1 : r.data.training.size + 2 ≤ fuel) (hf2 : k + 2 ≤ r.ticks + fuel) :
    ∃ r', r.train env wait b ef fuel = .ok r' := by
  unfold Run.train
  have hv : r.snn.validData r.data b = .ok () := by
    unfold Snn.validData
    rw [hn.wf.numberOfOutputs, hn.wf.numberOfInputs]
    simp only [Res.ok_bind]
    rw [if_neg (by rw [hd.numberOfLabels, hd.sizeOfData]; simp), if_neg (by intro hc; exact hc.2 (hb3 hc.1)), if_neg (by omega), if_neg (by omega)]
  rw [hv]
  simp only [Res.ok_bind]
  rw [if_neg (by simp [hidle])]
  unfold Run.trainSync
  have hbegin : SafeRun ni no b ({ r with snn := { r.snn with wantToStopTraining := true } } : Run F).begin :=
    ⟨⟨⟨hn.wf.layers, hn.wf.ne, hn.wf.last⟩, hn.clusters⟩, hd, rfl, hb⟩
  have hr1 : ∃ r1, (if ef > 0 then ({ r with snn := { r.snn with wantToStopTraining := true } } : Run F).begin.evaluate env
      else .ok ({ r with snn := { r.snn with wantToStopTraining := true } } : Run F).begin) = .ok r1 ∧ SafeRun ni no b r1 ∧
      r1.data.training.size = r.data.training.size ∧ r1.ticks = r.ticks := by
    split
    · obtain ⟨r1, j1, j2, j3⟩ := evaluate_safe env hbegin.net hbegin.data
      exact ⟨r1, j1, ⟨j2, by rw [j3.data]; exact hd, by rw [j3.between, j3.data]; rfl, hb⟩, by rw [j3.data]; rfl, (evaluate_ticks j1).1⟩
    · exact ⟨_, rfl, hbegin, rfl, rfl⟩
  obtain ⟨r1, e1, e2, e3, e4⟩ := hr1
  simp only at e1 ⊢
  rw [e1]
  simp only [Res.ok_bind]
  have hep := epochs_time (ef := ef) (inner := fuel) hk fuel
    { r1 with snn := { r1.snn with epoch := 1 } } ⟨e2.net, e2.data, e2.size, hb⟩ (by simp only [e4]; omega)
  rcases hep with ⟨⟨ret, r2⟩, j1, _⟩ | ⟨j1, j2⟩
  · rw [j1]
    simp only [Res.ok_bind]
    cases ret
    · exact ⟨_, rfl⟩
    · exact ⟨_, rfl⟩
  · simp only [e3, e4] at j1
    omega

/-- The readings of a training. -/
theorem train_ticks {b ef : Int} {fuel : Nat} {r r' : Run F} (h : r.train env wait b ef fuel = .ok r') :
    r.ticks < r'.ticks ∧ (Opens env wait r.ticks r'.ticks P → stepsMade r'.trace ≤ stepsMade r.trace + open_ P r.ticks r'.ticks) := by
  obtain ⟨_, _, r1, r2, h1, h2, rfl⟩ := train_pieces h
  have e : r1.ticks = r.ticks ∧ stepsMade r1.trace = stepsMade r.trace := by
    split at h1
    · have := evaluate_ticks h1; exact this
    · cases h1; exact ⟨rfl, rfl⟩
  have q := epochs_ticks (P := P) h2
  simp only [e.1, e.2] at q
  exact q

theorem train_after {b ef : Int} {fuel : Nat} {r r' : Run F} (hk : Shut env wait k) (hr : r.ticks ≤ k) (h : r.train env wait b ef fuel = .ok r') : r'.ticks ≤ k + 2 := by
  obtain ⟨_, _, r1, r2, h1, h2, rfl⟩ := train_pieces h
  have e : r1.ticks = r.ticks := by
    split at h1
    · exact (evaluate_ticks h1).1
    · cases h1; rfl
  have hx : r1.ticks ≤ k + 1 := by omega
  have q := epochs_after hk (by exact hx) h2
  exact q

theorem train_end {b ef : Int} {fuel : Nat} {r r' : Run F} (h : r.train env wait b ef fuel = .ok r') (hn : r'.snn.net.outputNan = false) :
    ∃ e acc mae, wait.isOver (env.clock (r'.ticks - 1)) e acc mae = true := by
  obtain ⟨hb, _, r1, r2, h1, h2, rfl⟩ := train_pieces h
  have hw : r1.snn.wantToStopTraining = false := by
    split at h1
    · rcases (evaluate_frame h1).flags with f | f
      · exact f.1
      · exact f.2.1
    · cases h1; rfl
  obtain ⟨b', rfl⟩ : ∃ b' : Nat, b = (b' : Int) := ⟨b.toNat, by omega⟩
  exact (epochs_end (by exact hw) h2 hn).2

end

end Snn.Deadline
