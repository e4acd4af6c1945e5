import Verif.Model.Overflow
import Verif.Proofs.TrainProofs

/-! Proofs about the training loops with `int` counters. -/

set_option linter.all false

namespace Snn.Overflow

open Snn.TrainSpec Snn.TrainProofs

/-- The checked call gives the outcome of the unchecked one, or overflows. -/
def Sim {α : Type} (a b : Res α) : Prop := a = b ∨ a = .ub "signed integer overflow"

theorem Sim.refl {α : Type} (a : Res α) : Sim a a := Or.inl rfl

theorem Sim.bind {α β : Type} {a b : Res α} {f g : α → Res β} (h : Sim a b) (hf : ∀ x, Sim (f x) (g x)) : Sim (a >>= f) (b >>= g) := by
  rcases h with rfl | rfl
  · cases a with
    | ok x => exact hf x
    | throw m => exact Or.inl rfl
    | ub w => exact Or.inl rfl
  · exact Or.inr rfl

theorem addI_sim {α : Type} (a b : Int) {f : Int → Res α} {g : Res α} (h : Sim (f (a + b)) g) : Sim (addI a b >>= f) g := by
  unfold addI ckInt
  split
  · exact h
  · exact Or.inr rfl

section
variable {F : Type} [Flt F] [FTrans F] [Add F] [Sub F] [Mul F] [Div F] [Neg F]

theorem stepLoop_sim (env : Env F) (wait : Wait F) (b : Int) : ∀ (fuel : Nat) (r : Run F),
    Sim (stepLoopInt env wait b fuel r) (stepLoop env wait b fuel r)
  | 0, r => Sim.refl _
  | fuel + 1, r => by
    unfold stepLoopInt stepLoop
    refine addI_sim _ _ ?_
    split
    · simp only
      split
      · refine Sim.bind (Sim.refl _) ?_
        rintro ⟨ret, r2⟩
        simp only
        split
        · exact Sim.refl _
        · exact addI_sim _ _ (stepLoop_sim env wait b fuel _)
      · exact Sim.refl _
    · exact Sim.refl _

theorem epochBody_sim (env : Env F) (wait : Wait F) (b ef : Int) (fuel : Nat) (r : Run F) :
    Sim (r.epochBodyInt env wait b ef fuel) (r.epochBody env wait b ef fuel) := by
  unfold Run.epochBodyInt Run.epochBody
  exact Sim.bind (Sim.refl _) fun data => Sim.bind (stepLoop_sim env wait b fuel _) fun _ => Sim.refl _

theorem epochLoop_sim (env : Env F) (wait : Wait F) (b ef : Int) (inner : Nat) : ∀ (fuel : Nat) (r : Run F),
    Sim (epochLoopInt env wait b ef inner fuel r) (epochLoop env wait b ef inner fuel r)
  | 0, r => Sim.refl _
  | fuel + 1, r => by
    unfold epochLoopInt epochLoop
    simp only
    split
    · refine Sim.bind (epochBody_sim env wait b ef inner _) ?_
      rintro ⟨ret, r2⟩
      simp only
      split
      · exact Sim.refl _
      · exact addI_sim _ _ (epochLoop_sim env wait b ef inner fuel _)
    · exact Sim.refl _

theorem train_sim (env : Env F) (wait : Wait F) (b ef : Int) (fuel : Nat) (r : Run F) :
    Sim (r.trainInt env wait b ef fuel) (r.train env wait b ef fuel) := by
  unfold Run.trainInt Run.train
  refine Sim.bind (Sim.refl _) fun _ => ?_
  split
  · exact Sim.refl _
  · unfold Run.trainSyncInt Run.trainSync
    exact Sim.bind (Sim.refl _) fun r1 => Sim.bind (epochLoop_sim env wait b ef fuel fuel _) fun _ => Sim.refl _

/-! ### No overflow -/

/-- The inner loop cannot overflow: the greatest value it computes is `(⌊n / b⌋ + 1) b`. -/
theorem stepLoop_eq {env : Env F} {wait : Wait F} {b n : Nat} (hb : 1 ≤ b) (hf : (n / b + 1) * b < 2 ^ 31) {ds : Data F} :
    ∀ (fuel : Nat) (r : Run F) (k : Nat), SameButBuffers ds r.data → r.snn.index = ((k * b : Nat) : Int) → k * b ≤ n →
    r.snn.numberOfTrainingsBetweenTwoEvaluations = (n : Int) → stepLoopInt env wait b fuel r = stepLoop env wait b fuel r
  | 0, r, k, hd, hi, hk, hn => rfl
  | fuel + 1, r, k, hd, hi, hk, hn => by
    have hkb : k ≤ n / b := (Nat.le_div_iff_mul_le (by omega)).2 hk
    have hle : k * b + b ≤ (n / b + 1) * b := by
      have := Nat.mul_le_mul_right b hkb
      rw [Nat.add_mul]; omega
    have hadd : ∀ i : Int, i = ((k * b : Nat) : Int) → addI i b = .ok (i + b) := by
      rintro i rfl
      have h0 : (0 : Int) ≤ ((k * b : Nat) : Int) := Int.natCast_nonneg _
      refine ckInt_ok ?_ ?_
      · omega
      · have : ((k * b + b : Nat) : Int) < ((2 ^ 31 : Nat) : Int) := by exact_mod_cast lt_of_le_of_lt hle hf
        push_cast at this ⊢
        omega
    unfold stepLoopInt stepLoop
    rw [hadd _ hi, Res.ok_bind]
    split
    · rename_i hfit
      simp only
      split
      · rename_i hc
        have hc' : r.snn.net.outputNan = false := by
          simp only [Run.continueTraining, Bool.and_eq_true, Bool.not_eq_true'] at hc
          exact hc.2
        cases h1 : (r.continueTraining env wait).2.trainStep env b with
        | throw m => rfl
        | ub w => rfl
        | ok p =>
          obtain ⟨ret, r2⟩ := p
          obtain ⟨e1, so⟩ := trainStep_spec (ds := ds) (by exact hd) (by exact hc') h1
          subst e1
          obtain ⟨net, q1, -⟩ := so.snn
          simp only [Res.ok_bind, Bool.false_eq_true, if_false]
          have i2 : r2.snn.index = ((k * b : Nat) : Int) := by rw [q1]; exact hi
          have n2 : r2.snn.numberOfTrainingsBetweenTwoEvaluations = (n : Int) := by rw [q1]; exact hn
          rw [hadd _ i2, Res.ok_bind]
          refine stepLoop_eq hb hf fuel _ (k + 1) (by exact so.data) ?_ ?_ (by exact n2)
          · simp only [i2]; push_cast; ring
          · rw [hi, hn] at hfit
            have : ((k * b + b : Nat) : Int) ≤ (n : Int) := by push_cast at hfit ⊢; exact hfit
            rw [Nat.add_mul, one_mul]
            exact_mod_cast this
      · rfl
    · rfl

theorem epochBody_eq {env : Env F} {wait : Wait F} {b n : Nat} (hb : 1 ≤ b) (hf : (n / b + 1) * b < 2 ^ 31) {ef : Int} (fuel : Nat)
    (r : Run F) (hn : r.snn.numberOfTrainingsBetweenTwoEvaluations = (n : Int)) :
    r.epochBodyInt env wait b ef fuel = r.epochBody env wait b ef fuel := by
  unfold Run.epochBodyInt Run.epochBody
  cases hs : r.data.shuffle (env.rng r.snn.epoch) with
  | throw m => rfl
  | ub w => rfl
  | ok ds =>
    simp only [Res.ok_bind]
    rw [stepLoop_eq hb hf (ds := ds) fuel _ 0 (SameButBuffers.refl _) (by simp) (by simp) (by exact hn)]

theorem epochLoop_eq {env : Env F} {wait : Wait F} {b n : Nat} (hb : 1 ≤ b) (hf : (n / b + 1) * b < 2 ^ 31) {ef : Int} {inner : Nat} {E : Int}
    (hE : E < 2 ^ 31) (hover : ∀ t e a m, E ≤ e → wait.isOver t e a m = true) : ∀ (fuel : Nat) (r : Run F),
    r.snn.numberOfTrainingsBetweenTwoEvaluations = (n : Int) → 1 ≤ r.snn.epoch →
    epochLoopInt env wait b ef inner fuel r = epochLoop env wait b ef inner fuel r
  | 0, r, hn, he => rfl
  | fuel + 1, r, hn, he => by
    unfold epochLoopInt epochLoop
    simp only
    split
    · rename_i hc
      have hlt : r.snn.epoch < E := by
        by_contra hx
        simp only [Run.continueTraining, Bool.and_eq_true, Bool.not_eq_true'] at hc
        rw [hover _ _ _ _ (by omega)] at hc
        simp at hc
      rw [epochBody_eq hb hf inner _ (by exact hn)]
      cases h1 : (r.continueTraining env wait).2.epochBody env wait b ef inner with
      | throw m => rfl
      | ub w => rfl
      | ok p =>
        obtain ⟨ret, r2⟩ := p
        obtain ⟨e1, ds, m, eo⟩ := epochBody_spec h1
        subst e1
        have hep : r2.snn.epoch = r.snn.epoch := eo.epoch
        simp only [Res.ok_bind, Bool.false_eq_true, if_false]
        have : addI r2.snn.epoch 1 = .ok (r2.snn.epoch + 1) := ckInt_ok (by rw [hep]; omega) (by rw [hep]; omega)
        rw [this, Res.ok_bind]
        exact epochLoop_eq hb hf hE hover fuel _ (by exact eo.between.trans hn) (by simp only [hep]; omega)
    · rfl

theorem batch_valid {s : Snn F} {d : Data F} {b : Int} (h : s.validData d b = .ok ()) : 1 ≤ b ∧ b ≤ d.training.size := by
  unfold Snn.validData at h
  obtain ⟨no, h1, h⟩ := Res.bind_eq_ok.1 h
  obtain ⟨ni, h2, h⟩ := Res.bind_eq_ok.1 h
  split at h
  · cases h
  · split at h
    · cases h
    · split at h
      · cases h
      · split at h
        · cases h
        · omega

theorem train_eq {env : Env F} {wait : Wait F} {b : Int} {ef : Int} {fuel : Nat} {r : Run F} {E : Int}
    (hf : (r.data.training.size / b.toNat + 1) * b.toNat < 2 ^ 31) (hE : E < 2 ^ 31) (hover : ∀ t e a m, E ≤ e → wait.isOver t e a m = true) :
    r.trainInt env wait b ef fuel = r.train env wait b ef fuel := by
  unfold Run.trainInt Run.train
  cases hv : r.snn.validData r.data b with
  | throw m => rfl
  | ub w => rfl
  | ok u =>
    obtain ⟨hb, hb2⟩ := batch_valid hv
    simp only [Res.ok_bind]
    split
    · rfl
    · unfold Run.trainSyncInt Run.trainSync
      obtain ⟨c, rfl⟩ : ∃ c : Nat, b = c := ⟨b.toNat, by omega⟩
      simp only [Int.toNat_natCast] at hf
      have key : ∀ r1 : Run F, r1.snn.numberOfTrainingsBetweenTwoEvaluations = (r.data.training.size : Int) →
          epochLoopInt env wait c ef fuel fuel { r1 with snn := { r1.snn with epoch := 1 } } =
            epochLoop env wait c ef fuel fuel { r1 with snn := { r1.snn with epoch := 1 } } := fun r1 h1 =>
        epochLoop_eq (by omega) hf hE hover fuel _ (by exact h1) (by simp)
      split
      · rename_i hef
        cases h1 : (Run.begin { r with snn := { r.snn with wantToStopTraining := true } }).evaluate env with
        | throw m => rfl
        | ub w => rfl
        | ok r1 =>
          have := (evaluate_frame h1).between
          simp only [Res.ok_bind]
          rw [key r1 (by rw [this]; rfl)]
      · simp only [Res.ok_bind]
        rw [key _ rfl]

/-! ### Overflow -/

theorem epochLoop_epoch {env : Env F} {wait : Wait F} {b ef : Int} {inner : Nat} : ∀ {fuel : Nat} {r r' : Run F} {ret : Bool},
    r.snn.epoch < 2 ^ 31 → epochLoopInt env wait b ef inner fuel r = .ok (ret, r') → (ret = false → r'.snn.epoch < 2 ^ 31)
  | 0, r, r', ret, he, h => by cases h
  | fuel + 1, r, r', ret, he, h => by
    unfold epochLoopInt at h
    simp only at h
    split at h
    · obtain ⟨⟨ret1, r2⟩, h1, h⟩ := Res.bind_eq_ok.1 h
      simp only at h
      split at h
      · cases h; intro hx; cases hx
      · obtain ⟨e, h2, h⟩ := Res.bind_eq_ok.1 h
        have h3 : e < 2 ^ 31 := by
          unfold addI ckInt at h2
          split at h2
          · cases h2; omega
          · cases h2
        exact epochLoop_epoch (by exact h3) h
    · cases h
      intro _
      exact he

theorem epochLoop_nan {env : Env F} {wait : Wait F} {b ef : Int} {inner : Nat} {fuel : Nat} {r r' : Run F} {ret : Bool}
    (hn : r.snn.net.outputNan = true) (h : epochLoopInt env wait b ef inner fuel r = .ok (ret, r')) : r'.snn.net.outputNan = true := by
  cases fuel with
  | zero => cases h
  | succ fuel =>
    unfold epochLoopInt Run.continueTraining at h
    simp only [hn, Bool.not_true, Bool.and_false, Bool.false_eq_true, if_false] at h
    cases h
    exact hn

/-- A completed inner loop, the criterion not being over, either ends with a NaN or a request to stop, or the last sum fits. -/
theorem stepLoop_last {env : Env F} {wait : Wait F} {b n : Nat} (hb : 1 ≤ b) {ds : Data F} : ∀ {fuel : Nat} {r r' : Run F} {ret : Bool} {k : Nat},
    SameButBuffers ds r.data → r.snn.index = ((k * b : Nat) : Int) → r.snn.numberOfTrainingsBetweenTwoEvaluations = (n : Int) →
    r.snn.wantToStopTraining = false → (∀ t a m, wait.isOver t r.snn.epoch a m = false) →
    stepLoopInt env wait b fuel r = .ok (ret, r') → r'.snn.net.outputNan = true ∨ (n / b + 1) * b < 2 ^ 31
  | 0, r, r', ret, k, hd, hi, hn, hw, ho, h => by cases h
  | fuel + 1, r, r', ret, k, hd, hi, hn, hw, ho, h => by
    unfold stepLoopInt at h
    obtain ⟨next, h1, h⟩ := Res.bind_eq_ok.1 h
    obtain ⟨e1, e2⟩ : next = r.snn.index + b ∧ next < 2 ^ 31 := by
      unfold addI ckInt at h1
      split at h1
      · cases h1; constructor
        · rfl
        · omega
      · cases h1
    split at h
    · simp only at h
      split at h
      · rename_i hc
        have hc' : r.snn.net.outputNan = false := by
          simp only [Run.continueTraining, Bool.and_eq_true, Bool.not_eq_true'] at hc
          exact hc.2
        obtain ⟨⟨ret1, r2⟩, h2, h⟩ := Res.bind_eq_ok.1 h
        obtain ⟨e3, so⟩ := trainStep_spec (ds := ds) (by exact hd) (by exact hc') h2
        subst e3
        obtain ⟨net, q1, -⟩ := so.snn
        simp only [Bool.false_eq_true, if_false] at h
        obtain ⟨i2, h3, h⟩ := Res.bind_eq_ok.1 h
        have e4 : i2 = r2.snn.index + b := by
          unfold addI ckInt at h3
          split at h3
          · cases h3; rfl
          · cases h3
        refine stepLoop_last hb (k := k + 1) (by exact so.data) ?_ ?_ ?_ ?_ h
        · simp only [e4, q1]
          have : r.snn.index = ((k * b : Nat) : Int) := hi
          show r.snn.index + (b : Int) = _
          rw [this]; push_cast; ring
        · simp only [q1]; exact hn
        · simp only [q1]; exact hw
        · simp only [q1]; exact ho
      · rename_i hc
        cases h
        left
        simp only [Run.continueTraining, hw, ho, Bool.not_false, Bool.true_and, Bool.not_eq_true, Bool.not_eq_false', Bool.not_eq_eq_eq_not, Bool.not_true] at hc
        simpa [Run.continueTraining] using hc
    · rename_i hfit
      right
      rw [e1, hi, hn] at hfit
      rw [e1, hi] at e2
      have g1 : n < k * b + b := by
        have : (n : Int) < ((k * b + b : Nat) : Int) := by push_cast at hfit ⊢; omega
        exact_mod_cast this
      have g2 : k * b + b < 2 ^ 31 := by
        have : ((k * b + b : Nat) : Int) < ((2 ^ 31 : Nat) : Int) := by push_cast at e2 ⊢; omega
        exact_mod_cast this
      have g3 : n / b < k + 1 := (Nat.div_lt_iff_lt_mul (by omega)).2 (by rw [Nat.add_mul]; omega)
      have g4 : (n / b + 1) * b ≤ (k + 1) * b := Nat.mul_le_mul_right b (by omega)
      rw [Nat.add_mul k] at g4
      omega

end

end Snn.Overflow
