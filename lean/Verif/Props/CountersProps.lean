import Verif.Props.TrainProps
import Verif.Model.Counters

/-!
# C74: the progress of a training
-/

set_option linter.all false

namespace Snn.CountersProps

open Snn.TrainSpec Snn.TrainProofs Snn.TrainProps

section
variable {F : Type} [Flt F] [FTrans F] [Add F] [Sub F] [Mul F] [Div F] [Neg F]

/-- The number of epochs of a trace: one shuffle each. -/
def epochsMade (trace : List (Event F)) : Nat := ((steps trace).filter fun s => s = none).length

theorem epochsMade_replicate (b n E : Nat) : (((List.replicate E (epochSteps b n)).flatten).filter fun s => s = none).length = E := by
  induction E with
  | zero => rfl
  | succ E ih =>
    rw [List.replicate_succ, List.flatten_cons, List.filter_append, List.length_append, ih]
    simp only [epochSteps, List.filter_cons, decide_true, if_true, List.length_cons]
    rw [List.filter_eq_nil_iff.2]
    · simp [Nat.add_comm]
    · intro a ha
      obtain ⟨k, _, rfl⟩ := List.mem_map.1 ha
      simp

/-- **C74**, for every carrier, network, data and criterion without duration: when `train` returns without a NaN, `getCurrentEpoch()` is
the number of epochs this training made *plus one* and `getCurrentIndex()` is 0. Missing: that the epoch is the number of epochs made, which is false. -/
theorem C74_after_train_partial (env : Env F) (wait : Wait F) (hcf : ClockFree wait) (b ef : Int) (fuel : Nat) (r r' : Run F)
    (h : r.train env wait b ef fuel = .ok r') (hnan : r'.snn.net.outputNan = false) :
    r'.snn.getCurrentEpoch = (epochsMade r'.trace : Int) - epochsMade r.trace + 1 ∧ r'.snn.getCurrentIndex = 0 := by
  obtain ⟨E, st, c1, _, _, _, _, _, _, c8, _⟩ := C21_first_boundary env wait hcf b ef fuel r r' h hnan
  obtain ⟨hb, hi, r1, r2, h1, h2, rfl⟩ := train_pieces h
  refine ⟨?_, rfl⟩
  have : (epochsMade ({ r2 with snn := r2.snn.resetTrainingValues } : Run F).trace : Int) = epochsMade r.trace + E := by
    unfold epochsMade
    rw [c1, List.filter_append, List.length_append, epochsMade_replicate]
    push_cast; rfl
  unfold Snn.getCurrentEpoch
  rw [c8, this]
  push_cast; ring

theorem epochLoop_between {env : Env F} {wait : Wait F} {b : Nat} {ef : Int} {inner : Nat} :
    ∀ {fuel : Nat} {r r' : Run F} {ret : Bool}, epochLoop env wait b ef inner fuel r = .ok (ret, r') →
    r'.snn.numberOfTrainingsBetweenTwoEvaluations = r.snn.numberOfTrainingsBetweenTwoEvaluations
  | 0, r, r', ret, h => by cases h
  | fuel + 1, r, r', ret, h => by
    unfold epochLoop at h
    unfold Run.continueTraining at h
    simp only at h
    split at h
    · obtain ⟨⟨ret1, r2⟩, h1, h⟩ := Res.bind_eq_ok.1 h
      obtain ⟨e1, ds, m, eo⟩ := epochBody_spec h1
      subst e1
      simp only [Bool.false_eq_true, if_false] at h
      exact (epochLoop_between h).trans eo.between
    · cases h
      rfl

/-- **C74**: after every `train` that returns, whatever was set before, `getNumberOfTrainingsBetweenTwoEvaluations()` is the number of
training examples. -/
theorem C74_between (env : Env F) (wait : Wait F) (b ef : Int) (fuel : Nat) (r r' : Run F) (h : r.train env wait b ef fuel = .ok r') :
    r'.snn.getNumberOfTrainingsBetweenTwoEvaluations = r.data.training.size := by
  obtain ⟨hb, hi, r1, r2, h1, h2, rfl⟩ := train_pieces h
  obtain ⟨b', rfl⟩ : ∃ b' : Nat, b = (b' : Int) := ⟨b.toNat, by omega⟩
  have k := epochLoop_between h2
  refine Eq.trans (b := r1.snn.numberOfTrainingsBetweenTwoEvaluations) k ?_
  split at h1
  · rw [(evaluate_frame h1).between]; rfl
  · cases h1; rfl

/-- **C74 is false**: after `train(data, N_ep)` that returns without a NaN, `getCurrentEpoch()` is N + 1. For every N ≥ 1, network and data. -/
theorem C74_epoch_refuted (hlit : fle (lit 0 : F) (lit (-1)) = false) (env : Env F) (N : Nat) (hN : 1 ≤ N) (hN2 : N < 2 ^ 31)
    (b ef : Int) (fuel : Nat) (r r' : Run F) (h : r.train env (litEp N) b ef fuel = .ok r') (hnan : r'.snn.net.outputNan = false) :
    r'.snn.getCurrentEpoch = (N : Int) + 1 ∧ r'.snn.getCurrentEpoch ≠ N := by
  have hcf : ClockFree (litEp N : Wait F) := by
    intro t t' e a m
    have e1 : (litEp N : Wait F).op = .noneOp := rfl
    have e4 : (litEp N : Wait F).duration = -1 := rfl
    have hne : ¬ (WaitOp.noneOp = WaitOp.andOp) := by decide
    unfold Wait.isOver
    simp only [e1, e4, if_neg hne]
    simp
  obtain ⟨h1, _⟩ := C74_after_train_partial env _ hcf b ef fuel r r' h hnan
  obtain ⟨h2, _⟩ := C20_epochs hlit env N hN hN2 b ef fuel r r' h hnan
  have h3 : (epochsMade r'.trace : Int) = epochsMade r.trace + N := by
    unfold epochsMade
    rw [h2, List.filter_append, List.length_append, epochsMade_replicate]
    push_cast; rfl
  rw [h1, h3]
  omega

/-- **C74**, the setter: what is set is what is read … -/
theorem C74_set_get_partial (s : Snn F) (v : Int) : (s.setNumberOfTrainingsBetweenTwoEvaluations v).getNumberOfTrainingsBetweenTwoEvaluations = v := rfl

/-- … **but it has no effect on any training**: `train` after `setNumberOfTrainingsBetweenTwoEvaluations(v)` is `train` without it, and
overwrites the value (StraightforwardNeuralNetwork.cpp:93). -/
theorem C74_setter_refuted (env : Env F) (wait : Wait F) (b ef : Int) (fuel : Nat) (r : Run F) (v : Int) :
    ({ r with snn := r.snn.setNumberOfTrainingsBetweenTwoEvaluations v }).train env wait b ef fuel = r.train env wait b ef fuel := rfl

/-- **C74**, the position after a call of `evaluate`: it is not 0 but the number of testing examples. -/
theorem C74_index_refuted (env : Env F) (r r' : Run F) (h : r.evaluate env = .ok r') (hnan : r'.snn.net.outputNan = false) :
    r'.snn.getCurrentIndex = r.data.testing.size := by
  unfold Run.evaluate at h
  obtain ⟨⟨st, s⟩, h1, h⟩ := Res.bind_eq_ok.1 h
  obtain ⟨_, hf⟩ := evaluateLoop_frame h1
  simp only at h
  rcases hf with ⟨e1, _, _, e2⟩ | ⟨e1, e2, _⟩
  · subst e1
    simp only [Bool.false_eq_true, if_false] at h
    split at h <;> cases h <;> simpa [Snn.getCurrentIndex, Run.saveSync] using e2
  · subst e1
    simp only [if_true] at h
    cases h
    rw [e2] at hnan
    cases hnan

end

/-! ### The hypotheses are met -/

example : trainedDense.snn.getCurrentEpoch = 3 ∧ trainedDense.snn.getCurrentIndex = 0 :=
  ⟨(C74_epoch_refuted rat_lit Demo.env 2 (by norm_num) (by norm_num) 1 1 100 _ _ trainedDense_eq (by decide +kernel)).1, by decide +kernel⟩

example : trainedDense.snn.getNumberOfTrainingsBetweenTwoEvaluations = 3 :=
  (C74_between _ _ _ _ _ _ _ trainedDense_eq).trans (by decide +kernel)

example : ∃ r', (Demo.run Demo.dense Demo.classification).evaluate Demo.env = .ok r' ∧ r'.snn.getCurrentIndex = 2 := by
  have h := Res.eq_get ((Demo.run Demo.dense Demo.classification).evaluate Demo.env) (by decide +kernel)
  exact ⟨_, h, (C74_index_refuted _ _ _ h (by decide +kernel)).trans (by decide +kernel)⟩

end Snn.CountersProps
