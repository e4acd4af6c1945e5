import Verif.Proofs.OverflowProofs
import Verif.Props.TrainProps
import Verif.Props.SafeProps
import Verif.Props.ConvergeProps
import Verif.Proofs.LearnProofs

/-!
# C100: the `int` counters of a training
-/

set_option linter.all false

namespace Snn.OverflowProps

open Snn.Spec Snn.TrainSpec Snn.TrainProofs Snn.Overflow
open Snn.HistoryProps Snn.SafeProps

section
variable {F : Type} [Flt F] [FTrans F] [Add F] [Sub F] [Mul F] [Div F] [Neg F]

/-- **C100**, the outcomes: for every carrier, network, data, criterion, batch size and frequency, a `train` that counts with the C++
`int` has the outcome of the one that counts with unbounded integers, or runs into a signed overflow. So whatever is proved about the
values returned by the unbounded model holds for the `int` counters. -/
theorem C100_refines (env : Env F) (wait : Wait F) (b ef : Int) (fuel : Nat) (r : Run F) :
    r.trainInt env wait b ef fuel = r.train env wait b ef fuel ∨ r.trainInt env wait b ef fuel = .ub "signed integer overflow" :=
  train_sim env wait b ef fuel r

/-- **C100**, proved part: no counter overflows if the criterion is over from some epoch that is an `int`, and if the greatest position
the inner loop compares, `(⌊n / b⌋ + 1) b`, is an `int`. Missing: the other sizes and numbers of epochs, for which it is false
(`C100_index_refuted`, `C100_epochs_refuted`). -/
theorem C100_no_overflow_partial (env : Env F) (wait : Wait F) (E : Int) (hover : OverFrom wait E) (hE : E < 2 ^ 31) (b ef : Int) (fuel : Nat)
    (r : Run F) (hf : (r.data.training.size / b.toNat + 1) * b.toNat < 2 ^ 31) :
    r.trainInt env wait b ef fuel = r.train env wait b ef fuel :=
  train_eq hf hE hover

/-- **C100**, proved part, as a user would use it: at most 2³⁰ − 1 examples, at most 2³¹ − 2 epochs: no overflow. -/
theorem C100_usual_partial (env : Env F) (N : Nat) (hN : N < 2 ^ 31 - 1) (b ef : Int) (fuel : Nat) (r : Run F)
    (hn : r.data.training.size < 2 ^ 30) : r.trainInt env (litEp N) b ef fuel = r.train env (litEp N) b ef fuel := by
  by_cases hb : b.toNat ≤ r.data.training.size
  · refine train_eq (E := N + 1) ?_ (by omega) (overFrom_ep N (by omega))
    have := Nat.div_mul_le_self r.data.training.size b.toNat
    rw [Nat.add_mul]
    omega
  · -- the batch size is rejected
    have hrej : r.snn.validData r.data b ≠ .ok () := fun h => hb (by have := (batch_valid h).2; omega)
    unfold Run.trainInt Run.train
    cases h : r.snn.validData r.data b with
    | ok u => exact absurd h hrej
    | throw m => rfl
    | ub w => rfl

/-- The pieces of a `train` with `int` counters that returns. -/
theorem trainInt_pieces {env : Env F} {wait : Wait F} {b ef : Int} {fuel : Nat} {r r' : Run F} (h : r.trainInt env wait b ef fuel = .ok r') :
    1 ≤ b ∧ ∃ r1 ret r2,
      (if ef > 0 then ({ r with snn := { r.snn with wantToStopTraining := true } } : Run F).begin.evaluate env
        else .ok ({ r with snn := { r.snn with wantToStopTraining := true } } : Run F).begin) = .ok r1 ∧
      epochLoopInt env wait b ef fuel fuel { r1 with snn := { r1.snn with epoch := 1 } } = .ok (ret, r2) ∧
      r' = (if ret then r2 else { r2 with snn := r2.snn.resetTrainingValues }) := by
  unfold Run.trainInt at h
  obtain ⟨⟨⟩, hv, h⟩ := Res.bind_eq_ok.1 h
  have hb := (batch_valid hv).1
  split at h
  · cases h
  unfold Run.trainSyncInt at h
  obtain ⟨r1, h1, h⟩ := Res.bind_eq_ok.1 h
  obtain ⟨⟨ret, r2⟩, h2, h⟩ := Res.bind_eq_ok.1 h
  refine ⟨hb, r1, ret, r2, h1, h2, ?_⟩
  cases ret <;> (cases h; rfl)

/-- **C100 is false for 2147483647 epochs**: `train(data, 2147483647_ep)` has no defined outcome but a stop by NaN: to see that the
epochs are over, it must increment the `int` epoch beyond its range. -/
theorem C100_epochs_refuted (hlit : fle (lit 0 : F) (lit (-1)) = false) (env : Env F) (b ef : Int) (fuel : Nat) (r r' : Run F)
    (h : r.trainInt env (litEp 2147483647) b ef fuel = .ok r') : r'.snn.net.outputNan = true := by
  by_contra hnan
  simp only [Bool.not_eq_true] at hnan
  obtain ⟨hb1, r1, ret, r2, h1, h2, h3⟩ := trainInt_pieces h
  have ht : r.train env (litEp 2147483647) b ef fuel = .ok r' := by
    rcases C100_refines env (litEp 2147483647) b ef fuel r with e | e
    · rw [← e]; exact h
    · rw [h] at e; cases e
  have hover : ∀ t e a m, (litEp 2147483647 : Wait F).isOver t e a m = decide (e > (2147483647 : Int)) := by
    intro t e a m
    have he : (litEp 2147483647 : Wait F).epochs = 2147483647 := by
      simp only [litEp]; exact WaitSpec.toInt32_small (by norm_num)
    have e1 : (litEp 2147483647 : Wait F).op = .noneOp := rfl
    have e2 : (litEp 2147483647 : Wait F).accuracy = lit (-1) := rfl
    have e3 : (litEp 2147483647 : Wait F).mae = lit (-1) := rfl
    have e4 : (litEp 2147483647 : Wait F).duration = -1 := rfl
    unfold Wait.isOver
    have hne : ¬ (WaitOp.noneOp = WaitOp.andOp) := by decide
    simp only [e1, e2, e3, e4, he, hlit, if_neg hne]
    simp
    omega
  obtain ⟨E, st, c1, c2, c3, c4, c5, c6, c7, c8, c9⟩ := TrainProps.C21_first_boundary env _ (fun t t' e a m => by rw [hover, hover]) b ef fuel r r' ht hnan
  rw [hover] at c6
  simp only [decide_eq_true_eq] at c6
  have hret : ret = false := by
    rcases epochLoop_sim env (litEp 2147483647 : Wait F) b ef fuel fuel { r1 with snn := { r1.snn with epoch := 1 } } with e | e
    · obtain ⟨b', rfl⟩ : ∃ b' : Nat, b = (b' : Int) := ⟨b.toNat, by omega⟩
      rw [h2] at e
      exact (epochLoop_frame e.symm).1
    · rw [h2] at e; cases e
  subst hret
  have h4 : r2.snn.epoch < 2 ^ 31 := epochLoop_epoch (by norm_num) h2 rfl
  have h5 : r'.snn.epoch = r2.snn.epoch := by rw [h3]; rfl
  rw [← h5, c8] at h4
  omega

/-- A literal of epochs is not over at an epoch that is not greater. -/
theorem not_over (hlit : fle (lit 0 : F) (lit (-1)) = false) {N : Nat} (hN : N < 2 ^ 31) {e : Int} (he : e ≤ N) (t : Int) (a m : F) :
    (litEp N : Wait F).isOver t e a m = false := by
  have h0 : (litEp N : Wait F).epochs = N := by simp only [litEp]; exact WaitSpec.toInt32_small hN
  have e1 : (litEp N : Wait F).op = .noneOp := rfl
  have e2 : (litEp N : Wait F).accuracy = lit (-1) := rfl
  have e3 : (litEp N : Wait F).mae = lit (-1) := rfl
  have e4 : (litEp N : Wait F).duration = -1 := rfl
  unfold Wait.isOver
  have hne : ¬ (WaitOp.noneOp = WaitOp.andOp) := by decide
  simp only [e1, e2, e3, e4, h0, hlit, if_neg hne]
  simp
  omega

/-- **C100 is false for many examples**: when `(⌊n / b⌋ + 1) b` is not an `int`, a `train` of at least one epoch has no defined outcome
but a stop by NaN: the condition of the inner loop computes this sum at the end of the first epoch. -/
theorem C100_index_refuted (hlit : fle (lit 0 : F) (lit (-1)) = false) (env : Env F) (N : Nat) (hN : 1 ≤ N) (hN2 : N < 2 ^ 31) (b ef : Int) (fuel : Nat)
    (r r' : Run F) (hn : 2 ^ 31 ≤ (r.data.training.size / b.toNat + 1) * b.toNat) (h : r.trainInt env (litEp N) b ef fuel = .ok r') :
    r'.snn.net.outputNan = true := by
  obtain ⟨hb, r1, ret, r2, h1, h2, h3⟩ := trainInt_pieces h
  obtain ⟨b', rfl⟩ : ∃ b' : Nat, b = (b' : Int) := ⟨b.toNat, by omega⟩
  simp only [Int.toNat_natCast] at hn
  suffices hs : r2.snn.net.outputNan = true by
    rw [h3]; split
    · exact hs
    · exact hs
  have key : r1.snn.numberOfTrainingsBetweenTwoEvaluations = (r.data.training.size : Int) ∧ (r1.snn.net.outputNan = true ∨ r1.snn.wantToStopTraining = false) := by
    split at h1
    · have eo := evaluate_frame h1
      refine ⟨by rw [eo.between]; rfl, ?_⟩
      rcases eo.flags with f | f
      · exact Or.inr (by rw [f.1]; rfl)
      · exact Or.inl f.1
    · cases h1
      exact ⟨rfl, Or.inr rfl⟩
  obtain ⟨k1, k2⟩ := key
  by_cases hnan : r1.snn.net.outputNan = true
  · exact epochLoop_nan (by exact hnan) h2
  simp only [Bool.not_eq_true] at hnan
  have hw : r1.snn.wantToStopTraining = false := by
    rcases k2 with k | k
    · rw [hnan] at k; cases k
    · exact k
  cases fuel with
  | zero => cases h2
  | succ fuel =>
    unfold epochLoopInt at h2
    simp only at h2
    split at h2
    · obtain ⟨⟨ret1, q⟩, g1, h2⟩ := Res.bind_eq_ok.1 h2
      have gq : q.snn.net.outputNan = true := by
        unfold Run.epochBodyInt at g1
        obtain ⟨ds, s1, g1⟩ := Res.bind_eq_ok.1 g1
        obtain ⟨⟨ret2, q2⟩, s2, g1⟩ := Res.bind_eq_ok.1 g1
        have := stepLoop_last (n := r.data.training.size) (by omega) (ds := ds) (k := 0) (SameButBuffers.refl _) (by simp) (by exact k1) (by exact hw)
          (fun t a m => not_over hlit hN2 (by show (1 : Int) ≤ N; omega) t a m) s2
        have nq : q2.snn.net.outputNan = true := by
          rcases this with e | e
          · exact e
          · omega
        simp only at g1
        split at g1
        · cases g1; exact nq
        · split at g1
          · obtain ⟨q3, s3, g1⟩ := Res.bind_eq_ok.1 g1
            cases g1
            exact (evaluate_frame s3).nan nq
          · cases g1; exact nq
      simp only at h2
      split at h2
      · cases h2; exact gq
      · obtain ⟨e, s4, h2⟩ := Res.bind_eq_ok.1 h2
        exact epochLoop_nan (by exact gq) h2
    · rename_i hc
      simp only [Run.continueTraining, hw, hnan, not_over hlit hN2 (show (1 : Int) ≤ N by omega)] at hc
      simp at hc

end

/-! ### Non-vacuity -/

/-- The data of `n` examples of one input and one expected output. -/
theorem many_data (n : Nat) (hn : 0 < n) : ∃ data : Data ℝ, Fitted 1 1 data ∧ data.training.size = n ∧ data.typeOfTemporal = .nonTemporal := by
  have hb : backOf (List.replicate n ([0] : List ℝ)) = .ok [0] := by
    unfold backOf
    rw [List.getLast?_replicate]
    simp [Nat.pos_iff_ne_zero.1 hn]
  have : ∃ data : Data ℝ, Data.make1 .regression (List.replicate n [0]) (List.replicate n [0]) .nonTemporal 0 = .ok data ∧
      data.training.size = n ∧ data.typeOfTemporal = .nonTemporal := by
    unfold Data.make1 Data.initialize
    simp only [hb, Res.ok_bind]
    unfold Data.makeTemporalComposite
    simp only [Data.blank, Res.ok_bind, Data.isValid, DSet.empty, Data.problemIsValid, Data.temporalIsValid]
    simp
  obtain ⟨data, h1, h2, h3⟩ := this
  refine ⟨data, .make1 h1 ⟨rfl, ?_, ?_⟩ (by intro h; cases h) (by intro h; cases h), h2, h3⟩
  · intro x hx; rw [List.eq_of_mem_replicate hx]; rfl
  · intro x hx; rw [List.eq_of_mem_replicate hx]; rfl

theorem outputForTraining_real {n n' : Net ℝ} {x y : List ℝ} {t : Bool} {d d' : Draws ℝ} (h : n.outputForTraining x t d = .ok (y, n', d'))
    (hn : n.outputNan = false) : n'.outputNan = false := by
  unfold Net.outputForTraining at h
  split at h
  · cases h
  · obtain ⟨⟨out, ls, d1⟩, _, h⟩ := Res.bind_eq_ok.1 h
    cases h
    simp [hn, Grad.hasBadValue_real]

/-- With real numbers no training meets a NaN. -/
theorem train_real {env : Env ℝ} {wait : Wait ℝ} {b ef : Int} {fuel : Nat} {r r' : Run ℝ} (h : r.train env wait b ef fuel = .ok r')
    (hn : r.snn.net.outputNan = false) : r'.snn.net.outputNan = false := by
  refine train_induct (P := fun n _ _ => n.outputNan = false) (fun n a t h => h) ?_ ?_ hn h
  · intro r r' b ret h0 _ h1
    unfold Run.trainStep at h1
    simp only [h0, Bool.false_eq_true, if_false] at h1
    obtain ⟨need, _, h1⟩ := Res.bind_eq_ok.1 h1
    obtain ⟨⟨x, data1⟩, _, h1⟩ := Res.bind_eq_ok.1 h1
    obtain ⟨first, _, h1⟩ := Res.bind_eq_ok.1 h1
    simp only at h1
    split at h1
    · obtain ⟨⟨y, data2⟩, _, h1⟩ := Res.bind_eq_ok.1 h1
      obtain ⟨⟨net, d⟩, h2, h1⟩ := Res.bind_eq_ok.1 h1
      cases h1
      show net.outputNan = false
      unfold Net.trainOnce at h2
      obtain ⟨⟨n1, d1⟩, h3, h2⟩ := Res.bind_eq_ok.1 h2
      cases h2
      unfold Net.backpropagation at h3
      obtain ⟨⟨out, n2, d2⟩, h4, h3⟩ := Res.bind_eq_ok.1 h3
      have := outputForTraining_real h4 h0
      simp only [this, Bool.false_eq_true, if_false] at h3
      obtain ⟨errors, _, h3⟩ := Res.bind_eq_ok.1 h3
      obtain ⟨layers, _, h3⟩ := Res.bind_eq_ok.1 h3
      cases h3
      rfl
    · obtain ⟨⟨out, net, d⟩, h2, h1⟩ := Res.bind_eq_ok.1 h1
      cases h1
      exact outputForTraining_real h2 h0
  · intro r r' h0 h1
    exact Converge.evaluate_nan h1 h0

theorem one_wf : WellFormed (linearArch ([1].map fun v : Nat => (v : Int)) 1) [1] [1] := by
  have g1 : GoodShape [1] := ⟨by simp, by simp, by simp⟩
  exact ⟨⟨_, _, rfl, .cons g1 (Fits.fullyConnected (n := 1) (by omega)) (.nil g1)⟩, by simp [linearArch]⟩

/-- A real network of one linear neuron, some `n` examples of one value, `N` epochs and batches of `b`: with unbounded counters the
training returns, without a NaN. -/
theorem unbounded_returns (n N b : Nat) (hb : 1 ≤ b) (hbn : b ≤ n) (hN : N < 2 ^ 31) : ∃ (r : Run ℝ) (fuel : Nat), r.data.training.size = n ∧
    (∀ env : Env ℝ, ∃ r', r.train env (litEp N) b 1 fuel = .ok r' ∧ r'.snn.net.outputNan = false) := by
  obtain ⟨snn, d', hm⟩ := ArchProps.C49_accepted_if one_wf (opt := { learningRate := 1 / 10, momentum := 0 }) (by norm_num) (by norm_num)
    (by norm_num) (by norm_num) (d := fun _ => 1 / 2) (by intro i; norm_num)
  obtain ⟨data, hd, hs, ht⟩ := many_data n (by omega)
  obtain ⟨hsafe, hidle⟩ := make_safe one_wf (by simp [EndsWithNeurons, linearArch]) hm
  have hnan : snn.net.outputNan = false := by
    obtain ⟨ns, hlin⟩ := ConvergeProps.make_lin one_wf hm
    exact hlin.nan
  let r : Run ℝ := { snn := snn, data := data, draws := fun _ => 0, ticks := 0, trace := [] }
  refine ⟨r, N + n + 2, hs, fun env => ?_⟩
  obtain ⟨r', h1, _⟩ := call_safe (r := r) (c := .train env data (litEp N) b 1 (N + n + 2))
    ⟨hd, by omega, by rw [hs]; omega, fun _ => ht, N + 1, overFrom_ep N hN, by omega, by rw [hs]; omega⟩ hsafe hidle
  exact ⟨r', h1, train_real (r := r) h1 hnan⟩

/-- Both refutations are about real trainings: with 2³⁰ examples in one batch, or with 2147483647 epochs, the unbounded model returns,
the `int` counters overflow. -/
example : ∃ (r : Run ℝ) (fuel : Nat), ∀ env : Env ℝ, (r.train env (litEp 1) 1073741824 1 fuel).isOk = true ∧
    r.trainInt env (litEp 1) 1073741824 1 fuel = .ub "signed integer overflow" := by
  obtain ⟨r, fuel, hs, h⟩ := unbounded_returns (2 ^ 30) 1 (2 ^ 30) (by norm_num) le_rfl (by norm_num)
  refine ⟨r, fuel, fun env => ?_⟩
  obtain ⟨r', h1, h2⟩ := h env
  push_cast at h1
  refine ⟨by rw [h1]; rfl, ?_⟩
  rcases C100_refines env (litEp 1) 1073741824 1 fuel r with e | e
  · rw [h1] at e
    have := C100_index_refuted (by norm_num [fle, lit]) env 1 le_rfl (by norm_num) 1073741824 1 fuel r r' (by rw [hs]; decide) e
    rw [h2] at this; cases this
  · exact e

example : ∃ (r : Run ℝ) (fuel : Nat), ∀ env : Env ℝ, (r.train env (litEp 2147483647) 1 1 fuel).isOk = true ∧
    r.trainInt env (litEp 2147483647) 1 1 fuel = .ub "signed integer overflow" := by
  obtain ⟨r, fuel, hs, h⟩ := unbounded_returns 3 2147483647 1 (by norm_num) (by norm_num) (by norm_num)
  refine ⟨r, fuel, fun env => ?_⟩
  obtain ⟨r', h1, h2⟩ := h env
  push_cast at h1
  refine ⟨by rw [h1]; rfl, ?_⟩
  rcases C100_refines env (litEp 2147483647) 1 1 fuel r with e | e
  · rw [h1] at e
    have := C100_epochs_refuted (by norm_num [fle, lit]) env 1 1 fuel r r' e
    rw [h2] at this; cases this
  · exact e

/-- And the hypotheses of the proved part are met: 1000 examples, 100 epochs, batches of 7. -/
example : ∃ (r : Run ℝ) (fuel : Nat), r.data.training.size < 2 ^ 30 ∧ ∀ env : Env ℝ, (r.trainInt env (litEp 100) 7 1 fuel).isOk = true := by
  obtain ⟨r, fuel, hs, h⟩ := unbounded_returns 1000 100 7 (by norm_num) (by norm_num) (by norm_num)
  refine ⟨r, fuel, by rw [hs]; norm_num, fun env => ?_⟩
  obtain ⟨r', h1, h2⟩ := h env
  rw [C100_usual_partial env 100 (by norm_num) 7 1 fuel r (by rw [hs]; norm_num)]
  push_cast at h1
  rw [h1]; rfl

end Snn.OverflowProps
