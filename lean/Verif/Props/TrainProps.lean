import Verif.Proofs.TrainProofs
import Verif.Props.InferenceProps
import Verif.Props.StatProps
import Verif.Proofs.WaitProofs
import Mathlib.Tactic.FieldSimp
import Verif.Demo.Demo

/-!
# C04, C20–C25, C57: training and evaluation
-/

set_option linter.all false

namespace Snn.TrainProps

open Snn.Spec Snn.StatSpec Snn.TrainSpec Snn.TrainProofs

section
variable {F : Type} [Flt F] [FTrans F] [Add F] [Sub F] [Mul F] [Div F] [Neg F]

/-! ### C04 -/

/-- **C04**, for every carrier, network, data and criterion: in one epoch with batch size `b` on `n` examples the training
positions are 0, b, 2b, … in this order, after one shuffle, each reading the batch of the shuffled data; there are ⌊n/b⌋ of
them unless the epoch is cut short, which only a stop request, a NaN or the criterion does. -/
theorem C04_epoch (env : Env F) (wait : Wait F) (b : Nat) (hb : 1 ≤ b) (ef : Int) (fuel : Nat) (r r' : Run F) (ret : Bool)
    (n : Nat) (hn : r.snn.numberOfTrainingsBetweenTwoEvaluations = n)
    (h : r.epochBody env wait b ef fuel = .ok (ret, r')) :
    ∃ ds m, r.data.shuffle (env.rng r.snn.epoch) = .ok ds ∧ m ≤ n / b ∧
      steps r'.trace = steps r.trace ++ none :: (List.range m).map (fun k => some ((k * b : Nat) : Int)) ∧
      (∃ evs evals, r'.trace = evals ++ evs ++ .shuffled :: r.trace ∧ (∀ ev ∈ evs, Reads b ds ev) ∧ evs.length = m ∧
        steps evals = []) ∧
      (m = n / b ∨ r'.snn.wantToStopTraining = true ∨ r'.snn.net.outputNan = true ∨
        ∃ t, wait.isOver (env.clock t) r.snn.epoch r.snn.net.stats.globalRate r.snn.net.stats.mae = true) := by
  obtain ⟨e1, ds, m, eo⟩ := epochBody_spec h
  obtain ⟨evs, evals, t1, t2, t3, t4, t5, t6, t7, t8⟩ := eo.trace
  have hfit := eo.fits
  have hstop := eo.stop
  rw [hn] at hfit hstop
  have h1 : m * b ≤ n := by
    rcases hfit with rfl | q
    · simp
    · exact_mod_cast q
  have hle : m ≤ n / b := (Nat.le_div_iff_mul_le (by omega)).2 h1
  refine ⟨ds, m, eo.shuffled, hle, ?_, ⟨evs, evals, t1, t2, ?_, t5⟩, ?_⟩
  · have e1 : (evals ++ evs ++ Event.shuffled :: r.trace) = evals ++ (evs ++ ([Event.shuffled] ++ r.trace)) := by simp
    rw [t1, e1, steps_append, steps_append, steps_append, t5, t3]
    simp [steps, mark]
  · have : (steps evs).length = evs.length := by
      have hall : ∀ ev ∈ evs, (mark ev).isSome = true := by
        intro ev hev
        have := t2 ev hev
        cases ev <;> simp_all [Reads, mark]
      have : ∀ (l : List (Event F)), (∀ ev ∈ l, (mark ev).isSome = true) → (l.filterMap mark).length = l.length := by
        intro l hl
        induction l with
        | nil => rfl
        | cons a l ih =>
          have h1 := hl a (List.mem_cons_self ..)
          obtain ⟨v, hv⟩ := Option.isSome_iff_exists.1 h1
          rw [List.filterMap_cons, hv]
          simp [ih fun e he => hl e (List.mem_cons_of_mem _ he)]
      unfold steps
      rw [this _ (by simpa using hall)]
      simp
    rw [← this, t3]; simp
  · rcases hstop with q | q
    · left
      apply le_antisymm hle
      rw [← Nat.lt_add_one_iff, Nat.div_lt_iff_lt_mul (by omega)]
      have : ((n : Nat) : Int) < ((m * b + b : Nat) : Int) := by push_cast; push_cast at q; exact q
      have := Int.ofNat_lt.1 this
      linarith [Nat.succ_mul m b]
    · exact Or.inr q

/-- **C04**, coverage: the batches at 0, b, 2b, …, of which there are ⌊n/b⌋, stay below n, and every position below b⌊n/b⌋ is
in exactly one of them. -/
theorem C04_cover (b n : Nat) (hb : 1 ≤ b) :
    (∀ k < n / b, k * b + b ≤ n) ∧ ∀ p < b * (n / b), ∃! k, k < n / b ∧ k * b ≤ p ∧ p < k * b + b := by
  refine ⟨fun k hk => ?_, fun p hp => ⟨p / b, ⟨?_, ?_, ?_⟩, ?_⟩⟩
  · have h1 : (k + 1) * b ≤ n / b * b := Nat.mul_le_mul_right b hk
    have h2 := Nat.div_mul_le_self n b
    linarith [Nat.succ_mul k b]
  · exact (Nat.div_lt_iff_lt_mul (by omega)).2 (by rw [Nat.mul_comm]; exact hp)
  · exact Nat.div_mul_le_self p b
  · have := Nat.lt_div_mul_add (a := p) (b := b) (by omega)
    exact this
  · rintro k ⟨_, h1, h2⟩
    rw [eq_comm, Nat.div_eq_iff (by omega)]
    constructor <;> omega

/-! ### C20, C21, C23 -/

/-- The `train` call has an accepted request. -/
theorem validData_ok {s : Snn F} {d : Data F} {b : Int} (h : s.validData d b = .ok ()) : 1 ≤ b := by
  unfold Snn.validData at h
  obtain ⟨no, _, h⟩ := Res.bind_eq_ok.1 h
  obtain ⟨ni, _, h⟩ := Res.bind_eq_ok.1 h
  split at h
  · cases h
  · split at h
    · cases h
    · split at h
      · cases h
      · rename_i hb; omega

/-- What `train` does, in pieces. -/
theorem train_pieces {env : Env F} {wait : Wait F} {b ef : Int} {fuel : Nat} {r r' : Run F}
    (h : r.train env wait b ef fuel = .ok r') :
    1 ≤ b ∧ r.snn.isIdle = true ∧ ∃ r1 r2,
      (if ef > 0 then ({ r with snn := { r.snn with wantToStopTraining := true } } : Run F).begin.evaluate env
        else .ok ({ r with snn := { r.snn with wantToStopTraining := true } } : Run F).begin) = .ok r1 ∧
      epochLoop env wait b ef fuel fuel { r1 with snn := { r1.snn with epoch := 1 } } = .ok (false, r2) ∧
      r' = { r2 with snn := r2.snn.resetTrainingValues } := by
  unfold Run.train at h
  obtain ⟨⟨⟩, hv, h⟩ := Res.bind_eq_ok.1 h
  have hb := validData_ok hv
  split at h
  · cases h
  rename_i hi
  unfold Run.trainSync at h
  obtain ⟨r1, h1, h⟩ := Res.bind_eq_ok.1 h
  obtain ⟨⟨ret, r2⟩, h2, h⟩ := Res.bind_eq_ok.1 h
  obtain ⟨b', rfl⟩ : ∃ b' : Nat, b = (b' : Int) := ⟨b.toNat, by omega⟩
  obtain ⟨e, _⟩ := epochLoop_frame h2
  subst e
  simp only [Bool.false_eq_true, if_false] at h
  cases h
  exact ⟨hb, by simpa using hi, r1, r2, h1, h2, rfl⟩

/-- **C21**, for every carrier, network, data and criterion without duration: when `train` returns without a NaN, it made some
number `E` of complete epochs; the evaluations are those of the epochs 0 … E that are multiples of the evaluation frequency;
and with `st k` the statistics of the last evaluation made by the end of epoch `k`, the criterion was not met at the boundaries
before the epochs 1 … E and is met after the epoch E. -/
theorem C21_first_boundary (env : Env F) (wait : Wait F) (hcf : ClockFree wait) (b ef : Int) (fuel : Nat) (r r' : Run F)
    (h : r.train env wait b ef fuel = .ok r') (hnan : r'.snn.net.outputNan = false) :
    ∃ (E : Nat) (st : Nat → Stats F),
      steps r'.trace = steps r.trace ++ (List.replicate E (epochSteps b.toNat r.data.training.size)).flatten ∧
      evaluations r'.trace = evaluations r.trace ++
        ((List.range (E + 1)).filter fun (k : Nat) => decide (0 < ef ∧ (k : Int).tmod ef = 0)).map (fun (k : Nat) => ((k : Int), st k)) ∧
      (¬ 0 < ef → st 0 = r.snn.net.stats) ∧
      (∀ k < E, ¬ (0 < ef ∧ ((k + 1 : Nat) : Int).tmod ef = 0) → st (k + 1) = st k) ∧
      (∀ k < E, wait.isOver 0 ((k + 1 : Nat) : Int) (st k).globalRate (st k).mae = false) ∧
      wait.isOver 0 ((E + 1 : Nat) : Int) (st E).globalRate (st E).mae = true ∧
      r'.snn.net.stats = st E ∧ r'.snn.epoch = ((E + 1 : Nat) : Int) ∧
      (r.data.typeOfTemporal ≠ .timeSeries → r'.snn.net.numberOfTraining =
        r.snn.net.numberOfTraining + ((E * (r.data.training.size / b.toNat) : Nat) : Int)) := by
  obtain ⟨hb, hi, r1, r2, h1, h2, rfl⟩ := train_pieces h
  obtain ⟨b', rfl⟩ : ∃ b' : Nat, b = (b' : Int) := ⟨b.toNat, by omega⟩
  simp only [Snn.resetTrainingValues] at hnan ⊢
  simp only [Int.toNat_natCast]
  have hm := (epochLoop_frame h2).2
  have hn1 : r1.snn.net.outputNan = false := by
    by_contra hx
    have := hm (by simpa using hx)
    rw [hnan] at this; cases this
  -- the first evaluation
  have key : r1.snn.numberOfTrainingsBetweenTwoEvaluations = (r.data.training.size : Int) ∧ r1.snn.wantToStopTraining = false ∧
      r1.data = r.data ∧ r1.snn.net.numberOfTraining = r.snn.net.numberOfTraining ∧ steps r1.trace = steps r.trace ∧
      ((0 < ef ∧ evaluations r1.trace = evaluations r.trace ++ [(((0 : Nat) : Int), r1.snn.net.stats)]) ∨
        (¬ 0 < ef ∧ evaluations r1.trace = evaluations r.trace ∧ r1.snn.net.stats = r.snn.net.stats)) := by
    split at h1
    · rename_i hef
      have eo := evaluate_frame h1
      refine ⟨by rw [eo.between]; rfl, ?_, by rw [eo.data]; rfl, by rw [eo.training]; rfl, by rw [eo.steps]; rfl, Or.inl ⟨hef, ?_⟩⟩
      · rcases eo.flags with f | f
        · rw [f.1]; rfl
        · rw [hn1] at f; cases f.1
      · rw [eo.evaluations, eo.epoch]; rfl
    · rename_i hef
      cases h1
      exact ⟨rfl, rfl, rfl, rfl, rfl, Or.inr ⟨hef, rfl, rfl⟩⟩
  obtain ⟨k1, k2, k3, k4, k5, k6⟩ := key
  obtain ⟨_, E, st, out⟩ := epochLoop_spec (e := 1) (n := r.data.training.size) (by omega) hcf (by simp) (by exact k1) (by exact k2)
    h2 hnan
  refine ⟨E, st, ?_, ?_, ?_, ?_, ?_, ?_, out.last, ?_, ?_⟩
  · rw [out.steps]; simp only [k5]
  · rw [out.evals, List.range_succ_eq_map, List.filter_cons]
    have e4 : (((List.range E).map Nat.succ).filter fun (k : Nat) => decide (0 < ef ∧ (k : Int).tmod ef = 0)).map
        (fun (k : Nat) => ((k : Int), st k)) = evalList ef 1 E st := by
      unfold evalList
      rw [List.filter_map, List.map_map]
      have : ∀ k : Nat, Nat.succ k = 1 + k := by intro k; omega
      congr 1
      · funext k; simp only [Function.comp]; rw [this k]; simp [Nat.add_comm]
      · congr 1; funext k; simp only [Function.comp]; rw [this k]
    have hst : st 0 = r1.snn.net.stats := out.first
    rcases k6 with ⟨q1, q2⟩ | ⟨q1, q2, q3⟩
    · rw [if_pos (by simpa using q1), List.map_cons, e4]
      simp only [q2, List.append_assoc, List.singleton_append, hst]
    · rw [if_neg (by simpa using q1), e4]
      simp only [q2]
  · intro hef
    rcases k6 with ⟨q1, q2⟩ | ⟨q1, q2, q3⟩
    · exact absurd q1 hef
    · rw [out.first]; exact q3
  · intro k hk hne
    exact out.same k hk (by rw [Nat.add_comm 1 k]; exact hne)
  · intro k hk
    have := out.notOver k hk
    rw [Nat.add_comm 1 k] at this; exact this
  · have := out.over
    rw [Nat.add_comm 1 E] at this; exact this
  · rw [out.epoch, Nat.add_comm 1 E]
  · intro hts
    have := out.training (by simp only [k3]; exact hts)
    rw [this]; simp only [k4]

/-- **C20**, for every carrier in which -1 < 0, every network and data: `train(data, N_ep, b)` that returns without a NaN made
exactly N epochs of ⌊n/b⌋ steps, and `getNumberOfTraining()` grew by N⌊n/b⌋ on data that are always trained. -/
theorem C20_epochs (hlit : fle (lit 0 : F) (lit (-1)) = false) (env : Env F) (N : Nat) (hN : 1 ≤ N) (hN2 : N < 2 ^ 31)
    (b ef : Int) (fuel : Nat) (r r' : Run F) (h : r.train env (litEp N) b ef fuel = .ok r') (hnan : r'.snn.net.outputNan = false) :
    steps r'.trace = steps r.trace ++ (List.replicate N (epochSteps b.toNat r.data.training.size)).flatten ∧
    (r.data.typeOfTemporal ≠ .timeSeries → r'.snn.net.numberOfTraining =
      r.snn.net.numberOfTraining + ((N * (r.data.training.size / b.toNat) : Nat) : Int)) := by
  have hepochs : (litEp N : Wait F).epochs = (N : Int) := by
    simp only [litEp]
    exact WaitSpec.toInt32_small hN2
  have hover : ∀ t e a m, (litEp N : Wait F).isOver t e a m = decide (e > (N : Int)) := by
    intro t e a m
    have e1 : (litEp N : Wait F).op = .noneOp := rfl
    have e2 : (litEp N : Wait F).accuracy = lit (-1) := rfl
    have e3 : (litEp N : Wait F).mae = lit (-1) := rfl
    have e4 : (litEp N : Wait F).duration = -1 := rfl
    unfold Wait.isOver
    have hne : ¬ (WaitOp.noneOp = WaitOp.andOp) := by decide
    simp only [e1, e2, e3, e4, hepochs, hlit, if_neg hne]
    have : ((decide (e > (N : Int)) && decide (e > 0)) && decide ((N : Int) ≥ 0)) = decide (e > (N : Int)) := by
      rw [Bool.eq_iff_iff]
      simp only [Bool.and_eq_true, decide_eq_true_eq]
      omega
    simp
    omega
  obtain ⟨E, st, c1, c2, c3, c4, c5, c6, c7, c8, c9⟩ := C21_first_boundary env _ (fun t t' e a m => by rw [hover, hover]) b ef
    fuel r r' h hnan
  have hE : E = N := by
    rw [hover] at c6
    simp only [decide_eq_true_eq] at c6
    apply le_antisymm
    · by_contra hx
      have := c5 N (by omega)
      rw [hover] at this
      simp only [decide_eq_false_iff_not] at this
      omega
    · omega
  subst hE
  exact ⟨c1, c9⟩

/-- **C23**: when `train` returns, whatever ended it, the network is idle, no stop request is pending, saving is accepted, and a
new `train` with valid data starts training. -/
theorem C23_idle (env : Env F) (wait : Wait F) (b ef : Int) (fuel : Nat) (r r' : Run F)
    (h : r.train env wait b ef fuel = .ok r') :
    r'.snn.isIdle = true ∧ r'.snn.wantToStopTraining = false ∧ (∀ path, (r'.saveAs path).isOk = true) ∧
    ∀ (env2 : Env F) (wait2 : Wait F) (b2 ef2 : Int) (fuel2 : Nat) (d2 : Data F), r'.snn.validData d2 b2 = .ok () →
      ({ r' with data := d2 }).train env2 wait2 b2 ef2 fuel2 =
        ({ r' with data := d2, snn := { r'.snn with wantToStopTraining := true } }).trainSync env2 wait2 b2 ef2 fuel2 := by
  obtain ⟨hb, hi, r1, r2, h1, h2, rfl⟩ := train_pieces h
  refine ⟨rfl, rfl, fun path => rfl, ?_⟩
  intro env2 wait2 b2 ef2 fuel2 d2 hv
  unfold Run.train
  simp only at hv ⊢
  rw [hv]
  rfl

/-! ### C22 -/

/-- **C22** for `train`: it throws (and so returns no new state) exactly on data whose sizes do not match the network, batch
sizes below 1, above the number of training data, or different from 1 for temporal data — or when the network is training. -/
theorem C22_train_partial (env : Env F) (wait : Wait F) (b ef : Int) (fuel : Nat) (r : Run F) (ni no : Int)
    (hi : r.snn.net.getNumberOfInputs = .ok ni) (ho : r.snn.net.getNumberOfOutputs = .ok no)
    (hbad : (r.data.numberOfLabels : Int) ≠ no ∨ (r.data.sizeOfData : Int) ≠ ni ∨ b < 1 ∨ b > r.data.training.size ∨
      (b ≠ 1 ∧ r.data.typeOfTemporal ≠ .nonTemporal) ∨ r.snn.isIdle = false) :
    (r.train env wait b ef fuel).isThrow = true := by
  unfold Run.train Snn.validData
  rw [hi, ho]
  simp only [Res.ok_bind]
  by_cases h1 : (r.data.numberOfLabels : Int) ≠ no ∨ (r.data.sizeOfData : Int) ≠ ni
  · rw [if_pos h1]; rfl
  · rw [if_neg h1]
    by_cases h2 : b ≠ 1 ∧ r.data.typeOfTemporal ≠ .nonTemporal
    · rw [if_pos h2]; rfl
    · rw [if_neg h2]
      by_cases h3 : b < 1
      · rw [if_pos h3]; rfl
      · rw [if_neg h3]
        by_cases h4 : b > r.data.training.size
        · rw [if_pos h4]; rfl
        · rw [if_neg h4]
          have : r.snn.isIdle = false := by tauto
          simp [this, Res.isThrow]

/-- **C22**, the other direction: a valid request on an idle network is accepted. -/
theorem C22_accepted (env : Env F) (wait : Wait F) (b ef : Int) (fuel : Nat) (r : Run F) (ni no : Int)
    (hi : r.snn.net.getNumberOfInputs = .ok ni) (ho : r.snn.net.getNumberOfOutputs = .ok no)
    (h1 : (r.data.numberOfLabels : Int) = no) (h2 : (r.data.sizeOfData : Int) = ni) (h3 : 1 ≤ b) (h4 : b ≤ r.data.training.size)
    (h5 : b = 1 ∨ r.data.typeOfTemporal = .nonTemporal) (h6 : r.snn.isIdle = true) :
    r.train env wait b ef fuel = ({ r with snn := { r.snn with wantToStopTraining := true } }).trainSync env wait b ef fuel := by
  unfold Run.train Snn.validData
  rw [hi, ho]
  simp only [Res.ok_bind]
  rw [if_neg (by simp [h1, h2]), if_neg (by tauto), if_neg (by omega), if_neg (by omega)]
  simp [h6]

end

/-! ### The hypotheses are met

A dense network (Dropout, ReLU) trained for two epochs on three examples. -/

open Demo in
/-- The state after a training of two epochs with batches of one example. -/
def trainedDense : Run ℚ := ((run dense classification).train env (litEp 2) 1 1 100).get (by decide +kernel)

theorem trainedDense_eq : (Demo.run Demo.dense Demo.classification).train Demo.env (litEp 2) 1 1 100 = .ok trainedDense := Res.eq_get _ _

theorem rat_lit : fle (lit 0 : ℚ) (lit (-1)) = false := by decide +kernel

/-- C20 on this training: 2 epochs of 3 steps, each after a shuffle. -/
example : steps trainedDense.trace = [none, some 0, some 1, some 2, none, some 0, some 1, some 2] ∧ trainedDense.snn.net.numberOfTraining = 6 := by
  obtain ⟨h1, h2⟩ := C20_epochs rat_lit Demo.env 2 (by norm_num) (by norm_num) 1 1 100 _ _ trainedDense_eq (by decide +kernel)
  exact ⟨h1, (h2 (by decide +kernel)).trans (by decide +kernel)⟩

/-- C21 applies to it: the criterion has no duration and the network is not NaN; C23: it is idle again. -/
example : ClockFree (litEp 2 : Wait ℚ) ∧ trainedDense.snn.net.outputNan = false ∧ trainedDense.snn.isIdle = true :=
  ⟨fun t t' e a m => by simp [Wait.isOver, litEp, Wait.default], by decide +kernel, (C23_idle _ _ _ _ _ _ _ trainedDense_eq).1⟩

/-- C04: an epoch with batches of two examples returns, and it has one step. -/
example : ∃ ret r', Run.epochBody Demo.env (litEp 2) 2 1 100 { Demo.run Demo.dense Demo.classification with
    snn := { Demo.dense with numberOfTrainingsBetweenTwoEvaluations := 3, epoch := 1 } } = .ok (ret, r') ∧ steps r'.trace = [none, some 0] :=
  ⟨_, _, Res.eq_get _ (by decide +kernel), by decide +kernel⟩

/-- C22: the sizes are those of the network, a batch of 4 examples is too large, one of 3 is not. -/
example : Demo.dense.net.getNumberOfInputs = .ok 2 ∧ Demo.dense.net.getNumberOfOutputs = .ok 2 ∧
    ((Demo.run Demo.dense Demo.classification).train Demo.env (litEp 1) 4 1 100).isThrow = true ∧
    ((Demo.run Demo.dense Demo.classification).train Demo.env (litEp 1) 3 1 100).isOk = true :=
  ⟨by decide +kernel, by decide +kernel,
    C22_train_partial _ _ _ _ _ _ 2 2 (by decide +kernel) (by decide +kernel) (Or.inr (Or.inr (Or.inr (Or.inl (by decide +kernel))))), by decide +kernel⟩

end Snn.TrainProps
