import Verif.Proofs.DeadlineProofs
import Verif.Props.WaitProps
import Verif.Props.AccuracyProps
import Verif.Props.OnlineProps

/-!
# C107: a time limit is respected
-/

set_option linter.all false

namespace Snn.DeadlineProps

open Snn.Spec Snn.Deadline Snn.HistoryProps Snn.SafeProps Snn.WaitSpec

theorem shown_small {elapsed : Nat → Nat} {i : Nat} (h : elapsed i < 2 ^ 31) : shownClock elapsed i = elapsed i := toInt32_small h

theorem toInt32_le (v : Nat) : toInt32 v ≤ v := by
  unfold toInt32
  have h1 := Int.bmod_def (x := (v : Int)) (m := 2 ^ 32)
  rw [h1]
  have h2 : (v : Int) % ((2 ^ 32 : Nat) : Int) ≤ v := by omega
  split <;> omega

section
variable {F : Type} [Flt F] [FTrans F] [Add F] [Sub F] [Mul F] [Div F] [Neg F]
variable {env : Env F} {wait : Wait F} {b ef : Int} {fuel N k : Nat} {r r' : Run F} {elapsed : Nat → Nat}

/-- **C107**, no step after the limit: whatever the network, the data, the batches and the evaluations, if the criterion is over from N
milliseconds on, a training that returns made at most one training step for each of its checks of the clock that came before N
milliseconds. Left out: trainings that last 2^31 milliseconds or more, for which it is false (`C107_wrap_refuted`). -/
theorem C107_steps_partial (hclock : env.clock = shownClock elapsed) (hl : LimitedTo wait N) (h : r.train env wait b ef fuel = .ok r')
    (hsmall : ∀ i, r.ticks ≤ i → i < r'.ticks → elapsed i < 2 ^ 31) :
    stepsMade r'.trace ≤ stepsMade r.trace + checksInTime elapsed N r.ticks r'.ticks := by
  have q := (train_ticks (P := fun i => elapsed i < N) h).2 (by
    intro i h1 h2 e acc mae ho
    by_contra hc
    rw [hclock, shown_small (hsmall i h1 h2), hl _ _ _ _ (by exact_mod_cast Nat.not_lt.1 hc)] at ho
    cases ho)
  unfold open_ at q
  unfold checksInTime
  rw [Finset.card_filter]
  exact q

/-- **C107**, the training stops at once: when the check number k comes at N milliseconds or later, the training makes at most one
more check and returns. Left out as above. -/
theorem C107_prompt_partial (hclock : env.clock = shownClock elapsed) (hmono : Monotone elapsed) (hl : LimitedTo wait N) (hk : N ≤ elapsed k)
    (hsmall : elapsed (k + 1) < 2 ^ 31) (hr : r.ticks ≤ k) (h : r.train env wait b ef fuel = .ok r') :
    r'.ticks ≤ k + 2 := by
  refine train_after (k := k) ?_ hr h
  intro i h1 h2 e acc mae
  have a1 : elapsed i < 2 ^ 31 := lt_of_le_of_lt (hmono h2) hsmall
  rw [hclock, shown_small a1]
  exact hl _ _ _ _ (by exact_mod_cast hk.trans (hmono h1))

end

section
variable {F : Type} [Field F] [LinearOrder F] [IsStrictOrderedRing F] [FTrans F]
variable {env : Env F} {wait : Wait F} {b ef : Int} {fuel N k : Nat} {r r' : Run F} {elapsed : Nat → Nat}

theorem over_ms (hN : N < 2 ^ 31) {t e : Int} {acc mae : F} : (litMs N : Wait F).isOver t e acc mae = true ↔ (N : Int) ≤ t := by
  have := isOver_duration N (⟨e, acc, mae, t⟩ : Moment F)
  unfold litMs
  rw [toInt32_small hN]
  exact this

/-- **C107**: the limits: every `||` expression of positive literals in which `N_ms` occurs is over from N milliseconds on. -/
theorem C107_limits (e : Expr F) (ho : e.onlyOr) (hw : ∀ c ∈ e.crits, c.writable) (hp : ∀ c ∈ e.crits, c.positive) (hN : Crit.ms N ∈ e.crits) :
    ∃ w, e.eval = .ok w ∧ LimitedTo w N := by
  obtain ⟨w, h1, h2⟩ := C16_or_partial e ho hw hp
  exact ⟨w, h1, fun t ep a m ht => (h2 ⟨ep, a, m, t⟩).2 ⟨_, hN, ht⟩⟩

/-- **C107**, the training is not cut short: a training with the criterion `N_ms` that returns, and met no NaN, made its last check
at N milliseconds or later. -/
theorem C107_not_early (hclock : env.clock = shownClock elapsed) (hN : N < 2 ^ 31) (h : r.train env (litMs N) b ef fuel = .ok r')
    (hn : r'.snn.net.outputNan = false) : r.ticks < r'.ticks ∧ N ≤ elapsed (r'.ticks - 1) := by
  refine ⟨(train_ticks (P := fun _ => True) h).1, ?_⟩
  obtain ⟨e, acc, mae, ho⟩ := train_end h hn
  rw [over_ms hN, hclock] at ho
  have : shownClock elapsed (r'.ticks - 1) ≤ (elapsed (r'.ticks - 1) : Int) := toInt32_le _
  exact_mod_cast ho.trans this

/-- **C107**, the training returns: for every well formed architecture whose last layer is made of neurons, after every history of
fitting calls, whatever the criteria that complete the limit, a call of `train` on fitted data returns. Left out as above. -/
theorem C107_returns_partial {arch : List (LayerModel F)} {s s' : List Nat} (h : WellFormed arch s s') (he : EndsWithNeurons arch)
    {opt : Sgd F} {d d' : Draws F} {snn : Snn F} (hm : Snn.make arch opt d = .ok (snn, d')) (calls : List (Call F))
    (hc : ∀ c ∈ calls, CallFits s.prod s'.prod c) (r0 : Run F) (hr0 : r0.snn = snn) (hrun : calls.foldlM Call.run r0 = .ok r)
    (hd : Fitted s.prod s'.prod r.data) (hb : 1 ≤ b) (hb2 : b ≤ r.data.training.size) (hb3 : b ≠ 1 → r.data.typeOfTemporal = .nonTemporal)
    (hclock : env.clock = shownClock elapsed) (hmono : Monotone elapsed) (hl : LimitedTo wait N) (hk : N ≤ elapsed k)
    (hsmall : elapsed (k + 1) < 2 ^ 31) (hr : r.ticks ≤ k) :
    ∃ fuel r', r.train env wait b ef fuel = .ok r' := by
  obtain ⟨hn, hi⟩ := make_safe h he hm
  rw [← hr0] at hn hi
  obtain ⟨hn', hi'⟩ := AccuracyProps.history_safe hc hn hi hrun
  refine ⟨r.data.training.size + 2 + (k + 2), train_time (k := k) ?_ hr hn' hd.safe hb hb2 hb3 hi' (by omega) (by omega)⟩
  intro i h1 h2 e acc mae
  have a1 : elapsed i < 2 ^ 31 := lt_of_le_of_lt (hmono h2) hsmall
  rw [hclock, shown_small a1]
  exact hl _ _ _ _ (by exact_mod_cast hk.trans (hmono h1))

/-- **C107 is false of trainings that last too long**: the milliseconds are converted to an `int`. For every limit of N milliseconds
and every k there is a clock that is past the limit from the check number k on, and with which no training, of any network on any data,
returns, unless it meets a NaN. (The clock stays at 2^31 milliseconds, about 25 days: for a limit of 24 days 20 hours 31 minutes the
two checks around the limit are 24 seconds apart.) -/
theorem C107_wrap_refuted (hN : N < 2 ^ 31) (k : Nat) : ∃ elapsed : Nat → Nat, Monotone elapsed ∧ (∀ i, k ≤ i → N ≤ elapsed i) ∧
    (∀ i, i < k → elapsed i ≤ N) ∧
    ∀ (env : Env F), env.clock = shownClock elapsed → ∀ (r r' : Run F) (b ef : Int) (fuel : Nat), 0 < N → r.train env (litMs N) b ef fuel = .ok r' →
      r'.snn.net.outputNan = true := by
  refine ⟨fun i => if i < k then 0 else 2 ^ 31, ?_, ?_, ?_, ?_⟩
  · intro i j hij
    simp only
    split <;> split <;> first | omega | positivity
  · intro i hi
    simp only [if_neg (Nat.not_lt.2 hi)]
    exact hN.le
  · intro i hi
    simp only [if_pos hi]
    exact Nat.zero_le _
  · intro env hclock r r' b ef fuel h0 h
    by_contra hn
    obtain ⟨e, acc, mae, ho⟩ := train_end h (by simpa using hn)
    rw [over_ms hN, hclock] at ho
    unfold shownClock at ho
    simp only at ho
    have h1 : toInt32 0 = 0 := by decide
    have h2 : toInt32 (2 ^ 31) = -2147483648 := by decide
    split at ho
    · rw [h1] at ho; omega
    · rw [h2] at ho; omega

end

/-- The hypotheses are met: a network of 3 linear neurons is built and trained on two examples with the criterion `5_ms || 90%_acc`,
with a clock that advances of one millisecond at each check: the call returns, after at most 7 checks and 5 steps. -/
example : ∃ snn d', Snn.make (Spec.linearArch ([2].map fun v : Nat => (v : Int)) 3) { learningRate := 1 / 10, momentum := 0 } (fun _ => 1 / 2) = .ok (snn, d') ∧
    ∃ (w : Wait ℝ) (data : Data ℝ), (Expr.or (.crit (.ms 5)) (.crit (.acc (9/10 : ℝ)))).eval = .ok w ∧
    ∀ (env : Env ℝ) (r : Run ℝ), env.clock = shownClock (fun i => i) → r.snn = snn → r.data = data → r.ticks = 0 → r.trace = [] →
      ∃ fuel r', r.train env w 1 1 fuel = .ok r' ∧ r'.ticks ≤ 7 ∧ stepsMade r'.trace ≤ 5 := by
  obtain ⟨snn, d', hm⟩ := ArchProps.C49_accepted_if (ConvergeProps.demo_wf) (opt := { learningRate := (1 / 10 : ℝ), momentum := 0 })
    (by norm_num) (by norm_num) (by norm_num) (by norm_num) (d := fun _ => 1 / 2) (by intro i; norm_num)
  obtain ⟨w, hw, hl⟩ := C107_limits (F := ℝ) (N := 5) (.or (.crit (.ms 5)) (.crit (.acc (9/10 : ℝ)))) (by simp [Expr.onlyOr])
    (by intro c hc; simp [Expr.crits] at hc; rcases hc with rfl | rfl <;> simp [Crit.writable] <;> norm_num)
    (by intro c hc; simp [Expr.crits] at hc; rcases hc with rfl | rfl <;> simp [Crit.positive] <;> norm_num) (by simp [Expr.crits])
  obtain ⟨data, h1, h2, h3, h4⟩ := OnlineProps.two_data
  refine ⟨snn, d', hm, w, data, hw, fun env r hclock hr hdat ht htr => ?_⟩
  obtain ⟨fuel, r', hr'⟩ := C107_returns_partial (env := env) (b := 1) (ef := 1) (k := 5) (N := 5) (elapsed := fun i => i)
    ConvergeProps.demo_wf (by simp [EndsWithNeurons, Spec.linearArch]) hm [] (by simp) r hr rfl
    (by rw [hdat]; exact h1) (le_refl _) (by rw [hdat, h4]; norm_num) (fun h => absurd rfl h) hclock (fun _ _ h => h) hl (le_refl _) (by norm_num) (by omega)
  have hp := C107_prompt_partial (k := 5) (N := 5) (elapsed := fun i => i) hclock (fun _ _ h => h) hl (le_refl _) (by norm_num) (by omega) hr'
  refine ⟨fuel, r', hr', hp, ?_⟩
  have hs := C107_steps_partial (elapsed := fun i => i) hclock hl hr' (by intro i _ hi; omega)
  rw [htr, ht] at hs
  have : checksInTime (fun i => i) 5 0 r'.ticks ≤ 5 := by
    unfold checksInTime
    calc _ ≤ (Finset.range 5).card := Finset.card_le_card (by intro i; simp)
      _ = 5 := by simp
  have h0 : stepsMade ([] : List (Event ℝ)) = 0 := rfl
  omega

end Snn.DeadlineProps
