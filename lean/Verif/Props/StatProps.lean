import Verif.Proofs.StatProofs
import Verif.Proofs.OrderProofs
import Verif.Basic.NanFlt
import Verif.Basic.RealFlt
import Mathlib.Tactic.IntervalCases

/-!
# Properties of the evaluation statistics (C11–C15, statistics part of C57)

`F` is any linearly ordered field: rounding of the `float` counters and rates is not modelled here
(see C58 for the counters). `fsqrt` is arbitrary except where ℝ is named.
-/

set_option linter.all false

namespace Snn.StatSpec

variable {F : Type} [Field F] [LinearOrder F] [IsStrictOrderedRing F] [FTrans F]

open Classical in
/-- **C11.** After `startTesting` and any sequence of evaluations, of any length and any mixture of
kinds, no access is out of bounds; each label's counters are exactly the numbers of evaluations with the
corresponding verdict and sum to the number of evaluations; and every evaluation is counted exactly once
as well classified or misclassified. -/
theorem C11_counts (s : Stats F) (es : List (Ev F)) (hwf : ∀ e ∈ es, wf s.clusters.length e) :
    ∃ s', es.foldlM Stats.evaluateOnce s.startTesting = .ok s' ∧
      s'.clusters.length = s.clusters.length ∧
      (∀ (i : Nat) (h : i < s'.clusters.length),
        s'.clusters[i].truePositive = ((es.countP fun e => decide (cell i e = .tp) : Nat) : F) ∧
        s'.clusters[i].trueNegative = ((es.countP fun e => decide (cell i e = .tn) : Nat) : F) ∧
        s'.clusters[i].falsePositive = ((es.countP fun e => decide (cell i e = .fp) : Nat) : F) ∧
        s'.clusters[i].falseNegative = ((es.countP fun e => decide (cell i e = .fn) : Nat) : F) ∧
        s'.clusters[i].truePositive + s'.clusters[i].trueNegative + s'.clusters[i].falsePositive
          + s'.clusters[i].falseNegative = (es.length : F)) ∧
      s'.wellClassified + s'.misclassified = (es.length : F) := by
  obtain ⟨s', h1, rn⟩ := run_evaluate s.clusters.length es s.startTesting (by simp [Stats.startTesting]) hwf
  refine ⟨s', h1, rn.len, ?_, ?_⟩
  · intro i h
    have hi : i < s.clusters.length := by rw [← rn.len]; exact h
    obtain ⟨c', hc', ht, htn, hfp, hfn, he⟩ := rn.tp i hi Cluster.zero (by simp [Stats.startTesting, hi])
    rw [List.getElem?_eq_getElem h] at hc'
    simp only [Option.some.injEq] at hc'
    rw [hc']
    simp only [Cluster.zero, lit_eq, Rat.cast_zero, zero_add] at ht htn hfp hfn
    refine ⟨ht, htn, hfp, hfn, ?_⟩
    rw [ht, htn, hfp, hfn]
    have : ∀ es : List (Ev F), (es.countP fun e => decide (cell i e = .tp)) + (es.countP fun e => decide (cell i e = .tn))
      + (es.countP fun e => decide (cell i e = .fp)) + (es.countP fun e => decide (cell i e = .fn)) = es.length := by
      intro es
      induction es with
      | nil => rfl
      | cons e es ih =>
        simp only [List.countP_cons, List.length_cons]
        cases cell i e <;> simp <;> omega
    rw [← this es]; push_cast; ring
  · rw [rn.well, rn.mis]
    have : ∀ es : List (Ev F), (es.countP fun e => decide (judged s.clusters.length e))
        + (es.countP fun e => decide (¬ judged s.clusters.length e)) = es.length := by
      intro es
      induction es with
      | nil => rfl
      | cons e es ih =>
        simp only [List.countP_cons, List.length_cons]
        by_cases h : judged s.clusters.length e <;> simp [h] at ih ⊢ <;> omega
    rw [← this es]; simp [Stats.startTesting]

/-- Non-vacuity: two labels, a classification and a multiple classification. -/
example : ∀ e ∈ [Ev.classification [(1 : ℚ)/4, 3/4] 1 (1/2), .multiple [1, 0] [1, 1] (1/2)],
    wf (Stats.init (F := ℚ) 2).clusters.length e := by
  intro e he
  simp at he
  rcases he with rfl | rfl <;> simp [wf, Stats.init]

/-- **C11 needs "without NaN".** With a NaN output in a multiple classification no counter of the label
moves and the example is counted as *well* classified. -/
theorem C11_nan_refuted :
    ∃ s', (Stats.init 1 : Stats NF).evaluateOnce (.multiple [NF.nan] [.num 1] (.num (1/2))) = .ok s' ∧
      s'.wellClassified = .num 1 ∧ s'.clusters.map (·.truePositive) = [.num 0] ∧
      s'.clusters.map (·.falseNegative) = [.num 0] := by
  refine ⟨_, rfl, ?_⟩
  decide +kernel

/-- **C12, proved part.** When some output exceeds `-2`, a classification is counted as well classified
iff the first index of the largest output is the expected class, and as misclassified otherwise.
Missing: vectors entirely `≤ -2`, see `C12_argmax_refuted`. -/
theorem C12_argmax_partial (s : Stats F) (o : List F) (k : Int) (sep : F)
    (hlen : o.length = s.clusters.length) (hk : 0 ≤ k) (hfl : ∃ x ∈ o, -2 < x) :
    ∃ s', s.evaluateOnce (.classification o k sep) = .ok s' ∧
      ((∃ j : Nat, IsFirstArgmax o j ∧ (j : Int) = k) →
        s'.wellClassified = s.wellClassified + 1 ∧ s'.misclassified = s.misclassified) ∧
      ((¬ ∃ j : Nat, IsFirstArgmax o j ∧ (j : Int) = k) →
        s'.wellClassified = s.wellClassified ∧ s'.misclassified = s.misclassified + 1) := by
  obtain ⟨s', h, st⟩ := step_evaluateOnce _ s (.classification o k sep) rfl ⟨hlen, hk⟩
  refine ⟨s', h, ?_, ?_⟩
  · intro hr; exact st.well.1 ⟨hr, hfl⟩
  · intro hr; exact st.well.2 (fun hj => hr hj.1)

/-- Non-vacuity. -/
example : ([(1:ℚ)/4, 3/4] : List ℚ).length = (Stats.init (F := ℚ) 2).clusters.length ∧
    (∃ x ∈ ([(1:ℚ)/4, 3/4] : List ℚ), -2 < x) ∧ IsFirstArgmax [(1:ℚ)/4, 3/4] 1 := by
  refine ⟨rfl, ⟨1/4, by simp, by norm_num⟩, 3/4, rfl, ?_, ?_⟩
  · intro x hx; simp at hx; rcases hx with rfl | rfl <;> norm_num
  · intro j hj x hx; interval_cases j; simp at hx; subst hx; norm_num

/-- **C12, refutation.** Outputs `[-5, -3]` with expected class 1: class 1 has the largest output, but
the example is counted as misclassified (the search starts at `-2`). -/
theorem C12_argmax_refuted :
    IsFirstArgmax [(-5:ℚ), -3] 1 ∧
    ∀ [FTrans ℚ], ∃ s', (Stats.init 2 : Stats ℚ).evaluateOnce (.classification [-5, -3] 1 (1/2)) = .ok s' ∧
      s'.wellClassified = 0 ∧ s'.misclassified = 1 := by
  refine ⟨⟨-3, rfl, ?_, ?_⟩, ?_⟩
  · intro x hx; simp at hx; rcases hx with rfl | rfl <;> norm_num
  · intro j hj x hx; interval_cases j; simp at hx; subst hx; norm_num
  · intro _
    refine ⟨_, rfl, ?_⟩
    decide +kernel

/-! ### Rates -/

/-- Helper: a fold adding terms in `[0,1]`. -/
theorem foldl_bound (l : List (Cluster F)) (f : F → Cluster F → F) (b : F) (hb : 0 ≤ b)
    (hf : ∀ c ∈ l, ∀ r, r ≤ f r c ∧ f r c ≤ r + b) (r : F) :
    r ≤ l.foldl f r ∧ l.foldl f r ≤ r + l.length * b := by
  induction l generalizing r with
  | nil => simp
  | cons c l ih =>
    have h1 := hf c (by simp) r
    have h2 := ih (fun c hc => hf c (by simp [hc])) (f r c)
    simp only [List.foldl_cons, List.length_cons]
    push_cast
    constructor
    · exact h1.1.trans h2.1
    · linarith [h2.2, h1.2]

/-- **C13.** After at least one evaluation, on at least one label, the rates computed by `stopTesting`
are in `[0,1]`, and the global clustering rate is the proportion of well classified examples. -/
theorem C13_rates (s : Stats F) (es : List (Ev F)) (hne : es ≠ []) (hcl : 0 < s.clusters.length)
    (hwf : ∀ e ∈ es, wf s.clusters.length e) :
    ∃ s', s.testingPhase es = .ok s' ∧
      (0 ≤ s'.globalRate ∧ s'.globalRate ≤ 1) ∧
      (0 ≤ s'.weightedRate ∧ s'.weightedRate ≤ 1) ∧
      (0 ≤ s'.f1Score ∧ s'.f1Score ≤ 1) ∧
      s'.globalRate = s'.wellClassified / (es.length : F) := by
  obtain ⟨s1, h1, hlen, hc, hw⟩ := C11_counts s es hwf
  classical
  obtain ⟨s2, h2, rn⟩ := run_evaluate s.clusters.length es s.startTesting (by simp [Stats.startTesting]) hwf
  have hs : s1 = s2 := by rw [h1] at h2; exact Res.ok.inj h2
  subst hs
  have hlpos : (0:F) < es.length := by
    have : 0 < es.length := List.length_pos_iff.2 hne
    exact_mod_cast this
  have hwell : 0 ≤ s1.wellClassified := by rw [rn.well]; simp [Stats.startTesting]
  have hmis : 0 ≤ s1.misclassified := by rw [rn.mis]; simp [Stats.startTesting]
  have hcells : ∀ c ∈ s1.clusters, 0 ≤ c.truePositive ∧ 0 ≤ c.falsePositive ∧ 0 ≤ c.falseNegative := by
    intro c hc'
    obtain ⟨i, hi, rfl⟩ := List.getElem_of_mem hc'
    obtain ⟨a, b, c, d, _⟩ := hc i hi
    rw [a, c, d]
    exact ⟨Nat.cast_nonneg _, Nat.cast_nonneg _, Nat.cast_nonneg _⟩
  have hclpos : (0:F) < (s1.clusters.length : F) := by rw [hlen]; exact_mod_cast hcl
  refine ⟨s1.stopTesting, by simp [Stats.testingPhase, h1], ?_, ?_, ?_, ?_⟩
  · simp only [Stats.stopTesting, Stats.computeGlobalRate]
    rw [hw]
    refine ⟨div_nonneg hwell hlpos.le, (div_le_one hlpos).2 (by linarith)⟩
  · simp only [Stats.stopTesting, Stats.computeWeightedRate, lit_eq, Rat.cast_natCast]
    have hb := foldl_bound s1.clusters (fun r c => if flt (((0:ℚ):F)) c.truePositive = true then
        r + c.truePositive / (c.truePositive + c.falseNegative) else r) 1 (by simp) (by
        intro c hc' r
        obtain ⟨h1, h2, h3⟩ := hcells c hc'
        split
        · rename_i h
          rw [flt_iff, Rat.cast_zero] at h
          have : 0 ≤ c.truePositive / (c.truePositive + c.falseNegative) := by positivity
          have : c.truePositive / (c.truePositive + c.falseNegative) ≤ 1 :=
            (div_le_one (by linarith)).2 (by linarith)
          constructor <;> linarith
        · constructor <;> linarith) ((0:ℚ):F)
    simp only [Rat.cast_zero, zero_add, mul_one] at hb ⊢
    exact ⟨div_nonneg hb.1 hclpos.le, (div_le_one hclpos).2 hb.2⟩
  · simp only [Stats.stopTesting, Stats.computeF1Score, lit_eq, Rat.cast_natCast]
    have hb := foldl_bound s1.clusters (fun r c => if flt (((0:ℚ):F)) c.truePositive = true then
        r + (c.truePositive / (c.truePositive + c.falsePositive)) * (c.truePositive / (c.truePositive + c.falseNegative))
          / ((c.truePositive / (c.truePositive + c.falsePositive)) + (c.truePositive / (c.truePositive + c.falseNegative)))
         else r) (1/2) (by norm_num) (by
        intro c hc' r
        obtain ⟨h1, h2, h3⟩ := hcells c hc'
        split
        · rename_i h
          rw [flt_iff, Rat.cast_zero] at h
          have hp0 : 0 < c.truePositive / (c.truePositive + c.falsePositive) := by positivity
          have hp1 : c.truePositive / (c.truePositive + c.falsePositive) ≤ 1 :=
            (div_le_one (by linarith)).2 (by linarith)
          have hr0 : 0 < c.truePositive / (c.truePositive + c.falseNegative) := by positivity
          have hr1 : c.truePositive / (c.truePositive + c.falseNegative) ≤ 1 :=
            (div_le_one (by linarith)).2 (by linarith)
          generalize c.truePositive / (c.truePositive + c.falsePositive) = p at *
          generalize c.truePositive / (c.truePositive + c.falseNegative) = q at *
          have h0 : 0 ≤ p * q / (p + q) := by positivity
          have h1 : p * q / (p + q) ≤ 1 / 2 := by
            rw [div_le_div_iff₀ (by linarith) (by norm_num)]
            nlinarith
          constructor <;> linarith
        · constructor <;> linarith) ((0:ℚ):F)
    simp only [Rat.cast_zero, zero_add] at hb ⊢
    have h2 : ((2:ℚ):F) = 2 := by norm_num
    rw [h2]
    refine ⟨div_nonneg (by linarith [hb.1]) hclpos.le, (div_le_one hclpos).2 (by linarith [hb.2])⟩
  · simp only [Stats.stopTesting, Stats.computeGlobalRate]
    rw [hw]

/-- Non-vacuity: the example of C11 has a label and an evaluation. -/
example : ([Ev.classification [(1 : ℚ)/4, 3/4] 1 (1/2)] : List (Ev ℚ)) ≠ [] ∧
    0 < (Stats.init (F := ℚ) 2).clusters.length := by simp [Stats.init]

/-! ### Best values over the history of evaluations -/

/-- The states after each of a sequence of testing phases, starting from `s`. -/
def history (s : Stats F) : List (List (Ev F)) → Res (List (Stats F))
  | [] => .ok []
  | es :: rest => do
    let s1 ← s.testingPhase es
    let ss ← history s1 rest
    return s1 :: ss

/-- `s` is the state after a new phase, `P` the states after the earlier phases: the recorded best value
of a metric to be maximised, and its "better than ever" flag, are right. -/
def BestMax (metric best : Stats F → F) (flag : Stats F → Bool) (P : List (Stats F)) (s : Stats F) : Prop :=
  (flag s = true ↔ ∀ p ∈ P, metric p < metric s) ∧
  (∃ p ∈ P ++ [s], metric p = best s) ∧ ∀ p ∈ P ++ [s], metric p ≤ best s

/-- The same for a metric to be minimised. -/
def BestMin (metric best : Stats F → F) (flag : Stats F → Bool) (P : List (Stats F)) (s : Stats F) : Prop :=
  (flag s = true ↔ ∀ p ∈ P, metric s < metric p) ∧
  (∃ p ∈ P ++ [s], metric p = best s) ∧ ∀ p ∈ P ++ [s], best s ≤ metric p

/-- Invariant between phases for a maximised metric. -/
def InvMax (metric best : Stats F → F) (P : List (Stats F)) (s : Stats F) : Prop :=
  (P = [] ∧ best s = -1) ∨ ((∃ p ∈ P, metric p = best s) ∧ ∀ p ∈ P, metric p ≤ best s)

/-- Invariant between phases for a minimised metric. -/
def InvMin (metric best : Stats F → F) (P : List (Stats F)) (s : Stats F) : Prop :=
  (P = [] ∧ best s = -1) ∨ ((∃ p ∈ P, metric p = best s) ∧ 0 ≤ best s ∧ ∀ p ∈ P, best s ≤ metric p)

theorem bestMax_step {metric best : Stats F → F} {flag : Stats F → Bool} {P : List (Stats F)} {s s' : Stats F}
    (hI : InvMax metric best P s) (h0 : 0 ≤ metric s')
    (hf : flag s' = flt (best s) (metric s')) (hb : best s' = if flt (best s) (metric s') then metric s' else best s) :
    BestMax metric best flag P s' ∧ InvMax metric best (P ++ [s']) s' := by
  have key : BestMax metric best flag P s' := by
    rcases hI with ⟨rfl, h1⟩ | ⟨⟨p, hp, hpb⟩, hle⟩
    · have h2 : best s < metric s' := by rw [h1]; linarith
      have h3 : flt (best s) (metric s') = true := (flt_iff _ _).2 h2
      rw [h3] at hf hb
      simp only [if_true] at hb
      refine ⟨by simp [hf], ⟨s', by simp, hb.symm⟩, by simp [hb]⟩
    · by_cases h2 : best s < metric s'
      · have h3 : flt (best s) (metric s') = true := (flt_iff _ _).2 h2
        rw [h3] at hf hb
        simp only [if_true] at hb
        refine ⟨⟨fun _ q hq => (hle q hq).trans_lt h2, fun _ => hf⟩, ⟨s', by simp, hb.symm⟩, ?_⟩
        intro q hq
        rw [hb]
        rcases List.mem_append.1 hq with hq | hq
        · exact (hle q hq).trans h2.le
        · simp at hq; rw [hq]
      · have h3 : flt (best s) (metric s') = false := (flt_false_iff _ _).2 (not_lt.1 h2)
        rw [h3] at hf hb
        simp only [Bool.false_eq_true, if_false] at hb
        refine ⟨⟨fun h => absurd h (by simp [hf]), fun h => ?_⟩, ⟨p, by simp [hp], by rw [hpb, hb]⟩, ?_⟩
        · exact absurd (hpb ▸ h p hp) h2
        · intro q hq
          rw [hb]
          rcases List.mem_append.1 hq with hq | hq
          · exact hle q hq
          · simp at hq; rw [hq]; exact not_lt.1 h2
  exact ⟨key, Or.inr key.2⟩

theorem bestMin_step {metric best : Stats F → F} {flag : Stats F → Bool} {P : List (Stats F)} {s s' : Stats F}
    (hI : InvMin metric best P s) (h0 : 0 ≤ metric s')
    (hf : flag s' = (flt (metric s') (best s) || flt (best s) (lit 0)))
    (hb : best s' = if (flt (metric s') (best s) || flt (best s) (lit 0)) then metric s' else best s) :
    BestMin metric best flag P s' ∧ InvMin metric best (P ++ [s']) s' := by
  have key : BestMin metric best flag P s' ∧ 0 ≤ best s' := by
    rcases hI with ⟨rfl, h1⟩ | ⟨⟨p, hp, hpb⟩, hnn, hle⟩
    · have h3 : flt (best s) (lit 0) = true := by rw [h1]; simp
      rw [h3] at hf hb
      simp only [Bool.or_true, if_true] at hb hf
      refine ⟨⟨by simp [hf], ⟨s', by simp, hb.symm⟩, by simp [hb]⟩, by rw [hb]; exact h0⟩
    · have h4 : flt (best s) (lit 0) = false := by simp [hnn]
      rw [h4] at hf hb
      by_cases h2 : metric s' < best s
      · have h3 : flt (metric s') (best s) = true := (flt_iff _ _).2 h2
        rw [h3] at hf hb
        simp only [Bool.or_false, if_true] at hb hf
        refine ⟨⟨⟨fun _ q hq => h2.trans_le (hle q hq), fun _ => hf⟩, ⟨s', by simp, hb.symm⟩, ?_⟩, by rw [hb]; exact h0⟩
        intro q hq
        rw [hb]
        rcases List.mem_append.1 hq with hq | hq
        · exact h2.le.trans (hle q hq)
        · simp at hq; rw [hq]
      · have h3 : flt (metric s') (best s) = false := (flt_false_iff _ _).2 (not_lt.1 h2)
        rw [h3] at hf hb
        simp only [Bool.or_false, Bool.false_eq_true, if_false] at hb hf
        refine ⟨⟨⟨fun h => absurd h (by simp [hf]), fun h => ?_⟩, ⟨p, by simp [hp], by rw [hpb, hb]⟩, ?_⟩, by rw [hb]; exact hnn⟩
        · exact absurd (hpb ▸ h p hp) h2
        · intro q hq
          rw [hb]
          rcases List.mem_append.1 hq with hq | hq
          · exact hle q hq
          · simp at hq; rw [hq]; exact not_lt.1 h2
  exact ⟨key.1, Or.inr ⟨key.1.2.1, key.2, key.1.2.2⟩⟩

theorem foldl_nonneg (l : List (Cluster F)) (f : Cluster F → F) (h : ∀ c ∈ l, 0 ≤ f c) (r : F) (hr : 0 ≤ r) :
    0 ≤ l.foldl (fun r c => r + f c) r := by
  induction l generalizing r with
  | nil => simpa
  | cons c l ih =>
    simp only [List.foldl_cons]
    exact ih (fun c hc => h c (by simp [hc])) _ (add_nonneg hr (h c (by simp)))

/-- What one testing phase does to the recorded values. -/
theorem phase_facts (s : Stats F) (es : List (Ev F)) (hne : es ≠ []) (hcl : 0 < s.clusters.length)
    (hwf : ∀ e ∈ es, wf s.clusters.length e) :
    ∃ s', s.testingPhase es = .ok s' ∧ s'.clusters.length = s.clusters.length ∧
      0 ≤ s'.globalRate ∧ 0 ≤ s'.weightedRate ∧ 0 ≤ s'.f1Score ∧ 0 ≤ s'.mae ∧
      s'.globalBetter = flt s.globalRateMax s'.globalRate ∧
      s'.globalRateMax = (if flt s.globalRateMax s'.globalRate then s'.globalRate else s.globalRateMax) ∧
      s'.weightedBetter = flt s.weightedRateMax s'.weightedRate ∧
      s'.weightedRateMax = (if flt s.weightedRateMax s'.weightedRate then s'.weightedRate else s.weightedRateMax) ∧
      s'.f1ScoreMax = s.f1ScoreMax ∧
      s'.maeBetter = (flt s'.mae s.maeMin || flt s.maeMin (lit 0)) ∧
      s'.maeMin = (if (flt s'.mae s.maeMin || flt s.maeMin (lit 0)) then s'.mae else s.maeMin) ∧
      s'.rmseMin = (if (flt s'.rmse s.rmseMin || flt s'.maeMin (lit 0)) then s'.mae else s.rmseMin) ∧
      ∃ x, s'.rmse = fsqrt x := by
  obtain ⟨s', h1, hg, hw, hf, _⟩ := C13_rates s es hne hcl hwf
  obtain ⟨s1, h2, rn⟩ := run_evaluate s.clusters.length es s.startTesting (by simp [Stats.startTesting]) hwf
  have hs : s' = s1.stopTesting := by
    simp only [Stats.testingPhase, h2, Res.ok_bind, Res.pure_eq] at h1
    exact (Res.ok.inj h1).symm
  have hfr := rn.frame
  have e1 : s1.globalRateMax = s.globalRateMax := by
    have := congrArg Stats.globalRateMax hfr; simpa [Stats.startTesting] using this
  have e2 : s1.weightedRateMax = s.weightedRateMax := by
    have := congrArg Stats.weightedRateMax hfr; simpa [Stats.startTesting] using this
  have e3 : s1.f1ScoreMax = s.f1ScoreMax := by
    have := congrArg Stats.f1ScoreMax hfr; simpa [Stats.startTesting] using this
  have e4 : s1.maeMin = s.maeMin := by
    have := congrArg Stats.maeMin hfr; simpa [Stats.startTesting] using this
  have e5 : s1.rmseMin = s.rmseMin := by
    have := congrArg Stats.rmseMin hfr; simpa [Stats.startTesting] using this
  refine ⟨s', h1, ?_, hg.1, hw.1, hf.1, ?_, ?_⟩
  · rw [hs]; exact rn.len
  · rw [hs]
    simp only [Stats.stopTesting, Stats.computeMae]
    apply div_nonneg
    · apply foldl_nonneg
      · intro c hc
        obtain ⟨i, hi, rfl⟩ := List.getElem_of_mem hc
        have hi' : i < s.clusters.length := by rw [← rn.len]; exact hi
        obtain ⟨c', hc', -, -, -, -, he⟩ := rn.tp i hi' Cluster.zero (by simp [Stats.startTesting, hi'])
        rw [List.getElem?_eq_getElem hi] at hc'
        simp only [Option.some.injEq] at hc'
        rw [hc', he]
        have : 0 ≤ (es.map (absError i)).sum := by
          apply List.sum_nonneg
          intro x hx
          obtain ⟨e, _, rfl⟩ := List.mem_map.1 hx
          cases e <;> simp [absError]
        simpa [Cluster.zero] using this
      · simp
    · rw [rn.well, rn.mis]
      simp only [Stats.startTesting, lit_eq, Rat.cast_zero, zero_add]
      positivity
  · rw [hs]
    simp only [Stats.stopTesting, e1, e2, e3, e4, e5]
    exact ⟨trivial, trivial, trivial, trivial, trivial, trivial, trivial, trivial, _, rfl⟩

theorem history_best (ps : List (List (Ev F))) (s : Stats F) (P : List (Stats F)) (n : Nat)
    (hn : s.clusters.length = n) (hn0 : 0 < n)
    (hps : ∀ es ∈ ps, es ≠ [] ∧ ∀ e ∈ es, wf n e)
    (hg : InvMax Stats.globalRate Stats.globalRateMax P s)
    (hw : InvMax Stats.weightedRate Stats.weightedRateMax P s)
    (hm : InvMin Stats.mae Stats.maeMin P s) :
    ∃ ss, history s ps = .ok ss ∧ ss.length = ps.length ∧ ∀ k (hk : k < ss.length),
      BestMax Stats.globalRate Stats.globalRateMax Stats.globalBetter (P ++ ss.take k) ss[k] ∧
      BestMax Stats.weightedRate Stats.weightedRateMax Stats.weightedBetter (P ++ ss.take k) ss[k] ∧
      BestMin Stats.mae Stats.maeMin Stats.maeBetter (P ++ ss.take k) ss[k] := by
  induction ps generalizing s P with
  | nil => exact ⟨[], rfl, rfl, by simp⟩
  | cons es ps ih =>
    have he := hps es (by simp)
    obtain ⟨s1, h1, hl, h2, h3, h4, h5, h6, h7, h8, h9, h10, h11, h12, h13⟩ :=
      phase_facts s es he.1 (by omega) (by rw [hn]; exact he.2)
    have G := bestMax_step (flag := Stats.globalBetter) hg h2 h6 h7
    have W := bestMax_step (flag := Stats.weightedBetter) hw h3 h8 h9
    have M := bestMin_step (flag := Stats.maeBetter) hm h5 h11 h12
    obtain ⟨ss, hss, hlen, hk⟩ := ih s1 (P ++ [s1]) (by omega) (fun es hes => hps es (by simp [hes]))
      G.2 W.2 M.2
    refine ⟨s1 :: ss, by simp [history, h1, hss], by simp [hlen], ?_⟩
    intro k hk'
    cases k with
    | zero => simpa using ⟨G.1, W.1, M.1⟩
    | succ k =>
      have := hk k (by simpa using hk')
      simpa using this

/-- **C14, proved part.** For a new network with at least one label, after any sequence of (non-empty)
testing phases: at each phase the recorded best global and weighted clustering rates are the maximum,
and the best mean absolute error the minimum, of all values measured so far, and each
"is better than ever" flag is raised exactly when the newest value strictly improves on all earlier ones.
Missing: the F1 score and the RMSE, whose best values are never recorded, see `C14_best_refuted`. -/
theorem C14_best_partial (n : Nat) (hn : 0 < n) (ps : List (List (Ev F)))
    (hps : ∀ es ∈ ps, es ≠ [] ∧ ∀ e ∈ es, wf n e) :
    ∃ ss, history (Stats.init n) ps = .ok ss ∧ ss.length = ps.length ∧ ∀ k (hk : k < ss.length),
      BestMax Stats.globalRate Stats.globalRateMax Stats.globalBetter (ss.take k) ss[k] ∧
      BestMax Stats.weightedRate Stats.weightedRateMax Stats.weightedBetter (ss.take k) ss[k] ∧
      BestMin Stats.mae Stats.maeMin Stats.maeBetter (ss.take k) ss[k] := by
  have := history_best ps (Stats.init n) [] n (by simp [Stats.init]) hn hps
    (Or.inl ⟨rfl, by simp [Stats.init]⟩) (Or.inl ⟨rfl, by simp [Stats.init]⟩) (Or.inl ⟨rfl, by simp [Stats.init]⟩)
  simpa using this

/-- Non-vacuity: two phases on two labels. -/
example : ∀ es ∈ [[Ev.classification [(1 : ℚ)/4, 3/4] 1 (1/2)], [Ev.classification [(3 : ℚ)/4, 1/4] 1 (1/2)]],
    es ≠ [] ∧ ∀ e ∈ es, wf 2 e := by
  intro es hes
  simp at hes
  rcases hes with rfl | rfl <;> simp [wf]

theorem history_stuck (ps : List (List (Ev ℝ))) (s : Stats ℝ) (n : Nat) (hn : s.clusters.length = n)
    (hn0 : 0 < n) (hps : ∀ es ∈ ps, es ≠ [] ∧ ∀ e ∈ es, wf n e) (hf : s.f1ScoreMax = -1) (hr : s.rmseMin = -1)
    (hm : s.maeMin = -1 ∨ 0 ≤ s.maeMin) :
    ∃ ss, history s ps = .ok ss ∧ ∀ s' ∈ ss, s'.f1ScoreMax = -1 ∧ 0 ≤ s'.f1Score ∧
      s'.rmseMin = -1 ∧ 0 ≤ s'.rmse := by
  induction ps generalizing s with
  | nil => exact ⟨[], rfl, by simp⟩
  | cons es ps ih =>
    have he := hps es (by simp)
    obtain ⟨s1, h1, hl, h2, h3, h4, h5, h6, h7, h8, h9, h10, h11, h12, h13, x, hx⟩ :=
      phase_facts s es he.1 (by omega) (by rw [hn]; exact he.2)
    have hmn : 0 ≤ s1.maeMin := by
      rw [h12]
      split
      · exact h5
      · rename_i hc
        simp at hc
        exact hc.2
    have hrm : 0 ≤ s1.rmse := by rw [hx]; exact Real.sqrt_nonneg _
    have hr1 : s1.rmseMin = -1 := by
      rw [h13, if_neg, hr]
      simp [hr, hmn]
      linarith
    obtain ⟨ss, hss, hall⟩ := ih s1 (by omega) (fun es hes => hps es (by simp [hes])) (by rw [h10, hf]) hr1 (Or.inr hmn)
    refine ⟨s1 :: ss, by simp [history, h1, hss], ?_⟩
    intro s' hs'
    rcases List.mem_cons.1 hs' with rfl | hs'
    · exact ⟨by rw [h10, hf], h4, hr1, hrm⟩
    · exact hall s' hs'

/-- **C14, refutation for F1 score and RMSE.** In exact real arithmetic, after *every* sequence of testing
phases the recorded best F1 score and best RMSE are still `-1`, although every measured value is `≥ 0`. -/
theorem C14_best_refuted (n : Nat) (hn : 0 < n) (ps : List (List (Ev ℝ)))
    (hps : ∀ es ∈ ps, es ≠ [] ∧ ∀ e ∈ es, wf n e) :
    ∃ ss, history (Stats.init n) ps = .ok ss ∧ ∀ s' ∈ ss, s'.f1ScoreMax = -1 ∧ 0 ≤ s'.f1Score ∧
      s'.rmseMin = -1 ∧ 0 ≤ s'.rmse :=
  history_stuck ps (Stats.init n) n (by simp [Stats.init]) hn hps (by simp [Stats.init]) (by simp [Stats.init])
    (Or.inl (by simp [Stats.init]))

/-! ### Mean errors -/

theorem foldl_sum_map (l : List (Cluster F)) (r : F) :
    l.foldl (fun r c => r + c.totalError) r = r + (l.map (·.totalError)).sum := by
  induction l generalizing r with
  | nil => simp
  | cons c l ih => simp only [List.foldl_cons, ih, List.map_cons, List.sum_cons]; ring

/-- **C15, proved part.** The reported mean absolute error is the sum over examples and labels of the
absolute errors, divided by the number of examples.
Missing: the RMSE, see `C15_rmse_refuted`. -/
theorem C15_mae_partial (s : Stats F) (es : List (Ev F)) (hwf : ∀ e ∈ es, wf s.clusters.length e) :
    ∃ s', s.testingPhase es = .ok s' ∧
      s'.mae = (es.map fun e => ((List.range s.clusters.length).map fun i => absError i e).sum).sum / es.length := by
  obtain ⟨s1, h2, rn⟩ := run_evaluate s.clusters.length es s.startTesting (by simp [Stats.startTesting]) hwf
  obtain ⟨s2, h3, hq1, hq2, htot⟩ := C11_counts s es hwf
  have : s1 = s2 := by rw [h2] at h3; exact Res.ok.inj h3
  subst this
  refine ⟨s1.stopTesting, by simp [Stats.testingPhase, h2], ?_⟩
  simp only [Stats.stopTesting, Stats.computeMae]
  rw [htot, foldl_sum_map]
  congr 1
  have hcl : s1.clusters.map (·.totalError) =
      (List.range s.clusters.length).map fun i => (es.map (absError i)).sum := by
    apply List.ext_getElem
    · simp [rn.len]
    · intro i h1 h2
      simp only [List.getElem_map, List.getElem_range]
      have hi' : i < s.clusters.length := by simpa [rn.len] using h1
      obtain ⟨c', hc', -, -, -, -, he⟩ := rn.tp i hi' Cluster.zero (by simp [Stats.startTesting, hi'])
      have hi : i < s1.clusters.length := by simpa using h1
      rw [List.getElem?_eq_getElem hi] at hc'
      simp only [Option.some.injEq] at hc'
      rw [hc', he]; simp [Cluster.zero]
  rw [hcl]
  simp only [lit_eq, Rat.cast_zero, zero_add]
  generalize s.clusters.length = m
  clear hcl rn h2 h3 htot hwf hq1 hq2
  induction es with
  | nil => simp
  | cons e es ih =>
    simp only [List.map_cons, List.sum_cons]
    rw [← ih]
    generalize List.range m = l
    induction l with
    | nil => simp
    | cons a l ih2 => simp only [List.map_cons, List.sum_cons, ih2]; ring

/-- **C15, refutation for the RMSE.** Two regression examples with error 1 each: the root of the mean of
the squared errors is 1, the reported value is √2. -/
theorem C15_rmse_refuted :
    ∃ s', (Stats.init 1 : Stats ℝ).testingPhase
        [.regression [1] [0] 0, .regression [1] [0] 0] = .ok s' ∧
      s'.rmse = Real.sqrt 2 ∧
      Real.sqrt (((1:ℝ) ^ 2 + 1 ^ 2) / 2) = 1 := by
  have hwf : ∀ e ∈ [Ev.regression [(1:ℝ)] [0] 0, .regression [1] [0] 0],
      wf (Stats.init (F := ℝ) 1).clusters.length e := by
    intro e he
    simp at he
    subst he
    simp [wf, Stats.init]
  obtain ⟨s1, h2, rn⟩ := run_evaluate _ _ (Stats.init (F := ℝ) 1).startTesting (by rw [Stats.startTesting, List.length_map]) hwf
  obtain ⟨s2, h3, hq1, hq2, htot⟩ := C11_counts _ _ hwf
  have : s1 = s2 := by rw [h2] at h3; exact Res.ok.inj h3
  subst this
  refine ⟨s1.stopTesting, by simp [Stats.testingPhase, h2], ?_, by norm_num⟩
  simp only [Stats.stopTesting, Stats.computeRmse, htot]
  obtain ⟨c', hc', -, -, -, -, he⟩ := rn.tp 0 (by simp [Stats.init]) Cluster.zero (by simp [Stats.startTesting, Stats.init])
  have hlen : s1.clusters.length = 1 := by simpa [Stats.init] using hq1
  obtain ⟨c, hcl⟩ := List.length_eq_one_iff.1 hlen
  rw [hcl] at hc' ⊢
  simp at hc'
  subst hc'
  simp [he, Cluster.zero, absError]
  norm_num

/-! ### Order of the examples -/

/-- **C57, statistics part.** What a sequence of evaluations does to the counters depends only on the multiset of evaluations:
permuting them changes nothing, from any state and whatever the vectors (too short ones included). -/
theorem C57_order_independent (s : Stats F) (es es' : List (Ev F)) (hp : es.Perm es') :
    es.foldlM Stats.evaluateOnce s = es'.foldlM Stats.evaluateOnce s := evaluations_perm hp s

/-- Non-vacuity: swapping two different evaluations is a non-trivial permutation. -/
example : [Ev.classification [(1 : ℚ)/4, 3/4] 1 (1/2), .classification [1, 0] 1 (1/2)].Perm
    [.classification [1, 0] 1 (1/2), .classification [(1 : ℚ)/4, 3/4] 1 (1/2)] := List.Perm.swap _ _ _

end Snn.StatSpec
