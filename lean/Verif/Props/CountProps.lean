import Verif.Proofs.CountProofs
import Verif.Basic.B32

/-! C58: counting on binary32. -/

set_option linter.all false

namespace Snn.CountProps

open StatSpec (Cell)
open CountSpec CountProofs

theorem lit_zero : (lit 0 : B32) = .num 0 := by
  show B32.ofRat 0 = _
  simp [B32.ofRat]

theorem lit_one : (lit 1 : B32) = .num 1 := by
  show B32.ofRat 1 = _
  have := B32.ofRat_nat (k := 1) (by norm_num)
  simpa using this

theorem bump_zero (b : Bool) : decide (bump b (lit 0 : B32) ≠ lit 0) = b := by
  cases b
  · simp [bump]
  · have := B32.count_up 0
    simp only [bump, if_true, lit_zero]
    norm_num at this
    rw [this]
    simp

/-- A counter with the count k. -/
def holds (k : Nat) : B32 := .num ((min k (2 ^ 24) : ℕ) : ℚ)

theorem bump_holds (b : Bool) (k : Nat) : bump b (holds k) = holds (k + if b then 1 else 0) := by
  cases b
  · simp [bump]
  · exact B32.count_up k

theorem counter_zero (cell : Cell) : counter (Cluster.zero : Cluster B32) cell = lit 0 := by cases cell <;> rfl

/-- The verdicts observed on a new object are those of `Adds`. -/
theorem Adds.observed {n : Nat} {e : Ev B32} {vs : Nat → Option Cell} {b : Bool} (h : Adds n e vs b) :
    well n e = b ∧ mis n e = !b ∧ ∀ i < n, ∀ cell, inCell n i cell e = decide (vs i = some cell) := by
  obtain ⟨s', h1, h2, h3, h4, h5⟩ := h.step (Stats.init n) (by simp [Stats.init])
  have hw : (Stats.init n : Stats B32).wellClassified = lit 0 := rfl
  have hm : (Stats.init n : Stats B32).misclassified = lit 0 := rfl
  refine ⟨?_, ?_, ?_⟩
  · unfold well alone; rw [h1]; simp only; rw [h4, hw, bump_zero]
  · unfold mis alone; rw [h1]; simp only; rw [h5, hm, bump_zero]
  · intro i hi cell
    unfold inCell alone; rw [h1]; simp only
    obtain ⟨c', hc'⟩ : ∃ c', s'.clusters[i]? = some c' := ⟨_, List.getElem?_eq_getElem (by omega)⟩
    have := h3 i Cluster.zero c' (by simp [Stats.init, List.getElem?_replicate, hi]) hc' cell
    rw [hc']
    simp only
    rw [this, counter_zero, bump_zero]

/-- The state of the counters after the evaluations es. -/
structure Counted (n : Nat) (es : List (Ev B32)) (s : Stats B32) : Prop where
  length : s.clusters.length = n
  well : s.wellClassified = holds (es.countP (well n))
  mis : s.misclassified = holds (es.countP (mis n))
  cells : ∀ (i : Nat) c, s.clusters[i]? = some c → ∀ cell, counter c cell = holds (es.countP (inCell n i cell))

theorem counted_run {n : Nat} {done es : List (Ev B32)} {s s' : Stats B32} (h : Counted n done s)
    (hr : es.foldlM Stats.evaluateOnce s = .ok s') : Counted n (done ++ es) s' := by
  induction es generalizing s done with
  | nil => cases hr; simpa using h
  | cons e es ih =>
    rw [List.foldlM_cons] at hr
    obtain ⟨s1, h1, h2⟩ := Res.bind_eq_ok.1 hr
    rcases adds n e with ⟨vs, b, ha⟩ | hub
    · obtain ⟨s1', k1, k2, k3, k4, k5⟩ := ha.step s h.length
      rw [k1] at h1
      cases h1
      obtain ⟨o1, o2, o3⟩ := Adds.observed ha
      have : Counted n (done ++ [e]) s1 := by
        refine ⟨k2, ?_, ?_, ?_⟩
        · rw [k4, h.well, bump_holds, List.countP_append, ← o1]; simp [List.countP_cons]
        · rw [k5, h.mis, bump_holds, List.countP_append, ← o2]; simp [List.countP_cons]
        · intro i c' hc' cell
          have hi : i < n := by
            by_contra hc; rw [List.getElem?_eq_none (by omega)] at hc'; cases hc'
          have hc : s.clusters[i]? = some (s.clusters[i]'(by rw [h.length]; exact hi)) := List.getElem?_eq_getElem _
          rw [k3 i _ c' hc hc' cell, h.cells i _ hc cell, bump_holds, List.countP_append, ← o3 i hi cell]
          simp [List.countP_cons]
      have := ih this h2
      simpa using this
    · obtain ⟨m, hm⟩ := hub s h.length
      rw [hm] at h1; cases h1

theorem counted_start (s : Stats B32) : Counted s.clusters.length [] s.startTesting := by
  refine ⟨by simp [Stats.startTesting], ?_, ?_, ?_⟩
  · show (lit 0 : B32) = _; rw [lit_zero]; simp [holds]
  · show (lit 0 : B32) = _; rw [lit_zero]; simp [holds]
  · intro i c hc cell
    simp only [Stats.startTesting, List.getElem?_map, Option.map_eq_some_iff] at hc
    obtain ⟨_, _, rfl⟩ := hc
    rw [counter_zero, lit_zero]; simp [holds]

/-- Every evaluation that returns judges its example well or badly classified, not both. -/
theorem well_or_mis {n : Nat} {es : List (Ev B32)} {s s' : Stats B32} (hn : s.clusters.length = n)
    (hr : es.foldlM Stats.evaluateOnce s = .ok s') : es.countP (well n) + es.countP (mis n) = es.length := by
  induction es generalizing s with
  | nil => rfl
  | cons e es ih =>
    rw [List.foldlM_cons] at hr
    obtain ⟨s1, h1, h2⟩ := Res.bind_eq_ok.1 hr
    rcases adds n e with ⟨vs, b, ha⟩ | hub
    · obtain ⟨s1', k1, k2, _⟩ := ha.step s hn
      rw [k1] at h1; cases h1
      obtain ⟨o1, o2, _⟩ := Adds.observed ha
      have := ih k2 h2
      rw [List.countP_cons, List.countP_cons, o1, o2, List.length_cons]
      cases b <;> simp <;> omega
    · obtain ⟨m, hm⟩ := hub s hn
      rw [hm] at h1; cases h1

/-- **C58**, on IEEE binary32: after any number of evaluations, every counter holds the number of evaluations counted there, up to
2^24. Hence the counts are exact for at most 2^24 = 16777216 examples. Missing: more examples, see `C58_stuck_refuted`. -/
theorem C58_exact_partial (s s' : Stats B32) (es : List (Ev B32)) (hlen : es.length ≤ 2 ^ 24)
    (hr : es.foldlM Stats.evaluateOnce s.startTesting = .ok s') :
    s'.wellClassified = .num (es.countP (well s.clusters.length)) ∧ s'.misclassified = .num (es.countP (mis s.clusters.length)) ∧
    es.countP (well s.clusters.length) + es.countP (mis s.clusters.length) = es.length ∧
    ∀ (i : Nat) c, s'.clusters[i]? = some c → ∀ cell, counter c cell = .num (es.countP (inCell s.clusters.length i cell)) := by
  have h := counted_run (counted_start s) hr
  rw [List.nil_append] at h
  have e : ∀ p : Ev B32 → Bool, holds (es.countP p) = .num (es.countP p) := by
    intro p
    have := List.countP_le_length (p := p) (l := es)
    unfold holds
    rw [min_eq_left (by omega)]
  refine ⟨by rw [h.well, e], by rw [h.mis, e], well_or_mis (by simp [Stats.startTesting]) hr, ?_⟩
  intro i c hc cell
  rw [h.cells i c hc cell, e]

/-- **C58 is false beyond 2^24 examples**: every counter stays at 2^24 = 16777216 whatever follows, so that for every test with more
than 2^24 well classified examples the count is wrong. -/
theorem C58_stuck_refuted (s s' : Stats B32) (es : List (Ev B32)) (hr : es.foldlM Stats.evaluateOnce s.startTesting = .ok s')
    (h : 2 ^ 24 ≤ es.countP (well s.clusters.length)) : s'.wellClassified = .num (2 ^ 24) := by
  have := (counted_run (counted_start s) hr).well
  rw [List.nil_append] at this
  rw [this, holds, min_eq_right h]
  norm_num

/-- **C58, the accuracy**: with 2^25 well classified examples among 2^25 + 2^24, the accuracy is 1/2 instead of 2/3. -/
theorem C58_accuracy_refuted (s s' : Stats B32) (es : List (Ev B32)) (hr : es.foldlM Stats.evaluateOnce s.startTesting = .ok s')
    (h1 : es.countP (well s.clusters.length) = 2 ^ 25) (h2 : es.length = 2 ^ 25 + 2 ^ 24) : s'.computeGlobalRate = .num (1/2) := by
  have hc := counted_run (counted_start s) hr
  rw [List.nil_append] at hc
  have hs := well_or_mis (by simp [Stats.startTesting]) hr (n := s.clusters.length)
  have hm : es.countP (mis s.clusters.length) = 2 ^ 24 := by omega
  unfold Stats.computeGlobalRate
  rw [hc.well, hc.mis, h1, hm]
  have e1 : holds (2 ^ 25) = .num (2 ^ 24) := by unfold holds; norm_num
  have e2 : holds (2 ^ 24) = .num (2 ^ 24) := by unfold holds; norm_num
  rw [e1, e2, B32.num_add]
  have e3 : B32.ofRat (2 ^ 24 + 2 ^ 24) = .num (2 ^ 25) := by
    have hq : (2 ^ 24 + 2 ^ 24 : ℚ) = ((2 ^ 25 : ℕ) : ℚ) := by norm_num
    have hlog : Int.log 2 |((2 ^ 25 : ℕ) : ℚ)| = 25 := by
      rw [abs_of_nonneg (by norm_num), Int.log_natCast (R := ℚ) 2 (2 ^ 25), Nat.log_pow (by norm_num)]; rfl
    rw [hq]
    unfold B32.ofRat
    have hu : B32.ulp ((2 ^ 25 : ℕ) : ℚ) = 4 := by unfold B32.ulp; rw [hlog]; norm_num
    rw [if_neg (by norm_num), hu]
    have : ((2 ^ 25 : ℕ) : ℚ) / 4 = ((2 ^ 23 : ℤ) : ℚ) := by norm_num
    rw [this, B32.nearest_int]
    norm_num
  rw [e3]
  show (if (2 ^ 25 : ℚ) = 0 then _ else B32.ofRat (2 ^ 24 / 2 ^ 25)) = _
  rw [if_neg (by norm_num)]
  have hq : (2 ^ 24 / 2 ^ 25 : ℚ) = 1/2 := by norm_num
  rw [hq]
  have hlog : Int.log 2 |(1/2 : ℚ)| = -1 := by
    rw [abs_of_nonneg (by norm_num)]
    have := Int.log_zpow (R := ℚ) (b := 2) (by norm_num) (-1)
    norm_num at this ⊢
    exact this
  unfold B32.ofRat
  have hu : B32.ulp (1/2 : ℚ) = 2 ^ (-24 : ℤ) := by unfold B32.ulp; rw [hlog]; norm_num
  rw [if_neg (by norm_num), hu]
  have : (1/2 : ℚ) / 2 ^ (-24 : ℤ) = ((2 ^ 23 : ℤ) : ℚ) := by norm_num
  rw [this, B32.nearest_int]
  norm_num

/-! ### Witness -/

/-- An example whose two outputs are 1 and 0 and whose class is 0, or 1. -/
def good : Ev B32 := .classification [.num 1, .num 0] 0 (.num 0)
/-- The same with the other class. -/
def bad : Ev B32 := .classification [.num 1, .num 0] 1 (.num 0)

theorem run_returns (k : Int) (s : Stats B32) (hs : s.clusters.length = 2) : ∃ s', s.evaluateOnce (.classification [.num 1, .num 0] k (.num 0)) = .ok s' ∧ s'.clusters.length = 2 := by
  refine ⟨_, by simp only [Stats.evaluateOnce, hs]; rfl, ?_⟩
  rw [(count_eq _ _).2.2]; simp [hs]

theorem runs_return (es : List (Ev B32)) (h : ∀ e ∈ es, e = good ∨ e = bad) (s : Stats B32) (hs : s.clusters.length = 2) :
    ∃ s', es.foldlM Stats.evaluateOnce s = .ok s' := by
  induction es generalizing s with
  | nil => exact ⟨s, rfl⟩
  | cons e es ih =>
    have : ∃ s', s.evaluateOnce e = .ok s' ∧ s'.clusters.length = 2 := by
      rcases h e (by simp) with rfl | rfl
      · exact run_returns 0 s hs
      · exact run_returns 1 s hs
    obtain ⟨s1, h1, h2⟩ := this
    obtain ⟨s2, h3⟩ := ih (fun e he => h e (by simp [he])) s1 h2
    exact ⟨s2, by rw [List.foldlM_cons, h1]; exact h3⟩

theorem well_good : well 2 good = true := by decide +kernel
theorem well_bad : well 2 bad = false := by decide +kernel

/-- Such a test exists: 2^25 times a well classified example, then 2^24 times a misclassified one. -/
example : ∃ (es : List (Ev B32)) (s' : Stats B32), es.foldlM Stats.evaluateOnce (Stats.init 2 : Stats B32).startTesting = .ok s' ∧
    es.countP (well 2) = 2 ^ 25 ∧ es.length = 2 ^ 25 + 2 ^ 24 ∧ s'.wellClassified = .num (2 ^ 24) ∧ s'.computeGlobalRate = .num (1/2) := by
  obtain ⟨s', h⟩ := runs_return (List.replicate (2 ^ 25) good ++ List.replicate (2 ^ 24) bad) (by
    intro e he; rw [List.mem_append, List.mem_replicate, List.mem_replicate] at he; tauto) (Stats.init 2 : Stats B32).startTesting rfl
  have hc : (List.replicate (2 ^ 25) good ++ List.replicate (2 ^ 24) bad).countP (well 2) = 2 ^ 25 := by
    rw [List.countP_append, List.countP_replicate, List.countP_replicate, well_good, well_bad]; rfl
  have hl : (List.replicate (2 ^ 25) good ++ List.replicate (2 ^ 24) bad).length = 2 ^ 25 + 2 ^ 24 := by
    rw [List.length_append, List.length_replicate, List.length_replicate]
  exact ⟨_, s', h, hc, hl, C58_stuck_refuted _ s' _ h (by show _ ≤ List.countP (well 2) _; rw [hc]; norm_num), C58_accuracy_refuted _ s' _ h hc hl⟩

end Snn.CountProps
