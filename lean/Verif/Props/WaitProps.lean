import Verif.Proofs.WaitProofs
import Mathlib.Algebra.Order.Field.Rat

/-!
# Properties of waiting criteria (C16, C17, C18, C19)

`F` is any linearly ordered field (comparisons only are used: no rounding is involved).
-/

set_option linter.all false

namespace Snn.WaitSpec

variable {F : Type} [Field F] [LinearOrder F] [IsStrictOrderedRing F]

/-- **C16, proved part.** Every `||` expression of positive literals is accepted, and the resulting
`Wait` is over at a moment iff at least one of the literals is met at that moment.
Missing from the full property: literals equal to zero, see `C16_or_refuted`. -/
theorem C16_or_partial (e : Expr F) (ho : e.onlyOr) (hw : ∀ c ∈ e.crits, c.writable)
    (hp : ∀ c ∈ e.crits, c.positive) :
    ∃ w, e.eval = .ok w ∧
      ∀ m : Moment F, (w.isOver m.elapsed m.epoch m.accuracy m.mae = true ↔ ∃ c ∈ e.crits, c.met m) := by
  obtain ⟨w, h1, h2⟩ := repOr_eval e ho hw hp
  exact ⟨w, h1, fun m => repOr_isOver h2 m⟩

/-- Non-vacuity: `5_ep || 90%_acc || 250_ms` meets the hypotheses. -/
example : (Expr.or (.or (.crit (.ep 5)) (.crit (.acc (9/10 : ℚ)))) (.crit (.ms 250))).onlyOr ∧
    (∀ c ∈ (Expr.or (.or (.crit (.ep 5)) (.crit (.acc (9/10 : ℚ)))) (.crit (.ms 250))).crits,
      c.writable ∧ c.positive) := by
  simp only [Expr.onlyOr, Expr.crits]
  refine ⟨by simp, ?_⟩
  intro c hc
  simp at hc
  rcases hc with rfl | rfl | rfl <;> simp [Crit.writable, Crit.positive] <;> norm_num

/-- **C16, refutation of the full property.** `0_ep || 5_ep` is not over after the first epoch has
completed although `0_ep` is met: with a zero literal the larger bound is kept. -/
theorem C16_or_refuted :
    ¬ ∀ (e : Expr ℚ), e.onlyOr → (∀ c ∈ e.crits, c.writable) →
      ∃ w, e.eval = .ok w ∧ ∀ m : Moment ℚ, 0 < m.epoch →
        (w.isOver m.elapsed m.epoch m.accuracy m.mae = true ↔ ∃ c ∈ e.crits, c.met m) := by
  intro h
  obtain ⟨w, hw, hm⟩ := h (.or (.crit (.ep 0)) (.crit (.ep 5))) (by simp [Expr.onlyOr])
    (by simp [Expr.crits, Crit.writable])
  have hw' : (Expr.or (.crit (.ep 0)) (.crit (.ep 5)) : Expr ℚ).eval
      = .ok { epochs := 5, accuracy := -1, mae := -1, duration := -1, op := .orOp } := by
    decide +kernel
  rw [hw'] at hw
  cases hw
  have := (hm ⟨1, -1, -1, 0⟩ (by simp)).2 ⟨.ep 0, by simp [Expr.crits], by simp [Crit.met]⟩
  revert this
  decide +kernel

theorem mulInt32_ok {a b : Nat} (h : b * a < 2 ^ 31) : mulInt32 (a : Int) (b : Int) = .ok ((b * a : Nat) : Int) := by
  have h1 : (a : Int) * (b : Int) = ((b * a : Nat) : Int) := by rw [Nat.mul_comm, Nat.cast_mul]
  have h3 : ((b * a : Nat) : Int) < 2 ^ 31 := by exact_mod_cast h
  have h2 : (-(2 ^ 31) : Int) ≤ ((b * a : Nat) : Int) := le_trans (by norm_num) (Int.natCast_nonneg _)
  rw [mulInt32, h1, if_pos ⟨h2, h3⟩]

theorem isOver_duration (n : Nat) (m : Moment F) :
    ({ (Wait.default : Wait F) with duration := (n : Int) }.isOver m.elapsed m.epoch m.accuracy m.mae = true
      ↔ (n : Int) ≤ m.elapsed) := by
  have h1 : (fle (lit 0) (lit (-1) : F)) = false := by simp [fle, lit, Flt.fle, Flt.lit]
  simp [Wait.isOver, Wait.default, h1]

/-- **C16, units of the duration literals.** `v_s` and `v_min` are over from `1000 v`, respectively
`60000 v`, milliseconds on and not before, as long as that number of milliseconds is an `int`. -/
theorem C16_duration_literals_partial (v : Nat) :
    (1000 * v < 2 ^ 31 → ∃ w : Wait F, litS v = .ok w ∧ ∀ m : Moment F,
      (w.isOver m.elapsed m.epoch m.accuracy m.mae = true ↔ ((1000 * v : Nat) : Int) ≤ m.elapsed)) ∧
    (60 * (1000 * v) < 2 ^ 31 → ∃ w : Wait F, litMin v = .ok w ∧ ∀ m : Moment F,
      (w.isOver m.elapsed m.epoch m.accuracy m.mae = true ↔ ((60 * (1000 * v) : Nat) : Int) ≤ m.elapsed)) := by
  refine ⟨fun h => ⟨_, ?_, isOver_duration (1000 * v)⟩, fun h => ⟨_, ?_, isOver_duration (60 * (1000 * v))⟩⟩
  · have hv : v < 2 ^ 31 := lt_of_le_of_lt (Nat.le_mul_of_pos_left v (by norm_num)) h
    have := mulInt32_ok h
    simp only [litS, toInt32_small hv]
    rw [show (1000 : Int) = ((1000 : Nat) : Int) from rfl, this]
    rfl
  · have h' : 1000 * v < 2 ^ 31 := lt_of_le_of_lt (Nat.le_mul_of_pos_left _ (by norm_num)) h
    have hv : v < 2 ^ 31 := lt_of_le_of_lt (Nat.le_mul_of_pos_left v (by norm_num)) h'
    have e1 := mulInt32_ok h'
    have e2 := mulInt32_ok h
    simp only [litMin, toInt32_small hv]
    rw [show (1000 : Int) = ((1000 : Nat) : Int) from rfl, e1, Res.ok_bind,
      show (60 : Int) = ((60 : Nat) : Int) from rfl, e2]
    rfl

/-- Non-vacuity: `90_s` and `30_min` are in range. -/
example : 1000 * 90 < 2 ^ 31 ∧ 60000 * 30 < 2 ^ 31 := by decide

/-- **C16, refutation for long durations.** `35792_min` (about 25 days) overflows `int`: undefined
behaviour instead of a criterion. -/
theorem C16_duration_overflow_refuted : (litMin 35792 : Res (Wait F)) = .ub "signed integer overflow" := by
  have : toInt32 35792 = 35792 := by decide
  simp only [litMin, this]
  rfl

/-- **C17, proved part.** Every `&&` expression of literals other than `_mae` is accepted, and the
resulting `Wait` is over iff all its literals are met (epoch numbers start at 1).
Missing from the full property: `_mae` literals, see `C17_and_refuted`. -/
theorem C17_and_partial (e : Expr F) (ho : e.onlyAnd) (hw : ∀ c ∈ e.crits, c.writable)
    (hp : ∀ c ∈ e.crits, c.notMae) :
    ∃ w, e.eval = .ok w ∧ ∀ m : Moment F, 0 < m.epoch →
      (w.isOver m.elapsed m.epoch m.accuracy m.mae = true ↔ ∀ c ∈ e.crits, c.met m) := by
  obtain ⟨w, h1, h2⟩ := repAnd_eval e ho hw hp
  exact ⟨w, h1, fun m hm => repAnd_isOver h2 hw hp m hm⟩

/-- Non-vacuity: `5_ep && 90%_acc` meets the hypotheses. -/
example : (Expr.and (.crit (.ep 5)) (.crit (.acc (9/10 : ℚ)))).onlyAnd ∧
    (∀ c ∈ (Expr.and (.crit (.ep 5)) (.crit (.acc (9/10 : ℚ)))).crits, c.writable ∧ c.notMae) := by
  refine ⟨by simp [Expr.onlyAnd], ?_⟩
  intro c hc
  simp [Expr.crits] at hc
  rcases hc with rfl | rfl <;> simp [Crit.writable, Crit.notMae] <;> norm_num

/-- **C17, refutation of the full property.** `0.1_mae && 5_ep` loses the MAE criterion: it is over
after 5 epochs with a mean absolute error of 100. -/
theorem C17_and_refuted :
    ¬ ∀ (e : Expr ℚ), e.onlyAnd → (∀ c ∈ e.crits, c.writable ∧ c.positive) →
      ∃ w, e.eval = .ok w ∧ ∀ m : Moment ℚ, 0 < m.epoch →
        (w.isOver m.elapsed m.epoch m.accuracy m.mae = true ↔ ∀ c ∈ e.crits, c.met m) := by
  intro h
  obtain ⟨w, hw, hm⟩ := h (.and (.crit (.mae (1/10))) (.crit (.ep 5))) (by simp [Expr.onlyAnd])
    (by simp [Expr.crits, Crit.writable, Crit.positive])
  have hw' : (Expr.and (.crit (.mae (1/10))) (.crit (.ep 5)) : Expr ℚ).eval
      = .ok { epochs := 5, accuracy := -1, mae := -1, duration := -1, op := .andOp } := by
    decide +kernel
  rw [hw'] at hw
  cases hw
  have h1 := (hm ⟨6, 1/2, 100, 0⟩ (by simp)).1 (by decide +kernel) (.mae (1/10)) (by simp [Expr.crits])
  simp [Crit.met] at h1
  norm_num at h1

/-- **C18, proved part.** Evaluating an expression throws exactly when somewhere an operator's *left*
operand is a combination made by the other operator, however large the expression; otherwise it is
accepted. Missing: mixing through the right operand, see `C18_mix_refuted`. -/
theorem C18_mix_partial (e : Expr F) :
    (e.eval.isThrow = true ↔ e.leftMix) ∧ (e.eval.isOk = true ↔ ¬ e.leftMix) := by
  have key : ∀ e : Expr F, (e.leftMix ∧ e.eval.isThrow = true) ∨
      (¬ e.leftMix ∧ ∃ w, e.eval = .ok w ∧ w.op = (match e with
        | .crit _ => WaitOp.noneOp | .or _ _ => .orOp | .and _ _ => .andOp)) := by
    intro e
    induction e with
    | crit c => right; refine ⟨by simp [Expr.leftMix], _, rfl, ?_⟩; cases c <;> rfl
    | or a b iha ihb =>
      rcases iha with ⟨hm, ht⟩ | ⟨hm, w, hw, hop⟩
      · left
        refine ⟨by cases a <;> simp_all [Expr.leftMix], ?_⟩
        revert ht
        cases h : a.eval <;> simp [Expr.eval, h, Res.isThrow]
      · rcases ihb with ⟨hm2, ht2⟩ | ⟨hm2, v, hv, hop2⟩
        · left
          refine ⟨by cases a <;> simp_all [Expr.leftMix], ?_⟩
          revert ht2
          cases h : b.eval <;> simp [Expr.eval, h, hw, Res.isThrow]
        · have he : (Expr.or a b).eval = w.or v := by simp [Expr.eval, hw, hv]
          rw [he]
          cases a with
          | and x y => left; exact ⟨by simp [Expr.leftMix], by simp [Wait.or, hop, Res.isThrow]⟩
          | crit x => right; exact ⟨by simp [Expr.leftMix, hm2], by simp [Wait.or, hop]⟩
          | or x y => right; exact ⟨by simp_all [Expr.leftMix], by simp [Wait.or, hop]⟩
    | and a b iha ihb =>
      rcases iha with ⟨hm, ht⟩ | ⟨hm, w, hw, hop⟩
      · left
        refine ⟨by cases a <;> simp_all [Expr.leftMix], ?_⟩
        revert ht
        cases h : a.eval <;> simp [Expr.eval, h, Res.isThrow]
      · rcases ihb with ⟨hm2, ht2⟩ | ⟨hm2, v, hv, hop2⟩
        · left
          refine ⟨by cases a <;> simp_all [Expr.leftMix], ?_⟩
          revert ht2
          cases h : b.eval <;> simp [Expr.eval, h, hw, Res.isThrow]
        · have he : (Expr.and a b).eval = w.and v := by simp [Expr.eval, hw, hv]
          rw [he]
          cases a with
          | or x y => left; exact ⟨by simp [Expr.leftMix], by simp [Wait.and, hop, Res.isThrow]⟩
          | crit x => right; exact ⟨by simp [Expr.leftMix, hm2], by simp [Wait.and, hop]⟩
          | and x y => right; exact ⟨by simp_all [Expr.leftMix], by simp [Wait.and, hop]⟩
  rcases key e with ⟨h1, h2⟩ | ⟨h1, w, h2, _⟩
  · refine ⟨by simp [h1, h2], ?_⟩
    revert h2
    cases e.eval <;> simp [Res.isThrow, Res.isOk, h1]
  · simp [h1, h2, Res.isThrow, Res.isOk]

/-- Non-vacuity: `(a && b) || c` is a left mix, `a || b || c` is not. -/
example : (Expr.or (.and (.crit (.ep 5)) (.crit (.ms 1))) (.crit (.ep 2)) : Expr ℚ).leftMix ∧
    ¬ (Expr.or (.or (.crit (.ep 5)) (.crit (.ms 1))) (.crit (.ep 2)) : Expr ℚ).leftMix := by
  simp [Expr.leftMix]

/-- **C18, refutation of the full property.** `1_ep || 0.5_acc && 3_ms` (which C++ parses as
`1_ep || (0.5_acc && 3_ms)`) mixes the operators and is accepted. -/
theorem C18_mix_refuted :
    ∃ e : Expr ℚ, e.mixed ∧ (∀ c ∈ e.crits, c.writable ∧ c.positive) ∧ e.eval.isOk = true := by
  refine ⟨.or (.crit (.ep 1)) (.and (.crit (.acc (1/2))) (.crit (.ms 3))), ?_, ?_, ?_⟩
  · simp [Expr.mixed, Expr.onlyOr, Expr.onlyAnd]
  · intro c hc
    simp [Expr.crits] at hc
    rcases hc with rfl | rfl | rfl <;> simp [Crit.writable, Crit.positive]
  · decide +kernel

/-- **C19, proved part.** A `Wait` that is over stays over at every later moment with at least as many
epochs, at least the same accuracy, at most the same *and still positive* mean absolute error, and at
least the same elapsed time. Missing: an error that improves to exactly 0, see `C19_stays_refuted`. -/
theorem C19_stays_over_partial (w : Wait F) (m m' : Moment F)
    (he : m.epoch ≤ m'.epoch) (ha : m.accuracy ≤ m'.accuracy) (hm : m'.mae ≤ m.mae) (hpos : 0 < m'.mae)
    (ht : m.elapsed ≤ m'.elapsed)
    (h : w.isOver m.elapsed m.epoch m.accuracy m.mae = true) :
    w.isOver m'.elapsed m'.epoch m'.accuracy m'.mae = true := by
  unfold Wait.isOver at h ⊢
  by_cases hop : w.op = .andOp
  · rw [if_pos hop] at h ⊢
    simp only [Bool.or_eq_true, Bool.and_eq_true, decide_eq_true_eq, flt_iff, fle_iff, lit_eq,
      Rat.cast_zero] at h ⊢
    obtain ⟨⟨⟨h1, h2⟩, h3⟩, h4⟩ := h
    refine ⟨⟨⟨by omega, ?_⟩, ?_⟩, by omega⟩
    · rcases h2 with ⟨h2, h2'⟩ | h2
      · exact Or.inl ⟨h2.trans ha, h2'.trans_le ha⟩
      · exact Or.inr h2
    · rcases h3 with ⟨h3, _⟩ | h3
      · exact Or.inl ⟨hm.trans h3, hpos⟩
      · exact Or.inr h3
  · rw [if_neg hop] at h ⊢
    simp only [Bool.or_eq_true, Bool.and_eq_true, decide_eq_true_eq, flt_iff, fle_iff, lit_eq,
      Rat.cast_zero] at h ⊢
    rcases h with ((h | h) | h) | h
    · exact Or.inl (Or.inl (Or.inl (by omega)))
    · exact Or.inl (Or.inl (Or.inr ⟨⟨h.1.1.trans ha, h.1.2.trans_le ha⟩, h.2⟩))
    · exact Or.inl (Or.inr ⟨⟨hm.trans h.1.1, hpos⟩, h.2⟩)
    · exact Or.inr (by omega)

/-- Non-vacuity: `0.1_mae` over with error 1/20, later with error 1/40. -/
example : (litMae (1/10) : Wait ℚ).isOver 0 2 (-1) (1/20) = true ∧
    (litMae (1/10) : Wait ℚ).isOver 9 3 (-1) (1/40) = true := by
  constructor <;> decide +kernel

/-- **C19, refutation of the full property.** With `0.1_mae`, an error of 0.05 is over but a later,
perfect error of 0 is not. -/
theorem C19_stays_over_refuted :
    ∃ (w : Wait ℚ) (m m' : Moment ℚ), m.epoch ≤ m'.epoch ∧ m.accuracy ≤ m'.accuracy ∧
      m'.mae ≤ m.mae ∧ 0 ≤ m'.mae ∧ m.elapsed ≤ m'.elapsed ∧
      w.isOver m.elapsed m.epoch m.accuracy m.mae = true ∧
      w.isOver m'.elapsed m'.epoch m'.accuracy m'.mae = false := by
  refine ⟨litMae (1/10), ⟨2, -1, 1/20, 0⟩, ⟨3, -1, 0, 10⟩, ?_⟩
  refine ⟨by decide, by decide, ?_, by decide, by decide, by decide +kernel, by decide +kernel⟩
  norm_num

end Snn.WaitSpec
