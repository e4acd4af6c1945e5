import Verif.Spec.WaitSpec
import Mathlib.Tactic.Linarith

/-! Helper lemmas for `Verif/Props/WaitProps.lean`. -/

set_option linter.all false

namespace Snn.WaitSpec

variable {F : Type} [Field F] [LinearOrder F] [IsStrictOrderedRing F]

theorem toInt32_small {n : Nat} (h : n < 2 ^ 31) : toInt32 n = n := by
  unfold toInt32
  have h' : (n : Int) < 2 ^ 31 := by exact_mod_cast h
  rw [Int.bmod_def]
  omega

/-- The four conditions of `isOver` (outside `andOp`) in terms of the criteria represented. -/
structure RepOr (w : Wait F) (cs : List (Crit F)) : Prop where
  op : w.op ≠ .andOp
  ep_pos : w.epochs = -1 ∨ 0 < w.epochs
  acc_pos : w.accuracy = -1 ∨ 0 < w.accuracy
  ms_pos : w.duration = -1 ∨ 0 < w.duration
  ep : ∀ c : Int, (0 < w.epochs ∧ w.epochs < c) ↔ ∃ n, Crit.ep n ∈ cs ∧ (n : Int) < c
  acc : ∀ a : F, (0 < w.accuracy ∧ w.accuracy ≤ a) ↔ ∃ x, Crit.acc x ∈ cs ∧ x ≤ a
  mae : ∀ a : F, 0 < a → (a ≤ w.mae ↔ ∃ x, Crit.mae x ∈ cs ∧ a ≤ x)
  ms : ∀ c : Int, (0 < w.duration ∧ w.duration ≤ c) ↔ ∃ n, Crit.ms n ∈ cs ∧ (n : Int) ≤ c

theorem repOr_crit (c : Crit F) (hw : c.writable) (hp : c.positive) : RepOr c.wait [c] := by
  cases c with
  | ep n =>
    have := toInt32_small hw
    simp only [Crit.positive] at hp
    constructor <;> simp [Crit.wait, litEp, Wait.default, this] <;> intros <;> first | omega | linarith
  | acc a =>
    simp only [Crit.positive] at hp
    constructor <;> simp [Crit.wait, litAcc, Wait.default, hp] <;> intros <;> first | omega | linarith
  | mae a =>
    constructor <;> simp [Crit.wait, litMae, Wait.default] <;> intros <;> first | omega | linarith
  | ms n =>
    have := toInt32_small hw
    simp only [Crit.positive] at hp
    constructor <;> simp [Crit.wait, litMs, Wait.default, this] <;> intros <;> first | omega | linarith

theorem stdMax_eq (a b : F) : stdMax a b = max a b := by
  unfold stdMax
  by_cases h : a < b
  · rw [if_pos ((flt_iff a b).2 h), max_eq_right h.le]
  · rw [if_neg (by simpa using h), max_eq_left (not_lt.1 h)]

theorem stdMin_eq (a b : F) : stdMin a b = min a b := by
  unfold stdMin
  by_cases h : b < a
  · rw [if_pos ((flt_iff b a).2 h), min_eq_right h.le]
  · rw [if_neg (by simpa using h), min_eq_left (not_lt.1 h)]

omit [IsStrictOrderedRing F] in
theorem exists_mem_append {α β : Type} (f : α → β) (P : α → Prop) (xs ys : List β) :
    (∃ n, f n ∈ xs ++ ys ∧ P n) ↔ (∃ n, f n ∈ xs ∧ P n) ∨ (∃ n, f n ∈ ys ∧ P n) := by
  simp only [List.mem_append]
  constructor
  · rintro ⟨n, h | h, hp⟩
    · exact Or.inl ⟨n, h, hp⟩
    · exact Or.inr ⟨n, h, hp⟩
  · rintro (⟨n, h, hp⟩ | ⟨n, h, hp⟩)
    · exact ⟨n, Or.inl h, hp⟩
    · exact ⟨n, Or.inr h, hp⟩

theorem repOr_or {w v : Wait F} {xs ys : List (Crit F)} (hw : RepOr w xs) (hv : RepOr v ys) :
    ∃ u, w.or v = .ok u ∧ RepOr u (xs ++ ys) := by
  refine ⟨_, by unfold Wait.or; rw [if_neg hw.op], ?_⟩
  have e1 := hw.ep_pos; have e2 := hv.ep_pos
  have a1 := hw.acc_pos; have a2 := hv.acc_pos
  have m1 := hw.ms_pos; have m2 := hv.ms_pos
  have hneg : ¬ ((0:F) < -1) := by simp
  constructor
  · simp
  · dsimp only; split <;> omega
  · dsimp only
    simp only [stdMin_eq, stdMax_eq, Bool.and_eq_true, flt_iff, lit_eq, Rat.cast_zero]
    split
    · rename_i h; exact Or.inr (lt_min h.1 h.2)
    · rename_i h
      rcases a1 with a1 | a1 <;> rcases a2 with a2 | a2
      · left; rw [a1, a2, max_self]
      · right; exact lt_max_of_lt_right a2
      · right; exact lt_max_of_lt_left a1
      · exact absurd ⟨a1, a2⟩ h
  · dsimp only; split <;> omega
  · intro c
    rw [exists_mem_append, ← hw.ep, ← hv.ep]; dsimp only; split <;> omega
  · intro a
    rw [exists_mem_append, ← hw.acc, ← hv.acc]; dsimp only
    simp only [stdMin_eq, stdMax_eq, Bool.and_eq_true, flt_iff, lit_eq, Rat.cast_zero]
    split
    · rename_i h
      simp only [lt_min_iff, min_le_iff, h, true_and]
    · rename_i h
      rcases a1 with a1 | a1 <;> rcases a2 with a2 | a2
      · simp [a1, a2, hneg]
      · have : max w.accuracy v.accuracy = v.accuracy := max_eq_right (by rw [a1]; linarith)
        rw [this, a1]; simp [hneg]
      · have : max w.accuracy v.accuracy = w.accuracy := max_eq_left (by rw [a2]; linarith)
        rw [this, a2]; simp [hneg]
      · exact absurd ⟨a1, a2⟩ h
  · intro a ha
    rw [exists_mem_append, ← hw.mae a ha, ← hv.mae a ha]
    simp [stdMax_eq]
  · intro c
    rw [exists_mem_append, ← hw.ms, ← hv.ms]; dsimp only; split <;> omega

theorem repOr_isOver {w : Wait F} {cs : List (Crit F)} (h : RepOr w cs) (m : Moment F) :
    (w.isOver m.elapsed m.epoch m.accuracy m.mae = true) ↔ ∃ c ∈ cs, c.met m := by
  have hsplit : (∃ c ∈ cs, c.met m) ↔
      (∃ n, Crit.ep n ∈ cs ∧ (n : Int) < m.epoch) ∨
      ((∃ x, Crit.acc x ∈ cs ∧ x ≤ m.accuracy) ∧ 0 < m.accuracy) ∨
      ((∃ x, Crit.mae x ∈ cs ∧ m.mae ≤ x) ∧ 0 < m.mae) ∨
      (∃ n, Crit.ms n ∈ cs ∧ (n : Int) ≤ m.elapsed) := by
    constructor
    · rintro ⟨c, hc, hm⟩
      cases c with
      | ep n => exact Or.inl ⟨n, hc, hm⟩
      | acc a => exact Or.inr (Or.inl ⟨⟨a, hc, hm.1⟩, hm.2⟩)
      | mae a => exact Or.inr (Or.inr (Or.inl ⟨⟨a, hc, hm.1⟩, hm.2⟩))
      | ms n => exact Or.inr (Or.inr (Or.inr ⟨n, hc, hm⟩))
    · rintro (⟨n, hc, hm⟩ | ⟨⟨n, hc, hm⟩, hp⟩ | ⟨⟨n, hc, hm⟩, hp⟩ | ⟨n, hc, hm⟩)
      · exact ⟨_, hc, hm⟩
      · exact ⟨_, hc, hm, hp⟩
      · exact ⟨_, hc, hm, hp⟩
      · exact ⟨_, hc, hm⟩
  rw [hsplit]
  have hmae : ((∃ x, Crit.mae x ∈ cs ∧ m.mae ≤ x) ∧ 0 < m.mae) ↔ (m.mae ≤ w.mae ∧ 0 < m.mae) := by
    constructor
    · rintro ⟨h1, h2⟩; exact ⟨(h.mae _ h2).2 h1, h2⟩
    · rintro ⟨h1, h2⟩; exact ⟨(h.mae _ h2).1 h1, h2⟩
  rw [hmae, ← h.ep, ← h.acc, ← h.ms]
  unfold Wait.isOver
  rw [if_neg h.op]
  simp only [Bool.or_eq_true, Bool.and_eq_true, decide_eq_true_eq, flt_iff, fle_iff, lit_eq,
    Rat.cast_zero]
  have e1 := h.ep_pos; have a1 := h.acc_pos; have m1 := h.ms_pos
  have hA : (((w.accuracy ≤ m.accuracy ∧ 0 < m.accuracy) ∧ 0 ≤ w.accuracy) ↔
      ((0 < w.accuracy ∧ w.accuracy ≤ m.accuracy) ∧ 0 < m.accuracy)) := by
    rcases a1 with a1 | a1
    · rw [a1]; constructor
      · rintro ⟨_, h⟩; exact absurd h (by simp)
      · rintro ⟨⟨h, _⟩, _⟩; exact absurd h (by simp)
    · constructor
      · rintro ⟨⟨h1, h2⟩, _⟩; exact ⟨⟨a1, h1⟩, h2⟩
      · rintro ⟨⟨h1, h2⟩, h3⟩; exact ⟨⟨h2, h3⟩, h1.le⟩
  have hM : (((m.mae ≤ w.mae ∧ 0 < m.mae) ∧ 0 ≤ w.mae) ↔ (m.mae ≤ w.mae ∧ 0 < m.mae)) := by
    constructor
    · exact fun h => h.1
    · exact fun h => ⟨h, h.2.le.trans h.1⟩
  have hE : (m.epoch > w.epochs ∧ m.epoch > 0) ∧ w.epochs ≥ 0 ↔
      0 < w.epochs ∧ w.epochs < m.epoch := by omega
  have hD : m.elapsed ≥ w.duration ∧ w.duration ≥ 0 ↔
      0 < w.duration ∧ w.duration ≤ m.elapsed := by omega
  rw [hA, hM, hE, hD]
  simp only [or_assoc]

theorem repOr_eval (e : Expr F) (ho : e.onlyOr) (hw : ∀ c ∈ e.crits, c.writable)
    (hp : ∀ c ∈ e.crits, c.positive) : ∃ w, e.eval = .ok w ∧ RepOr w e.crits := by
  induction e with
  | crit c => exact ⟨_, rfl, repOr_crit c (hw c (by simp [Expr.crits])) (hp c (by simp [Expr.crits]))⟩
  | or a b iha ihb =>
    obtain ⟨x, hx, rx⟩ := iha ho.1 (fun c hc => hw c (by simp [Expr.crits, hc]))
      (fun c hc => hp c (by simp [Expr.crits, hc]))
    obtain ⟨y, hy, ry⟩ := ihb ho.2 (fun c hc => hw c (by simp [Expr.crits, hc]))
      (fun c hc => hp c (by simp [Expr.crits, hc]))
    obtain ⟨u, hu, ru⟩ := repOr_or rx ry
    exact ⟨u, by simp [Expr.eval, hx, hy, hu], ru⟩
  | and a b _ _ => exact absurd ho (by simp [Expr.onlyOr])

/-- What an `&&` expression without MAE criteria is represented by. -/
structure RepAnd (w : Wait F) (cs : List (Crit F)) : Prop where
  op : w.op ≠ .orOp
  single : w.op = .noneOp → ∃ c, cs = [c] ∧ c.wait = w
  ep_ge : -1 ≤ w.epochs
  acc_ge : w.accuracy = -1 ∨ 0 ≤ w.accuracy
  ms_ge : -1 ≤ w.duration
  maeu : w.mae = -1
  ep : ∀ c : Int, 0 < c → (w.epochs < c ↔ ∀ n, Crit.ep n ∈ cs → (n : Int) < c)
  ep_set : 0 ≤ w.epochs ↔ ∃ n, Crit.ep n ∈ cs
  acc : ∀ a : F, 0 < a → (w.accuracy ≤ a ↔ ∀ x, Crit.acc x ∈ cs → x ≤ a)
  acc_set : 0 ≤ w.accuracy ↔ ∃ n, Crit.acc n ∈ cs
  ms : ∀ c : Int, (w.duration < 0 ∨ w.duration ≤ c) ↔ ∀ n, Crit.ms n ∈ cs → (n : Int) ≤ c

theorem repAnd_crit (c : Crit F) (hw : c.writable) (hp : c.notMae) : RepAnd c.wait [c] := by
  cases c with
  | ep n =>
    have := toInt32_small hw
    constructor <;> simp [Crit.wait, litEp, Wait.default, this] <;> intros <;> first | omega | linarith
  | acc a =>
    have hw : 0 ≤ a := hw
    constructor <;> simp [Crit.wait, litAcc, Wait.default, hw] <;> intros <;> first | omega | linarith
  | mae a => exact absurd hp (by simp [Crit.notMae])
  | ms n =>
    have := toInt32_small hw
    constructor <;> simp [Crit.wait, litMs, Wait.default, this] <;> intros <;> first | omega | linarith

theorem forall_mem_append {α β : Type} (f : α → β) (P : α → Prop) (xs ys : List β) :
    (∀ n, f n ∈ xs ++ ys → P n) ↔ (∀ n, f n ∈ xs → P n) ∧ (∀ n, f n ∈ ys → P n) := by
  simp only [List.mem_append]
  constructor
  · intro h; exact ⟨fun n hn => h n (Or.inl hn), fun n hn => h n (Or.inr hn)⟩
  · rintro ⟨h1, h2⟩ n (h | h)
    · exact h1 n h
    · exact h2 n h

theorem repAnd_and {w v : Wait F} {xs ys : List (Crit F)} (hw : RepAnd w xs) (hv : RepAnd v ys) :
    ∃ u, w.and v = .ok u ∧ RepAnd u (xs ++ ys) := by
  refine ⟨_, by unfold Wait.and; rw [if_neg hw.op], ?_⟩
  have e1 := hw.ep_ge; have e2 := hv.ep_ge
  have a1 := hw.acc_ge; have a2 := hv.acc_ge
  have m1 := hw.ms_ge; have m2 := hv.ms_ge
  constructor
  · simp
  · simp
  · dsimp only; omega
  · dsimp only; rw [stdMax_eq]
    rcases a1 with a1 | a1
    · rcases a2 with a2 | a2
      · left; rw [a1, a2, max_self]
      · right; exact le_max_of_le_right a2
    · right; exact le_max_of_le_left a1
  · dsimp only; omega
  · dsimp only; rw [hv.maeu, hw.maeu]; simp [stdMin_eq, stdMax_eq]
  · intro c hc
    rw [forall_mem_append, ← hw.ep c hc, ← hv.ep c hc]; dsimp only; omega
  · have h1 := hw.ep_set; have h2 := hv.ep_set
    simp only [List.mem_append, exists_or, ← h1, ← h2]; omega
  · intro a ha
    rw [forall_mem_append, ← hw.acc a ha, ← hv.acc a ha]; dsimp only; rw [stdMax_eq, max_le_iff]
  · have h1 := hw.acc_set; have h2 := hv.acc_set
    simp only [List.mem_append, exists_or, ← h1, ← h2, stdMax_eq, le_max_iff]
  · intro c
    rw [forall_mem_append, ← hw.ms, ← hv.ms]; dsimp only; omega

theorem repAnd_eval (e : Expr F) (ho : e.onlyAnd) (hw : ∀ c ∈ e.crits, c.writable)
    (hp : ∀ c ∈ e.crits, c.notMae) : ∃ w, e.eval = .ok w ∧ RepAnd w e.crits := by
  induction e with
  | crit c => exact ⟨_, rfl, repAnd_crit c (hw c (by simp [Expr.crits])) (hp c (by simp [Expr.crits]))⟩
  | and a b iha ihb =>
    obtain ⟨x, hx, rx⟩ := iha ho.1 (fun c hc => hw c (by simp [Expr.crits, hc]))
      (fun c hc => hp c (by simp [Expr.crits, hc]))
    obtain ⟨y, hy, ry⟩ := ihb ho.2 (fun c hc => hw c (by simp [Expr.crits, hc]))
      (fun c hc => hp c (by simp [Expr.crits, hc]))
    obtain ⟨u, hu, ru⟩ := repAnd_and rx ry
    exact ⟨u, by simp [Expr.eval, hx, hy, hu], ru⟩
  | or a b _ _ => exact absurd ho (by simp [Expr.onlyAnd])

/-- A single literal is over exactly when its criterion is met (epoch numbers start at 1). -/
theorem crit_isOver (c : Crit F) (hw : c.writable) (m : Moment F) (hm : 0 < m.epoch) :
    (c.wait.isOver m.elapsed m.epoch m.accuracy m.mae = true) ↔ c.met m := by
  have hneg : ¬ ((0:F) ≤ -1) := by simp
  have h1 : ∀ a : Int, ¬ (0 ≤ a) → True := fun _ _ => trivial
  cases c with
  | ep n =>
    have := toInt32_small hw
    simp [Crit.wait, litEp, Wait.default, Wait.isOver, Crit.met, this]
    have h10 : ¬ ((1 : F) ≤ 0) := not_le.2 zero_lt_one
    simp only [h10, hm, and_true, and_false, or_false]
  | acc a =>
    have hw : 0 ≤ a := hw
    simp [Crit.wait, litAcc, Wait.default, Wait.isOver, Crit.met, hw]
  | mae a =>
    have hw : 0 ≤ a := hw
    simp [Crit.wait, litMae, Wait.default, Wait.isOver, Crit.met, hw]
  | ms n =>
    have := toInt32_small hw
    simp [Crit.wait, litMs, Wait.default, Wait.isOver, Crit.met, this]

theorem repAnd_isOver {w : Wait F} {cs : List (Crit F)} (h : RepAnd w cs)
    (hcw : ∀ c ∈ cs, c.writable) (hnm : ∀ c ∈ cs, c.notMae) (m : Moment F) (hm : 0 < m.epoch) :
    (w.isOver m.elapsed m.epoch m.accuracy m.mae = true) ↔ ∀ c ∈ cs, c.met m := by
  cases hop : w.op with
  | orOp => exact absurd hop h.op
  | noneOp =>
    obtain ⟨c, rfl, rfl⟩ := h.single hop
    simp only [List.mem_singleton, forall_eq] at hcw ⊢
    exact crit_isOver c hcw m hm
  | andOp =>
    have hsplit : (∀ c ∈ cs, c.met m) ↔
        (∀ n, Crit.ep n ∈ cs → (n : Int) < m.epoch) ∧
        (∀ x, Crit.acc x ∈ cs → x ≤ m.accuracy ∧ 0 < m.accuracy) ∧
        (∀ n, Crit.ms n ∈ cs → (n : Int) ≤ m.elapsed) := by
      constructor
      · intro hc
        exact ⟨fun n hn => hc _ hn, fun n hn => hc _ hn, fun n hn => hc _ hn⟩
      · rintro ⟨h1, h2, h3⟩ c hc
        cases c with
        | ep n => exact h1 n hc
        | acc a => exact h2 a hc
        | mae a => exact absurd (hnm _ hc) (by simp [Crit.notMae])
        | ms n => exact h3 n hc
    rw [hsplit, ← h.ep _ hm, ← h.ms]
    have hacc : (∀ x, Crit.acc x ∈ cs → x ≤ m.accuracy ∧ 0 < m.accuracy) ↔
        ((w.accuracy ≤ m.accuracy ∧ 0 < m.accuracy) ∨ w.accuracy < 0) := by
      by_cases hs : 0 ≤ w.accuracy
      · obtain ⟨n, hn⟩ := h.acc_set.1 hs
        constructor
        · intro hx
          have h0 := (hx n hn).2
          exact Or.inl ⟨(h.acc _ h0).2 (fun x hx' => (hx x hx').1), h0⟩
        · rintro (⟨h1, h2⟩ | h1)
          · intro x hx; exact ⟨(h.acc _ h2).1 h1 x hx, h2⟩
          · exact absurd hs (not_le.2 h1)
      · have : ∀ x, Crit.acc x ∉ cs := fun x hx => hs (h.acc_set.2 ⟨x, hx⟩)
        constructor
        · intro _; exact Or.inr (not_le.1 hs)
        · intro _ x hx; exact absurd hx (this x)
    rw [hacc]
    unfold Wait.isOver
    rw [if_pos hop]
    simp only [Bool.or_eq_true, Bool.and_eq_true, decide_eq_true_eq, flt_iff, fle_iff, lit_eq,
      Rat.cast_zero, h.maeu]
    have hneg : ((-1 : F) < 0) := by simp
    have hep := h.ep_ge
    simp only [hneg, or_true, and_true]
    have hE : (m.epoch > w.epochs ∧ m.epoch > 0 ∨ w.epochs < 0) ↔ w.epochs < m.epoch := by omega
    have hD : (m.elapsed ≥ w.duration ∨ w.duration < 0) ↔
      (w.duration < 0 ∨ w.duration ≤ m.elapsed) := by omega
    rw [hE, hD]
    simp only [and_assoc]

end Snn.WaitSpec
