import Verif.Spec.FairSpec
import Verif.Proofs.ShuffleProofs

/-! Every order of a list of distinct elements comes from exactly one tuple of draws. -/

set_option linter.all false

namespace Snn

section
variable {α : Type}

theorem swapAt_get {l : List α} {i j : Nat} (hi : i < l.length) (hj : j < l.length) (p : Nat) :
    (swapAt l i j)[p]? = if p = j then l[i]? else if p = i then l[j]? else l[p]? := by
  unfold swapAt
  rw [List.getElem?_eq_getElem hi, List.getElem?_eq_getElem hj]
  simp only
  rw [List.getElem?_set, List.getElem?_set]
  by_cases c : j = p
  · subst c
    simp [hj]
  · simp only [c, if_false, Ne.symm c]
    by_cases c2 : i = p
    · subst c2; simp [hi]
    · simp [c2, Ne.symm c2]

theorem swapAt_swapAt {l : List α} {i j : Nat} (hi : i < l.length) (hj : j < l.length) :
    swapAt (swapAt l i j) i j = l := by
  apply List.ext_getElem?
  intro p
  rw [swapAt_get (by rw [swapAt_length]; exact hi) (by rw [swapAt_length]; exact hj), swapAt_get hi hj, swapAt_get hi hj,
    swapAt_get hi hj]
  by_cases c : p = j
  · subst c
    by_cases c2 : i = p
    · subst c2; simp
    · simp [c2]
  · by_cases c2 : p = i
    · subst c2; simp [c]
    · simp [c, c2]

theorem rounds_get (r : Rng) (l : List α) : ∀ k ≤ l.length, ∀ p, k ≤ p → (shuffleRounds r l k)[p]? = l[p]? := by
  intro k
  induction k with
  | zero => intro _ p _; rfl
  | succ k ih =>
    intro hk p hp
    have hl := (shuffleRounds_perm r l k).length_eq
    have hm : r k % (k + 1) < k + 1 := Nat.mod_lt _ (by omega)
    show (swapAt _ _ _)[p]? = _
    rw [swapAt_get (by omega) (by omega), if_neg (by omega), if_neg (by omega), ih (by omega) p (by omega)]

theorem rounds_congr {r r' : Rng} {l : List α} : ∀ k, (∀ i < k, r i = r' i) → shuffleRounds r l k = shuffleRounds r' l k := by
  intro k
  induction k with
  | zero => intro _; rfl
  | succ k ih =>
    intro h
    show swapAt _ _ _ = swapAt _ _ _
    rw [ih (fun i hi => h i (by omega)), h k (by omega)]

/-- Existence: every rearrangement that moves only the first `k` elements is reached. -/
theorem rounds_reach {l : List α} (hn : l.Nodup) : ∀ k ≤ l.length, ∀ l' : List α, l'.Perm l →
    (∀ p, k ≤ p → l'[p]? = l[p]?) → ∃ r : Rng, (∀ i, r i ≤ i) ∧ shuffleRounds r l k = l' := by
  intro k
  induction k with
  | zero =>
    intro _ l' _ h
    exact ⟨fun _ => 0, fun _ => Nat.zero_le _, (List.ext_getElem? fun p => h p (Nat.zero_le _)).symm⟩
  | succ k ih =>
    intro hk l' hp h
    have hl := hp.length_eq
    have hn' : l'.Nodup := hp.nodup_iff.2 hn
    obtain ⟨j, hj, hjv⟩ := List.getElem_of_mem (hp.mem_iff.2 (List.getElem_mem (show k < l.length by omega)))
    have hjk : j ≤ k := by
      by_contra hc
      have := h j (by omega)
      rw [List.getElem?_eq_getElem hj, List.getElem?_eq_getElem (show j < l.length by omega), hjv] at this
      have e := (List.Nodup.getElem_inj_iff hn).1 (Option.some.inj this)
      omega
    obtain ⟨r, hr, hrr⟩ := ih (by omega) (swapAt l' k j) ((swapAt_perm _ _ _).trans hp) (by
      intro p hp'
      rw [swapAt_get (by omega) hj]
      by_cases c : p = j
      · have : j = k := by omega
        subst this; subst c
        rw [if_pos rfl, List.getElem?_eq_getElem hj, hjv, List.getElem?_eq_getElem]
      · rw [if_neg c]
        by_cases c2 : p = k
        · subst c2
          rw [if_pos rfl, List.getElem?_eq_getElem hj, hjv, List.getElem?_eq_getElem]
        · rw [if_neg c2, h p (by omega)])
    refine ⟨fun i => if i = k then j else r i, ?_, ?_⟩
    · intro i
      by_cases c : i = k
      · simp [c, hjk]
      · simp [c, hr i]
    · show swapAt _ _ _ = _
      rw [rounds_congr (r' := r) k (fun i hi => by simp [show i ≠ k by omega]), hrr]
      simp only [if_true]
      rw [Nat.mod_eq_of_lt (by omega)]
      exact swapAt_swapAt (by omega) hj

/-- Uniqueness. -/
theorem rounds_inj {l : List α} (hn : l.Nodup) {r r' : Rng} : ∀ k ≤ l.length, (∀ i < k, r i ≤ i) → (∀ i < k, r' i ≤ i) →
    shuffleRounds r l k = shuffleRounds r' l k → ∀ i < k, r i = r' i := by
  intro k
  induction k with
  | zero => intro _ _ _ _ i hi; omega
  | succ k ih =>
    intro hk h1 h2 he i hi
    have hl := (shuffleRounds_perm r l k).length_eq
    have hl' := (shuffleRounds_perm r' l k).length_eq
    have b1 := h1 k (by omega)
    have b2 := h2 k (by omega)
    change swapAt _ _ _ = swapAt _ _ _ at he
    rw [Nat.mod_eq_of_lt (show r k < k + 1 by omega), Nat.mod_eq_of_lt (show r' k < k + 1 by omega)] at he
    have hjj : r k = r' k := by
      have g1 := swapAt_get (l := shuffleRounds r l k) (i := k) (j := r k) (by omega) (by omega) (r k)
      have g2 := swapAt_get (l := shuffleRounds r' l k) (i := k) (j := r' k) (by omega) (by omega) (r' k)
      rw [if_pos rfl, rounds_get r l k (by omega) k (le_refl _)] at g1
      rw [if_pos rfl, rounds_get r' l k (by omega) k (le_refl _), ← he] at g2
      have hnd : (swapAt (shuffleRounds r l k) k (r k)).Nodup :=
        ((swapAt_perm _ _ _).trans (shuffleRounds_perm r l k)).nodup_iff.2 hn
      exact (List.getElem?_inj (by rw [swapAt_length]; omega) hnd).1 (g1.trans g2.symm)
    by_cases c : i = k
    · subst c; exact hjj
    · refine ih (by omega) (fun i hi => h1 i (by omega)) (fun i hi => h2 i (by omega)) ?_ i (by omega)
      rw [← swapAt_swapAt (l := shuffleRounds r l k) (i := k) (j := r k) (by omega) (by omega), he, hjj,
        swapAt_swapAt (l := shuffleRounds r' l k) (by omega) (by omega)]

theorem IdealDraws.rng_le {n : Nat} (c : IdealDraws n) (i : Nat) : c.rng i ≤ i := by
  unfold IdealDraws.rng
  split
  · exact Nat.lt_succ_iff.1 (c _).isLt
  · exact Nat.zero_le _

/-- Every order of distinct elements comes from exactly one tuple of draws. -/
theorem shuffleList_unique {l l' : List α} (hn : l.Nodup) (hp : l'.Perm l) :
    ∃! c : IdealDraws l.length, shuffleList c.rng l = l' := by
  obtain ⟨r, hr, hrr⟩ := rounds_reach hn l.length (le_refl _) l' hp (by
    intro p hp'
    rw [List.getElem?_eq_none (by rw [hp.length_eq]; exact hp'), List.getElem?_eq_none hp'])
  refine ⟨fun k => ⟨r k, Nat.lt_succ_iff.2 (hr k)⟩, ?_, ?_⟩
  · rw [← hrr]
    exact rounds_congr _ (fun i hi => by simp [IdealDraws.rng, hi])
  · intro c hc
    funext k
    apply Fin.ext
    have := rounds_inj hn (r := c.rng) (r' := r) l.length (le_refl _) (fun i _ => c.rng_le i) (fun i _ => hr i)
      (hc.trans hrr.symm) k.val k.isLt
    simpa [IdealDraws.rng] using this

end

theorem card_draws (n : Nat) : Fintype.card (IdealDraws n) = n.factorial := by
  rw [Fintype.card_pi]
  simp only [Fintype.card_fin]
  induction n with
  | zero => rfl
  | succ n ih => rw [Fin.prod_univ_castSucc]; simp only [Fin.val_castSucc, Fin.val_last]; rw [ih, Nat.factorial_succ, mul_comm]

/-- A value taken for exactly one tuple of draws has probability `1 / n!`. -/
theorem law_unique {β : Type} {n : Nat} (f : IdealDraws n → β) (b : β) (h : ∃! c, f c = b) :
    ((idealLaw n).map f) b = ((n.factorial : ENNReal))⁻¹ := by
  classical
  obtain ⟨c, hc, hu⟩ := h
  rw [PMF.map_apply, tsum_eq_single c]
  · rw [if_pos hc.symm, idealLaw, PMF.uniformOfFintype_apply, card_draws]
  · intro c' hne
    rw [if_neg]
    intro e
    exact hne (hu c' e.symm)

/-- A value taken for exactly `k` tuples of draws has probability `k / n!`. -/
theorem law_count {β : Type} {n k : Nat} (f : IdealDraws n → β) (b : β) (s : Finset (IdealDraws n))
    (hs : ∀ c, c ∈ s ↔ f c = b) (hk : s.card = k) :
    ((idealLaw n).map f) b = (k : ENNReal) * ((n.factorial : ENNReal))⁻¹ := by
  classical
  rw [PMF.map_apply, tsum_fintype]
  have : ∀ c, (if b = f c then idealLaw n c else 0) = if c ∈ s then ((n.factorial : ENNReal))⁻¹ else 0 := by
    intro c
    simp only [hs, eq_comm (a := b), idealLaw, PMF.uniformOfFintype_apply, card_draws]
  rw [Finset.sum_congr rfl fun c _ => this c, Finset.sum_ite_mem, Finset.univ_inter, Finset.sum_const, hk, nsmul_eq_mul]

section
variable {α : Type}

theorem filter_insert {x : α} [DecidableEq α] : ∀ (W l : List α), x ∉ W → l.count x = 1 →
    (l.filter (fun y => decide (y ≠ x)) = W ↔ ∃ i ≤ W.length, l = W.insertIdx i x) := by
  intro W l
  induction l generalizing W with
  | nil => intro _ h; simp at h
  | cons a l ih =>
    intro hx hc
    by_cases ha : a = x
    · subst ha
      have h0 : l.count a = 0 := by simpa using hc
      have hl : l.filter (fun y => decide (y ≠ a)) = l := by
        rw [List.filter_eq_self]
        intro y hy
        have : y ≠ a := by rintro rfl; exact (List.count_eq_zero.1 h0) hy
        simp [this]
      have hal := List.count_eq_zero.1 h0
      rw [List.filter_cons]
      simp only [ne_eq, not_true_eq_false, decide_false, Bool.false_eq_true, if_false]
      rw [show l.filter (fun y => decide ¬ y = a) = l from hl]
      constructor
      · rintro rfl; exact ⟨0, Nat.zero_le _, rfl⟩
      · rintro ⟨i, hi, h⟩
        cases i with
        | zero => simpa using h
        | succ i =>
          cases W with
          | nil => simp at hi
          | cons w W =>
            simp only [List.insertIdx_succ_cons, List.cons.injEq] at h
            exact absurd h.1.symm (by rintro rfl; exact hx (by simp))
    · rw [List.count_cons_of_ne (by simpa using ha)] at hc
      rw [List.filter_cons]
      simp only [ne_eq, ha, not_false_eq_true, decide_true, if_true]
      cases W with
      | nil =>
        simp only [reduceCtorEq, List.length_nil, Nat.le_zero_eq, exists_eq_left, List.insertIdx_zero, List.cons.injEq, false_iff]
        rintro ⟨rfl, _⟩; exact ha rfl
      | cons w W =>
        simp only [List.mem_cons, not_or] at hx
        rw [List.cons.injEq]
        have := ih W hx.2 hc
        simp only [ne_eq] at this
        rw [this]
        constructor
        · rintro ⟨rfl, i, hi, rfl⟩
          exact ⟨i + 1, by simpa using hi, by simp⟩
        · rintro ⟨i, hi, h⟩
          cases i with
          | zero => simp only [List.insertIdx_zero, List.cons.injEq] at h; exact absurd h.1 ha
          | succ i =>
            simp only [List.insertIdx_succ_cons, List.cons.injEq] at h
            exact ⟨h.1, i, by simpa using hi, h.2⟩

/-- The number of tuples of draws after which the elements other than `x` are in the order `W`. -/
theorem filter_count [DecidableEq α] {l W : List α} {x : α} (hn : l.Nodup) (hx : x ∈ l) (hW : (x :: W).Perm l) :
    ∃ s : Finset (IdealDraws l.length), (∀ c, c ∈ s ↔ (shuffleList c.rng l).filter (fun y => decide (y ≠ x)) = W) ∧
      s.card = l.length := by
  classical
  have hnW : (x :: W).Nodup := hW.nodup_iff.2 hn
  have hxW : x ∉ W := (List.nodup_cons.1 hnW).1
  have hlW : l.length = W.length + 1 := by rw [← hW.length_eq]; rfl
  have hp : ∀ i, i ≤ W.length → (W.insertIdx i x).Perm l := fun i hi => (List.perm_insertIdx x W hi).trans hW
  choose g hg hgu using fun i : Fin (W.length + 1) => shuffleList_unique hn (hp i.val (Nat.lt_succ_iff.1 i.isLt))
  refine ⟨Finset.univ.image g, ?_, ?_⟩
  · intro c
    have hcnt : (shuffleList c.rng l).count x = 1 := by
      rw [(shuffleList_perm c.rng l).count_eq, List.count_eq_one_of_mem hn hx]
    rw [filter_insert W _ hxW hcnt, Finset.mem_image]
    constructor
    · rintro ⟨i, _, rfl⟩
      exact ⟨i.val, Nat.lt_succ_iff.1 i.isLt, hg i⟩
    · rintro ⟨i, hi, h⟩
      exact ⟨⟨i, Nat.lt_succ_iff.2 hi⟩, Finset.mem_univ _, (hgu ⟨i, Nat.lt_succ_iff.2 hi⟩ c h).symm⟩
  · rw [Finset.card_image_of_injective, Finset.card_univ, Fintype.card_fin, hlW]
    intro i j hij
    have h1 := hg i
    have h2 := hg j
    simp only at h1 h2
    rw [hij, h2] at h1
    have e1 : (W.insertIdx i.val x).idxOf x = i.val := by
      have hlt : i.val < (W.insertIdx i.val x).length := by rw [List.length_insertIdx]; split <;> omega
      have := List.Nodup.idxOf_getElem ((hp i.val (Nat.lt_succ_iff.1 i.isLt)).nodup_iff.2 hn) i.val hlt
      rwa [List.getElem_insertIdx_self] at this
    have e2 : (W.insertIdx j.val x).idxOf x = j.val := by
      have hlt : j.val < (W.insertIdx j.val x).length := by rw [List.length_insertIdx]; split <;> omega
      have := List.Nodup.idxOf_getElem ((hp j.val (Nat.lt_succ_iff.1 j.isLt)).nodup_iff.2 hn) j.val hlt
      rwa [List.getElem_insertIdx_self] at this
    apply Fin.ext
    rw [← e1, ← e2, h1]

end

end Snn
