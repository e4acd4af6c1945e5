import Verif.Model.Data
import Verif.Proofs.ShuffleProofs
import Verif.Spec.DataSpec
import Mathlib.Tactic.Ring
import Mathlib.Tactic.Linarith
import Mathlib.Tactic.SplitIfs

/-! Helper lemmas for the properties of `Data`. -/

set_option linter.all false

namespace Snn

theorem getElem?_wr {α : Type} {l l' : List α} {i : Nat} {a : α} (h : wr l (i : Int) a = .ok l') (p : Nat) :
    l'[p]? = if p = i then some a else l[p]? := by
  obtain ⟨⟨_, h1⟩, rfl⟩ := wr_eq_ok.1 h
  simp only [Int.toNat_natCast] at h1 ⊢
  rw [List.getElem?_set]
  by_cases hp : p = i
  · subst hp; simp [h1]
  · simp [hp, Ne.symm hp]

theorem wr_ok_nat {α : Type} (l : List α) (i : Nat) (a : α) (h : i < l.length) :
    ∃ l', wr l (i : Int) a = .ok l' ∧ l'.length = l.length ∧ ∀ p, l'[p]? = if p = i then some a else l[p]? :=
  ⟨l.set i a, wr_nat l i a h, by simp, getElem?_wr (wr_nat l i a h)⟩

/-- The three vectors have `n` elements. -/
def TsState.Len (t : TsState) (n : Nat) : Prop :=
  t.order.length = n ∧ t.first.length = n ∧ t.train.length = n

theorem tsClearTail_ok (n : Nat) : ∀ (k i : Nat) (train : List Bool), train.length = n → i + k ≤ n →
    ∃ t', tsClearTail train k (i : Int) = .ok t' ∧ t'.length = n ∧
      ∀ p, t'[p]? = if i ≤ p ∧ p < i + k then some false else train[p]? := by
  intro k
  induction k with
  | zero => intro i train hl hk; exact ⟨train, rfl, hl, by intro p; rw [if_neg]; omega⟩
  | succ k ih =>
    intro i train hl hk
    obtain ⟨t1, h1, l1, g1⟩ := wr_ok_nat train i false (by omega)
    obtain ⟨t2, h2, l2, g2⟩ := ih (i + 1) t1 (by omega) (by omega)
    refine ⟨t2, ?_, l2, ?_⟩
    · simp only [tsClearTail, h1, Res.ok_bind]
      have : ((i : Int) + 1) = ((i + 1 : Nat) : Int) := by push_cast; rfl
      rw [this, h2]
    · intro p
      rw [g2, g1]
      by_cases a : i + 1 ≤ p ∧ p < i + 1 + k
      · rw [if_pos a, if_pos (by omega)]
      · rw [if_neg a]
        by_cases b : p = i
        · rw [if_pos b, if_pos (by omega)]
        · rw [if_neg b, if_neg (by omega)]

theorem tsPrefix_ok (n : Nat) : ∀ (k i : Nat) (t : TsState), t.Len n → i + k ≤ n →
    ∃ t', tsPrefix t k i = .ok t' ∧ t'.Len n ∧
      (∀ p, t'.order[p]? = if i ≤ p ∧ p < i + k then some p else t.order[p]?) ∧
      (∀ p, t'.train[p]? = if i ≤ p ∧ p < i + k then some true else t.train[p]?) ∧
      (∀ p, t'.first[p]? = if i ≤ p ∧ p < i + k then some false else t.first[p]?) := by
  intro k
  induction k with
  | zero =>
    intro i t hl hk
    refine ⟨t, rfl, hl, ?_, ?_, ?_⟩ <;> (intro p; rw [if_neg]; omega)
  | succ k ih =>
    intro i t hl hk
    obtain ⟨l1, l2, l3⟩ := hl
    obtain ⟨o1, h1, lo, go⟩ := wr_ok_nat t.order i i (by omega)
    obtain ⟨t1, h2, lt, gt⟩ := wr_ok_nat t.train i true (by omega)
    obtain ⟨f1, h3, lf, gf⟩ := wr_ok_nat t.first i false (by omega)
    obtain ⟨t2, h4, len2, a, b, c⟩ := ih (i + 1) ⟨o1, f1, t1⟩ ⟨by simp; omega, by simp; omega, by simp; omega⟩ (by omega)
    refine ⟨t2, by simp only [tsPrefix, h1, h2, h3, Res.ok_bind, h4], len2, ?_, ?_, ?_⟩
    · intro p
      rw [a]; simp only; rw [go]
      by_cases x : i + 1 ≤ p ∧ p < i + 1 + k
      · rw [if_pos x, if_pos (by omega)]
      · rw [if_neg x]
        by_cases y : p = i
        · rw [if_pos y, if_pos (by omega), y]
        · rw [if_neg y, if_neg (by omega)]
    · intro p
      rw [b]; simp only; rw [gt]
      by_cases x : i + 1 ≤ p ∧ p < i + 1 + k
      · rw [if_pos x, if_pos (by omega)]
      · rw [if_neg x]
        by_cases y : p = i
        · rw [if_pos y, if_pos (by omega)]
        · rw [if_neg y, if_neg (by omega)]
    · intro p
      rw [c]; simp only; rw [gf]
      by_cases x : i + 1 ≤ p ∧ p < i + 1 + k
      · rw [if_pos x, if_pos (by omega)]
      · rw [if_neg x]
        by_cases y : p = i
        · rw [if_pos y, if_pos (by omega)]
        · rw [if_neg y, if_neg (by omega)]

theorem tsWindow_ok (n R offset slot w : Nat) : ∀ (k j : Nat) (t : TsState), t.Len n →
    slot * (R + 1) + offset + j + k ≤ n →
    ∃ t', tsWindow R offset slot w t k j = .ok t' ∧ t'.Len n ∧
      (∀ p, t'.order[p]? = if slot * (R + 1) + offset + j ≤ p ∧ p < slot * (R + 1) + offset + j + k then
        some (w * (R + 1) + offset + (p - (slot * (R + 1) + offset))) else t.order[p]?) ∧
      (∀ p, t'.first[p]? = if slot * (R + 1) + offset + j ≤ p ∧ p < slot * (R + 1) + offset + j + k then
        some (decide (p = slot * (R + 1) + offset)) else t.first[p]?) ∧
      (∀ p, t'.train[p]? = if slot * (R + 1) + offset + j ≤ p ∧ p < slot * (R + 1) + offset + j + k then
        some (decide (p = slot * (R + 1) + offset + R)) else t.train[p]?) := by
  intro k
  induction k with
  | zero =>
    intro j t hl hk
    refine ⟨t, rfl, hl, ?_, ?_, ?_⟩ <;> (intro p; rw [if_neg]; omega)
  | succ k ih =>
    intro j t hl hk
    obtain ⟨l1, l2, l3⟩ := hl
    generalize hb : slot * (R + 1) = base at *
    obtain ⟨o1, h1, lo, go⟩ := wr_ok_nat t.order (base + j + offset) (w * (R + 1) + j + offset) (by omega)
    obtain ⟨f1, h3, lf, gf⟩ := wr_ok_nat t.first (base + j + offset) (decide (j = 0)) (by omega)
    obtain ⟨t1, h2, lt, gt⟩ := wr_ok_nat t.train (base + j + offset) (decide (j = R) && decide (base + j + offset ≥ offset)) (by omega)
    obtain ⟨t2, h4, len2, a, b, c⟩ := ih (j + 1) ⟨o1, f1, t1⟩ ⟨by simp; omega, by simp; omega, by simp; omega⟩ (by omega)
    refine ⟨t2, by simp only [tsWindow, hb, h1, h2, h3, Res.ok_bind, h4], len2, ?_, ?_, ?_⟩
    · intro p
      rw [a]; simp only; rw [go]
      by_cases x : base + offset + (j + 1) ≤ p ∧ p < base + offset + (j + 1) + k
      · rw [if_pos x, if_pos (by omega)]
      · rw [if_neg x]
        by_cases y : p = base + j + offset
        · rw [if_pos y, if_pos (by omega)]; congr 1; omega
        · rw [if_neg y, if_neg (by omega)]
    · intro p
      rw [b]; simp only; rw [gf]
      by_cases x : base + offset + (j + 1) ≤ p ∧ p < base + offset + (j + 1) + k
      · rw [if_pos x, if_pos (by omega)]
      · rw [if_neg x]
        by_cases y : p = base + j + offset
        · rw [if_pos y, if_pos (by omega)]; congr 1; rw [decide_eq_decide]; omega
        · rw [if_neg y, if_neg (by omega)]
    · intro p
      rw [c]; simp only; rw [gt]
      by_cases x : base + offset + (j + 1) ≤ p ∧ p < base + offset + (j + 1) + k
      · rw [if_pos x, if_pos (by omega)]
      · rw [if_neg x]
        by_cases y : p = base + j + offset
        · rw [if_pos y, if_pos (by omega)]; congr 1
          have : decide (base + j + offset ≥ offset) = true := by simp
          rw [this, Bool.and_true, decide_eq_decide]; omega
        · rw [if_neg y, if_neg (by omega)]

/-- The window starting at `w` fits in `n` steps. -/
def fits (n R offset w : Nat) : Bool := decide (w * (R + 1) + R + offset < n)

/-- Which slot and offset in the slot a position belongs to, and what has been written there, for the
slots `slot, slot+1, …` holding the windows `W`. -/
structure TsFilled (R offset slot : Nat) (W : List Nat) (t t' : TsState) : Prop where
  win : ∀ s w, W[s]? = some w → ∀ j, j ≤ R →
    t'.order[(slot + s) * (R + 1) + offset + j]? = some (w * (R + 1) + offset + j) ∧
    t'.first[(slot + s) * (R + 1) + offset + j]? = some (decide (j = 0)) ∧
    t'.train[(slot + s) * (R + 1) + offset + j]? = some (decide (j = R))
  other : ∀ p, (p < slot * (R + 1) + offset ∨ (slot + W.length) * (R + 1) + offset ≤ p) →
    t'.order[p]? = t.order[p]? ∧ t'.first[p]? = t.first[p]? ∧ t'.train[p]? = t.train[p]?

theorem tsWindows_ok (n R offset : Nat) : ∀ (ws : List Nat) (slot : Nat) (t : TsState), t.Len n →
    (slot + (ws.filter (fits n R offset)).length) * (R + 1) + offset ≤ n →
    ∃ t', tsWindows R offset n ws slot t = .ok t' ∧ t'.Len n ∧
      TsFilled R offset slot (ws.filter (fits n R offset)) t t' := by
  intro ws
  induction ws with
  | nil =>
    intro slot t hl hb
    exact ⟨t, rfl, hl, ⟨by simp, fun p _ => ⟨rfl, rfl, rfl⟩⟩⟩
  | cons w ws ih =>
    intro slot t hl hb
    by_cases hf : w * (R + 1) + R + offset < n
    · have hfit : fits n R offset w = true := by simp [fits, hf]
      rw [List.filter_cons_of_pos hfit] at hb ⊢
      simp only [List.length_cons] at hb
      have hb2 : slot * (R + 1) + offset + 0 + (R + 1) ≤ n := by
        have : (slot + 1) * (R + 1) ≤ (slot + ((List.filter (fits n R offset) ws).length + 1)) * (R + 1) :=
          Nat.mul_le_mul_right _ (by omega)
        have h2 : (slot + 1) * (R + 1) = slot * (R + 1) + (R + 1) := by ring
        omega
      obtain ⟨t1, h1, len1, a, b, c⟩ := tsWindow_ok n R offset slot w (R + 1) 0 t hl hb2
      obtain ⟨t2, h2, len2, fl⟩ := ih (slot + 1) t1 len1 (by
        have : slot + 1 + (List.filter (fits n R offset) ws).length = slot + ((List.filter (fits n R offset) ws).length + 1) := by omega
        rw [this]; exact hb)
      have e1 : (slot + 1) * (R + 1) = slot * (R + 1) + (R + 1) := by ring
      refine ⟨t2, by simp only [tsWindows, hf, if_true, h1, Res.ok_bind, h2], len2, ⟨?_, ?_⟩⟩
      · intro s w' hs j hj
        cases s with
        | zero =>
          simp only [List.getElem?_cons_zero, Option.some.injEq] at hs
          subst hs
          have hlt : slot * (R + 1) + offset + j < (slot + 1) * (R + 1) + offset := by omega
          obtain ⟨x, y, z⟩ := fl.other (slot * (R + 1) + offset + j) (Or.inl hlt)
          rw [Nat.add_zero]
          rw [x, y, z, a, b, c, if_pos (by omega), if_pos (by omega), if_pos (by omega)]
          refine ⟨by congr 1; omega, by congr 1; rw [decide_eq_decide]; omega, by congr 1; rw [decide_eq_decide]; omega⟩
        | succ s =>
          have := fl.win s w' (by simpa using hs) j hj
          have e : slot + 1 + s = slot + (s + 1) := by omega
          rw [e] at this
          exact this
      · intro p hp
        simp only [List.length_cons] at hp
        have e : slot + 1 + (List.filter (fits n R offset) ws).length = slot + ((List.filter (fits n R offset) ws).length + 1) := by omega
        obtain ⟨x, y, z⟩ := fl.other p (by rw [e]; omega)
        have hle : slot + 1 ≤ slot + ((List.filter (fits n R offset) ws).length + 1) := by omega
        have hle2 := Nat.mul_le_mul_right (R + 1) hle
        rw [x, y, z, a, b, c, if_neg (by omega), if_neg (by omega), if_neg (by omega)]
        exact ⟨rfl, rfl, rfl⟩
    · have hfit : fits n R offset w = false := by simp [fits, hf]
      have hfe : (w :: ws).filter (fits n R offset) = ws.filter (fits n R offset) := by
        simp [List.filter_cons, hfit]
      rw [hfe] at hb ⊢
      obtain ⟨t2, h2, len2, fl⟩ := ih slot t hl hb
      exact ⟨t2, by simp only [tsWindows, hf, if_false, h2], len2, fl⟩

/-- The windows that fit, among a permutation of all the window numbers. -/
theorem fits_perm (n R offset : Nat) (ws : List Nat) (hp : ws.Perm (List.range (n / (R + 1)))) :
    (ws.filter (fits n R offset)).Perm (List.range ((n - offset) / (R + 1))) := by
  have h1 : (ws.filter (fits n R offset)).Nodup := (hp.nodup_iff.2 List.nodup_range).filter _
  rw [List.perm_ext_iff_of_nodup h1 List.nodup_range]
  intro w
  rw [List.mem_filter, hp.mem_iff, List.mem_range, List.mem_range, Nat.lt_iff_add_one_le, Nat.lt_iff_add_one_le,
    Nat.le_div_iff_mul_le (by omega), Nat.le_div_iff_mul_le (by omega)]
  have e : (w + 1) * (R + 1) = w * (R + 1) + R + 1 := by ring
  rw [e]
  simp only [fits, decide_eq_true_eq]
  omega

section
variable {F : Type}

/-- Invariant of a `Data` object under shuffling. -/
structure DInv (d : Data F) : Prop where
  len : d.training.shuffledIndexes.length = d.training.size
  bound : ∀ x ∈ d.training.shuffledIndexes, x < d.training.size
  nonTemporal : d.typeOfTemporal = .nonTemporal → d.training.shuffledIndexes.Perm (List.range d.training.size)
  seq : d.typeOfTemporal = .sequential → d.indexesForShuffles = [] ∧
    d.training.shuffledIndexes = List.range d.training.size
  ts : d.typeOfTemporal = .timeSeries → 1 ≤ d.numberOfRecurrences ∧ d.training.areFirst.length = d.training.size ∧
    d.training.needToTrain.length = d.training.size ∧ d.offset < d.numberOfRecurrences.toNat + 1 ∧
    d.indexesForShuffles.Perm (List.range (d.training.size / (d.numberOfRecurrences.toNat + 1)))

/-- The parts of a `Data` object that no shuffling changes. -/
structure Frame (d d' : Data F) : Prop where
  problem : d'.typeOfProblem = d.typeOfProblem
  temporal : d'.typeOfTemporal = d.typeOfTemporal
  recur : d'.numberOfRecurrences = d.numberOfRecurrences
  precision : d'.precision = d.precision
  separator : d'.separator = d.separator
  sizeOfData : d'.sizeOfData = d.sizeOfData
  numberOfLabels : d'.numberOfLabels = d.numberOfLabels
  size : d'.training.size = d.training.size
  inputs : d'.training.inputs = d.training.inputs
  labels : d'.training.labels = d.training.labels
  testing : d'.testing = d.testing

theorem Frame.refl (d : Data F) : Frame d d := ⟨rfl, rfl, rfl, rfl, rfl, rfl, rfl, rfl, rfl, rfl, rfl⟩

theorem Frame.trans {a b c : Data F} (h : Frame a b) (g : Frame b c) : Frame a c :=
  ⟨g.problem.trans h.problem, g.temporal.trans h.temporal, g.recur.trans h.recur, g.precision.trans h.precision,
   g.separator.trans h.separator, g.sizeOfData.trans h.sizeOfData, g.numberOfLabels.trans h.numberOfLabels,
   g.size.trans h.size, g.inputs.trans h.inputs, g.labels.trans h.labels, g.testing.trans h.testing⟩

/-- What a time-series shuffle leaves behind: `o` is the offset used, `W` the windows in their new order. -/
structure TsPost (n R o : Nat) (W : List Nat) (t : DSet F) : Prop where
  perm : W.Perm (List.range ((n - o) / (R + 1)))
  pre : ∀ p < o, t.shuffledIndexes[p]? = some p ∧ t.areFirst[p]? = some (decide (p = 0)) ∧
    t.needToTrain[p]? = some true
  win : ∀ s w, W[s]? = some w → ∀ j, j ≤ R →
    t.shuffledIndexes[s * (R + 1) + o + j]? = some (w * (R + 1) + o + j) ∧
    t.areFirst[s * (R + 1) + o + j]? = some (decide (j = 0)) ∧
    t.needToTrain[s * (R + 1) + o + j]? = some (decide (j = R))
  tail : ∀ p, W.length * (R + 1) + o ≤ p → p < n → t.needToTrain[p]? = some false

theorem shuffle_ts_windows (d : Data F) (r : Rng) (hI : DInv d) (hts : d.typeOfTemporal = .timeSeries)
    (hn : d.numberOfRecurrences.toNat + 1 ≤ d.training.size) :
    ∃ d', d.shuffle r = .ok d' ∧ DInv d' ∧ Frame d d' ∧
      d'.offset = (d.offset + 1) % (d.numberOfRecurrences.toNat + 1) ∧
      TsPost d.training.size d.numberOfRecurrences.toNat d.offset
        ((shuffleList r d.indexesForShuffles).filter (fits d.training.size d.numberOfRecurrences.toNat d.offset)) d'.training := by
  obtain ⟨hR, lf, lt, ho, hperm⟩ := hI.ts hts
  generalize hRr : d.numberOfRecurrences.toNat = R at *
  generalize hnn : d.training.size = n at *
  generalize hoo : d.offset = o at *
  have hix := (shuffleList_perm r d.indexesForShuffles).trans hperm
  generalize hixx : shuffleList r d.indexesForShuffles = ix at *
  have hW := fits_perm n R o ix hix
  have hlenW : (ix.filter (fits n R o)).length = (n - o) / (R + 1) := by rw [hW.length_eq, List.length_range]
  have hle : (ix.filter (fits n R o)).length * (R + 1) ≤ n - o := by
    rw [hlenW]; exact Nat.div_mul_le_self _ _
  have hgt : n - o < ((ix.filter (fits n R o)).length + 1) * (R + 1) := by
    rw [hlenW]
    have := Nat.lt_div_mul_add (a := n - o) (b := R + 1) (by omega)
    have e : ((n - o) / (R + 1) + 1) * (R + 1) = (n - o) / (R + 1) * (R + 1) + (R + 1) := by ring
    omega
  obtain ⟨tr1, h1, l1, g1⟩ := tsClearTail_ok n (R + 1) (n - (R + 1)) d.training.needToTrain lt (by omega)
  obtain ⟨t2, h2, len2, a2, b2, c2⟩ := tsPrefix_ok n o 0 ⟨d.training.shuffledIndexes, d.training.areFirst, tr1⟩
    ⟨by simpa [hnn] using hI.len, by simpa using lf, by simpa using l1⟩ (by omega)
  obtain ⟨f3, h3, l3, g3⟩ := wr_ok_nat t2.first 0 true (by have := len2.2.1; omega)
  obtain ⟨t4, h4, len4, fl⟩ := tsWindows_ok n R o ix 0 ⟨t2.order, f3, t2.train⟩
    ⟨len2.1, by simp only; rw [l3]; exact len2.2.1, len2.2.2⟩ (by simp only [Nat.zero_add]; omega)
  have hcast : ((n : Int) - ((R : Int) + 1)) = ((n - (R + 1) : Nat) : Int) := by omega
  simp only [Nat.cast_zero] at h3
  refine ⟨{ d with
      indexesForShuffles := ix
      offset := (o + 1) % (R + 1)
      training := { d.training with shuffledIndexes := t4.order, areFirst := t4.first, needToTrain := t4.train } },
    by
    unfold Data.shuffle
    simp only [hts, hRr, hnn, hoo, hixx]
    rw [hcast, h1]
    simp only [Res.ok_bind, h2, h3, h4, Res.pure_eq], ?_, ?_, rfl, ?_⟩
  · -- invariant
    refine ⟨by simp only [hnn]; exact len4.1, ?_, by simp [hts], by simp [hts], ?_⟩
    · intro x hx
      simp only [hnn] at hx ⊢
      obtain ⟨p, hp, rfl⟩ := List.getElem_of_mem hx
      have hpn : p < n := by rw [← len4.1]; exact hp
      have hget : t4.order[p]? = some t4.order[p] := List.getElem?_eq_getElem hp
      by_cases hpo : p < o ∨ (0 + (ix.filter (fits n R o)).length) * (R + 1) + o ≤ p
      · have := (fl.other p (by simpa using hpo)).1
        simp only at this
        rw [this, a2] at hget
        split at hget
        · simp only [Option.some.injEq] at hget; rw [← hget]; exact hpn
        · simp only at hget
          have := hI.bound _ (List.mem_of_getElem? hget)
          omega
      · push Not at hpo
        obtain ⟨hp1, hp2⟩ := hpo
        simp only [Nat.zero_add] at hp2
        have hs : (p - o) / (R + 1) < (ix.filter (fits n R o)).length := by
          rw [Nat.div_lt_iff_lt_mul (by omega)]; omega
        have hj : (p - o) % (R + 1) < R + 1 := Nat.mod_lt _ (by omega)
        have hdm := Nat.div_add_mod (p - o) (R + 1)
        have hdm2 : (R + 1) * ((p - o) / (R + 1)) = ((p - o) / (R + 1)) * (R + 1) := Nat.mul_comm _ _
        have hwin := (fl.win _ _ (List.getElem?_eq_getElem hs) ((p - o) % (R + 1)) (by omega)).1
        rw [show (0 + (p - o) / (R + 1)) * (R + 1) + o + (p - o) % (R + 1) = p by rw [Nat.zero_add]; omega] at hwin
        rw [hget] at hwin
        simp only [Option.some.injEq] at hwin
        rw [hwin]
        have hmem := List.getElem_mem hs
        have hfit := (List.mem_filter.1 hmem).2
        simp only [fits, decide_eq_true_eq] at hfit
        omega
    · intro _
      simp only [hnn, hRr]
      exact ⟨hR, len4.2.1, len4.2.2, Nat.mod_lt _ (by omega), hix⟩
  · exact ⟨rfl, rfl, rfl, rfl, rfl, rfl, rfl, rfl, rfl, rfl, rfl⟩
  · simp only
    refine ⟨hW, ?_, ?_, ?_⟩
    · intro p hp
      obtain ⟨x, y, z⟩ := fl.other p (Or.inl (by simpa using hp))
      simp only at x y z ⊢
      have hc : 0 ≤ p ∧ p < 0 + o := by omega
      refine ⟨by rw [x, a2, if_pos hc], ?_, by rw [z, b2, if_pos hc]⟩
      rw [y, g3]
      by_cases h0 : p = 0
      · simp [h0]
      · rw [if_neg h0, c2, if_pos hc]; simp [h0]
    · intro s w hs j hj
      have := fl.win s w hs j hj
      rw [Nat.zero_add] at this
      exact this
    · intro p hp hpn
      obtain ⟨x, y, z⟩ := fl.other p (Or.inr (by simpa using hp))
      simp only at z ⊢
      rw [z, b2, if_neg (by omega)]
      simp only
      rw [g1, if_pos]
      have : ((ix.filter (fits n R o)).length + 1) * (R + 1) = (ix.filter (fits n R o)).length * (R + 1) + (R + 1) := by ring
      omega

theorem shuffle_ts (d : Data F) (r : Rng) (hI : DInv d) (hts : d.typeOfTemporal = .timeSeries)
    (hn : d.numberOfRecurrences.toNat + 1 ≤ d.training.size) :
    ∃ d' W, d.shuffle r = .ok d' ∧ DInv d' ∧ Frame d d' ∧
      d'.offset = (d.offset + 1) % (d.numberOfRecurrences.toNat + 1) ∧
      TsPost d.training.size d.numberOfRecurrences.toNat d.offset W d'.training := by
  obtain ⟨d', h⟩ := shuffle_ts_windows d r hI hts hn
  exact ⟨d', _, h⟩

theorem shuffle_nonTemporal (d : Data F) (r : Rng) (hI : DInv d) (hnt : d.typeOfTemporal = .nonTemporal) :
    ∃ d', d.shuffle r = .ok d' ∧ DInv d' ∧ Frame d d' := by
  have hp := shuffleList_perm r d.training.shuffledIndexes
  refine ⟨{ d with training := { d.training with shuffledIndexes := shuffleList r d.training.shuffledIndexes } },
    by simp only [Data.shuffle, hnt], ⟨?_, ?_, ?_, ?_, ?_⟩, ⟨rfl, rfl, rfl, rfl, rfl, rfl, rfl, rfl, rfl, rfl, rfl⟩⟩
  · simp only [hp.length_eq]; exact hI.len
  · intro x hx; exact hI.bound x (hp.mem_iff.1 hx)
  · intro _; exact hp.trans (hI.nonTemporal hnt)
  · intro h; simp [hnt] at h
  · intro h; simp [hnt] at h

theorem shuffle_seq (d : Data F) (r : Rng) (hI : DInv d) (hs : d.typeOfTemporal = .sequential) :
    ∃ d', d.shuffle r = .ok d' ∧ DInv d' ∧ Frame d d' ∧ d' = d := by
  obtain ⟨h1, h2⟩ := hI.seq hs
  have : d.shuffle r = .ok d := by
    simp only [Data.shuffle, hs, h1, shuffleList_nil, sequentialLoop, Res.ok_bind, Res.pure_eq]
    congr 1
    cases d with | mk a b c e f g h t =>
    cases t
    simp_all
  exact ⟨d, this, hI, Frame.refl d, rfl⟩

theorem unshuffle_ok (d : Data F) (hI : DInv d) (hpos : d.typeOfTemporal = .timeSeries → 0 < d.training.size) :
    ∃ d', d.unshuffle = .ok d' ∧ DInv d' ∧ Frame d d' ∧
      d'.training.shuffledIndexes = List.range d.training.size ∧ d'.offset = d.offset := by
  unfold Data.unshuffle
  cases ht : d.typeOfTemporal with
  | nonTemporal =>
    refine ⟨_, rfl, ⟨by simp, by simp, by simp, by simp [ht], by simp [ht]⟩, ⟨rfl, by simp [ht], rfl, rfl, rfl, rfl, rfl, rfl, rfl, rfl, rfl⟩, rfl, rfl⟩
  | sequential =>
    refine ⟨_, rfl, ⟨by simp, by simp, by simp, ?_, by simp [ht]⟩, ⟨rfl, by simp [ht], rfl, rfl, rfl, rfl, rfl, rfl, rfl, rfl, rfl⟩, rfl, rfl⟩
    intro _; exact ⟨(hI.seq ht).1, rfl⟩
  | timeSeries =>
    have h0 : 0 < (List.replicate d.training.size false).length := by simpa using hpos ht
    have := wr_nat (List.replicate d.training.size false) 0 true h0
    simp only [Nat.cast_zero] at this
    simp only [this, Res.ok_bind, Res.pure_eq]
    obtain ⟨a, b, c, e, g⟩ := hI.ts ht
    refine ⟨_, rfl, ⟨by simp, by simp, by simp [ht], by simp [ht], ?_⟩, ⟨rfl, by simp [ht], rfl, rfl, rfl, rfl, rfl, rfl, rfl, rfl, rfl⟩, rfl, rfl⟩
    intro _
    exact ⟨a, by simp, by simp, e, g⟩

theorem orderOps_ok (ops : List OrderOp) (d : Data F) (hI : DInv d) (hL : LongEnough d) :
    ∃ d', d.orderOps ops = .ok d' ∧ DInv d' ∧ Frame d d' ∧ LongEnough d' := by
  induction ops generalizing d with
  | nil => exact ⟨d, rfl, hI, Frame.refl d, hL⟩
  | cons op ops ih =>
    have step : ∃ d1, d.orderOp op = .ok d1 ∧ DInv d1 ∧ Frame d d1 := by
      cases op with
      | shuffle r =>
        cases ht : d.typeOfTemporal with
        | nonTemporal => exact shuffle_nonTemporal d r hI ht
        | sequential => obtain ⟨d1, a, b, c, _⟩ := shuffle_seq d r hI ht; exact ⟨d1, a, b, c⟩
        | timeSeries => obtain ⟨d1, W, a, b, c, _⟩ := shuffle_ts d r hI ht (hL ht); exact ⟨d1, a, b, c⟩
      | unshuffle =>
        obtain ⟨d1, a, b, c, _⟩ := unshuffle_ok d hI (fun h => by have := hL h; omega)
        exact ⟨d1, a, b, c⟩
    obtain ⟨d1, h1, i1, f1⟩ := step
    have hL1 : LongEnough d1 := by
      intro h
      rw [f1.recur, f1.size]
      exact hL (f1.temporal ▸ h)
    obtain ⟨d2, h2, i2, f2, l2⟩ := ih d1 i1 hL1
    exact ⟨d2, by simp only [Data.orderOps, List.foldlM_cons, h1, Res.ok_bind]; exact h2, i2, f1.trans f2, l2⟩

/-- `initialize` establishes the invariant. -/
theorem initialize_inv [Flt F] (d d' : Data F) (ti tl si sl : List (List F))
    (h : d.initialize ti tl si sl = .ok d') : DInv d' ∧ d'.training.inputs = ti ∧ d'.training.labels = tl ∧
      d'.testing.inputs = si ∧ d'.testing.labels = sl ∧ d'.training.size = tl.length ∧ d'.testing.size = sl.length ∧
      d'.typeOfTemporal = d.typeOfTemporal ∧ d'.typeOfProblem = d.typeOfProblem ∧
      d'.numberOfRecurrences = d.numberOfRecurrences ∧ ti ≠ [] ∧ tl ≠ [] ∧
      d'.training.shuffledIndexes = List.range tl.length ∧ d'.temporalIsValid = 0 := by
  unfold Data.initialize at h
  obtain ⟨li, hli, h⟩ := Res.bind_eq_ok.1 h
  obtain ⟨ll, hll, h⟩ := Res.bind_eq_ok.1 h
  obtain ⟨d2, hd2, h⟩ := Res.bind_eq_ok.1 h
  obtain ⟨err, herr, h⟩ := Res.bind_eq_ok.1 h
  have hti : ti ≠ [] := by rintro rfl; simp [backOf] at hli
  have htl : tl ≠ [] := by rintro rfl; simp [backOf] at hll
  split at h
  · exact absurd h (by simp)
  · rename_i he
    simp only [Res.pure_eq, Res.ok.injEq] at h
    subst h
    have hvalid : d2.temporalIsValid = 0 := by
      simp only [ne_eq, not_not] at he
      subst he
      unfold Data.isValid at herr
      split at herr
      · simp at herr
      · split at herr
        · simp at herr
        · obtain ⟨e1, h1, h2⟩ := Res.bind_eq_ok.1 herr
          split at h2
          · rename_i h3
            simp only [Res.pure_eq, Res.ok.injEq] at h2
            exact absurd h2 h3
          · simpa using h2
    cases ht : d.typeOfTemporal with
    | nonTemporal =>
      simp only [Data.makeTemporalComposite, ht, Res.ok.injEq] at hd2
      subst hd2
      refine ⟨⟨by simp, by simp, by simp, by simp [ht], by simp [ht]⟩, ?_⟩
      simp_all
    | sequential =>
      simp only [Data.makeTemporalComposite, ht, Res.ok.injEq] at hd2
      subst hd2
      refine ⟨⟨by simp, by simp, by simp, by simp, by simp [ht]⟩, ?_⟩
      simp_all
    | timeSeries =>
      simp only [Data.makeTemporalComposite, ht] at hd2
      split at hd2
      · exact absurd hd2 (by simp)
      · rename_i hr
        obtain ⟨af, haf, hd2⟩ := Res.bind_eq_ok.1 hd2
        obtain ⟨⟨_, _⟩, haf'⟩ := wr_eq_ok.1 haf
        simp only [Res.ok.injEq] at hd2
        subst hd2
        refine ⟨⟨by simp, by simp, by simp [ht], by simp [ht], ?_⟩, ?_⟩
        · intro _
          refine ⟨by simp only; omega, by simp [← haf'], by simp, by simp, by simp⟩
        · simp_all

end

end Snn
