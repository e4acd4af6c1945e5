import Verif.Proofs.DataReadProofs
import Mathlib.Tactic.FieldSimp

/-! Helper lemmas on batches, sequences and normalisation of `Data`. -/

set_option linter.all false

namespace Snn

/-! ### Batches -/
section
variable {F : Type} [Field F] [LinearOrder F]

/-- Sum of vectors of width `w`, component by component. -/
def sumRows (w : Nat) (rows : List (List F)) : List F :=
  (List.range w).map fun c => (rows.map fun r => r.getD c 0).sum

theorem transformPlus_sum (w : Nat) (a b out : List F) (ha : a.length = w) (hb : b.length = w) (ho : out.length = w) :
    transformPlus a b out = .ok (List.zipWith (· + ·) a b) := by
  unfold transformPlus
  have : (List.zipWith (· + ·) a b).length = w := by simp [ha, hb]
  simp only [this, ho, le_refl, if_true]
  rw [List.drop_eq_nil_of_le (by omega)]
  simp

theorem batchLoop_ok (w : Nat) (order : List Nat) (rows : List (List F)) :
    ∀ (js : List Int) (acc : List F) (xs : List (List F)), acc.length = w →
    (js.mapM (fun j => rd order j >>= fun k => rd rows (k : Int))) = .ok xs → (∀ x ∈ xs, x.length = w) →
    batchLoop order rows js acc = .ok ((List.range w).map fun c => acc.getD c 0 + (xs.map fun r => r.getD c 0).sum) := by
  intro js
  induction js with
  | nil =>
    intro acc xs ha hx _
    simp only [List.mapM_nil, Res.pure_eq, Res.ok.injEq] at hx
    subst hx
    simp only [batchLoop, List.map_nil, List.sum_nil, add_zero]
    congr 1
    apply List.ext_getElem
    · simp [ha]
    · intro i h1 h2; simp [List.getD_eq_getElem?_getD, h1]
  | cons j js ih =>
    intro acc xs ha hx hw
    simp only [List.mapM_cons] at hx
    obtain ⟨x, h1, hx⟩ := Res.bind_eq_ok.1 hx
    obtain ⟨xs', h2, hx⟩ := Res.bind_eq_ok.1 hx
    simp only [Res.pure_eq, Res.ok.injEq] at hx
    subst hx
    obtain ⟨k, hk, hr⟩ := Res.bind_eq_ok.1 h1
    have hxl : x.length = w := hw x (by simp)
    simp only [batchLoop, hk, hr, Res.ok_bind]
    rw [transformPlus_sum w acc x acc ha hxl ha]
    simp only [Res.ok_bind]
    rw [ih _ xs' (by simp [ha, hxl]) h2 (fun y hy => hw y (by simp [hy]))]
    congr 1
    apply List.ext_getElem
    · simp
    · intro i h3 h4
      simp at h3
      simp only [List.getElem_map, List.getElem_range, List.map_cons, List.sum_cons]
      rw [← add_assoc]
      congr 1
      simp [List.getD_eq_getElem?_getD, List.getElem?_zipWith, List.getElem?_eq_getElem (show i < acc.length by omega),
        List.getElem?_eq_getElem (show i < x.length by omega)]

theorem mapM_length {α β : Type} (f : α → Res β) : ∀ (l : List α) (xs : List β), l.mapM f = .ok xs → xs.length = l.length := by
  intro l
  induction l with
  | nil => intro xs h; simp at h; subst h; rfl
  | cons a l ih =>
    intro xs h
    rw [List.mapM_cons] at h
    obtain ⟨y, _, h⟩ := Res.bind_eq_ok.1 h
    obtain ⟨ys, h2, h⟩ := Res.bind_eq_ok.1 h
    simp only [Res.pure_eq, Res.ok.injEq] at h
    subst h
    simp [ih ys h2]

theorem getBatched_ok (w : Nat) (order : List Nat) (rows : List (List F)) (buffer : List F) (index b : Nat)
    (hb : 1 ≤ b) (xs : List (List F))
    (hx : (List.range b).mapM (fun t => rd order ((index + t : Nat) : Int) >>= fun k => rd rows (k : Int)) = .ok xs)
    (hw : ∀ x ∈ xs, x.length = w) [CharZero F] :
    (·.1) <$> getBatched order rows w buffer (index : Int) (b : Int) = .ok (meanRows w xs) := by
  obtain ⟨b', rfl⟩ : ∃ b', b = b' + 1 := ⟨b - 1, by omega⟩
  rw [List.range_succ_eq_map, List.mapM_cons] at hx
  obtain ⟨x0, h0, hx⟩ := Res.bind_eq_ok.1 hx
  obtain ⟨xs1, h1, hx⟩ := Res.bind_eq_ok.1 hx
  simp only [Res.pure_eq, Res.ok.injEq] at hx
  subst hx
  obtain ⟨k0, hk0, hr0⟩ := Res.bind_eq_ok.1 h0
  simp only [Nat.add_zero] at hk0
  have hl0 : x0.length = w := hw x0 (by simp)
  unfold getBatched
  rw [hk0]
  simp only [Res.ok_bind]
  cases b' with
  | zero =>
    simp only [List.range_zero, List.map_nil, List.mapM_nil, Res.pure_eq, Res.ok.injEq] at h1
    subst h1
    simp only [Nat.zero_add, Nat.cast_one, le_refl, if_true, hr0, Res.ok_bind, Res.pure_eq, Res.map_ok]
    congr 1
    unfold meanRows
    apply List.ext_getElem
    · simp [hl0]
    · intro i h3 h4; simp [List.getD_eq_getElem?_getD, h3]
  | succ b' =>
    rw [List.range_succ_eq_map, List.map_cons, List.mapM_cons] at h1
    obtain ⟨x1, h1a, h1⟩ := Res.bind_eq_ok.1 h1
    obtain ⟨xs2, h2, h1⟩ := Res.bind_eq_ok.1 h1
    simp only [Res.pure_eq, Res.ok.injEq] at h1
    subst h1
    obtain ⟨k1, hk1, hr1⟩ := Res.bind_eq_ok.1 h1a
    have hl1 : x1.length = w := hw x1 (by simp)
    have hlt : ¬ (((b' + 1 + 1 : Nat) : Int) ≤ 1) := by omega
    rw [if_neg hlt, hr0]
    simp only [Res.ok_bind]
    have e1 : ((index : Int) + 1) = ((index + Nat.succ 0 : Nat) : Int) := by simp
    rw [e1, hk1]
    simp only [Res.ok_bind]
    rw [hr1]
    simp only [Res.ok_bind]
    rw [transformPlus_sum w x0 x1 _ hl0 hl1 (by simp [List.length_take]; omega)]
    simp only [Res.ok_bind]
    have e2 : (((b' + 1 + 1 : Nat) : Int) - 2).toNat = b' := by omega
    rw [e2]
    have h2' : ((List.range b').map fun (t : Nat) => (index : Int) + 1 + 1 + (t : Int)).mapM
        (fun j => rd order j >>= fun k => rd rows (k : Int)) = .ok xs2 := by
      rw [← h2, List.map_map, List.mapM_map, List.mapM_map]
      refine congrArg (fun f => List.mapM f (List.range b')) ?_
      funext t
      have e : ((index : Int) + 1 + 1 + (t : Int)) = ((index + Nat.succ (Nat.succ t) : Nat) : Int) := by push_cast; ring
      simp only [Function.comp, e]
    have e3 : (fun (t : Nat) => ((index + Nat.succ 0 : Nat) : Int) + 1 + (t : Int)) = fun (t : Nat) => (index : Int) + 1 + 1 + (t : Int) := by
      funext t; push_cast; ring
    have e4 : (fun (t : Nat) => (index : Int) + 2 + (t : Int)) = fun (t : Nat) => (index : Int) + 1 + 1 + (t : Int) := by
      funext t; ring
    rw [e4]
    rw [batchLoop_ok w order rows _ _ xs2 (by simp [hl0, hl1]) h2' (fun y hy => hw y (by simp [hy]))]
    simp only [Res.ok_bind, Res.pure_eq, Res.map_ok]
    congr 1
    unfold meanRows
    apply List.ext_getElem
    · simp
    · intro i h3 h4
      have hxl : xs2.length = b' := by
        have := mapM_length _ _ _ h2'
        simpa using this
      simp at h3
      simp only [List.map_map, List.getElem_map, List.getElem_range, Function.comp, List.map_cons, List.sum_cons, List.length_cons, hxl, lit_eq]
      rw [← add_assoc]
      congr 2
      · simp [List.getD_eq_getElem?_getD, List.getElem?_zipWith, List.getElem?_eq_getElem (show i < x0.length by omega),
          List.getElem?_eq_getElem (show i < x1.length by omega)]
      · push_cast; rfl

end

/-! ### Sequences -/
section
variable {F : Type}

theorem flattenLoop_len (ev : Bool) : ∀ (seqs : List (List (List F))) (i : Nat) (first eval f' e' : List Bool),
    flattenLoop ev seqs i first eval = .ok (f', e') → f'.length = first.length ∧ e'.length = eval.length := by
  intro seqs
  induction seqs with
  | nil => intro i first eval f' e' h; simp only [flattenLoop, Res.ok.injEq, Prod.mk.injEq] at h; simp [h.1, h.2]
  | cons v vs ih =>
    intro i first eval f' e' h
    simp only [flattenLoop] at h
    obtain ⟨f1, h1, h⟩ := Res.bind_eq_ok.1 h
    obtain ⟨e1, h2, h⟩ := Res.bind_eq_ok.1 h
    obtain ⟨a, b⟩ := ih _ _ _ _ _ h
    obtain ⟨_, rfl⟩ := wr_eq_ok.1 h1
    have : e1.length = eval.length := by
      cases ev
      · simp only [Bool.false_eq_true, if_false, Res.ok.injEq] at h2; rw [h2]
      · simp only [if_true] at h2; obtain ⟨_, rfl⟩ := wr_eq_ok.1 h2; simp
    exact ⟨by rw [a]; simp, by rw [b, this]⟩

/-- `p` starts one of the sequences laid out from position `i`. -/
def StartAt {α : Type} (seqs : List (List α)) (i p : Nat) : Prop :=
  ∃ k < seqs.length, p = i + ((seqs.take k).map List.length).sum

/-- `p` ends one of the sequences laid out from position `i`. -/
def EndAt {α : Type} (seqs : List (List α)) (i p : Nat) : Prop :=
  ∃ k < seqs.length, p + 1 = i + ((seqs.take (k + 1)).map List.length).sum

theorem startAt_cons {α : Type} (v : List α) (vs : List (List α)) (i p : Nat) :
    StartAt (v :: vs) i p ↔ p = i ∨ StartAt vs (i + v.length) p := by
  unfold StartAt
  constructor
  · rintro ⟨k, hk, h⟩
    cases k with
    | zero => left; simpa using h
    | succ k => right; exact ⟨k, by simpa using hk, by simp only [List.take_succ_cons, List.map_cons, List.sum_cons] at h; omega⟩
  · rintro (h | ⟨k, hk, h⟩)
    · exact ⟨0, by simp, by simpa using h⟩
    · exact ⟨k + 1, by simpa using hk, by simp only [List.take_succ_cons, List.map_cons, List.sum_cons]; omega⟩

theorem endAt_cons {α : Type} (v : List α) (vs : List (List α)) (i p : Nat) :
    EndAt (v :: vs) i p ↔ p + 1 = i + v.length ∨ EndAt vs (i + v.length) p := by
  unfold EndAt
  constructor
  · rintro ⟨k, hk, h⟩
    cases k with
    | zero => left; simpa using h
    | succ k => right; exact ⟨k, by simpa using hk, by simp only [List.take_succ_cons, List.map_cons, List.sum_cons] at h; omega⟩
  · rintro (h | ⟨k, hk, h⟩)
    · exact ⟨0, by simp, by simpa using h⟩
    · exact ⟨k + 1, by simpa using hk, by simp only [List.take_succ_cons, List.map_cons, List.sum_cons]; omega⟩

theorem flattenLoop_ok (ev : Bool) : ∀ (seqs : List (List (List F))) (i : Nat) (first eval : List Bool),
    (∀ v ∈ seqs, v ≠ []) → i + (seqs.map List.length).sum ≤ first.length →
    (ev = true → eval.length = first.length) →
    ∃ f' e', flattenLoop ev seqs i first eval = .ok (f', e') ∧
      (∀ p, (StartAt seqs i p → f'[p]? = some true) ∧ (¬ StartAt seqs i p → f'[p]? = first[p]?)) ∧
      (ev = true → ∀ p, (EndAt seqs i p → e'[p]? = some true) ∧ (¬ EndAt seqs i p → e'[p]? = eval[p]?)) ∧
      (ev = false → e' = eval) := by
  intro seqs
  induction seqs with
  | nil =>
    intro i first eval _ _ _
    refine ⟨first, eval, rfl, ?_, ?_, fun _ => rfl⟩
    · intro p; exact ⟨fun ⟨k, hk, _⟩ => by simp at hk, fun _ => rfl⟩
    · intro _ p; exact ⟨fun ⟨k, hk, _⟩ => by simp at hk, fun _ => rfl⟩
  | cons v vs ih =>
    intro i first eval hne hl he
    have hv : 0 < v.length := List.length_pos_iff.2 (hne v (by simp))
    simp only [List.map_cons, List.sum_cons] at hl
    obtain ⟨f1, hf1, lf1, gf1⟩ := wr_ok_nat first i true (by omega)
    have hcast : ((i + v.length : Nat) : Int) - 1 = ((i + v.length - 1 : Nat) : Int) := by omega
    obtain ⟨e1, he1, hle1, hge1⟩ : ∃ e1, (if ev = true then wr eval (((i + v.length : Nat) : Int) - 1) true else .ok eval) = .ok e1 ∧
        (ev = true → e1.length = first.length) ∧
        (∀ p, e1[p]? = if ev = true ∧ p + 1 = i + v.length then some true else eval[p]?) := by
      cases ev with
      | false => exact ⟨eval, rfl, by simp, by intro p; simp⟩
      | true =>
        have hel := he rfl
        obtain ⟨e1, a, b, c⟩ := wr_ok_nat eval (i + v.length - 1) true (by omega)
        refine ⟨e1, by simp only [if_true]; rw [hcast, a], fun _ => by omega, ?_⟩
        intro p
        rw [c]
        by_cases x : p = i + v.length - 1
        · rw [if_pos x, if_pos (by refine ⟨rfl, by omega⟩)]
        · rw [if_neg x, if_neg (by omega)]
    obtain ⟨f2, e2, h2, hf2, he2, hee⟩ := ih (i + v.length) f1 e1 (fun u hu => hne u (by simp [hu])) (by omega)
      (fun h => by rw [hle1 h, lf1])
    refine ⟨f2, e2, by simp only [flattenLoop, hf1, he1, Res.ok_bind, h2], ?_, ?_, ?_⟩
    · intro p
      rw [startAt_cons]
      obtain ⟨x, y⟩ := hf2 p
      constructor
      · rintro (rfl | h)
        · by_cases hs : StartAt vs (p + v.length) p
          · exact x hs
          · rw [y hs, gf1, if_pos rfl]
        · exact x h
      · intro h
        push Not at h
        rw [y h.2, gf1, if_neg h.1]
    · intro hev p
      rw [endAt_cons]
      obtain ⟨x, y⟩ := he2 hev p
      constructor
      · rintro (h | h)
        · by_cases hs : EndAt vs (i + v.length) p
          · exact x hs
          · rw [y hs, hge1, if_pos ⟨hev, h⟩]
        · exact x h
      · intro h
        push Not at h
        rw [y h.2, hge1, if_neg (fun hh => h.1 hh.2)]
    · intro hev
      rw [hee hev]
      apply List.ext_getElem?
      intro p
      rw [hge1, if_neg (by simp [hev])]

/-- `initialize` keeps the flags of sequential data. -/
theorem initialize_seq [Flt F] (d d' : Data F) (ti tl si sl : List (List F)) (hs : d.typeOfTemporal = .sequential)
    (h : d.initialize ti tl si sl = .ok d') :
    d'.training.areFirst = d.training.areFirst ∧ d'.testing.areFirst = d.testing.areFirst ∧
    d'.testing.needToEvaluate = d.testing.needToEvaluate := by
  unfold Data.initialize at h
  obtain ⟨li, hli, h⟩ := Res.bind_eq_ok.1 h
  obtain ⟨ll, hll, h⟩ := Res.bind_eq_ok.1 h
  obtain ⟨d2, hd2, h⟩ := Res.bind_eq_ok.1 h
  obtain ⟨err, herr, h⟩ := Res.bind_eq_ok.1 h
  split at h
  · exact absurd h (by simp)
  · simp only [Res.pure_eq, Res.ok.injEq] at h
    subst h
    simp only [Data.makeTemporalComposite, hs, Res.ok.injEq] at hd2
    subst hd2
    simp

/-- The flags of a flattened set. -/
theorem flatten_ok (s s' : DSet F) (isT : Bool) (x : List (List (List F))) (h : s.flatten isT x = .ok s') :
    s'.inputs = x.flatten ∧ s'.areFirst.length = x.flatten.length ∧
    (isT = true → s'.needToEvaluate.length = x.flatten.length) ∧
    ((∀ v ∈ x, v ≠ []) → (∀ p < x.flatten.length, (s'.areFirst[p]? = some true ↔ IsStart x p)) ∧
      (isT = true → ∀ p < x.flatten.length, (s'.needToEvaluate[p]? = some true ↔ IsEnd x p))) := by
  unfold DSet.flatten at h
  obtain ⟨⟨f, e⟩, h1, h⟩ := Res.bind_eq_ok.1 h
  simp only [Res.pure_eq, Res.ok.injEq] at h
  subst h
  have hlen := flattenLoop_len _ _ _ _ _ _ _ h1
  have hsz : (x.map List.length).sum = x.flatten.length := by simp [List.length_flatten]
  refine ⟨rfl, ?_, ?_, ?_⟩
  · simp only; rw [hlen.1]; simp
  · intro ht; subst ht; simp only; rw [hlen.2]; simp
  · intro hne
    obtain ⟨f', e', h2, hf, he, _⟩ := flattenLoop_ok isT x 0 (List.replicate (x.map List.length).sum false)
      (if isT = true then List.replicate (x.map List.length).sum false else s.needToEvaluate) hne (by simp)
      (by intro h; simp [h])
    rw [h1] at h2
    simp only [Res.ok.injEq, Prod.mk.injEq] at h2
    obtain ⟨rfl, rfl⟩ := h2
    constructor
    · intro p hp
      obtain ⟨a, b⟩ := hf p
      have : IsStart x p ↔ StartAt x 0 p := by simp [IsStart, StartAt]
      rw [this]
      constructor
      · intro h3
        by_contra h4
        rw [b h4, List.getElem?_replicate] at h3
        split at h3 <;> simp at h3
      · exact a
    · intro ht p hp
      obtain ⟨a, b⟩ := he ht p
      have : IsEnd x p ↔ EndAt x 0 p := by simp [IsEnd, EndAt]
      rw [this]
      constructor
      · intro h3
        by_contra h4
        rw [b h4, if_pos ht, List.getElem?_replicate] at h3
        split at h3 <;> simp at h3
      · exact a

end

/-! ### Normalisation -/
section
variable {F : Type} [Field F] [LinearOrder F]

theorem columnBounds_spec (x : F) (xs : List F) :
    (columnBounds x xs).1 ∈ x :: xs ∧ (columnBounds x xs).2 ∈ x :: xs ∧
    ∀ y ∈ x :: xs, (columnBounds x xs).1 ≤ y ∧ y ≤ (columnBounds x xs).2 := by
  unfold columnBounds
  suffices H : ∀ (xs : List F) (mn mx : F), mn ≤ mx →
      let r := xs.foldl (fun (mm : F × F) x => if flt x mm.1 then (x, mm.2) else if flt mm.2 x then (mm.1, x) else mm) (mn, mx)
      (r.1 = mn ∨ r.1 ∈ xs) ∧ (r.2 = mx ∨ r.2 ∈ xs) ∧ r.1 ≤ mn ∧ mx ≤ r.2 ∧ ∀ y ∈ xs, r.1 ≤ y ∧ y ≤ r.2 by
    obtain ⟨a, b, c, d, e⟩ := H xs x x (le_refl x)
    refine ⟨by simpa using a, by simpa using b, ?_⟩
    intro y hy
    rcases List.mem_cons.1 hy with rfl | hy
    · exact ⟨c, d⟩
    · exact e y hy
  intro xs
  induction xs with
  | nil => intro mn mx h; simp
  | cons z xs ih =>
    intro mn mx h
    simp only [List.foldl_cons]
    by_cases h1 : z < mn
    · rw [if_pos ((flt_iff z mn).2 h1)]
      obtain ⟨a, b, c, d, e⟩ := ih z mx (le_of_lt (lt_of_lt_of_le h1 h))
      refine ⟨?_, ?_, le_trans c (le_of_lt h1), d, ?_⟩
      · rcases a with a | a
        · right; rw [a]; simp
        · right; exact List.mem_cons_of_mem _ a
      · rcases b with b | b
        · left; exact b
        · right; exact List.mem_cons_of_mem _ b
      · intro y hy
        rcases List.mem_cons.1 hy with rfl | hy
        · exact ⟨c, le_trans (le_trans (le_of_lt h1) h) d⟩
        · exact e y hy
    · rw [if_neg (fun h => h1 ((flt_iff z mn).1 h))]
      by_cases h2 : mx < z
      · rw [if_pos ((flt_iff mx z).2 h2)]
        obtain ⟨a, b, c, d, e⟩ := ih mn z (le_trans h (le_of_lt h2))
        refine ⟨?_, ?_, c, le_trans (le_of_lt h2) d, ?_⟩
        · rcases a with a | a
          · left; exact a
          · right; exact List.mem_cons_of_mem _ a
        · rcases b with b | b
          · right; rw [b]; simp
          · right; exact List.mem_cons_of_mem _ b
        · intro y hy
          rcases List.mem_cons.1 hy with rfl | hy
          · exact ⟨le_trans c (not_lt.1 h1), d⟩
          · exact e y hy
      · rw [if_neg (fun h => h2 ((flt_iff mx z).1 h))]
        obtain ⟨a, b, c, d, e⟩ := ih mn mx h
        refine ⟨?_, ?_, c, d, ?_⟩
        · rcases a with a | a
          · left; exact a
          · right; exact List.mem_cons_of_mem _ a
        · rcases b with b | b
          · left; exact b
          · right; exact List.mem_cons_of_mem _ b
        · intro y hy
          rcases List.mem_cons.1 hy with rfl | hy
          · exact ⟨le_trans c (not_lt.1 h1), le_trans (not_lt.1 h2) d⟩
          · exact e y hy

end

section
variable {F : Type} [Zero F] [Add F] [Sub F] [Mul F] [Div F] [Flt F]

/-- The values of component `j`. -/
def col (rows : List (List F)) (j : Nat) : List F := rows.map fun r => r.getD j 0

/-- The bounds used for component `j`. -/
def colBounds (rows : List (List F)) (j : Nat) : F × F :=
  match col rows j with
  | [] => (0, 0)
  | x :: xs => columnBounds x xs

/-- The new value of component `j`. -/
def normVal (rows : List (List F)) (lo hi : F) (j : Nat) (x : F) : F :=
  normalizeValue (colBounds rows j).1 (colBounds rows j).2 lo hi x

theorem column_ok (rows : List (List F)) (j w : Nat) (hw : ∀ r ∈ rows, r.length = w) (hj : j < w) :
    column rows j = .ok (col rows j) := by
  unfold column col
  apply mapM_ok
  intro r hr
  have := hw r hr
  rw [rd_nat r j (by omega)]
  simp [List.getD_eq_getElem?_getD, List.getElem?_eq_getElem (show j < r.length by omega)]

/-- Applies `g c` to the components `c` of `[a, b)`. -/
def mapRange (g : Nat → F → F) (a b : Nat) (r : List F) : List F :=
  r.mapIdx fun c x => if a ≤ c ∧ c < b then g c x else x

theorem mapRange_step (g : Nat → F → F) (a b : Nat) (hab : a < b) (r : List F) :
    mapRange g (a + 1) b (r.modify a (g a)) = mapRange g a b r := by
  unfold mapRange
  apply List.ext_getElem?
  intro i
  simp only [List.getElem?_mapIdx, List.getElem?_modify]
  cases r[i]? with
  | none => rfl
  | some v =>
    simp only [Option.map_eq_map, Option.map_some]
    by_cases h : a = i
    · subst h
      rw [if_neg (by omega), if_pos rfl, if_pos (by omega)]
    · rw [if_neg h]
      by_cases h2 : a + 1 ≤ i ∧ i < b
      · rw [if_pos h2, if_pos (by omega)]
      · rw [if_neg h2, if_neg (by omega)]

theorem normalizeLoop_ok (lo hi : F) (w : Nat) : ∀ (k j : Nat) (tr te : List (List F)), j + k ≤ w → tr ≠ [] →
    (∀ r ∈ tr, r.length = w) → (∀ r ∈ te, r.length = w) →
    normalizeLoop lo hi k j tr te = .ok (tr.map (mapRange (normVal tr lo hi) j (j + k)),
      te.map (mapRange (normVal tr lo hi) j (j + k))) := by
  intro k
  induction k with
  | zero =>
    intro j tr te _ _ _ _
    have : mapRange (normVal tr lo hi) j (j + 0) = id := by
      funext r
      unfold mapRange
      apply List.ext_getElem?
      intro i
      simp only [List.getElem?_mapIdx, id]
      cases r[i]? with
      | none => rfl
      | some v => simp only [Option.map_some]; rw [if_neg (by omega)]
    rw [this]; simp [normalizeLoop]
  | succ k ih =>
    intro j tr te hk hne h1 h2
    have hcol : normalizeColumn lo hi j tr te = .ok (tr.map fun r => r.modify j (normVal tr lo hi j), te.map fun r => r.modify j (normVal tr lo hi j)) := by
      unfold normalizeColumn
      rw [column_ok tr j w h1 (by omega), column_ok te j w h2 (by omega)]
      simp only [Res.ok_bind]
      cases htr : col tr j with
      | nil => simp [col] at htr; exact absurd htr hne
      | cons x xs =>
        simp only [Res.pure_eq]
        unfold normVal colBounds
        rw [htr]
    simp only [normalizeLoop, hcol, Res.ok_bind]
    rw [ih (j + 1) _ _ (by omega) (by simpa using hne) (by
      intro r hr; obtain ⟨r', hr', rfl⟩ := List.mem_map.1 hr; simp [h1 r' hr']) (by
      intro r hr; obtain ⟨r', hr', rfl⟩ := List.mem_map.1 hr; simp [h2 r' hr'])]
    have hsame : ∀ c, j < c → normVal (tr.map fun r => r.modify j (normVal tr lo hi j)) lo hi c = normVal tr lo hi c := by
      intro c hc
      have : col (tr.map fun r => r.modify j (normVal tr lo hi j)) c = col tr c := by
        unfold col
        rw [List.map_map]
        apply List.map_congr_left
        intro r _
        simp only [Function.comp, List.getD_eq_getElem?_getD, List.getElem?_modify]
        cases r[c]? with
        | none => rfl
        | some v => simp only [Option.map_eq_map, Option.map_some]; rw [if_neg (by omega)]
      funext x
      have e : ∀ (a b : List (List F)), col a c = col b c → normVal a lo hi c x = normVal b lo hi c x := by
        intro a b hab; unfold normVal colBounds; rw [hab]
      exact e _ _ this
    have hmr : ∀ r : List F, mapRange (normVal (tr.map fun r => r.modify j (normVal tr lo hi j)) lo hi) (j + 1) (j + 1 + k)
        (r.modify j (normVal tr lo hi j)) = mapRange (normVal tr lo hi) j (j + (k + 1)) r := by
      intro r
      rw [show j + (k + 1) = j + 1 + k by omega]
      rw [← mapRange_step (normVal tr lo hi) j (j + 1 + k) (by omega) r]
      unfold mapRange
      apply List.ext_getElem?
      intro i
      simp only [List.getElem?_mapIdx]
      congr 1
      funext v
      by_cases h3 : j + 1 ≤ i ∧ i < j + 1 + k
      · rw [if_pos h3, if_pos h3, hsame i (by omega)]
      · rw [if_neg h3, if_neg h3]
    congr 1
    rw [List.map_map, List.map_map]
    refine Prod.ext ?_ ?_ <;> simp only <;> apply List.map_congr_left <;> intro r _ <;> exact hmr r

end

end Snn
