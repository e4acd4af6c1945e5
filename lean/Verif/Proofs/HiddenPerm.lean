import Verif.Proofs.HiddenBack
import Verif.Spec.HiddenSpec

/-! # A layer with its neurons in another order -/

set_option linter.all false

namespace Snn.Reorder

open Snn.Spec

section
variable {α β γ : Type}

theorem picked_cons {i : Nat} {p : List Nat} {l : List α} (h : i < l.length) : picked (i :: p) l = l[i] :: picked p l := by
  unfold picked
  rw [List.filterMap_cons, List.getElem?_eq_getElem h]

theorem picked_length : ∀ {p : List Nat} {l : List α}, (∀ i ∈ p, i < l.length) → (picked p l).length = p.length
  | [], l, _ => rfl
  | i :: p, l, h => by
    rw [picked_cons (h i (by simp)), List.length_cons, picked_length fun j hj => h j (by simp [hj]), List.length_cons]

theorem picked_map (f : α → β) (p : List Nat) (l : List α) : picked p (l.map f) = (picked p l).map f := by
  unfold picked
  rw [List.map_filterMap]
  congr 1
  funext i
  rw [List.getElem?_map]

theorem picked_zipWith (f : α → β → γ) : ∀ {p : List Nat} {a : List α} {b : List β}, (∀ i ∈ p, i < a.length) → a.length = b.length →
    picked p (List.zipWith f a b) = List.zipWith f (picked p a) (picked p b)
  | [], a, b, _, _ => rfl
  | i :: p, a, b, h, hl => by
    have h0 := h i (by simp)
    rw [picked_cons (by simp; omega), picked_cons h0, picked_cons (by omega), List.zipWith_cons_cons, List.getElem_zipWith,
      picked_zipWith f (fun j hj => h j (by simp [hj])) hl]

theorem picked_range : ∀ (l : List α), picked (List.range l.length) l = l
  | [] => rfl
  | a :: l => by
    have ih := picked_range l
    unfold picked at ih ⊢
    rw [List.length_cons, List.range_succ_eq_map, List.filterMap_cons, List.filterMap_map]
    simp only [List.getElem?_cons_zero, Function.comp_def, Nat.succ_eq_add_one, List.getElem?_cons_succ]
    rw [ih]

theorem picked_perm {p : List Nat} {l : List α} (hp : p.Perm (List.range l.length)) : (picked p l).Perm l := by
  have h : (picked p l).Perm (picked (List.range l.length) l) := hp.filterMap _
  rwa [picked_range] at h

theorem picked_mem {p : List Nat} {l : List α} {a : α} (h : a ∈ picked p l) : a ∈ l := by
  obtain ⟨i, _, hi⟩ := List.mem_filterMap.1 h
  exact List.mem_of_getElem? hi

end

section
variable {F : Type} [Flt F]

theorem inOrder_picked : ∀ {p : List Nat} {l : List F}, (∀ i ∈ p, i < l.length) → inOrder p l = picked p l
  | [], l, _ => rfl
  | i :: p, l, h => by
    have h0 := h i (by simp)
    rw [picked_cons h0, ← inOrder_picked fun j hj => h j (by simp [hj])]
    simp [inOrder, List.getD_eq_getElem?_getD, List.getElem?_eq_getElem h0]

end

section
variable {F : Type} [Flt F]

theorem run_fn {N : Type} {P : N → Prop} {f : N → Res (F × N)} (h : ∀ n, P n → ∃ y n', f n = .ok (y, n') ∧ P n') :
    ∃ (v : N → F) (g : N → N), ∀ n, P n → f n = .ok (v n, g n) ∧ P (g n) := by
  have : ∀ n, ∃ y n', P n → f n = .ok (y, n') ∧ P n' := by
    intro n
    by_cases hn : P n
    · obtain ⟨y, n', k⟩ := h n hn
      exact ⟨y, n', fun _ => k⟩
    · exact ⟨lit 0, n, fun k => absurd k hn⟩
  choose v g hg using this
  exact ⟨v, g, hg⟩

theorem runNeurons_fn {N : Type} {P : N → Prop} {f : N → Res (F × N)} {v : N → F} {g : N → N} (h : ∀ n, P n → f n = .ok (v n, g n) ∧ P (g n)) :
    ∀ {ns : List N}, (∀ n ∈ ns, P n) → runNeurons f ns = .ok (ns.map v, ns.map g)
  | [], _ => rfl
  | n :: ns, hn => by
    have ih := runNeurons_fn h (ns := ns) fun m hm => hn m (List.mem_cons_of_mem _ hm)
    simp [runNeurons, (h n (hn n (by simp))).1, ih]

theorem train_fn {N : Type} {P : N → Prop} {f : N → F → Res N} (h : ∀ n e, P n → ∃ n', f n e = .ok n' ∧ P n') :
    ∃ (g : N → F → N), ∀ n e, P n → f n e = .ok (g n e) ∧ P (g n e) := by
  have : ∀ n e, ∃ n', P n → f n e = .ok n' ∧ P n' := by
    intro n e
    by_cases hn : P n
    · obtain ⟨n', k⟩ := h n e hn
      exact ⟨n', fun _ => k⟩
    · exact ⟨n, fun k => absurd k hn⟩
  choose g hg using this
  exact ⟨g, hg⟩

theorem trainNeurons_fn {N : Type} {P : N → Prop} {f : N → F → Res N} {g : N → F → N} (h : ∀ n e, P n → f n e = .ok (g n e) ∧ P (g n e)) :
    ∀ {ns : List N} {es : List F}, (∀ n ∈ ns, P n) → ns.length ≤ es.length → trainNeurons f ns es = .ok (List.zipWith g ns es)
  | [], es, _, _ => by simp [trainNeurons]
  | n :: ns, [], _, hl => by simp at hl
  | n :: ns, e :: es, hn, hl => by
    have ih := trainNeurons_fn h (ns := ns) (fun m hm => hn m (List.mem_cons_of_mem _ hm)) (es := es) (by simpa using hl)
    simp [trainNeurons, (h n e (hn n (by simp))).1, ih]

end

section
variable {F : Type} [Flt F] [FTrans F] [Add F] [Sub F] [Mul F] [Div F] [Neg F]

theorem back_fn {w : Nat} {N : Type} {P : N → Prop} {f : N → F → Res (List F × N)} (h : ∀ n e, P n → ∃ y n', f n e = .ok (y, n') ∧ P n' ∧ y.length = w) :
    ∃ (v : N → F → List F) (g : N → F → N), ∀ n e, P n → f n e = .ok (v n e, g n e) ∧ P (g n e) ∧ (v n e).length = w := by
  have : ∀ n e, ∃ y n', P n → f n e = .ok (y, n') ∧ P n' ∧ y.length = w := by
    intro n e
    by_cases hn : P n
    · obtain ⟨y, n', k⟩ := h n e hn
      exact ⟨y, n', fun _ => k⟩
    · exact ⟨[], n, fun k => absurd k hn⟩
  choose v g hg using this
  exact ⟨v, g, hg⟩

theorem backNeurons_fn {w : Nat} {N : Type} {P : N → Prop} {f : N → F → Res (List F × N)} {v : N → F → List F} {g : N → F → N}
    (h : ∀ n e, P n → f n e = .ok (v n e, g n e) ∧ P (g n e) ∧ (v n e).length = w) :
    ∀ {ns : List N} {es acc : List F}, (∀ n ∈ ns, P n) → ns.length ≤ es.length → acc.length = w →
      backNeurons f ns es acc = .ok ((List.zipWith v ns es).foldl (List.zipWith (· + ·)) acc, List.zipWith g ns es)
  | [], es, acc, _, _, _ => by simp [backNeurons]
  | n :: ns, [], acc, _, hl, _ => by simp at hl
  | n :: ns, e :: es, acc, hn, hl, ha => by
    obtain ⟨h1, _, h2⟩ := h n e (hn n (by simp))
    have ih := backNeurons_fn h (ns := ns) (fun m hm => hn m (List.mem_cons_of_mem _ hm)) (es := es) (acc := List.zipWith (· + ·) acc (v n e)) (by simpa using hl) (by simp; omega)
    simp [backNeurons, h1, addErrors_ok (a := acc) (b := v n e) (by omega), ih]

end

section
variable {F : Type} [Field F] [LinearOrder F] [IsStrictOrderedRing F] [FTrans F]

theorem zipAdd_comm : ∀ (a b c : List F), List.zipWith (· + ·) (List.zipWith (· + ·) a b) c = List.zipWith (· + ·) (List.zipWith (· + ·) a c) b
  | [], b, c => by simp
  | a :: as, [], c => by cases c <;> simp
  | a :: as, b :: bs, [] => by simp
  | a :: as, b :: bs, c :: cs => by
    simp only [List.zipWith_cons_cons, zipAdd_comm as bs cs]
    congr 1
    ring

/-- The three loops on the neurons in another order. -/
theorem runNeurons_pick {p : List Nat} {m : Nat} (hp : p.Perm (List.range m)) {N : Type} {P : N → Prop} {f : N → Res (F × N)}
    (h : ∀ n, P n → ∃ y n', f n = .ok (y, n') ∧ P n') {ns : List N} (hn : ∀ n ∈ ns, P n) (hl : ns.length = m) :
    ∃ ys ns', runNeurons f ns = .ok (ys, ns') ∧ runNeurons f (picked p ns) = .ok (inOrder p ys, picked p ns') ∧ (∀ n ∈ ns', P n) ∧ ns'.length = m ∧ ys.length = m := by
  obtain ⟨v, g, hg⟩ := run_fn h
  have hi : ∀ i ∈ p, i < ns.length := by rw [hl]; exact lt_of_perm hp
  refine ⟨ns.map v, ns.map g, runNeurons_fn hg hn, ?_, ?_, by simp [hl], by simp [hl]⟩
  · rw [runNeurons_fn hg fun n hn' => hn n (picked_mem hn'), inOrder_picked (by simpa using hi), picked_map, picked_map]
  · intro n hn'
    obtain ⟨k, hk, rfl⟩ := List.mem_map.1 hn'
    exact (hg k (hn k hk)).2

theorem trainNeurons_pick {p : List Nat} {m : Nat} (hp : p.Perm (List.range m)) {N : Type} {P : N → Prop} {f : N → F → Res N}
    (h : ∀ n e, P n → ∃ n', f n e = .ok n' ∧ P n') {ns : List N} {es : List F} (hn : ∀ n ∈ ns, P n) (hl : ns.length = m) (he : es.length = m) :
    ∃ ns', trainNeurons f ns es = .ok ns' ∧ trainNeurons f (picked p ns) (inOrder p es) = .ok (picked p ns') ∧ (∀ n ∈ ns', P n) ∧ ns'.length = m := by
  obtain ⟨g, hg⟩ := train_fn h
  have hi : ∀ i ∈ p, i < ns.length := by rw [hl]; exact lt_of_perm hp
  refine ⟨List.zipWith g ns es, trainNeurons_fn hg hn (by omega), ?_, ?_, by simp [hl, he]⟩
  · rw [trainNeurons_fn hg (fun n hn' => hn n (picked_mem hn')) (by rw [picked_length hi, inOrder_length]), inOrder_picked (l := es) (by rw [he, ← hl]; exact hi),
      picked_zipWith g hi (by omega)]
  · intro n hn'
    obtain ⟨i, hi1, rfl⟩ := List.getElem_of_mem hn'
    rw [List.getElem_zipWith]
    exact (hg _ _ (hn _ (List.getElem_mem _))).2

theorem backNeurons_pick {p : List Nat} {m w : Nat} (hp : p.Perm (List.range m)) {N : Type} {P : N → Prop} {f : N → F → Res (List F × N)}
    (h : ∀ n e, P n → ∃ y n', f n e = .ok (y, n') ∧ P n' ∧ y.length = w) {ns : List N} {es acc : List F} (hn : ∀ n ∈ ns, P n) (hl : ns.length = m) (he : es.length = m)
    (ha : acc.length = w) :
    ∃ r ns', backNeurons f ns es acc = .ok (r, ns') ∧ backNeurons f (picked p ns) (inOrder p es) acc = .ok (r, picked p ns') ∧ (∀ n ∈ ns', P n) ∧ ns'.length = m := by
  obtain ⟨v, g, hg⟩ := back_fn h
  have hi : ∀ i ∈ p, i < ns.length := by rw [hl]; exact lt_of_perm hp
  refine ⟨_, List.zipWith g ns es, backNeurons_fn hg hn (by omega) ha, ?_, ?_, by simp [hl, he]⟩
  · rw [backNeurons_fn hg (fun n hn' => hn n (picked_mem hn')) (by rw [picked_length hi, inOrder_length]) ha, inOrder_picked (l := es) (by rw [he, ← hl]; exact hi),
      ← picked_zipWith g hi (by omega), ← picked_zipWith v hi (by omega)]
    have hz : (List.zipWith v ns es).length = m := by simp [hl, he]
    rw [(picked_perm (l := List.zipWith v ns es) (by rw [hz]; exact hp)).foldl_eq (rcomm := ⟨fun a b c => zipAdd_comm a b c⟩)]
  · intro n hn'
    obtain ⟨i, hi1, rfl⟩ := List.getElem_of_mem hn'
    rw [List.getElem_zipWith]
    exact (hg _ _ (hn _ (List.getElem_mem _))).2.1

end

end Snn.Reorder
