import Verif.Proofs.FilterProofs

/-! Max pooling: maxima and the way back. -/

set_option linter.all false

namespace Snn

open Finset Snn.Spec

section
variable {F : Type} [Field F] [LinearOrder F] [IsStrictOrderedRing F] [FTrans F]

theorem poolMax_max (x : List F) : ∀ {row : List Int} {m : Int}, (∀ i ∈ row, i < x.length) →
    (m = -1 ∨ (0 ≤ m ∧ m < x.length)) →
    ∃ r, poolMax x row.length row m = .ok r ∧ (r = m ∨ (0 ≤ r ∧ r ∈ row)) ∧
      (∀ i : Nat, ((i : Int) ∈ row ∨ (i : Int) = m) → 0 ≤ r ∧ x.getD i 0 ≤ x.getD r.toNat 0)
  | [], m, _, hm => ⟨m, rfl, Or.inl rfl, fun i hi => by
      rcases hi with hi | rfl
      · simp at hi
      · exact ⟨by omega, by simp⟩⟩
  | a :: row, m, h, hm => by
    have ha := h a (by simp)
    have hrow : ∀ j ∈ row, j < (x.length : Int) := fun j hj => h j (by simp [hj])
    simp only [List.length_cons, poolMax]
    by_cases h0 : a ≥ 0
    · rw [if_pos h0]
      by_cases h1 : m = -1
      · rw [if_pos h1]
        obtain ⟨r, k1, k2, k3⟩ := poolMax_max x (row := row) (m := a) hrow (Or.inr ⟨h0, ha⟩)
        refine ⟨r, k1, Or.inr ?_, ?_⟩
        · rcases k2 with rfl | ⟨k2, k4⟩
          · exact ⟨h0, by simp⟩
          · exact ⟨k2, by simp [k4]⟩
        · intro i hi
          apply k3
          rcases hi with hi | hi
          · rcases List.mem_cons.1 hi with hi | hi
            · exact Or.inr hi
            · exact Or.inl hi
          · omega
      · rw [if_neg h1]
        obtain ⟨hm0, hm1⟩ := hm.resolve_left h1
        obtain ⟨k, rfl⟩ := Int.eq_ofNat_of_zero_le h0
        obtain ⟨q, rfl⟩ := Int.eq_ofNat_of_zero_le hm0
        have hk : k < x.length := by simpa using ha
        have hq : q < x.length := by simpa using hm1
        rw [rd_nat _ _ hk, rd_nat _ _ hq]
        simp only [Res.ok_bind, fle_iff]
        by_cases hle : x[q] ≤ x[k]
        · rw [if_pos hle]
          obtain ⟨r, k1, k2, k3⟩ := poolMax_max x (row := row) (m := (k : Int)) hrow (Or.inr ⟨h0, ha⟩)
          refine ⟨r, k1, Or.inr ?_, ?_⟩
          · rcases k2 with rfl | ⟨k2, k4⟩
            · exact ⟨h0, by simp⟩
            · exact ⟨k2, by simp [k4]⟩
          · intro i hi
            rcases hi with hi | hi
            · apply k3
              rcases List.mem_cons.1 hi with hi | hi
              · exact Or.inr hi
              · exact Or.inl hi
            · have e : i = q := by omega
              subst e
              obtain ⟨a1, a2⟩ := k3 k (Or.inr rfl)
              refine ⟨a1, le_trans ?_ a2⟩
              rw [List.getD_eq_getElem _ _ hq, List.getD_eq_getElem _ _ hk]
              exact hle
        · rw [if_neg hle]
          obtain ⟨r, k1, k2, k3⟩ := poolMax_max x (row := row) (m := (q : Int)) hrow (Or.inr ⟨hm0, hm1⟩)
          refine ⟨r, k1, ?_, ?_⟩
          · rcases k2 with rfl | ⟨k2, k4⟩
            · exact Or.inl rfl
            · exact Or.inr ⟨k2, by simp [k4]⟩
          · intro i hi
            rcases hi with hi | hi
            · rcases List.mem_cons.1 hi with hi | hi
              · have e : i = k := by omega
                subst e
                obtain ⟨a1, a2⟩ := k3 q (Or.inr rfl)
                refine ⟨a1, le_trans ?_ a2⟩
                rw [List.getD_eq_getElem _ _ hq, List.getD_eq_getElem _ _ hk]
                exact le_of_lt (not_le.1 hle)
              · exact k3 i (Or.inl hi)
            · exact k3 i (Or.inr hi)
    · rw [if_neg h0]
      obtain ⟨r, k1, k2, k3⟩ := poolMax_max x (row := row) (m := m) hrow hm
      refine ⟨r, k1, ?_, ?_⟩
      · rcases k2 with rfl | ⟨k2, k4⟩
        · exact Or.inl rfl
        · exact Or.inr ⟨k2, by simp [k4]⟩
      · intro i hi
        apply k3
        rcases hi with hi | hi
        · rcases List.mem_cons.1 hi with hi | hi
          · omega
          · exact Or.inl hi
        · exact Or.inr hi

theorem poolOutputs_max (x : List F) {size : Nat} : ∀ {rows : List (List Int)},
    (∀ row ∈ rows, row.length = size ∧ (∀ i ∈ row, i < x.length) ∧ ∃ i ∈ row, 0 ≤ i) →
    ∃ os ms, poolOutputs x size rows = .ok (os, ms) ∧ os.length = rows.length ∧ ms.length = rows.length ∧
      ∀ k < rows.length, ∃ m : Nat, ms[k]? = some (m : Int) ∧ m < x.length ∧ (m : Int) ∈ rows.getD k [] ∧
        os.getD k 0 = x.getD m 0 ∧ ∀ i : Nat, (i : Int) ∈ rows.getD k [] → x.getD i 0 ≤ x.getD m 0
  | [], _ => ⟨[], [], rfl, rfl, rfl, by simp⟩
  | row :: rows, h => by
    obtain ⟨h1, h2, i0, h3, h4⟩ := h row (by simp)
    obtain ⟨r, a, b, c⟩ := poolMax_max x (row := row) (m := -1) h2 (Or.inl rfl)
    have hr0 : 0 ≤ r := by
      obtain ⟨k, rfl⟩ := Int.eq_ofNat_of_zero_le h4
      exact (c k (Or.inl h3)).1
    have hr1 : r ∈ row := by rcases b with b | b; omega; exact b.2
    obtain ⟨os, ms, k1, k2, k3, k4⟩ := poolOutputs_max x (rows := rows) (fun r hr => h r (by simp [hr]))
    rw [h1] at a
    obtain ⟨q, rfl⟩ := Int.eq_ofNat_of_zero_le hr0
    have hq : q < x.length := by simpa using h2 _ hr1
    refine ⟨x[q] :: os, (q : Int) :: ms, ?_, by simp [k2], by simp [k3], ?_⟩
    · simp only [poolOutputs, a, Res.ok_bind]
      rw [rd_nat _ _ hq]
      simp [k1]
    · intro k hk
      cases k with
      | zero =>
        refine ⟨q, by simp, hq, by simpa using hr1, by simp [hq], ?_⟩
        intro i hi
        simpa using (c i (Or.inl (by simpa using hi))).2
      | succ k =>
        obtain ⟨m, j1, j2, j3, j4, j5⟩ := k4 k (by simpa using hk)
        exact ⟨m, by simpa using j1, j2, by simpa using j3, by simpa using j4, by simpa using j5⟩

theorem poolBack_eq : ∀ {ms : List Int} {es acc : List F}, es.length = ms.length → (∀ m ∈ ms, 0 ≤ m ∧ m < acc.length) → ms.Nodup →
    ∃ r, poolBack ms es acc = .ok r ∧ r.length = acc.length ∧
      (∀ k (m : Nat), ms[k]? = some (m : Int) → r.getD m 0 = es.getD k 0) ∧
      ∀ i : Nat, (i : Int) ∉ ms → r.getD i 0 = acc.getD i 0
  | [], [], acc, _, _, _ => ⟨acc, rfl, rfl, by simp, by simp⟩
  | [], e :: es, acc, h, _, _ => by simp at h
  | m :: ms, [], acc, h, _, _ => by simp at h
  | m :: ms, e :: es, acc, h, hm, hn => by
    obtain ⟨h1, h2⟩ := hm m (by simp)
    obtain ⟨q, rfl⟩ := Int.eq_ofNat_of_zero_le h1
    have hq : q < acc.length := by simpa using h2
    rw [List.nodup_cons] at hn
    obtain ⟨r, h3, h4, h5, h6⟩ := poolBack_eq (ms := ms) (es := es) (acc := acc.set q e) (by simpa using h)
      (fun j hj => by simpa using hm j (by simp [hj])) hn.2
    refine ⟨r, by simp only [poolBack]; rw [wr_nat _ _ _ hq]; exact h3, by simpa using h4, ?_, ?_⟩
    · intro k m hk
      cases k with
      | zero =>
        simp only [List.getElem?_cons_zero, Option.some.injEq, Nat.cast_inj] at hk
        subst hk
        rw [h6 q hn.1]
        simp [hq]
      | succ k => simpa using h5 k m (by simpa using hk)
    · intro i hi
      rw [List.mem_cons, not_or] at hi
      rw [h6 i hi.2]
      have hne : q ≠ i := fun h => hi.1 (by rw [h])
      simp [List.getD_eq_getElem?_getD, List.getElem?_set, hne]

/-- A pooling layer with disjoint tiles, forward and backward. -/
theorem pool_layer {l0 l : Layer F} {twoD : Bool} {ni : Nat} {rows : List (List Int)} {size C K : Nat} {si so : List Int}
    {info : FilterInfo} (h : PoolBuilt l0 twoD (ni : Int) rows size C K si so info) (hwf : l0.WF ni rows.length)
    (hu : Used ni rows.length l0 l) (tile : Nat → Nat → Prop) (owner : Nat → Nat)
    (ht : ∀ k < rows.length, ∀ i : Nat, (i : Int) ∈ rows.getD k [] ↔ tile k i)
    (hown : ∀ k < rows.length, ∀ i, tile k i → owner i = k)
    (x : List F) (hx : x.length = ni) (t : Bool) (d : Draws F) :
    ∃ y l' arg, l.output x t = .ok (y, l') ∧ l.outputForTraining x t d = .ok (y, l', d) ∧ MaxPooled rows.length tile x y arg ∧
      ∀ e : List F, e.length = rows.length → ∃ errs l'', l'.backOutput e = .ok (errs, l'') ∧ SentBack rows.length ni arg e errs := by
  obtain ⟨⟨hin, hw, _⟩, hk⟩ := used_wf hu hwf
  obtain ⟨o, mvi0, hb0, ho, hm0⟩ := h.body
  rw [hb0] at hk
  have hopt := used_noOptimizers hu h.optimizers
  cases hbody : l.body with
  | pool td info' o' mvi =>
    rw [hbody] at hk hw
    simp only [Body.Kin] at hk
    obtain ⟨rfl, rfl, rfl, -⟩ := hk
    have hw : PoolWF info' o' mvi ni rows.length := hw
    obtain ⟨os, ms, a, l1, l2, l3⟩ := poolOutputs_max x (size := info'.sizeOfNeuronInputs.toNat) (rows := info'.kernelIndexes)
      (by rw [hx]; exact hw.rows)
    rw [h.kidx] at l1 l2 l3
    have hms : ms.length = mvi.length := by rw [l2, hw.mviLen]
    have hc : l.body.computeOutput x t = .ok (os, .pool td info' o' ms) := by
      rw [hbody]
      simp only [Body.computeOutput, a, Res.ok_bind, fillOutputs_ok (show info'.numberOfKernels = os.length by rw [hw.kernels, l1])]
      rw [if_neg (by omega), List.drop_eq_nil_of_le (by omega)]
      simp
    refine ⟨os, { l with body := .pool td info' o' ms }, fun k => (ms.getD k 0).toNat, ?_, ?_, ?_, ?_⟩
    · simp only [Layer.output, hc, Res.ok_bind, hopt, testingHooks]; rfl
    · simp only [Layer.outputForTraining, hc, Res.ok_bind, hopt, trainingHooks]
      rw [← hopt]; rfl
    · refine ⟨l1, ?_, ?_, ?_⟩
      · intro k hk
        obtain ⟨m, j1, j2, j3, j4, j5⟩ := l3 k hk
        simp only [List.getD_eq_getElem?_getD, j1, Option.getD_some, Int.toNat_natCast]
        exact ⟨(ht k hk m).1 j3, j2⟩
      · intro k hk
        obtain ⟨m, j1, j2, j3, j4, j5⟩ := l3 k hk
        rw [j4]
        simp only [List.getD_eq_getElem?_getD, j1, Option.getD_some, Int.toNat_natCast]
      · intro k hk i hi
        obtain ⟨m, j1, j2, j3, j4, j5⟩ := l3 k hk
        rw [j4]
        exact j5 i ((ht k hk i).2 hi)
    · intro e he
      have hrange : ∀ m ∈ ms, 0 ≤ m ∧ m < ((List.replicate ni (lit 0 : F)).length : Int) := by
        intro m hm
        obtain ⟨k, hk, rfl⟩ := List.getElem_of_mem hm
        obtain ⟨m, j1, j2, _⟩ := l3 k (by omega)
        rw [List.getElem?_eq_getElem hk] at j1
        injection j1 with j1
        rw [j1]
        simp; omega
      have hnd : ms.Nodup := by
        rw [List.nodup_iff_injective_get]
        intro p q hpq
        obtain ⟨m, j1, _, j3, _⟩ := l3 p.1 (by omega)
        obtain ⟨m', i1, _, i3, _⟩ := l3 q.1 (by omega)
        rw [List.getElem?_eq_getElem p.2] at j1
        rw [List.getElem?_eq_getElem q.2] at i1
        injection j1 with j1
        injection i1 with i1
        simp only [List.get_eq_getElem] at hpq
        have e : m = m' := by
          have : (m : Int) = m' := by rw [← j1, ← i1, hpq]
          omega
        subst e
        have o1 := hown p.1 (by omega) m ((ht p.1 (by omega) m).1 j3)
        have o2 := hown q.1 (by omega) m ((ht q.1 (by omega) m).1 i3)
        apply Fin.ext
        omega
      obtain ⟨r, b1, b2, b3, b4⟩ := poolBack_eq (ms := ms) (es := e) (acc := List.replicate ni (lit 0 : F)) (by rw [he, l2]) hrange hnd
      refine ⟨r, { l with body := .pool td info' o' ms }, ?_, ?_⟩
      · simp only [Layer.backOutput, hopt, backHooks, List.foldl_nil, hin, Body.computeBackOutput, zeroErrors_ok, Res.ok_bind, b1]
        rfl
      · refine ⟨by rw [b2]; simp, ?_, ?_⟩
        · intro k hk
          obtain ⟨m, j1, _⟩ := l3 k hk
          have e1 : (ms.getD k 0).toNat = m := by
            rw [List.getD_eq_getElem?_getD, j1]; simp
          rw [e1]
          exact b3 k m j1
        · intro i hi hno
          rw [b4 i]
          · simp [hi]
          · intro hmem
            obtain ⟨k, hk, he⟩ := List.getElem_of_mem hmem
            apply hno k (by omega)
            rw [List.getD_eq_getElem _ _ hk, he]
            simp
  | recurrence ns => rw [hbody] at hk; exact hk.elim
  | gru ns => rw [hbody] at hk; exact hk.elim
  | fullyConnected ns => rw [hbody] at hk; exact hk.elim
  | filter a b c => rw [hbody] at hk; exact hk.elim

end

end Snn
