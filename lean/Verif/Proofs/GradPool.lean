import Verif.Proofs.GradBody
import Verif.Proofs.PoolProofs

/-! Max pooling layers: what a training round does. -/

set_option linter.all false

namespace Snn.Grad

open Finset Snn.Spec Snn.NeuronSpec

/-- The rows have no common input. -/
def DisjointRows (info : FilterInfo) : Prop :=
  ∀ (k k' : Nat) (row row' : List Int) (i : Int), info.kernelIndexes[k]? = some row → info.kernelIndexes[k']? = some row' →
    0 ≤ i → i ∈ row → i ∈ row' → k = k'

theorem poolBack_run : ∀ {ms : List Nat} {es acc : List ℝ}, es.length = ms.length → (∀ m ∈ ms, m < acc.length) → ms.Nodup →
    (∀ m ∈ ms, acc.getD m 0 = 0) →
    ∃ r, poolBack (ms.map Int.ofNat) es acc = .ok r ∧ r.length = acc.length ∧ ∀ v : List ℝ, dot r v = dot acc v + dot es (ms.map fun m => v.getD m 0)
  | [], [], acc, _, _, _, _ => ⟨acc, rfl, rfl, by simp [dot_nil]⟩
  | [], e :: es, acc, h, _, _, _ => by simp at h
  | m :: ms, [], acc, h, _, _, _ => by simp at h
  | m :: ms, e :: es, acc, h, hm, hn, h0 => by
    have hq := hm m (by simp)
    rw [List.nodup_cons] at hn
    have hset : acc.set m e = acc.set m (acc.getD m 0 + e) := by rw [h0 m (by simp), zero_add]
    obtain ⟨r, h3, h4, h5⟩ := poolBack_run (ms := ms) (es := es) (acc := acc.set m e) (by simpa using h)
      (fun j hj => by simpa using hm j (by simp [hj])) hn.2 (fun j hj => by
        have hne : m ≠ j := fun h => hn.1 (by rw [h]; exact hj)
        have := h0 j (by simp [hj])
        simpa [List.getD_eq_getElem?_getD, List.getElem?_set, hne] using this)
    refine ⟨r, ?_, by simpa using h4, ?_⟩
    · simp only [List.map_cons, poolBack, Int.ofNat_eq_natCast]
      rw [wr_nat _ _ _ hq]
      exact h3
    · intro v
      rw [h5 v, hset, dot_set _ _ _ _ hq, List.map_cons, dot_cons]
      ring

/-- The position of the only maximum of each row. -/
structure Peaks (info : FilterInfo) (ms : List Nat) (x : List ℝ) : Prop where
  length : ms.length = info.kernelIndexes.length
  mem : ∀ (k m : Nat) row, ms[k]? = some m → info.kernelIndexes[k]? = some row → (m : Int) ∈ row
  max : ∀ (k m : Nat) row, ms[k]? = some m → info.kernelIndexes[k]? = some row → ∀ i ∈ row, 0 ≤ i → i ≠ (m : Int) → x.getD i.toNat 0 < x.getD m 0

theorem fn_pool {l : Layer ℝ} {td : Bool} {info : FilterInfo} {n : Int} {mvi : List Int} {ni no : Nat} (ho : l.optimizers = [])
    (hb : l.body = .pool td info n mvi) (hw : PoolWF info n mvi ni no) {ms : List Nat} {y : List ℝ} (hy : y.length = ni) (hp : Peaks info ms y) :
    fn l y = ms.map (fun m => y.getD m 0) ∧ ∀ t, l.body.computeOutput y t = .ok (ms.map (fun m => y.getD m 0), .pool td info n (ms.map Int.ofNat)) := by
  obtain ⟨os, ms', a, l1, l2, l3⟩ := poolOutputs_max y (size := info.sizeOfNeuronInputs.toNat) (rows := info.kernelIndexes)
    (by rw [hy]; exact hw.rows)
  have hsame : ∀ k < info.kernelIndexes.length, ∃ m, ms[k]? = some m ∧ ms'[k]? = some (m : Int) ∧ os.getD k 0 = y.getD m 0 := by
    intro k hk
    obtain ⟨m, j1, j2, j3, j4, j5⟩ := l3 k hk
    have hk' : k < ms.length := by rw [hp.length]; exact hk
    have hrow : info.kernelIndexes[k]? = some info.kernelIndexes[k] := List.getElem?_eq_getElem hk
    have hm : ms[k]? = some ms[k] := List.getElem?_eq_getElem hk'
    have e1 : info.kernelIndexes.getD k [] = info.kernelIndexes[k] := List.getD_eq_getElem _ _ hk
    rw [e1] at j3 j5
    have e : m = ms[k] := by
      by_contra hne
      have h1 := hp.max k ms[k] _ hm hrow m j3 (by omega) (by omega)
      have h2 := j5 ms[k] (hp.mem k ms[k] _ hm hrow)
      rw [Int.toNat_natCast] at h1
      exact absurd h2 (not_le.2 h1)
    exact ⟨m, by rw [e]; exact hm, j1, j4⟩
  have hos : os = ms.map fun m => y.getD m 0 := by
    apply List.ext_getElem?
    intro k
    by_cases hk : k < info.kernelIndexes.length
    · obtain ⟨m, h1, h2, h3⟩ := hsame k hk
      rw [List.getElem?_map, h1]
      rw [List.getD_eq_getElem?_getD, List.getElem?_eq_getElem (by omega)] at h3
      rw [List.getElem?_eq_getElem (by omega)]
      simpa using h3
    · rw [List.getElem?_eq_none (by omega), List.getElem?_eq_none (by rw [List.length_map, hp.length]; omega)]
  have hms : ms' = ms.map Int.ofNat := by
    apply List.ext_getElem?
    intro k
    by_cases hk : k < info.kernelIndexes.length
    · obtain ⟨m, h1, h2, h3⟩ := hsame k hk
      rw [List.getElem?_map, h1, h2]
      rfl
    · rw [List.getElem?_eq_none (by omega), List.getElem?_eq_none (by rw [List.length_map, hp.length]; omega)]
  have hlen : os.length = no := by rw [l1, hw.out]
  have hc : ∀ t, l.body.computeOutput y t = .ok (os, .pool td info n ms') := by
    intro t
    have : ms'.length = mvi.length := by rw [l2, hw.mviLen, hw.out]
    rw [hb]
    simp only [Body.computeOutput, a, Res.ok_bind, fillOutputs_ok (show info.numberOfKernels = os.length by rw [hw.kernels, hlen])]
    rw [if_neg (by omega), List.drop_eq_nil_of_le (by omega)]
    simp
  rw [hos, hms] at hc
  refine ⟨?_, hc⟩
  unfold fn Layer.output
  rw [hc, ho]
  simp only [Res.ok_bind, testingHooks, Res.pure_eq]

/-- A pooling layer with disjoint tiles. -/
theorem diff_pool {l : Layer ℝ} {td : Bool} {info : FilterInfo} {n : Int} {mvi : List Int} {ni no : Nat} {o : Sgd ℝ} {x : List ℝ}
    (ho : l.optimizers = []) (hb : l.body = .pool td info n mvi) (hw : l.WF ni no) (hx : x.length = ni) (hk : NoKink l x)
    (hd : DisjointRows info) (first : Bool) : Diff first o l x ni no := by
  have hwf : PoolWF info n mvi ni no := by have := hw.body; rw [hb] at this; exact this
  have hkk : ∀ row ∈ info.kernelIndexes, ∃ m ∈ row, 0 ≤ m ∧ ∀ i ∈ row, 0 ≤ i → i ≠ m → x.getD i.toNat 0 < x.getD m.toNat 0 := by
    unfold NoKink at hk; rw [hb] at hk; exact hk
  have hpeak : ∃ ms, Peaks info ms x := by
    have : ∀ rows : List (List Int), (∀ row ∈ rows, ∃ m ∈ row, 0 ≤ m ∧ ∀ i ∈ row, 0 ≤ i → i ≠ m → x.getD i.toNat 0 < x.getD m.toNat 0) →
        ∃ ms : List Nat, List.Forall₂ (fun row m => (Int.ofNat m) ∈ row ∧ ∀ i ∈ row, 0 ≤ i → i ≠ (m : Int) → x.getD i.toNat 0 < x.getD m 0) rows ms := by
      intro rows
      induction rows with
      | nil => exact fun _ => ⟨[], .nil⟩
      | cons r rows ih =>
        intro h
        obtain ⟨ms, h1⟩ := ih fun r' hr' => h r' (by simp [hr'])
        obtain ⟨m, h2, h3, h4⟩ := h r (by simp)
        obtain ⟨q, rfl⟩ := Int.eq_ofNat_of_zero_le h3
        exact ⟨q :: ms, .cons ⟨h2, by simpa using h4⟩ h1⟩
    obtain ⟨ms, hms⟩ := this _ hkk
    refine ⟨ms, hms.length_eq.symm, ?_, ?_⟩
    · intro k m row h1 h2
      obtain ⟨m', e, h, _⟩ := forall₂_get hms h2
      rw [h1] at e; cases e
      exact h
    · intro k m row h1 h2
      obtain ⟨m', e, _, h⟩ := forall₂_get hms h2
      rw [h1] at e; cases e
      exact h
  obtain ⟨ms, hp⟩ := hpeak
  obtain ⟨hfn, hc⟩ := fn_pool ho hb hwf hx hp
  have hrow : ∀ (k m : Nat), ms[k]? = some m → ∃ row, info.kernelIndexes[k]? = some row ∧ (m : Int) ∈ row := by
    intro k m hm
    have hkl : k < ms.length := by
      by_contra hc'
      rw [List.getElem?_eq_none (by omega)] at hm; cases hm
    have e := List.getElem?_eq_getElem (show k < info.kernelIndexes.length by rw [← hp.length]; exact hkl)
    exact ⟨_, e, hp.mem k m _ hm e⟩
  have hnd : ms.Nodup := by
    rw [List.nodup_iff_injective_get]
    intro p q hpq
    simp only [List.get_eq_getElem] at hpq
    obtain ⟨r1, a1, a2⟩ := hrow p.1 _ (List.getElem?_eq_getElem p.2)
    obtain ⟨r2, b1, b2⟩ := hrow q.1 _ (List.getElem?_eq_getElem q.2)
    rw [← hpq] at b2
    exact Fin.ext (hd _ _ _ _ _ a1 b1 (by omega) a2 b2)
  have hlt : ∀ m ∈ ms, m < ni := by
    intro m hm
    obtain ⟨k, hk'⟩ := List.mem_iff_getElem?.1 hm
    obtain ⟨r1, a1, a2⟩ := hrow k m hk'
    have := (hwf.rows _ (List.mem_of_getElem? a1)).2.1 _ a2
    omega
  have hdesc : ∀ l2 es, Descends o l l2 x es := by
    intro l2 es G hG k i hkl
    rw [hb] at hkl
    simp [Body.weights] at hkl
  refine ⟨fun t d => ⟨{ l with body := .pool td info n (ms.map Int.ofNat) }, ?_, ?_⟩⟩
  · rw [hfn]
    simp only [Layer.outputForTraining, hc t, ho, Res.ok_bind, Res.pure_eq, trainingHooks]
  · intro es hes
    refine ⟨fun _ => ?_, ?_⟩
    · obtain ⟨r, k1, k2, k3⟩ := poolBack_run (ms := ms) (es := es) (acc := List.replicate ni 0) (by rw [hes, hp.length, hwf.out])
        (by simpa using hlt) hnd (fun m hm => by simp [List.getD_eq_getElem?_getD, List.getElem?_replicate]; split <;> rfl)
      refine ⟨r, { l with body := .pool td info n (ms.map Int.ofNat) }, ?_, by simpa using k2, ?_, hdesc _ _⟩
      · simp only [Layer.backOutput, ho, backHooks, List.foldl_nil, Body.computeBackOutput, zeroErrors]
        rw [if_neg (by rw [hw.inputs]; omega)]
        simp only [Res.ok_bind, hw.inputs, Int.toNat_natCast, lit_eq, Rat.cast_zero]
        rw [k1]
        rfl
      · intro G hG c v t0 hc' hv hm
        have hnear : ∀ᶠ t in nhds t0, Peaks info ms (c t) := by
          have h1 : ∀ᶠ t in nhds t0, ∀ k ∈ {k : Nat | k < info.kernelIndexes.length}, ∀ i ∈ {i : Int | i ∈ info.kernelIndexes.getD k []},
              0 ≤ i → i ≠ ((ms.getD k 0 : Nat) : Int) → (c t).getD i.toNat 0 < (c t).getD (ms.getD k 0) 0 := by
            rw [Filter.eventually_all_finite (Set.finite_lt_nat _)]
            intro k hk'
            rw [Filter.eventually_all_finite (List.finite_toSet _)]
            intro i hi
            by_cases h0 : 0 ≤ i
            · by_cases hne : i = ((ms.getD k 0 : Nat) : Int)
              · exact Filter.Eventually.of_forall fun t _ h => absurd hne h
              · have hk2 : k < info.kernelIndexes.length := hk'
                have hk3 : k < ms.length := by rw [hp.length]; exact hk2
                have e1 : info.kernelIndexes.getD k [] = info.kernelIndexes[k] := List.getD_eq_getElem _ _ hk2
                have e2 : ms.getD k 0 = ms[k] := List.getD_eq_getElem _ _ hk3
                have hi' : i ∈ info.kernelIndexes[k] := by rw [← e1]; exact hi
                have h2 := hp.max k ms[k] _ (List.getElem?_eq_getElem hk3) (List.getElem?_eq_getElem hk2) i hi' h0 (by rw [← e2]; exact hne)
                rw [← hc'] at h2
                rw [e2]
                have := (hm.deriv i.toNat).continuousAt.eventually_lt (hm.deriv ms[k]).continuousAt h2
                exact this.mono fun t ht _ _ => ht
            · exact Filter.Eventually.of_forall fun t h => absurd h h0
          refine h1.mono fun t ht => ⟨hp.length, hp.mem, ?_⟩
          intro k m row hm1 hrow1 i hi h0 hne
          have hk2 : k < info.kernelIndexes.length := by
            by_contra hcc
            rw [List.getElem?_eq_none (by omega)] at hrow1; cases hrow1
          have e1 : info.kernelIndexes.getD k [] = row := by rw [List.getD_eq_getElem?_getD, hrow1]; rfl
          have e2 : ms.getD k 0 = m := by rw [List.getD_eq_getElem?_getD, hm1]; rfl
          have := ht k hk2 i (by rw [e1]; exact hi) h0 (by rw [e2]; exact hne)
          rwa [e2] at this
        have heq : (fun t => G (fn l (c t))) =ᶠ[nhds t0] fun t => G (ms.map fun m => (c t).getD m 0) :=
          hnear.mono fun t ht => by
            simp only
            rw [(fn_pool ho hb hwf (by rw [hm.length, hv, hx]) ht).1]
        refine HasDerivAt.congr_of_eventuallyEq ?_ heq
        rw [k3 v, dot_replicate, zero_add]
        rw [hfn] at hG
        exact hG (fun t => ms.map fun m => (c t).getD m 0) (ms.map fun m => v.getD m 0) t0 (by simp only [hc']) (by simp)
          (moves_map (f := fun (m : Nat) t => (c t).getD m 0) fun m _ => hm.deriv m)
    · refine ⟨{ l with body := .pool td info n (ms.map Int.ofNat) }, ?_, hdesc _ _⟩
      simp only [Layer.train, ho, backHooks, List.foldl_nil, Body.computeTrain, Res.ok_bind, Res.pure_eq]

end Snn.Grad
