import Verif.Proofs.FairProofs
import Verif.Proofs.DataBatchProofs
import Mathlib.Algebra.Order.Field.Rat

/-!
# C95: `shuffle()` is fair

With an ideal generator, after any history of shuffles and unshuffles, one more shuffle gives every order of
the training examples with the same probability.
-/

set_option linter.all false

namespace Snn

section
variable {α β : Type}

theorem swapAt_map (g : α → β) (l : List α) (i j : Nat) : swapAt (l.map g) i j = (swapAt l i j).map g := by
  unfold swapAt
  rw [List.getElem?_map, List.getElem?_map]
  cases l[i]? <;> cases l[j]? <;> simp [List.map_set]

theorem shuffleRounds_map (r : Rng) (g : α → β) (l : List α) (k : Nat) :
    shuffleRounds r (l.map g) k = (shuffleRounds r l k).map g := by
  induction k with
  | zero => rfl
  | succ k ih => show swapAt _ _ _ = (swapAt _ _ _).map g; rw [ih, swapAt_map]

theorem shuffleList_map (r : Rng) (g : α → β) (l : List α) : shuffleList r (l.map g) = (shuffleList r l).map g := by
  unfold shuffleList
  rw [List.length_map, shuffleRounds_map]

end

section
variable {F : Type} [Add F] [Div F] [Flt F]

/-- **C95.** Non-temporal data of `n` distinct examples: after any history, one more shuffle with an ideal
generator gives each of the `n!` orders with probability `1 / n!`. For every float type. -/
theorem C95_fair_partial (p : Problem) (inputs labels testI testL : List (List F)) (rec : Int) (d : Data F)
    (h : Data.make2 p inputs labels testI testL .nonTemporal rec = .ok d)
    (hlen : inputs.length = labels.length) (hnd : (inputs.zip labels).Nodup) (ops : List OrderOp) :
    ∃ d', d.orderOps ops = .ok d' ∧ ∀ es : List (List F × List F), es.Perm (inputs.zip labels) →
      d'.shuffleLaw inputs.length inputs.length (.ok es) = (inputs.length.factorial : ENNReal)⁻¹ := by
  obtain ⟨hI, ei, el, _, _, es, _, et, _, _, _, _, eo, _⟩ := make2_inv p inputs labels testI testL _ rec d h
  obtain ⟨d', h', hI', hF, hL⟩ := orderOps_ok ops d hI (by intro hh; rw [et] at hh; cases hh)
  have et' : d'.typeOfTemporal = .nonTemporal := hF.temporal.trans et
  have hperm := hI'.nonTemporal et'
  have e1 : d'.training.inputs = inputs := hF.inputs.trans ei
  have e2 : d'.training.labels = labels := hF.labels.trans el
  have e3 : d'.training.size = inputs.length := by rw [hF.size, es, hlen]
  rw [e3] at hperm
  refine ⟨d', h', ?_⟩
  intro es hes
  set g : Nat → List F × List F := fun k => (inputs.zip labels).getD k default with hg
  have hread : ∀ r : Rng, d'.readAfterShuffle inputs.length r = .ok (shuffleList r (d'.training.shuffledIndexes.map g)) := by
    intro r
    have hp := shuffleList_perm r d'.training.shuffledIndexes
    unfold Data.readAfterShuffle
    simp only [Data.shuffle, et', Res.ok_bind]
    rw [readExamples_eq _ inputs.length (by simp only [hp.length_eq, hperm.length_eq, List.length_range])
      (by intro x hx; simp only [e1]; simpa using hperm.mem_iff.1 (hp.mem_iff.1 hx))
      (by intro x hx; simp only [e2, ← hlen]; simpa using hperm.mem_iff.1 (hp.mem_iff.1 hx)), shuffleList_map]
    simp only [e1, e2, hg]
  have hrows : (d'.training.shuffledIndexes.map g).Perm (inputs.zip labels) := by
    apply read_perm; simpa [hlen] using hperm
  have hu := shuffleList_unique (hrows.nodup_iff.2 hnd) (hes.trans hrows.symm)
  have hl : (d'.training.shuffledIndexes.map g).length = inputs.length := by simp [hperm.length_eq]
  rw [hl] at hu
  unfold Data.shuffleLaw
  refine law_unique _ _ ?_
  obtain ⟨c, hc, hcu⟩ := hu
  refine ⟨c, ?_, ?_⟩
  · simp only [hread, hc]
  · intro c' hc'
    simp only [hread] at hc'
    exact hcu c' (Res.ok.inj hc')

/-! ### Time series -/

theorem blocks_flatMap {β : Type} (R o : Nat) (f : Nat → List β) (g : Nat → β) : ∀ (W : List Nat) (s0 : Nat),
    (∀ s w, W[s]? = some w → ∀ j ≤ R, f ((s0 + s) * (R + 1) + o + j) = if j = R then [g w] else []) →
    (List.range' (s0 * (R + 1) + o) (W.length * (R + 1))).flatMap f = W.map g := by
  intro W
  induction W with
  | nil => intro s0 _; simp
  | cons w W ih =>
    intro s0 h
    have e : (w :: W).length * (R + 1) = (R + 1) + W.length * (R + 1) := by simp only [List.length_cons]; ring
    rw [e, ← List.range'_append_1, List.flatMap_append, List.map_cons]
    have h1 : (List.range' (s0 * (R + 1) + o) (R + 1)).flatMap f = [g w] := by
      rw [← List.range'_append_1 (m := R) (n := 1), List.flatMap_append]
      have z : (List.range' (s0 * (R + 1) + o) R).flatMap f = [] := by
        rw [List.flatMap_eq_nil_iff]
        intro x hx
        rw [List.mem_range'_1] at hx
        have := h 0 w (by simp) (x - (s0 * (R + 1) + o)) (by omega)
        rw [if_neg (by omega)] at this
        rw [← this]; congr 1; rw [Nat.add_zero]; omega
      rw [z]
      have := h 0 w (by simp) R (le_refl _)
      rw [if_pos rfl, Nat.add_zero] at this
      simp [this]
    rw [h1]
    have h2 := ih (s0 + 1) (by
      intro s w' hs j hj
      have := h (s + 1) w' (by simpa using hs) j hj
      rw [← this, show s0 + 1 + s = s0 + (s + 1) by omega])
    rw [show (s0 + 1) * (R + 1) + o = s0 * (R + 1) + o + (R + 1) by ring] at h2
    rw [h2]; rfl

theorem trained_ts {β : Type} {n R o : Nat} {W : List Nat} {t : DSet F} (h : TsPost n R o W t) (ho : o ≤ n) (g : Nat → β) :
    (List.range n).flatMap (fun i => if t.needToTrain[i]? = some true then [g (t.shuffledIndexes.getD i 0)] else [])
      = (List.range o ++ W.map (fun w => w * (R + 1) + o + R)).map g := by
  have hWl : W.length * (R + 1) + o ≤ n := by
    have := Nat.div_mul_le_self (n - o) (R + 1)
    rw [h.perm.length_eq, List.length_range]; omega
  obtain ⟨k, hk⟩ := Nat.exists_eq_add_of_le hWl
  have e : n = o + (W.length * (R + 1) + k) := by omega
  rw [List.range_eq_range', e, ← List.range'_append_1, ← List.range'_append_1, List.flatMap_append, List.flatMap_append,
    List.map_append]
  congr 1
  · rw [List.range_eq_range', List.map_eq_flatMap]
    apply List.flatMap_congr
    intro i hi
    rw [List.mem_range'_1] at hi
    obtain ⟨a, b, c⟩ := h.pre i (by omega)
    rw [if_pos c, List.getD_eq_getElem?_getD, a]; rfl
  · have z : (List.range' (0 + o + W.length * (R + 1)) k).flatMap
        (fun i => if t.needToTrain[i]? = some true then [g (t.shuffledIndexes.getD i 0)] else []) = [] := by
      rw [List.flatMap_eq_nil_iff]
      intro i hi
      rw [List.mem_range'_1] at hi
      rw [h.tail i (by omega) (by omega)]; simp
    rw [z, List.append_nil, List.map_map]
    have := blocks_flatMap R o (fun i => if t.needToTrain[i]? = some true then [g (t.shuffledIndexes.getD i 0)] else [])
      (fun w => g (w * (R + 1) + o + R)) W 0 (by
        intro s w hs j hj
        rw [Nat.zero_add]
        obtain ⟨a, b, c⟩ := h.win s w hs j hj
        rw [c, List.getD_eq_getElem?_getD, a]
        by_cases hR : j = R
        · subst hR; simp
        · simp [hR])
    rw [Nat.zero_mul] at this
    exact this

theorem orderOps_offset (ops : List OrderOp) (d : Data F) (hI : DInv d) (hts : d.typeOfTemporal = .timeSeries)
    (hL : LongEnough d) : ∃ d', d.orderOps ops = .ok d' ∧ DInv d' ∧ Frame d d' ∧ LongEnough d' ∧
      d'.offset = (d.offset + shufflesOf ops) % (d.numberOfRecurrences.toNat + 1) := by
  induction ops generalizing d with
  | nil =>
    refine ⟨d, rfl, hI, Frame.refl d, hL, ?_⟩
    simp [shufflesOf, Nat.mod_eq_of_lt (hI.ts hts).2.2.2.1]
  | cons op ops ih =>
    have step : ∃ d1, d.orderOp op = .ok d1 ∧ DInv d1 ∧ Frame d d1 ∧
        d1.offset = (d.offset + shufflesOf [op]) % (d.numberOfRecurrences.toNat + 1) := by
      cases op with
      | shuffle r =>
        obtain ⟨d1, W, a, b, c, e, _⟩ := shuffle_ts d r hI hts (hL hts)
        exact ⟨d1, a, b, c, by simpa [shufflesOf] using e⟩
      | unshuffle =>
        obtain ⟨d1, a, b, c, _, e⟩ := unshuffle_ok d hI (fun h => by have := hL h; omega)
        exact ⟨d1, a, b, c, by simp [shufflesOf, Nat.mod_eq_of_lt (hI.ts hts).2.2.2.1, e]⟩
    obtain ⟨d1, h1, i1, f1, o1⟩ := step
    have hL1 : LongEnough d1 := by
      intro h
      rw [f1.recur, f1.size]
      exact hL (f1.temporal ▸ h)
    obtain ⟨d2, h2, i2, f2, l2, o2⟩ := ih d1 i1 (f1.temporal.trans hts) hL1
    refine ⟨d2, by simp only [Data.orderOps, List.foldlM_cons, h1, Res.ok_bind]; exact h2, i2, f1.trans f2, l2, ?_⟩
    rw [o2, f1.recur, o1, Nat.mod_add_mod, Nat.add_assoc]
    congr 2
    unfold shufflesOf
    rw [List.countP_cons, List.countP_cons, List.countP_nil]
    omega

/-- **C95, time series.** `n` distinct steps, `R` recurrences: the epoch that follows any history trains on the first `o` steps
and then on the last steps of the windows of `R+1` steps that start at `o`, `o` being the number of shuffles before modulo `R+1`;
with an ideal generator every order of the windows has the same probability. -/
theorem C95_time_series_partial (p : Problem) (inputs labels testI testL : List (List F)) (rec : Int) (d : Data F)
    (h : Data.make2 p inputs labels testI testL .timeSeries rec = .ok d)
    (hlen : inputs.length = labels.length) (hn : rec.toNat + 1 ≤ inputs.length) (hnd : (inputs.zip labels).Nodup)
    (ops : List OrderOp) :
    ∃ d', d.orderOps ops = .ok d' ∧ ∀ o, o = shufflesOf ops % (rec.toNat + 1) →
      ∀ W : List Nat, W.Perm (List.range ((inputs.length - o) / (rec.toNat + 1))) →
        d'.epochLaw (inputs.length / (rec.toNat + 1)) inputs.length
          (.ok ((List.range o ++ W.map (fun w => w * (rec.toNat + 1) + o + rec.toNat)).map
            fun k => (inputs.zip labels).getD k default))
          = (((inputs.length - o) / (rec.toNat + 1)).factorial : ENNReal)⁻¹ := by
  obtain ⟨hI, ei, el, _, _, es, _, et, _, er, hne, hne2, eo, _⟩ := make2_inv p inputs labels testI testL _ rec d h
  obtain ⟨d1, h1, hI1, hF1, hL1, hof⟩ := orderOps_offset ops d hI et (by intro hh; rw [er, es, ← hlen]; exact hn)
  have et1 := hF1.temporal.trans et
  have hrec : d1.numberOfRecurrences.toNat = rec.toNat := by rw [hF1.recur, er]
  have hsz : d1.training.size = inputs.length := by rw [hF1.size, es, hlen]
  have hoff : d.offset = 0 := by
    unfold Data.make2 Data.initialize at h
    obtain ⟨li, hli, h⟩ := Res.bind_eq_ok.1 h
    obtain ⟨ll, hll, h⟩ := Res.bind_eq_ok.1 h
    obtain ⟨d2, hd2, h⟩ := Res.bind_eq_ok.1 h
    obtain ⟨err, herr, h⟩ := Res.bind_eq_ok.1 h
    split at h
    · exact absurd h (by simp)
    simp only [Res.pure_eq, Res.ok.injEq] at h
    subst h
    unfold Data.makeTemporalComposite Data.blank at hd2
    simp only at hd2
    split at hd2
    · exact absurd hd2 (by simp)
    · obtain ⟨af, haf, hd2⟩ := Res.bind_eq_ok.1 hd2
      simp only [Res.ok.injEq] at hd2
      subst hd2
      rfl
  rw [hoff, er, Nat.zero_add] at hof
  refine ⟨d1, h1, ?_⟩
  rintro o ho W hW
  rw [← ho] at hof
  have hoR : o < rec.toNat + 1 := by rw [ho]; exact Nat.mod_lt _ (by omega)
  obtain ⟨_, _, _, _, hixp⟩ := hI1.ts et1
  rw [hrec, hsz] at hixp
  set R := rec.toNat with hR
  set n := inputs.length with hnn
  set l := d1.indexesForShuffles with hl
  set g : Nat → List F × List F := fun k => (inputs.zip labels).getD k default with hg
  have hread : ∀ r : Rng, d1.trainedAfterShuffle n r = .ok ((List.range o ++ ((shuffleList r l).filter (fits n R o)).map
      (fun w => w * (R + 1) + o + R)).map g) := by
    intro r
    obtain ⟨d', h2, hI', hF', _, hP⟩ := shuffle_ts_windows d1 r hI1 et1 (hL1 et1)
    rw [hrec, hsz, hof] at hP
    have et' : d'.typeOfTemporal = .timeSeries := hF'.temporal.trans et1
    have e1 : d'.training.inputs = inputs := (hF'.inputs.trans hF1.inputs).trans ei
    have e2 : d'.training.labels = labels := (hF'.labels.trans hF1.labels).trans el
    have e3 : d'.training.size = n := by rw [hF'.size, hsz]
    obtain ⟨_, lf, lt, _, _⟩ := hI'.ts et'
    have lo := hI'.len
    rw [e3] at lf lt lo
    unfold Data.trainedAfterShuffle
    rw [h2]
    simp only [Res.ok_bind]
    rw [mapM_ok d'.trainedAt (fun i => if d'.training.needToTrain[i]? = some true
      then [g (d'.training.shuffledIndexes.getD i 0)] else []) (List.range n) (by
        intro i hi
        have hi := List.mem_range.1 hi
        have hi' : i < d'.training.shuffledIndexes.length := by omega
        have hk := hI'.bound _ (List.getElem_mem hi')
        rw [e3] at hk
        unfold Data.trainedAt Data.needToLearn
        rw [et']
        simp only
        rw [rd_nat _ i (by omega)]
        simp only [Res.ok_bind, List.getElem?_eq_getElem (show i < d'.training.needToTrain.length by omega), Option.some.injEq]
        split
        · rw [readInput_ok d' i hi' (by rw [e1]; exact hk), readOutput_ok d' i hi' (by rw [e2]; omega)]
          simp only [Res.ok_bind, Res.pure_eq, e1, e2, hg, List.getD_eq_getElem?_getD, List.getElem?_eq_getElem hi', Option.getD_some]
          rw [List.getElem?_eq_getElem (by rw [List.length_zip]; omega), Option.getD_some, List.getElem_zip]
        · rfl)]
    simp only [Res.ok_bind, Res.pure_eq]
    rw [← List.flatMap_def, trained_ts hP (by omega) g]
  -- the trained steps determine the order of the windows
  have hgi : ∀ W1 W2 : List Nat, W1.Perm (List.range ((n - o) / (R + 1))) → W2.Perm (List.range ((n - o) / (R + 1))) →
      ((List.range o ++ W1.map (fun w => w * (R + 1) + o + R)).map g
        = (List.range o ++ W2.map (fun w => w * (R + 1) + o + R)).map g ↔ W1 = W2) := by
    intro W1 W2 h1 h2
    constructor
    · intro he
      rw [List.map_append, List.map_append, List.append_right_inj, List.map_map, List.map_map] at he
      have hin : ∀ w, w < (n - o) / (R + 1) → w * (R + 1) + o + R < (inputs.zip labels).length := by
        intro w hw
        have h4 := (Nat.le_div_iff_mul_le (show 0 < R + 1 by omega)).1 (show w + 1 ≤ (n - o) / (R + 1) from hw)
        have h5 : (w + 1) * (R + 1) = w * (R + 1) + R + 1 := by ring
        rw [List.length_zip]; omega
      apply List.ext_getElem (by rw [h1.length_eq, h2.length_eq])
      intro i hi1 hi2
      have b1 := hin _ (List.mem_range.1 (h1.mem_iff.1 (List.getElem_mem hi1)))
      have b2 := hin _ (List.mem_range.1 (h2.mem_iff.1 (List.getElem_mem hi2)))
      have := congrArg (fun x => x[i]?) he
      simp only [List.getElem?_map, List.getElem?_eq_getElem hi1, List.getElem?_eq_getElem hi2, Option.map_some, Function.comp,
        Option.some.injEq, hg, List.getD_eq_getElem?_getD, List.getElem?_eq_getElem b1, List.getElem?_eq_getElem b2, Option.getD_some] at this
      have := (List.Nodup.getElem_inj_iff hnd).1 this
      exact Nat.eq_of_mul_eq_mul_right (show 0 < R + 1 by omega) (by omega)
    · rintro rfl; rfl
  have hfp : ∀ r : Rng, ((shuffleList r l).filter (fits n R o)).Perm (List.range ((n - o) / (R + 1))) :=
    fun r => fits_perm n R o _ ((shuffleList_perm r l).trans hixp)
  have hln : l.Nodup := hixp.nodup_iff.2 List.nodup_range
  have hll : l.length = n / (R + 1) := by rw [hixp.length_eq, List.length_range]
  have key : ∀ c : IdealDraws (n / (R + 1)), d1.trainedAfterShuffle n c.rng = .ok ((List.range o ++ W.map
      (fun w => w * (R + 1) + o + R)).map g) ↔ (shuffleList c.rng l).filter (fits n R o) = W := by
    intro c
    rw [hread, Res.ok.injEq, hgi _ _ (hfp _) hW]
  have hmem : ∀ w, w ∈ l ↔ w < n / (R + 1) := by intro w; rw [hixp.mem_iff, List.mem_range]
  have hfit : ∀ w, w ∈ l → (fits n R o w = true ↔ w < (n - o) / (R + 1)) := by
    intro w hw
    rw [← List.mem_range, ← (fits_perm n R o l hixp).mem_iff, List.mem_filter]
    simp [hw]
  unfold Data.epochLaw
  by_cases hM : (n - o) / (R + 1) = n / (R + 1)
  · -- every window fits
    have hall : ∀ c : IdealDraws (n / (R + 1)), (shuffleList c.rng l).filter (fits n R o) = shuffleList c.rng l := by
      intro c
      rw [List.filter_eq_self]
      intro w hw
      have hw' := (shuffleList_perm c.rng l).mem_iff.1 hw
      rw [hfit w hw', hM, ← hmem]; exact hw'
    rw [hM] at hW ⊢
    refine law_unique _ _ ?_
    have := shuffleList_unique hln (hW.trans hixp.symm)
    rw [hll] at this
    obtain ⟨c, hc, hu⟩ := this
    refine ⟨c, (key c).2 (by rw [hall]; exact hc), ?_⟩
    intro c' hc'
    have := (key c').1 hc'
    rw [hall] at this
    exact hu c' this
  · -- the last window does not fit
    have h3 : (n - o) / (R + 1) ≤ n / (R + 1) := Nat.div_le_div_right (by omega)
    have h4 : n / (R + 1) ≤ (n - o) / (R + 1) + 1 := by
      have : n / (R + 1) ≤ (n - o + (R + 1)) / (R + 1) := Nat.div_le_div_right (by omega)
      rwa [Nat.add_div_right _ (by omega)] at this
    obtain ⟨m, hm⟩ : ∃ m, (n - o) / (R + 1) = m := ⟨_, rfl⟩
    have hM' : n / (R + 1) = m + 1 := by omega
    rw [hm] at hW hfit ⊢
    have hx : m ∈ l := by rw [hmem]; omega
    have hne' : ∀ c : IdealDraws (n / (R + 1)), (shuffleList c.rng l).filter (fits n R o)
        = (shuffleList c.rng l).filter (fun y => decide (y ≠ m)) := by
      intro c
      apply List.filter_congr
      intro w hw
      have hw' := (shuffleList_perm c.rng l).mem_iff.1 hw
      have a := hfit w hw'
      have b := (hmem w).1 hw'
      rw [Bool.eq_iff_iff, a, decide_eq_true_eq]
      omega
    have hWl : (m :: W).Perm l := by
      refine ((List.Perm.cons m hW).trans ?_).trans hixp.symm
      rw [hM', List.range_succ]
      exact (List.perm_append_singleton m _).symm
    have hc := filter_count hln hx hWl
    rw [hll] at hc
    obtain ⟨s, hs, hcard⟩ := hc
    rw [law_count _ _ s (by intro c; rw [hs, ← hne']; exact (key c).symm) hcard, hM', Nat.factorial_succ, Nat.cast_mul,
      ENNReal.mul_inv (Or.inr (ENNReal.natCast_ne_top _)) (Or.inl (ENNReal.natCast_ne_top _)), ← mul_assoc,
      ENNReal.mul_inv_cancel (by simp) (ENNReal.natCast_ne_top _), one_mul]

/-- **C95 does not hold for sequential data**: `shuffle()` never changes anything: with two sequences or more, the order of the
constructor has probability 1, whatever the history, and every other order 0. -/
theorem C95_sequential_refuted (p : Problem) (trainI testI : List (List (List F))) (trainL testL : List (List F)) (rec : Int)
    (d : Data F) (h : Data.make2seq p trainI trainL testI testL .sequential rec = .ok d) (ops : List OrderOp) (m n : Nat) :
    ∃ d', d.orderOps ops = .ok d' ∧ d'.readExamples n = d.readExamples n ∧ d'.shuffleLaw m n (d.readExamples n) = 1 ∧
      ∀ x, x ≠ d.readExamples n → d'.shuffleLaw m n x = 0 := by
  have key : ∀ d : Data F, DInv d → d.typeOfTemporal = .sequential → ∀ r, d.shuffle r = .ok d := by
    intro d hI ht r
    obtain ⟨d2, h2, _, _, e⟩ := shuffle_seq d r hI ht
    rw [h2, e]
  have key2 : ∀ d : Data F, DInv d → d.typeOfTemporal = .sequential → d.unshuffle = .ok d := by
    intro d hI ht
    have := (hI.seq ht).2
    simp only [Data.unshuffle, ht, ← this]
    cases d with | mk a b c e f g h t =>
    cases t
    simp_all
  have hd : DInv d ∧ d.typeOfTemporal = .sequential := by
    unfold Data.make2seq at h
    simp only [ne_eq, not_true_eq_false, if_false] at h
    obtain ⟨tr, htr, h⟩ := Res.bind_eq_ok.1 h
    obtain ⟨te, hte, h⟩ := Res.bind_eq_ok.1 h
    obtain ⟨hI, ei, el, eti, etl, es, ets, et, ep, er, _, _, eo, ev⟩ := initialize_inv _ _ _ _ _ _ h
    exact ⟨hI, et⟩
  have hops : d.orderOps ops = .ok d := by
    clear h
    induction ops with
    | nil => rfl
    | cons o ops ih =>
      have : d.orderOp o = .ok d := by
        cases o with
        | shuffle r => exact key d hd.1 hd.2 r
        | unshuffle => exact key2 d hd.1 hd.2
      simp only [Data.orderOps, List.foldlM_cons, this, Res.ok_bind]; exact ih
  refine ⟨d, hops, rfl, ?_⟩
  have : (fun c : IdealDraws m => d.readAfterShuffle n c.rng) = Function.const _ (d.readExamples n) := by
    funext c
    unfold Data.readAfterShuffle
    rw [key d hd.1 hd.2]; rfl
  unfold Data.shuffleLaw
  rw [this, PMF.map_const]
  exact ⟨PMF.pure_apply_self _, fun x hx => PMF.pure_apply_of_ne _ _ hx⟩

end

/-- C95 on three examples, after a shuffle and an unshuffle: an order has probability 1/6. -/
example : ∃ d d' : Data ℚ, Data.make2 .classification [[1, 2], [3, 4], [5, 6]] [[1, 0], [0, 1], [1, 0]] [] [] .nonTemporal 0 = .ok d ∧
    d.orderOps [.shuffle fun i => i * i, .unshuffle, .shuffle fun _ => 0] = .ok d' ∧
    d'.shuffleLaw 3 3 (.ok [([3, 4], [0, 1]), ([5, 6], [1, 0]), ([1, 2], [1, 0])]) = 6⁻¹ := by
  obtain ⟨d', h1, h2⟩ := C95_fair_partial (F := ℚ) .classification [[1, 2], [3, 4], [5, 6]] [[1, 0], [0, 1], [1, 0]] [] [] 0
    (Res.get _ (by decide +kernel)) (Res.eq_get _ _) rfl (by decide +kernel) [.shuffle fun i => i * i, .unshuffle, .shuffle fun _ => 0]
  refine ⟨_, d', Res.eq_get _ _, h1, ?_⟩
  refine (h2 _ (by decide +kernel)).trans ?_
  norm_num [Nat.factorial]

/-- C95 on a series of six steps with one recurrence, after one shuffle: step 0, then two windows of two steps in any
order, each with probability 1/2 (the third window does not fit). -/
example : ∃ d d' : Data ℚ, Data.make2 .regression [[1], [2], [3], [4], [5], [6]] [[2], [3], [4], [5], [6], [7]] [] [] .timeSeries 1 = .ok d ∧
    d.orderOps [.shuffle fun i => i * i] = .ok d' ∧
    d'.epochLaw 3 6 (.ok [([1], [2]), ([5], [6]), ([3], [4])]) = 2⁻¹ := by
  obtain ⟨d', h1, h2⟩ := C95_time_series_partial (F := ℚ) .regression [[1], [2], [3], [4], [5], [6]] [[2], [3], [4], [5], [6], [7]] [] [] 1
    (Res.get _ (by decide +kernel)) (Res.eq_get _ _) rfl (by decide +kernel) (by decide +kernel) [.shuffle fun i => i * i]
  refine ⟨_, d', Res.eq_get _ _, h1, ?_⟩
  refine Eq.trans ?_ ((h2 1 rfl [1, 0] (by decide)).trans ?_)
  · rfl
  · norm_num [Nat.factorial]

/-- C95 on two sequences: the order of the second sequence before the first has probability 0. -/
example : ∃ d d' : Data ℚ, Data.make2seq .regression [[[1], [2]], [[3]]] [[0], [1], [2]] [[[4], [5]]] [[0], [1]] .sequential 0 = .ok d ∧
    d.orderOps [.shuffle fun i => i * i] = .ok d' ∧
    d'.shuffleLaw 2 3 (.ok [([3], [2]), ([1], [0]), ([2], [1])]) = 0 := by
  obtain ⟨d', h1, _, _, h2⟩ := C95_sequential_refuted (F := ℚ) .regression [[[1], [2]], [[3]]] [[[4], [5]]] [[0], [1], [2]] [[0], [1]] 0
    (Res.get _ (by decide +kernel)) (Res.eq_get _ _) [.shuffle fun i => i * i] 2 3
  exact ⟨_, d', Res.eq_get _ _, h1, h2 _ (by decide +kernel)⟩

end Snn
