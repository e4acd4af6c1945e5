import Verif.Proofs.DataBatchProofs
import Mathlib.Algebra.Order.Field.Rat

/-!
# Properties of data sets (C01, C02, C03, C05, C06, C07, C08, C09, C10)

Reading is done through the getters of `Data` (`readInput i` is `getTrainingData(i)`), histories are
arbitrary lists of `shuffle()` (with arbitrary random draws) and `unshuffle()`.
-/

set_option linter.all false

namespace Snn

section
variable {F : Type} [Add F] [Div F] [Flt F]

/-- **C01.** Non-temporal data: after any history of shuffles and unshuffles, reading positions `0..n-1`
gives a permutation of the training examples given to the constructor (inputs with their outputs), and
`unshuffle()` restores the original order. For every float type. -/
theorem C01_shuffle_perm (p : Problem) (inputs labels testI testL : List (List F)) (rec : Int) (d : Data F)
    (h : Data.make2 p inputs labels testI testL .nonTemporal rec = .ok d)
    (hlen : inputs.length = labels.length) (ops : List OrderOp) :
    ∃ d', d.orderOps ops = .ok d' ∧
      (∃ xs, d'.readInputs inputs.length = .ok xs ∧ xs.Perm inputs) ∧
      (∃ es, d'.readExamples inputs.length = .ok es ∧ es.Perm (inputs.zip labels)) ∧
      ∃ d'', d'.unshuffle = .ok d'' ∧ d''.readInputs inputs.length = .ok inputs ∧
        d''.readExamples inputs.length = .ok (inputs.zip labels) := by
  obtain ⟨hI, ei, el, _, _, es, _, et, _, _, _, _, eo, _⟩ := make2_inv p inputs labels testI testL _ rec d h
  obtain ⟨d', h', hI', hF, hL⟩ := orderOps_ok ops d hI (by intro hh; rw [et] at hh; cases hh)
  have et' : d'.typeOfTemporal = .nonTemporal := hF.temporal.trans et
  have hperm := hI'.nonTemporal et'
  have e1 : d'.training.inputs = inputs := hF.inputs.trans ei
  have e2 : d'.training.labels = labels := hF.labels.trans el
  have e3 : d'.training.size = inputs.length := by rw [hF.size, es, hlen]
  have hb : ∀ x ∈ d'.training.shuffledIndexes, x < d'.training.inputs.length := by
    intro x hx; rw [e1, ← e3]; exact hI'.bound x hx
  have hb2 : ∀ x ∈ d'.training.shuffledIndexes, x < d'.training.labels.length := by
    intro x hx; rw [e2, ← hlen, ← e3]; exact hI'.bound x hx
  refine ⟨d', h', ⟨_, readInputs_eq d' _ (by rw [hI'.len, e3]) hb, ?_⟩,
    ⟨_, readExamples_eq d' _ (by rw [hI'.len, e3]) hb hb2, ?_⟩, ?_⟩
  · rw [e1]; rw [e3] at hperm; exact read_perm _ _ hperm
  · rw [e1, e2]; rw [e3] at hperm; apply read_perm; simpa [hlen] using hperm
  · obtain ⟨d2, h2, hI2, hF2, ho, _⟩ := unshuffle_ok d' hI' (by intro hh; rw [et'] at hh; cases hh)
    have f1 : d2.training.inputs = inputs := hF2.inputs.trans e1
    have f2 : d2.training.labels = labels := hF2.labels.trans e2
    have f3 : d2.training.size = inputs.length := hF2.size.trans e3
    have gb : ∀ x ∈ d2.training.shuffledIndexes, x < d2.training.inputs.length := by
      intro x hx; rw [f1, ← f3]; exact hI2.bound x hx
    have gb2 : ∀ x ∈ d2.training.shuffledIndexes, x < d2.training.labels.length := by
      intro x hx; rw [f2, ← hlen, ← f3]; exact hI2.bound x hx
    refine ⟨d2, h2, ?_, ?_⟩
    · rw [readInputs_eq d2 _ (by rw [hI2.len, f3]) gb, ho, e3, f1]
      congr 1
      apply List.ext_getElem
      · simp
      · intro i h1 h2; simp [List.getD_eq_getElem?_getD, List.getElem?_eq_getElem h2]
    · rw [readExamples_eq d2 _ (by rw [hI2.len, f3]) gb gb2, ho, e3, f1, f2]
      congr 1
      apply List.ext_getElem
      · simp [hlen]
      · intro i h1 h2; simp only [List.getElem_map, List.getElem_range, List.getD_eq_getElem?_getD, List.getElem?_eq_getElem h2, Option.getD_some]

/-- **C02.** Data of any nature (for a time series, of at least `R+1` steps): after any history, position
`i` gives an input and the expected output of the same example of the constructor's arguments. -/
theorem C02_pairing (p : Problem) (inputs labels testI testL : List (List F)) (nat : Nature) (rec : Int) (d : Data F)
    (h : Data.make2 p inputs labels testI testL nat rec = .ok d)
    (hlen : inputs.length = labels.length)
    (hts : nat = .timeSeries → rec.toNat + 1 ≤ inputs.length) (ops : List OrderOp) :
    ∃ d', d.orderOps ops = .ok d' ∧ ∀ i < inputs.length, ∃ k, ∃ (h1 : k < inputs.length) (h2 : k < labels.length),
      d'.readInput i = .ok inputs[k] ∧ d'.readOutput i = .ok labels[k] := by
  obtain ⟨hI, ei, el, _, _, es, _, et, _, er, _, _, eo, _⟩ := make2_inv p inputs labels testI testL _ rec d h
  obtain ⟨d', h', hI', hF, hL⟩ := orderOps_ok ops d hI (by
    intro hh; rw [er, es, ← hlen]; exact hts (et ▸ hh))
  refine ⟨d', h', ?_⟩
  intro i hi
  have e1 : d'.training.inputs = inputs := hF.inputs.trans ei
  have e2 : d'.training.labels = labels := hF.labels.trans el
  have e3 : d'.training.size = inputs.length := by rw [hF.size, es, hlen]
  have hi' : i < d'.training.shuffledIndexes.length := by rw [hI'.len, e3]; exact hi
  have hk := hI'.bound _ (List.getElem_mem hi')
  rw [e3] at hk
  refine ⟨d'.training.shuffledIndexes[i], hk, by omega, ?_, ?_⟩
  · rw [readInput_ok d' i hi' (by rw [e1]; exact hk)]; simp only [e1]
  · rw [readOutput_ok d' i hi' (by rw [e2]; omega)]; simp only [e2]

end

/-- Non-vacuity of C01 and C02: three examples of two components and two labels, classification. -/
example : ∃ d : Data ℚ, Data.make2 .classification [[1, 2], [3, 4], [5, 6]] [[1, 0], [0, 1], [1, 0]] [] [] .nonTemporal 0 = .ok d ∧
    ∃ d', d.orderOps [.shuffle fun i => i * i, .unshuffle, .shuffle fun _ => 0] = .ok d' ∧
      d'.readInputs 3 = .ok [[5, 6], [1, 2], [3, 4]] := by
  refine ⟨Res.get _ (by decide +kernel), Res.eq_get _ _, Res.get _ (by decide +kernel), Res.eq_get _ _, by decide +kernel⟩

/-! ### C03 -/
section
variable {F : Type} [Field F] [LinearOrder F] [CharZero F]

/-- **C03.** After any history, with any content of the two batch buffers, a batch of size `b ≥ 1` at position `i` is the
mean of the examples read one by one at positions `i, …, i+b-1`. Exact arithmetic. -/
theorem C03_batch_mean (p : Problem) (inputs labels testI testL : List (List F)) (nat : Nature) (rec : Int) (d : Data F)
    (h : Data.make2 p inputs labels testI testL nat rec = .ok d)
    (hlen : inputs.length = labels.length)
    (hts : nat = .timeSeries → rec.toNat + 1 ≤ inputs.length) (ops : List OrderOp)
    (w v : Nat) (hw : ∀ x ∈ inputs, x.length = w) (hv : ∀ x ∈ labels, x.length = v) (buf buf2 : List F)
    (i b : Nat) (hb : 1 ≤ b) (hib : i + b ≤ inputs.length) :
    ∃ d', d.orderOps ops = .ok d' ∧ ∃ xs ys,
      (List.range b).mapM (fun t => d'.readInput (i + t)) = .ok xs ∧
      (List.range b).mapM (fun t => d'.readOutput (i + t)) = .ok ys ∧ xs.length = b ∧ ys.length = b ∧
      (·.1) <$> ({ d' with batchedData := buf }).getTrainingData i b = .ok (meanRows w xs) ∧
      (·.1) <$> ({ d' with batchedLabels := buf2 }).getTrainingOutputs i b = .ok (meanRows v ys) := by
  obtain ⟨hI, ei, el, _, _, es, _, et, _, er, hne, hne2, eo, _⟩ := make2_inv p inputs labels testI testL _ rec d h
  obtain ⟨d', h', hI', hF, hL⟩ := orderOps_ok ops d hI (by
    intro hh; rw [er, es, ← hlen]; exact hts (et ▸ hh))
  have e1 : d'.training.inputs = inputs := hF.inputs.trans ei
  have e2 : d'.training.labels = labels := hF.labels.trans el
  have e3 : d'.training.size = inputs.length := by rw [hF.size, es, hlen]
  have hsz : d.sizeOfData = w ∧ d.numberOfLabels = v := by
    unfold Data.make2 Data.initialize at h
    obtain ⟨li, hli, h⟩ := Res.bind_eq_ok.1 h
    obtain ⟨ll, hll, h⟩ := Res.bind_eq_ok.1 h
    obtain ⟨d2, hd2, h⟩ := Res.bind_eq_ok.1 h
    obtain ⟨err, herr, h⟩ := Res.bind_eq_ok.1 h
    split at h
    · exact absurd h (by simp)
    simp only [Res.pure_eq, Res.ok.injEq] at h
    subst h
    have h1 : li.length = w := by
      apply hw
      unfold backOf at hli
      cases hx : inputs.getLast? with
      | none => rw [hx] at hli; simp at hli
      | some x => rw [hx] at hli; simp at hli; subst hli; exact List.mem_of_getLast? hx
    have h2 : ll.length = v := by
      apply hv
      unfold backOf at hll
      cases hx : labels.getLast? with
      | none => rw [hx] at hll; simp at hll
      | some x => rw [hx] at hll; simp at hll; subst hll; exact List.mem_of_getLast? hx
    unfold Data.makeTemporalComposite Data.blank at hd2
    cases nat with
    | nonTemporal => simp only [Res.ok.injEq] at hd2; subst hd2; exact ⟨h1, h2⟩
    | sequential => simp only [Res.ok.injEq] at hd2; subst hd2; exact ⟨h1, h2⟩
    | timeSeries =>
      simp only at hd2
      split at hd2
      · exact absurd hd2 (by simp)
      · obtain ⟨af, haf, hd2⟩ := Res.bind_eq_ok.1 hd2
        simp only [Res.ok.injEq] at hd2
        subst hd2
        exact ⟨h1, h2⟩
  have hlenO : d'.training.shuffledIndexes.length = inputs.length := by rw [hI'.len, e3]
  have hk : ∀ t, (ht : t < b) → (d'.training.shuffledIndexes.getD (i + t) 0) < inputs.length := by
    intro t ht
    have hit : i + t < d'.training.shuffledIndexes.length := by omega
    rw [List.getD_eq_getElem?_getD, List.getElem?_eq_getElem hit, Option.getD_some, ← e3]
    exact hI'.bound _ (List.getElem_mem hit)
  have hX : (List.range b).mapM (fun t => d'.readInput (i + t))
      = .ok ((List.range b).map fun t => inputs.getD (d'.training.shuffledIndexes.getD (i + t) 0) []) := by
    apply mapM_ok
    intro t ht
    have ht := List.mem_range.1 ht
    have hit : i + t < d'.training.shuffledIndexes.length := by omega
    have := hk t ht
    rw [List.getD_eq_getElem?_getD, List.getElem?_eq_getElem hit, Option.getD_some] at this
    rw [readInput_ok d' (i + t) hit (by rw [e1]; exact this)]
    simp only [e1, List.getD_eq_getElem?_getD, List.getElem?_eq_getElem hit, Option.getD_some, List.getElem?_eq_getElem this]
  have hY : (List.range b).mapM (fun t => d'.readOutput (i + t))
      = .ok ((List.range b).map fun t => labels.getD (d'.training.shuffledIndexes.getD (i + t) 0) []) := by
    apply mapM_ok
    intro t ht
    have ht := List.mem_range.1 ht
    have hit : i + t < d'.training.shuffledIndexes.length := by omega
    have := hk t ht
    rw [List.getD_eq_getElem?_getD, List.getElem?_eq_getElem hit, Option.getD_some] at this
    rw [readOutput_ok d' (i + t) hit (by rw [e2, ← hlen]; exact this)]
    simp only [e2, List.getD_eq_getElem?_getD, List.getElem?_eq_getElem hit, Option.getD_some, List.getElem?_eq_getElem (hlen ▸ this)]
  refine ⟨d', h', _, _, hX, hY, by simp, by simp, ?_, ?_⟩
  · have e4 : d'.sizeOfData = w := hF.sizeOfData.trans hsz.1
    have := getBatched_ok w d'.training.shuffledIndexes d'.training.inputs buf i b hb _ (by
      rw [← hX]; congr 1; funext t; rw [readInput_eq]) (by
      intro x hx
      obtain ⟨t, ht, rfl⟩ := List.mem_map.1 hx
      have := hk t (List.mem_range.1 ht)
      rw [List.getD_eq_getElem?_getD (l := inputs), List.getElem?_eq_getElem this]
      exact hw _ (List.getElem_mem this))
    unfold Data.getTrainingData
    simp only [e4]
    rw [← this]
    cases getBatched d'.training.shuffledIndexes d'.training.inputs w buf (i : Int) (b : Int) <;> rfl
  · have e4 : d'.numberOfLabels = v := hF.numberOfLabels.trans hsz.2
    have := getBatched_ok v d'.training.shuffledIndexes d'.training.labels buf2 i b hb _ (by
      rw [← hY]; congr 1; funext t; rw [readOutput_eq]) (by
      intro x hx
      obtain ⟨t, ht, rfl⟩ := List.mem_map.1 hx
      have := hk t (List.mem_range.1 ht)
      rw [List.getD_eq_getElem?_getD (l := labels), List.getElem?_eq_getElem (hlen ▸ this)]
      exact hv _ (List.getElem_mem (hlen ▸ this)))
    unfold Data.getTrainingOutputs
    simp only [e4]
    rw [← this]
    cases getBatched d'.training.shuffledIndexes d'.training.labels v buf2 (i : Int) (b : Int) <;> rfl

end

/-- Non-vacuity of C03: a batch of the last two of three examples, with a dirty buffer. -/
example : ∃ d : Data ℚ, Data.make2 .regression [[1, 2], [3, 4], [5, 6]] [[1], [0], [1]] [] [] .nonTemporal 0 = .ok d ∧
    (·.1) <$> ({ d with batchedData := [7, 7, 7] }).getTrainingData 1 2 = .ok [4, 5] := by
  refine ⟨Res.get _ (by decide +kernel), Res.eq_get _ _, by decide +kernel⟩

/-! ### C05 -/
section
variable {F : Type} [Add F] [Div F] [Flt F]

/-- **C05, shape of one shuffle.** Time series of `n ≥ R+1` steps, after any history ending with a shuffle.
There is a function `step` (the step of the series that each position shows) such that: every position
reads an existing step; a position that is trained on is at the end of a context `start..i` that begins with a
"first of a sequence" flag, contains no other such flag, shows consecutive steps, and is either `R+1` long or the beginning
of the series; and no step is trained on twice. -/
theorem C05_windows (p : Problem) (inputs labels testI testL : List (List F)) (rec : Int) (d : Data F)
    (h : Data.make2 p inputs labels testI testL .timeSeries rec = .ok d)
    (hlen : inputs.length = labels.length) (hn : rec.toNat + 1 ≤ inputs.length)
    (ops : List OrderOp) (r : Rng) :
    ∃ d' : Data F, d.orderOps (ops ++ [.shuffle r]) = .ok d' ∧ ∃ step : Nat → Nat,
      (∀ i < inputs.length, ∃ (h1 : step i < inputs.length) (h2 : step i < labels.length),
        d'.readInput i = .ok inputs[step i] ∧ d'.readOutput i = .ok labels[step i]) ∧
      (∀ i < inputs.length, d'.needToLearn i = .ok true → ∃ start ≤ i,
        d'.isFirstTraining start = .ok true ∧
        (∀ j, start < j → j ≤ i → d'.isFirstTraining j = .ok false) ∧
        (∀ j, start ≤ j → j ≤ i → step j = step start + (j - start)) ∧
        (i = start + rec.toNat ∨ (start = 0 ∧ step start = 0))) ∧
      (∀ i < inputs.length, ∀ j < inputs.length, d'.needToLearn i = .ok true → d'.needToLearn j = .ok true →
        step i = step j → i = j) := by
  obtain ⟨hI, ei, el, _, _, es, _, et, _, er, hne, hne2, eo, _⟩ := make2_inv p inputs labels testI testL _ rec d h
  obtain ⟨d1, h1, hI1, hF1, hL1⟩ := orderOps_ok ops d hI (by intro hh; rw [er, es, ← hlen]; exact hn)
  have et1 := hF1.temporal.trans et
  obtain ⟨d', W, h2, hI', hF', _, hP⟩ := shuffle_ts d1 r hI1 et1 (hL1 et1)
  have hrec : d1.numberOfRecurrences.toNat = rec.toNat := by rw [hF1.recur, er]
  have hsz : d1.training.size = inputs.length := by rw [hF1.size, es, hlen]
  obtain ⟨_, _, _, ho, _⟩ := hI1.ts et1
  rw [hrec] at hP ho
  rw [hsz] at hP
  generalize rec.toNat = R at *
  generalize hoo : d1.offset = o at *
  have et' : d'.typeOfTemporal = .timeSeries := hF'.temporal.trans et1
  have e1 : d'.training.inputs = inputs := (hF'.inputs.trans hF1.inputs).trans ei
  have e2 : d'.training.labels = labels := (hF'.labels.trans hF1.labels).trans el
  have e3 : d'.training.size = inputs.length := by rw [hF'.size, hsz]
  obtain ⟨_, lf, lt, _, _⟩ := hI'.ts et'
  have lo := hI'.len
  rw [e3] at lf lt lo
  obtain ⟨n, hn'⟩ : ∃ n, inputs.length = n := ⟨_, rfl⟩
  rw [hn'] at hlen hn hP hsz e3 lf lt lo
  have hWlen : W.length = (n - o) / (R + 1) := by rw [hP.perm.length_eq, List.length_range]
  have hcover : ∀ i < n, i < o ∨ W.length * (R + 1) + o ≤ i ∨
      ∃ s w j, W[s]? = some w ∧ j ≤ R ∧ i = s * (R + 1) + o + j := by
    intro i hi
    by_cases c1 : i < o
    · exact Or.inl c1
    by_cases c2 : W.length * (R + 1) + o ≤ i
    · exact Or.inr (Or.inl c2)
    have hs : (i - o) / (R + 1) < W.length := by rw [Nat.div_lt_iff_lt_mul (by omega)]; omega
    have hj : (i - o) % (R + 1) < R + 1 := Nat.mod_lt _ (by omega)
    have hdm := Nat.div_add_mod (i - o) (R + 1)
    rw [Nat.mul_comm] at hdm
    exact Or.inr (Or.inr ⟨_, _, _, List.getElem?_eq_getElem hs, (by omega : (i - o) % (R + 1) ≤ R), by omega⟩)
  have hlearn : ∀ i : Nat, d'.needToLearn i = .ok true ↔ d'.training.needToTrain[i]? = some true := by
    intro i
    unfold Data.needToLearn
    rw [et']
    simp only
    rw [rd_eq_ok]
    simp
  have hfirst : ∀ (i : Nat) b, d'.isFirstTraining i = .ok b ↔ d'.training.areFirst[i]? = some b := by
    intro i b
    unfold Data.isFirstTraining
    rw [et']
    simp only
    rw [rd_eq_ok]
    simp
  refine ⟨d', by rw [Data.orderOps, List.foldlM_append]; show (d.orderOps ops >>= _) = _; rw [h1]; simp only [Res.ok_bind, List.foldlM_cons, List.foldlM_nil]; show (d1.shuffle r >>= _) = _; rw [h2]; rfl,
    fun i => d'.training.shuffledIndexes.getD i 0, ?_, ?_, ?_⟩
  · intro i hi
    have hi' : i < d'.training.shuffledIndexes.length := by omega
    have hk := hI'.bound _ (List.getElem_mem hi')
    rw [e3] at hk
    simp only [List.getD_eq_getElem?_getD, List.getElem?_eq_getElem hi', Option.getD_some]
    refine ⟨by omega, by omega, ?_, ?_⟩
    · rw [readInput_ok d' i hi' (by rw [e1]; omega)]; simp only [e1]
    · rw [readOutput_ok d' i hi' (by rw [e2]; omega)]; simp only [e2]
  · intro i hi ht
    rw [hn'] at hi
    rw [hlearn] at ht
    rcases hcover i hi with c | c | ⟨s, w, j, hs, hj, rfl⟩
    · refine ⟨0, by omega, ?_, ?_, ?_, ?_⟩
      · rw [hfirst, (hP.pre 0 (by omega)).2.1]; simp
      · intro j h3 h4
        rw [hfirst, (hP.pre j (by omega)).2.1]
        have : j ≠ 0 := by omega
        simp [this]
      · intro j _ h4
        simp only
        rw [List.getD_eq_getElem?_getD, List.getD_eq_getElem?_getD, (hP.pre j (by omega)).1, (hP.pre 0 (by omega)).1]
        simp
      · right
        simp only
        rw [List.getD_eq_getElem?_getD, (hP.pre 0 (by omega)).1]
        simp
    · rw [hP.tail i c hi] at ht; simp at ht
    · obtain ⟨ha, hb, hc⟩ := hP.win s w hs j hj
      rw [hc] at ht
      simp only [Option.some.injEq, decide_eq_true_eq] at ht
      subst ht
      have h0 := hP.win s w hs 0 (by omega)
      refine ⟨s * (j + 1) + o, by omega, ?_, ?_, ?_, Or.inl rfl⟩
      · rw [hfirst]; have := h0.2.1; rw [Nat.add_zero] at this; rw [this]; simp
      · intro k h3 h4
        have := hP.win s w hs (k - (s * (j + 1) + o)) (by omega)
        rw [show s * (j + 1) + o + (k - (s * (j + 1) + o)) = k by omega] at this
        rw [hfirst, this.2.1]
        have : k - (s * (j + 1) + o) ≠ 0 := by omega
        simp [this]
      · intro k h3 h4
        have := (hP.win s w hs (k - (s * (j + 1) + o)) (by omega)).1
        rw [show s * (j + 1) + o + (k - (s * (j + 1) + o)) = k by omega] at this
        have g := h0.1
        rw [Nat.add_zero] at g
        simp only
        rw [List.getD_eq_getElem?_getD, List.getD_eq_getElem?_getD, this, g]
        simp
  · intro i hi k hk ht1 ht2 hst
    rw [hn'] at hi hk
    rw [hlearn] at ht1 ht2
    have hWnd : W.Nodup := hP.perm.nodup_iff.2 List.nodup_range
    rcases hcover i hi with c | c | ⟨s, w, j, hs, hj, rfl⟩
    · rcases hcover k hk with c' | c' | ⟨s', w', j', hs', hj', rfl⟩
      · simp only [List.getD_eq_getElem?_getD, (hP.pre i c).1, (hP.pre k c').1, Option.getD_some] at hst
        exact hst
      · rw [hP.tail k c' hk] at ht2; simp at ht2
      · simp only [List.getD_eq_getElem?_getD, (hP.pre i c).1, (hP.win s' w' hs' j' hj').1, Option.getD_some] at hst
        omega
    · rw [hP.tail i c hi] at ht1; simp at ht1
    · obtain ⟨ha, hb, hc⟩ := hP.win s w hs j hj
      rw [hc] at ht1
      simp only [Option.some.injEq, decide_eq_true_eq] at ht1
      subst ht1
      rcases hcover k hk with c' | c' | ⟨s', w', j', hs', hj', rfl⟩
      · simp only [List.getD_eq_getElem?_getD, (hP.pre k c').1, ha, Option.getD_some] at hst
        omega
      · rw [hP.tail k c' hk] at ht2; simp at ht2
      · obtain ⟨ha', hb', hc'⟩ := hP.win s' w' hs' j' hj'
        rw [hc'] at ht2
        simp only [Option.some.injEq, decide_eq_true_eq] at ht2
        subst ht2
        simp only [List.getD_eq_getElem?_getD, ha, ha', Option.getD_some] at hst
        have hww : w * (j' + 1) = w' * (j' + 1) := by omega
        have hw : w = w' := Nat.eq_of_mul_eq_mul_right (by omega) hww
        subst hw
        have hs1 : s < W.length := by
          by_contra hcon; rw [List.getElem?_eq_none (by omega)] at hs; simp at hs
        have hs2 := (List.getElem?_inj hs1 hWnd).1 (hs.trans hs'.symm)
        rw [hs2]

/-- `m + 1` more shuffles, with draws `rs 0, …, rs m`. -/
def shuffles (rs : Nat → Rng) (m : Nat) : List OrderOp := (List.range m).map fun k => .shuffle (rs k)

theorem shuffles_offset (rs : Nat → Rng) (d : Data F) (hI : DInv d) (hts : d.typeOfTemporal = .timeSeries)
    (hL : LongEnough d) : ∀ m, ∃ d', d.orderOps (shuffles rs m) = .ok d' ∧ DInv d' ∧ Frame d d' ∧ LongEnough d' ∧
      d'.offset = (d.offset + m) % (d.numberOfRecurrences.toNat + 1) := by
  intro m
  induction m with
  | zero =>
    refine ⟨d, rfl, hI, Frame.refl d, hL, ?_⟩
    rw [Nat.add_zero, Nat.mod_eq_of_lt (hI.ts hts).2.2.2.1]
  | succ m ih =>
    obtain ⟨d1, h1, i1, f1, l1, o1⟩ := ih
    have t1 := f1.temporal.trans hts
    obtain ⟨d2, W, h2, i2, f2, o2, _⟩ := shuffle_ts d1 (rs m) i1 t1 (l1 t1)
    refine ⟨d2, ?_, i2, f1.trans f2, ?_, ?_⟩
    · unfold shuffles at h1 ⊢
      rw [List.range_succ, List.map_append, Data.orderOps, List.foldlM_append]
      show (d.orderOps _ >>= _) = _
      rw [h1]
      simp only [Res.ok_bind, List.map_cons, List.map_nil, List.foldlM_cons, List.foldlM_nil]
      show (d1.shuffle (rs m) >>= _) = _
      rw [h2]; rfl
    · intro h; rw [f2.recur, f2.size]; exact l1 t1
    · rw [o2, o1, f1.recur, Nat.mod_add_mod]
      rfl

/-- **C05, coverage.** Over any `R+1` consecutive shuffles, after any history, every step of the series is trained on:
after one of them some position that must be trained on shows that step. -/
theorem C05_coverage (p : Problem) (inputs labels testI testL : List (List F)) (rec : Int) (d : Data F)
    (h : Data.make2 p inputs labels testI testL .timeSeries rec = .ok d)
    (hlen : inputs.length = labels.length) (hn : rec.toNat + 1 ≤ inputs.length)
    (ops : List OrderOp) (rs : Nat → Rng) (k : Nat) (hk : k < inputs.length) (hk2 : k < labels.length) :
    ∃ m ≤ rec.toNat, ∃ d', d.orderOps (ops ++ shuffles rs (m + 1)) = .ok d' ∧
      ∃ i < inputs.length, d'.needToLearn i = .ok true ∧ d'.readInput i = .ok inputs[k] ∧ d'.readOutput i = .ok labels[k] := by
  obtain ⟨hI, ei, el, _, _, es, _, et, _, er, hne, hne2, eo, _⟩ := make2_inv p inputs labels testI testL _ rec d h
  obtain ⟨d1, h1, hI1, hF1, hL1⟩ := orderOps_ok ops d hI (by intro hh; rw [er, es, ← hlen]; exact hn)
  have et1 := hF1.temporal.trans et
  have hrec : d1.numberOfRecurrences.toNat = rec.toNat := by rw [hF1.recur, er]
  have hsz : d1.training.size = inputs.length := by rw [hF1.size, es, hlen]
  have ho := (hI1.ts et1).2.2.2.1
  rw [hrec] at ho
  -- the shuffle whose offset makes `k` the end of a window
  obtain ⟨m, hm, hmo⟩ : ∃ m ≤ rec.toNat, (d1.offset + m) % (rec.toNat + 1) = (k + 1) % (rec.toNat + 1) := by
    generalize rec.toNat = R at *
    generalize d1.offset = o at *
    have ha : (k + 1) % (R + 1) < R + 1 := Nat.mod_lt _ (by omega)
    by_cases c : o ≤ (k + 1) % (R + 1)
    · exact ⟨(k + 1) % (R + 1) - o, by omega, by rw [show o + ((k + 1) % (R + 1) - o) = (k + 1) % (R + 1) by omega, Nat.mod_mod]⟩
    · refine ⟨(k + 1) % (R + 1) + (R + 1) - o, by omega, ?_⟩
      rw [show o + ((k + 1) % (R + 1) + (R + 1) - o) = (k + 1) % (R + 1) + (R + 1) by omega, Nat.add_mod_right, Nat.mod_mod]
  obtain ⟨d2, h2, hI2, hF2, hL2, ho2⟩ := shuffles_offset rs d1 hI1 et1 hL1 m
  have et2 := hF2.temporal.trans et1
  obtain ⟨d', W, h3, hI', hF', _, hP⟩ := shuffle_ts d2 (rs m) hI2 et2 (hL2 et2)
  have hall : d.orderOps (ops ++ shuffles rs (m + 1)) = .ok d' := by
    unfold shuffles at h2 ⊢
    rw [List.range_succ, List.map_append, Data.orderOps, List.foldlM_append]
    show (d.orderOps ops >>= _) = _
    rw [h1]
    simp only [Res.ok_bind, List.foldlM_append]
    show (d1.orderOps _ >>= _) = _
    rw [h2]
    simp only [Res.ok_bind, List.map_cons, List.map_nil, List.foldlM_cons, List.foldlM_nil]
    show (d2.shuffle (rs m) >>= _) = _
    rw [h3]; rfl
  refine ⟨m, hm, d', hall, ?_⟩
  rw [ho2, hrec, hmo, hF2.recur, hrec, hF2.size, hsz] at hP
  have et' : d'.typeOfTemporal = .timeSeries := hF'.temporal.trans et2
  have e1 : d'.training.inputs = inputs := (hF'.inputs.trans (hF2.inputs.trans hF1.inputs)).trans ei
  have e2 : d'.training.labels = labels := (hF'.labels.trans (hF2.labels.trans hF1.labels)).trans el
  have e3 : d'.training.size = inputs.length := by rw [hF'.size, hF2.size, hsz]
  have lo := hI'.len
  rw [e3] at lo
  generalize rec.toNat = R at *
  generalize hoo : (k + 1) % (R + 1) = o at *
  have holt : o < R + 1 := by rw [← hoo]; exact Nat.mod_lt _ (by omega)
  have hq := Nat.div_add_mod (k + 1) (R + 1)
  rw [hoo] at hq
  suffices H : ∃ i < inputs.length, d'.training.needToTrain[i]? = some true ∧ d'.training.shuffledIndexes[i]? = some k by
    obtain ⟨i, hi, ht, hx⟩ := H
    have hi' : i < d'.training.shuffledIndexes.length := by omega
    rw [List.getElem?_eq_getElem hi'] at hx
    simp only [Option.some.injEq] at hx
    refine ⟨i, hi, ?_, ?_, ?_⟩
    · unfold Data.needToLearn; rw [et']; simp only; rw [rd_eq_ok]; simpa using ht
    · rw [readInput_ok d' i hi' (by rw [hx, e1]; exact hk)]; simp only [e1, hx]
    · rw [readOutput_ok d' i hi' (by rw [hx, e2]; exact hk2)]; simp only [e2, hx]
  by_cases c : k < o
  · exact ⟨k, hk, (hP.pre k c).2.2, (hP.pre k c).1⟩
  · -- window number `q - 1`
    generalize hqq : (k + 1) / (R + 1) = q at *
    have hq1 : 1 ≤ q := by
      rcases Nat.eq_zero_or_pos q with h0 | h0
      · subst h0; rw [Nat.mul_zero] at hq; omega
      · exact h0
    obtain ⟨w, rfl⟩ : ∃ w, q = w + 1 := ⟨q - 1, by omega⟩
    have hexp : (R + 1) * (w + 1) = w * (R + 1) + (R + 1) := by ring
    have hw : w ∈ W := by
      rw [hP.perm.mem_iff, List.mem_range, Nat.lt_iff_add_one_le, Nat.le_div_iff_mul_le (by omega)]
      have : (w + 1) * (R + 1) = w * (R + 1) + (R + 1) := by ring
      omega
    obtain ⟨s, hs, hsw⟩ := List.getElem_of_mem hw
    have hsw' : W[s]? = some w := by rw [List.getElem?_eq_getElem hs, hsw]
    obtain ⟨ha, hb, hc⟩ := hP.win s w hsw' R (le_refl R)
    refine ⟨s * (R + 1) + o + R, ?_, by rw [hc]; simp, by rw [ha]; congr 1; omega⟩
    have hsl : (s + 1) * (R + 1) ≤ W.length * (R + 1) := Nat.mul_le_mul_right _ (by omega)
    have hWl : W.length = (inputs.length - o) / (R + 1) := by rw [hP.perm.length_eq, List.length_range]
    have hdl := Nat.div_mul_le_self (inputs.length - o) (R + 1)
    rw [← hWl] at hdl
    have hse : (s + 1) * (R + 1) = s * (R + 1) + (R + 1) := by ring
    omega

end

/-- Non-vacuity of C05: 7 steps, 2 recurrences. -/
example : ∃ d : Data ℚ, Data.make2 .regression [[0], [1], [2], [3], [4], [5], [6]] [[0], [1], [2], [3], [4], [5], [6]] [] []
      .timeSeries 2 = .ok d ∧ ∃ d', d.orderOps [.shuffle fun _ => 0, .shuffle fun _ => 1] = .ok d' ∧
      d'.readInputs 7 = .ok [[0], [4], [5], [6], [1], [2], [3]] ∧ d'.needToLearn 3 = .ok true := by
  refine ⟨Res.get _ (by decide +kernel), Res.eq_get _ _, Res.get _ (by decide +kernel), Res.eq_get _ _, by decide +kernel, by decide +kernel⟩

/-! ### C06 -/
section
variable {F : Type} [Add F] [Div F] [Flt F]

/-- What a reader of sequential data sees. -/
structure SeqView (d : Data F) (trainI testI : List (List (List F))) (trainL : List (List F)) : Prop where
  inputs : d.readInputs trainI.flatten.length = .ok trainI.flatten
  outputs : ∀ i (h : i < trainL.length), d.readOutput i = .ok trainL[i]
  first : ∀ i < trainI.flatten.length, d.isFirstTraining i = .ok true ↔ IsStart trainI i
  testInputs : ∀ i (h : i < testI.flatten.length), d.getTestingData i = .ok testI.flatten[i]
  testFirst : ∀ i < testI.flatten.length, d.isFirstTesting i = .ok true ↔ IsStart testI i
  evaluate : ∀ i < testI.flatten.length, d.needToEvaluate i = .ok true ↔ IsEnd testI i
  flags : ∀ i < trainI.flatten.length, ∃ b, d.isFirstTraining i = .ok b
  testFlags : ∀ i < testI.flatten.length, (∃ b, d.isFirstTesting i = .ok b) ∧ ∃ b, d.needToEvaluate i = .ok b

/-- **C06.** Sequential data made of non-empty sequences keep the inputs in the given order; the flags mark exactly the
starts (and, for testing, the ends) of the given sequences; and no history of `shuffle()`/`unshuffle()` changes what is seen: a
sequence is never split. -/
theorem C06_sequences (p : Problem) (trainI testI : List (List (List F))) (trainL testL : List (List F)) (rec : Int) (d : Data F)
    (h : Data.make2seq p trainI trainL testI testL .sequential rec = .ok d)
    (hne : ∀ s ∈ trainI, s ≠ []) (hne2 : ∀ s ∈ testI, s ≠ []) (ops : List OrderOp) :
    ∃ d', d.orderOps ops = .ok d' ∧ SeqView d' trainI testI trainL := by
  unfold Data.make2seq at h
  simp only [ne_eq, not_true_eq_false, if_false] at h
  obtain ⟨tr, htr, h⟩ := Res.bind_eq_ok.1 h
  obtain ⟨te, hte, h⟩ := Res.bind_eq_ok.1 h
  obtain ⟨a1, a2, _, a4⟩ := flatten_ok _ _ _ _ htr
  obtain ⟨b1, b2, b3, b4⟩ := flatten_ok _ _ _ _ hte
  obtain ⟨hI, ei, el, eti, etl, es, ets, et, _, er, _, _, eo, ev⟩ := initialize_inv _ _ _ _ _ _ h
  obtain ⟨s1, s2, s3⟩ := initialize_seq _ _ _ _ _ _ (by rfl) h
  simp only at s1 s2 s3
  have et : d.typeOfTemporal = .sequential := et
  have hsize : trainL.length = trainI.flatten.length := by
    unfold Data.temporalIsValid at ev
    rw [et] at ev
    simp only at ev
    split at ev
    · simp at ev
    · rename_i hc
      simp only [Bool.or_eq_true, decide_eq_true_eq, not_or, not_not] at hc
      rw [← es, ← hc.1.1.1.1.1, s1, a2]
  have hops : d.orderOps ops = .ok d := by
    induction ops with
    | nil => rfl
    | cons op ops ih =>
      have : d.orderOp op = .ok d := by
        cases op with
        | shuffle r => obtain ⟨d1, x, _, _, y⟩ := shuffle_seq d r hI et; rw [← y]; rw [y] at x ⊢; exact x
        | unshuffle =>
          simp only [Data.orderOp, Data.unshuffle, et]
          congr 1
          obtain ⟨_, y⟩ := hI.seq et
          cases d with | mk aa bb cc ee ff gg hh t =>
          cases t
          simp_all
      rw [Data.orderOps, List.foldlM_cons, this]
      exact ih
  refine ⟨d, hops, ?_⟩
  have hix : d.training.shuffledIndexes = List.range trainI.flatten.length := by rw [eo, hsize]
  rw [a1] at ei
  rw [b1] at eti
  obtain ⟨af, _⟩ := a4 hne
  obtain ⟨bf, be⟩ := b4 hne2
  constructor
  · rw [readInputs_eq d _ (by rw [hix]; simp) (by intro x hx; rw [hix, List.mem_range] at hx; rw [ei]; exact hx), hix, ei]
    congr 1
    apply List.ext_getElem
    · simp
    · intro i h1 h2; simp only [List.getElem_map, List.getElem_range, List.getD_eq_getElem?_getD, List.getElem?_eq_getElem h2, Option.getD_some]
  · intro i hi
    have hi' : i < d.training.shuffledIndexes.length := by rw [hix, List.length_range]; omega
    rw [readOutput_ok d i hi' (by simp [hix, el]; exact hi)]
    simp [hix, el]
  · intro i hi
    unfold Data.isFirstTraining
    rw [et]; simp only
    rw [rd_eq_ok, s1, ← af i hi]
    simp
  · intro i hi
    unfold Data.getTestingData
    rw [eti]; exact rd_nat _ i hi
  · intro i hi
    unfold Data.isFirstTesting
    rw [et]; simp only
    rw [rd_eq_ok, s2, ← bf i hi]
    simp
  · intro i hi
    unfold Data.needToEvaluate
    rw [et]; simp only
    rw [rd_eq_ok, s3, ← be rfl i hi]
    simp
  · intro i hi
    unfold Data.isFirstTraining
    rw [et]; simp only
    rw [s1]
    exact ⟨_, rd_nat _ i (by omega)⟩
  · intro i hi
    unfold Data.isFirstTesting Data.needToEvaluate
    rw [et]; simp only
    rw [s2, s3]
    exact ⟨⟨_, rd_nat _ i (by omega)⟩, ⟨_, rd_nat _ i (by have := b3 rfl; omega)⟩⟩

end

/-- Non-vacuity of C06, two training sequences of lengths 2 and 1, one testing sequence. -/
example : ∃ d : Data ℚ, Data.make2seq .regression [[[1], [2]], [[3]]] [[0], [1], [2]] [[[4], [5]]] [[0], [1]] .sequential 0 = .ok d ∧
    d.isFirstTraining 2 = .ok true ∧ d.isFirstTraining 1 = .ok false ∧ d.needToEvaluate 1 = .ok true := by
  refine ⟨Res.get _ (by decide +kernel), Res.eq_get _ _, by decide +kernel, by decide +kernel, by decide +kernel⟩

/-- **Finding (C06).** `shuffle()` on sequential data never changes anything: the sequences are always trained on in the same
order, because the constructor's loop `for (i = 0; i > size; ++i)` never records where sequences start. -/
theorem C06_shuffle_is_identity {F : Type} [Flt F] (p : Problem) (trainI testI : List (List (List F))) (trainL testL : List (List F)) (rec : Int)
    (d : Data F) (h : Data.make2seq p trainI trainL testI testL .sequential rec = .ok d) (r : Rng) : d.shuffle r = .ok d := by
  unfold Data.make2seq at h
  simp only [ne_eq, not_true_eq_false, if_false] at h
  obtain ⟨tr, htr, h⟩ := Res.bind_eq_ok.1 h
  obtain ⟨te, hte, h⟩ := Res.bind_eq_ok.1 h
  obtain ⟨hI, _, _, _, _, _, _, et, _⟩ := initialize_inv _ _ _ _ _ _ h
  obtain ⟨d1, x, _, _, y⟩ := shuffle_seq d r hI et
  rw [x, y]

/-! ### C07 -/
section
variable {F : Type} [Add F] [Div F] [Flt F]

/-- **C07, proved part, 2D constructor.** Accepted data can be read safely after any history, provided that there are as
many inputs as expected outputs (for non-temporal data and time series the constructor does not check it) and that a time
series has at least `R+1` steps. -/
theorem C07_safe_partial (p : Problem) (inputs labels testI testL : List (List F)) (nat : Nature) (rec : Int) (d : Data F)
    (h : Data.make2 p inputs labels testI testL nat rec = .ok d)
    (hlen : labels.length ≤ inputs.length) (hlen2 : testL.length ≤ testI.length)
    (hts : nat = .timeSeries → rec.toNat + 1 ≤ labels.length) (ops : List OrderOp) :
    ∃ d', d.orderOps ops = .ok d' ∧
      (∀ i < labels.length, (d'.readInput i).isOk = true ∧ (d'.readOutput i).isOk = true) ∧
      ∀ i < testL.length, (d'.getTestingData i).isOk = true ∧ (p ≠ .classification → (d'.getTestingOutputs i).isOk = true) ∧
        (d'.getTestingLabel i).isUb = false := by
  obtain ⟨hI, ei, el, eti, etl, es, _, et, ep, er, _, _, eo, _⟩ := make2_inv p inputs labels testI testL _ rec d h
  obtain ⟨d', h', hI', hF, hL⟩ := orderOps_ok ops d hI (by
    intro hh; rw [er, es]; exact hts (et ▸ hh))
  refine ⟨d', h', ?_, ?_⟩
  · intro i hi
    have e1 : d'.training.inputs = inputs := hF.inputs.trans ei
    have e2 : d'.training.labels = labels := hF.labels.trans el
    have e3 : d'.training.size = labels.length := by rw [hF.size, es]
    have hi' : i < d'.training.shuffledIndexes.length := by rw [hI'.len, e3]; exact hi
    have hk := hI'.bound _ (List.getElem_mem hi')
    rw [e3] at hk
    rw [readInput_ok d' i hi' (by rw [e1]; omega), readOutput_ok d' i hi' (by rw [e2]; omega)]
    exact ⟨rfl, rfl⟩
  · intro i hi
    have f1 : d'.testing.inputs = testI := by rw [hF.testing, eti]
    have f2 : d'.testing.labels = testL := by rw [hF.testing, etl]
    have f3 : d'.typeOfProblem = p := hF.problem.trans ep
    refine ⟨?_, ?_, ?_⟩
    · unfold Data.getTestingData; rw [f1, rd_nat _ i (by omega)]; rfl
    · intro hp
      unfold Data.getTestingOutputs
      rw [f3, f2, rd_nat _ i hi]
      cases p <;> first | rfl | exact absurd rfl hp
    · unfold Data.getTestingLabel
      rw [f3, f2, rd_nat _ i hi]
      cases p with
      | classification =>
        simp only [Res.ok_bind]
        cases firstOne testL[i] 0 <;> rfl
      | _ => rfl

/-- **C07, proved part, 3D constructor (full for sequential data).** When the constructor returns, every index below the
sizes can be read safely, after any history: here the constructor does check the sizes. -/
theorem C07_sequential (p : Problem) (trainI testI : List (List (List F))) (trainL testL : List (List F)) (rec : Int) (d : Data F)
    (h : Data.make2seq p trainI trainL testI testL .sequential rec = .ok d) (ops : List OrderOp) :
    ∃ d', d.orderOps ops = .ok d' ∧
      (∀ i < trainL.length, (d'.readInput i).isOk = true ∧ (d'.readOutput i).isOk = true) ∧
      ∀ i < testL.length, (d'.getTestingData i).isOk = true ∧ (p ≠ .classification → (d'.getTestingOutputs i).isOk = true) ∧
        (d'.getTestingLabel i).isUb = false := by
  unfold Data.make2seq at h
  simp only [ne_eq, not_true_eq_false, if_false] at h
  obtain ⟨tr, htr, h⟩ := Res.bind_eq_ok.1 h
  obtain ⟨te, hte, h⟩ := Res.bind_eq_ok.1 h
  obtain ⟨a1, a2, _, a4⟩ := flatten_ok _ _ _ _ htr
  obtain ⟨b1, b2, b3, b4⟩ := flatten_ok _ _ _ _ hte
  obtain ⟨hI, ei, el, eti, etl, es, ets, et, ep, er, _, _, eo, ev⟩ := initialize_inv _ _ _ _ _ _ h
  obtain ⟨s1, s2, s3⟩ := initialize_seq _ _ _ _ _ _ (by rfl) h
  simp only at s1 s2 s3
  have et : d.typeOfTemporal = .sequential := et
  have ep : d.typeOfProblem = p := ep
  have hsize : trainL.length = trainI.flatten.length ∧ testL.length = testI.flatten.length := by
    unfold Data.temporalIsValid at ev
    rw [et] at ev
    simp only at ev
    split at ev
    · simp at ev
    · rename_i hc
      simp only [Bool.or_eq_true, decide_eq_true_eq, not_or, not_not] at hc
      exact ⟨by rw [← es, ← hc.1.1.1.1.1, s1, a2], by rw [← ets, ← hc.1.1.1.1.2, s2, b2]⟩
  obtain ⟨d', h', hI', hF, hL⟩ := orderOps_ok ops d hI (by intro hh; rw [et] at hh; cases hh)
  refine ⟨d', h', ?_, ?_⟩
  · intro i hi
    have e1 : d'.training.inputs = trainI.flatten := (hF.inputs.trans ei).trans a1
    have e2 : d'.training.labels = trainL := hF.labels.trans el
    have e3 : d'.training.size = trainL.length := by rw [hF.size, es]
    have hi' : i < d'.training.shuffledIndexes.length := by rw [hI'.len, e3]; exact hi
    have hk := hI'.bound _ (List.getElem_mem hi')
    rw [e3] at hk
    rw [readInput_ok d' i hi' (by rw [e1]; omega), readOutput_ok d' i hi' (by rw [e2]; omega)]
    exact ⟨rfl, rfl⟩
  · intro i hi
    have f1 : d'.testing.inputs = testI.flatten := by rw [hF.testing, eti, b1]
    have f2 : d'.testing.labels = testL := by rw [hF.testing, etl]
    have f3 : d'.typeOfProblem = p := hF.problem.trans ep
    refine ⟨?_, ?_, ?_⟩
    · unfold Data.getTestingData; rw [f1, rd_nat _ i (by omega)]; rfl
    · intro hp
      unfold Data.getTestingOutputs
      rw [f3, f2, rd_nat _ i hi]
      cases p <;> first | rfl | exact absurd rfl hp
    · unfold Data.getTestingLabel
      rw [f3, f2, rd_nat _ i hi]
      cases p with
      | classification =>
        simp only [Res.ok_bind]
        cases firstOne testL[i] 0 <;> rfl
      | _ => rfl

end

/-- **C07, refutation of the full property (sizes).** One training input with two expected outputs is accepted, and reading
training input 1 (below the size 2) is out of bounds. -/
theorem C07_sizes_refuted : ∃ d : Data ℚ, Data.make2 .regression [[1]] [[1], [2]] [] [] .nonTemporal 0 = .ok d ∧
    d.training.size = 2 ∧ (d.readInput 1).isUb = true := by
  refine ⟨Res.get _ (by decide +kernel), Res.eq_get _ _, by decide +kernel, by decide +kernel⟩

/-- **C07, refutation of the full property (short time series).** A time series of 2 steps with 2 recurrences is accepted, and
`shuffle()` writes before the beginning of a vector whatever the random draws. -/
theorem C07_time_series_refuted : ∃ d : Data ℚ, Data.make2 .regression [[1], [2]] [[1], [2]] [] [] .timeSeries 2 = .ok d ∧
    ∀ r, (d.shuffle r).isUb = true := by
  refine ⟨Res.get _ (by decide +kernel), Res.eq_get _ _, ?_⟩
  intro r
  rfl

/-- **C07, refutation (empty sequence).** The constructor itself writes out of bounds when the last training sequence is empty. -/
theorem C07_empty_sequence_refuted :
    (Data.make2seq .regression [[[1]], []] [[1]] [[[1]]] [[1]] .sequential 0 : Res (Data ℚ)).isUb = true := by
  decide +kernel

/-! ### C08 -/
section
variable {F : Type} [Field F] [LinearOrder F] [IsStrictOrderedRing F]

/-- A component that takes two different values in the training inputs. -/
def Varies (rows : List (List F)) (j : Nat) : Prop := ∃ a ∈ rows, ∃ b ∈ rows, a.getD j 0 ≠ b.getD j 0

theorem colBounds_spec (rows : List (List F)) (j : Nat) (hne : rows ≠ []) :
    (∃ a ∈ rows, a.getD j 0 = (colBounds rows j).1) ∧ (∃ a ∈ rows, a.getD j 0 = (colBounds rows j).2) ∧
    ∀ a ∈ rows, (colBounds rows j).1 ≤ a.getD j 0 ∧ a.getD j 0 ≤ (colBounds rows j).2 := by
  unfold colBounds
  cases hc : col rows j with
  | nil => simp [col] at hc; exact absurd hc hne
  | cons x xs =>
    obtain ⟨a, b, c⟩ := columnBounds_spec x xs
    rw [← hc] at a b c
    simp only [col, List.mem_map] at a b c
    refine ⟨a, b, ?_⟩
    intro r hr
    exact c _ ⟨r, hr, rfl⟩

/-- **C08, proved part.** When every component takes at least two different values in the training inputs, `normalize(lo, hi)`
succeeds; there is one affine increasing map per component (strictly increasing if `lo < hi`), applied to both the training
and the testing inputs; every training value lands in `[lo, hi]`, both ends being reached; and normalising again changes nothing.
Exact arithmetic. Missing from the full property: constant components, see `C08_constant_refuted`. -/
theorem C08_normalize_partial (d : Data F) (w : Nat) (lo hi : F) (hlo : lo ≤ hi) (hne : d.training.inputs ≠ [])
    (hw : d.sizeOfData = w) (h1 : ∀ r ∈ d.training.inputs, r.length = w) (h2 : ∀ r ∈ d.testing.inputs, r.length = w)
    (hvar : ∀ j < w, Varies d.training.inputs j) :
    ∃ d', d.normalize lo hi = .ok d' ∧ d'.training.labels = d.training.labels ∧ d'.testing.labels = d.testing.labels ∧
      (∃ scale shift : Nat → F, (∀ j, j < w → 0 ≤ scale j ∧ (lo < hi → 0 < scale j)) ∧
        d'.training.inputs = d.training.inputs.map (fun r => r.mapIdx fun j x => scale j * x + shift j) ∧
        d'.testing.inputs = d.testing.inputs.map (fun r => r.mapIdx fun j x => scale j * x + shift j)) ∧
      (∀ r ∈ d'.training.inputs, ∀ x ∈ r, lo ≤ x ∧ x ≤ hi) ∧
      (∀ j < w, (∃ r ∈ d'.training.inputs, r.getD j 0 = lo) ∧ ∃ r ∈ d'.training.inputs, r.getD j 0 = hi) ∧
      (lo < hi → d'.normalize lo hi = .ok d') := by
  have key : ∀ j < w, (colBounds d.training.inputs j).1 < (colBounds d.training.inputs j).2 := by
    intro j hj
    obtain ⟨_, _, c⟩ := colBounds_spec d.training.inputs j hne
    obtain ⟨a, ha, b, hb, hab⟩ := hvar j hj
    have x := c a ha
    have y := c b hb
    by_contra hcon
    push Not at hcon
    exact hab (le_antisymm (by linarith) (by linarith))
  set mn := fun j => (colBounds d.training.inputs j).1 with hmn
  set mx := fun j => (colBounds d.training.inputs j).2 with hmx
  have hval : ∀ j < w, ∀ x, normVal d.training.inputs lo hi j x = (hi - lo) / (mx j - mn j) * x + (lo - (hi - lo) / (mx j - mn j) * mn j) := by
    intro j hj x
    have hk := key j hj
    have hd : mx j - mn j ≠ 0 := by have : mn j < mx j := hk; intro h0; linarith
    unfold normVal normalizeValue
    have hfeq : feq ((colBounds d.training.inputs j).2 - (colBounds d.training.inputs j).1) (lit 0 : F) = false := by
      rw [feq_false_iff]; simpa using hd
    simp only [hfeq, Bool.not_false, if_true]
    show (x - mn j) / (mx j - mn j) * (hi - lo) + lo = _
    field_simp
    ring
  have hrun := normalizeLoop_ok lo hi w w 0 d.training.inputs d.testing.inputs (by omega) hne h1 h2
  rw [Nat.zero_add] at hrun
  have hmap : ∀ rows : List (List F), (∀ r ∈ rows, r.length = w) → rows.map (mapRange (normVal d.training.inputs lo hi) 0 w) =
      rows.map (fun r => r.mapIdx fun j x => (hi - lo) / (mx j - mn j) * x + (lo - (hi - lo) / (mx j - mn j) * mn j)) := by
    intro rows hrows
    apply List.map_congr_left
    intro r hr
    unfold mapRange
    apply List.ext_getElem?
    intro i
    simp only [List.getElem?_mapIdx]
    by_cases hi' : i < r.length
    · rw [List.getElem?_eq_getElem hi']
      simp only [Option.map_some]
      rw [if_pos ⟨by omega, by rw [← hrows r hr]; exact hi'⟩, hval i (by rw [← hrows r hr]; exact hi')]
    · rw [List.getElem?_eq_none (by omega)]; rfl
  rw [hmap _ h1, hmap _ h2] at hrun
  have hgetD : ∀ r ∈ d.training.inputs, ∀ j < w, (r.mapIdx fun j x => (hi - lo) / (mx j - mn j) * x + (lo - (hi - lo) / (mx j - mn j) * mn j)).getD j 0
      = (hi - lo) / (mx j - mn j) * (r.getD j 0) + (lo - (hi - lo) / (mx j - mn j) * mn j) := by
    intro r hr j hj
    have : j < r.length := by rw [h1 r hr]; exact hj
    simp [List.getD_eq_getElem?_getD, List.getElem?_mapIdx, List.getElem?_eq_getElem this]
  have hin : ∀ r ∈ d.training.inputs, ∀ j < w, lo ≤ (hi - lo) / (mx j - mn j) * (r.getD j 0) + (lo - (hi - lo) / (mx j - mn j) * mn j) ∧
      (hi - lo) / (mx j - mn j) * (r.getD j 0) + (lo - (hi - lo) / (mx j - mn j) * mn j) ≤ hi := by
    intro r hr j hj
    obtain ⟨_, _, c⟩ := colBounds_spec d.training.inputs j hne
    obtain ⟨c1, c2⟩ := c r hr
    have hpos : 0 < mx j - mn j := by have := key j hj; simp only [hmx, hmn]; linarith
    have hs : 0 ≤ (hi - lo) / (mx j - mn j) := div_nonneg (by linarith) hpos.le
    have hfull : (hi - lo) / (mx j - mn j) * (mx j - mn j) = hi - lo := div_mul_cancel₀ _ hpos.ne'
    have ha : 0 ≤ (hi - lo) / (mx j - mn j) * (r.getD j 0 - mn j) := mul_nonneg hs (by simp only [hmn]; linarith)
    have hb : (hi - lo) / (mx j - mn j) * (r.getD j 0 - mn j) ≤ hi - lo := by
      refine le_trans (mul_le_mul_of_nonneg_left (?_ : r.getD j 0 - mn j ≤ mx j - mn j) hs) hfull.le; simp only [hmx]; linarith
    have he : (hi - lo) / (mx j - mn j) * (r.getD j 0) + (lo - (hi - lo) / (mx j - mn j) * mn j)
        = lo + (hi - lo) / (mx j - mn j) * (r.getD j 0 - mn j) := by ring
    rw [he]
    constructor <;> linarith
  have hends : ∀ j < w, (∃ r ∈ d.training.inputs, (hi - lo) / (mx j - mn j) * (r.getD j 0) + (lo - (hi - lo) / (mx j - mn j) * mn j) = lo) ∧
      ∃ r ∈ d.training.inputs, (hi - lo) / (mx j - mn j) * (r.getD j 0) + (lo - (hi - lo) / (mx j - mn j) * mn j) = hi := by
    intro j hj
    obtain ⟨⟨a, ha, ha'⟩, ⟨b, hb, hb'⟩, c⟩ := colBounds_spec d.training.inputs j hne
    have hpos : 0 < mx j - mn j := by have := key j hj; simp only [hmx, hmn]; linarith
    have hfull : (hi - lo) / (mx j - mn j) * (mx j - mn j) = hi - lo := div_mul_cancel₀ _ hpos.ne'
    refine ⟨⟨a, ha, ?_⟩, ⟨b, hb, ?_⟩⟩
    · rw [ha']; simp only [hmn]; ring
    · rw [hb']
      have e : (hi - lo) / (mx j - mn j) * mx j + (lo - (hi - lo) / (mx j - mn j) * mn j)
        = lo + (hi - lo) / (mx j - mn j) * (mx j - mn j) := by ring
      show (hi - lo) / (mx j - mn j) * mx j + (lo - (hi - lo) / (mx j - mn j) * mn j) = hi
      rw [e, hfull]; ring
  set tr' := d.training.inputs.map (fun r => r.mapIdx fun j x => (hi - lo) / (mx j - mn j) * x + (lo - (hi - lo) / (mx j - mn j) * mn j)) with htr'
  set te' := d.testing.inputs.map (fun r => r.mapIdx fun j x => (hi - lo) / (mx j - mn j) * x + (lo - (hi - lo) / (mx j - mn j) * mn j)) with hte'
  have hIn' : ∀ r ∈ tr', ∀ j < w, lo ≤ r.getD j 0 ∧ r.getD j 0 ≤ hi := by
    intro r hr j hj
    obtain ⟨r0, hr0, rfl⟩ := List.mem_map.1 hr
    rw [hgetD r0 hr0 j hj]
    exact hin r0 hr0 j hj
  have hlen' : ∀ r ∈ tr', r.length = w := by
    intro r hr; obtain ⟨r0, hr0, rfl⟩ := List.mem_map.1 hr; simp [h1 r0 hr0]
  have hlent' : ∀ r ∈ te', r.length = w := by
    intro r hr; obtain ⟨r0, hr0, rfl⟩ := List.mem_map.1 hr; simp [h2 r0 hr0]
  have hEnds' : ∀ j < w, (∃ r ∈ tr', r.getD j 0 = lo) ∧ ∃ r ∈ tr', r.getD j 0 = hi := by
    intro j hj
    obtain ⟨⟨a, ha, ha'⟩, ⟨b, hb, hb'⟩⟩ := hends j hj
    exact ⟨⟨_, List.mem_map.2 ⟨a, ha, rfl⟩, by rw [hgetD a ha j hj, ha']⟩, ⟨_, List.mem_map.2 ⟨b, hb, rfl⟩, by rw [hgetD b hb j hj, hb']⟩⟩
  refine ⟨{ d with training := { d.training with inputs := tr' }, testing := { d.testing with inputs := te' } },
    by unfold Data.normalize; rw [hw, hrun]; simp only [Res.ok_bind, Res.pure_eq], rfl, rfl, ⟨_, _, ?_, rfl, rfl⟩, ?_, hEnds', ?_⟩
  · intro j hj
    have hpos : 0 < mx j - mn j := by have := key j hj; simp only [hmx, hmn]; linarith
    exact ⟨div_nonneg (by linarith) hpos.le, fun hlt => div_pos (by linarith) hpos⟩
  · intro r hr x hx
    obtain ⟨j, hj, rfl⟩ := List.getElem_of_mem hx
    have := hIn' r hr j (by rw [← hlen' r hr]; exact hj)
    simpa [List.getD_eq_getElem?_getD, List.getElem?_eq_getElem hj] using this
  · intro hlt
    unfold Data.normalize
    simp only [hw]
    have hne' : tr' ≠ [] := by simpa [htr'] using hne
    rw [normalizeLoop_ok lo hi w w 0 tr' te' (by omega) hne' hlen' hlent']
    simp only [Res.ok_bind, Res.pure_eq, Nat.zero_add]
    have hb : ∀ j < w, (colBounds tr' j).1 = lo ∧ (colBounds tr' j).2 = hi := by
      intro j hj
      obtain ⟨⟨a, ha, ha'⟩, ⟨b, hb, hb'⟩, c⟩ := colBounds_spec tr' j hne'
      obtain ⟨⟨u, hu, hu'⟩, ⟨v, hv, hv'⟩⟩ := hEnds' j hj
      constructor
      · have := (c u hu).1; rw [hu'] at this; have g := (hIn' a ha j hj).1; rw [ha'] at g; exact le_antisymm this g
      · have := (c v hv).2; rw [hv'] at this; have g := (hIn' b hb j hj).2; rw [hb'] at g; exact le_antisymm g this
    have hidv : ∀ j < w, ∀ x, normVal tr' lo hi j x = x := by
      intro j hj x
      obtain ⟨g1, g2⟩ := hb j hj
      have hd : hi - lo ≠ 0 := by intro h0; linarith
      unfold normVal normalizeValue
      rw [g1, g2]
      have hfeq : feq (hi - lo) (lit 0 : F) = false := by rw [feq_false_iff]; simpa using hd
      simp only [hfeq, Bool.not_false, if_true]
      field_simp
      ring
    have hid : ∀ rows : List (List F), (∀ r ∈ rows, r.length = w) → rows.map (mapRange (normVal tr' lo hi) 0 w) = rows := by
      intro rows hrows
      conv_rhs => rw [← List.map_id rows]
      apply List.map_congr_left
      intro r hr
      unfold mapRange
      apply List.ext_getElem?
      intro i
      simp only [List.getElem?_mapIdx, id]
      by_cases hi' : i < r.length
      · rw [List.getElem?_eq_getElem hi']
        simp only [Option.map_some]
        rw [if_pos ⟨by omega, by rw [← hrows r hr]; exact hi'⟩, hidv i (by rw [← hrows r hr]; exact hi')]
      · rw [List.getElem?_eq_none (by omega)]; rfl
    rw [hid tr' hlen', hid te' hlent']

end

/-- Non-vacuity of C08. -/
example : ∃ d : Data ℚ, Data.make2 .regression [[1, 2], [3, 10], [5, 6]] [[1], [0], [1]] [[7, 0]] [[1]] .nonTemporal 0 = .ok d ∧
    (∀ j < 2, Varies d.training.inputs j) ∧
    ∃ d', d.normalize (-1) 1 = .ok d' ∧ d'.training.inputs = [[-1, -1], [0, 1], [1, 0]] ∧ d'.testing.inputs = [[2, -3/2]] := by
  refine ⟨Res.get _ (by decide +kernel), Res.eq_get _ _, ?_, Res.get _ (by decide +kernel), Res.eq_get _ _, by decide +kernel, by decide +kernel⟩
  intro j hj
  refine ⟨[1, 2], by decide +kernel, [3, 10], by decide +kernel, ?_⟩
  match j, hj with
  | 0, _ => decide +kernel
  | 1, _ => decide +kernel

/-- **C08, refutation of the full property.** A constant component is not divided by its (zero) range but still scaled:
`normalize(0, 10)` maps the constant 5 to 50, outside of `[0, 10]`. -/
theorem C08_constant_refuted : ∃ d d' : Data ℚ,
    Data.make2 .regression [[5], [5]] [[1], [0]] [] [] .nonTemporal 0 = .ok d ∧
    d.normalize 0 10 = .ok d' ∧ d'.training.inputs = [[50], [50]] := by
  refine ⟨Res.get _ (by decide +kernel), Res.get _ (by decide +kernel), Res.eq_get _ _, Res.eq_get _ _, by decide +kernel⟩

/-! ### C09, C10 -/
section
variable {F : Type} [Flt F]

theorem firstOne_spec (l : List F) : ∀ i, match firstOne l i with
    | some k => i ≤ k ∧ (∃ x, l[k - i]? = some x ∧ feq x (lit 1) = true) ∧ ∀ j, j < k - i → ∀ x, l[j]? = some x → feq x (lit 1) = false
    | none => ∀ x ∈ l, feq x (lit 1) = false := by
  induction l with
  | nil => intro i; simp [firstOne]
  | cons x xs ih =>
    intro i
    unfold firstOne
    by_cases hx : feq x (lit 1 : F) = true
    · simp only [hx, if_true]
      refine ⟨le_refl i, ⟨x, by simp, hx⟩, ?_⟩
      intro j hj; omega
    · simp only [hx, if_false, Bool.false_eq_true]
      have := ih (i + 1)
      cases hf : firstOne xs (i + 1) with
      | none =>
        rw [hf] at this
        simp only at this ⊢
        intro y hy
        rcases List.mem_cons.1 hy with rfl | hy
        · simpa using hx
        · exact this y hy
      | some k =>
        rw [hf] at this
        simp only at this ⊢
        obtain ⟨a, ⟨y, hy, hy'⟩, c⟩ := this
        refine ⟨by omega, ⟨y, ?_, hy'⟩, ?_⟩
        · rw [show k - i = (k - (i + 1)) + 1 by omega, List.getElem?_cons_succ]; exact hy
        · intro j hj z hz
          cases j with
          | zero => simp at hz; subst hz; simpa using hx
          | succ j => rw [List.getElem?_cons_succ] at hz; exact c j (by omega) z hz

/-- **C09.** For classification data, `getTestingLabel(i)` returns `k` exactly when component `k` of the expected output is the
first one equal to 1, and throws exactly when no component equals 1. For every float type. -/
theorem C09_label (d : Data F) (hp : d.typeOfProblem = .classification) (i : Nat) (l : List F)
    (hl : d.testing.labels[i]? = some l) :
    (∀ k, d.getTestingLabel i = .ok k ↔ (∃ x, l[k]? = some x ∧ feq x (lit 1) = true) ∧
      ∀ j < k, ∀ x, l[j]? = some x → feq x (lit 1) = false) ∧
    ((d.getTestingLabel i).isThrow = true ↔ ∀ x ∈ l, feq x (lit 1) = false) ∧
    (d.getTestingLabel i).isUb = false := by
  have hrd : rd d.testing.labels (i : Int) = .ok l := by rw [rd_eq_ok]; simpa using hl
  unfold Data.getTestingLabel
  rw [hp, hrd]
  simp only [Res.ok_bind]
  have := firstOne_spec l 0
  cases hf : firstOne l 0 with
  | none =>
    rw [hf] at this
    simp only at this ⊢
    refine ⟨?_, ⟨fun _ => this, fun _ => rfl⟩, rfl⟩
    intro k
    constructor
    · intro h; cases h
    · rintro ⟨⟨x, hx, hx'⟩, _⟩
      rw [this x (List.mem_of_getElem? hx)] at hx'
      cases hx'
  | some k0 =>
    rw [hf] at this
    simp only [Nat.sub_zero] at this ⊢
    obtain ⟨_, ⟨y, hy, hy'⟩, c⟩ := this
    refine ⟨?_, ⟨fun h => (by cases h), fun h => ?_⟩, rfl⟩
    · intro k
      simp only [Res.pure_eq, Res.ok.injEq]
      constructor
      · rintro rfl; exact ⟨⟨y, hy, hy'⟩, c⟩
      · rintro ⟨⟨x, hx, hx'⟩, c'⟩
        rcases Nat.lt_trichotomy k k0 with g | g | g
        · rw [c k g x hx] at hx'; cases hx'
        · exact g.symm
        · rw [c' k0 g y hy] at hy'; cases hy'
    · rw [h y (List.mem_of_getElem? hy)] at hy'; cases hy'

/-- **C10.** Precision exists exactly for regression, separator exactly for the two kinds of classification. A rejected call
throws (and returns no modified object); an accepted one changes only that threshold, and reading it gives the value set. -/
theorem C10_thresholds (d : Data F) (v : F) :
    ((d.setPrecision v).isOk = true ↔ d.typeOfProblem = .regression) ∧
    (d.getPrecision.isOk = true ↔ d.typeOfProblem = .regression) ∧
    ((d.setSeparator v).isOk = true ↔ d.typeOfProblem = .classification ∨ d.typeOfProblem = .multipleClassification) ∧
    (d.getSeparator.isOk = true ↔ d.typeOfProblem = .classification ∨ d.typeOfProblem = .multipleClassification) ∧
    (d.setPrecision v).isUb = false ∧ (d.setSeparator v).isUb = false ∧ d.getPrecision.isUb = false ∧ d.getSeparator.isUb = false ∧
    (∀ d', d.setPrecision v = .ok d' → d'.getPrecision = .ok v ∧ { d' with precision := d.precision } = d) ∧
    (∀ d', d.setSeparator v = .ok d' → d'.getSeparator = .ok v ∧ { d' with separator := d.separator } = d) := by
  unfold Data.setPrecision Data.getPrecision Data.setSeparator Data.getSeparator
  cases h : d.typeOfProblem <;> simp [Res.isOk, Res.isUb, h] <;> cases d <;> simp_all

end

/-- Non-vacuity of C09 and C10. -/
example : ∃ d : Data ℚ, Data.make2 .classification [[1, 2], [3, 4]] [[1, 0], [0, 1]] [[1, 2]] [[0, 1, 1]] .nonTemporal 0 = .ok d ∧
    d.getTestingLabel 0 = .ok 1 ∧ (d.setSeparator (3/10)).isOk = true ∧ (d.setPrecision (3/10)).isThrow = true := by
  refine ⟨Res.get _ (by decide +kernel), Res.eq_get _ _, by decide +kernel, by decide +kernel, by decide +kernel⟩

end Snn
