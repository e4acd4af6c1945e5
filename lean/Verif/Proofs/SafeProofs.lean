import Verif.Spec.SafeSpec
import Verif.Proofs.NetRun
import Verif.Proofs.TrainProofs
import Verif.Proofs.DataBatchProofs
import Verif.Proofs.DataReadProofs

/-! Nothing goes wrong in training and evaluating a well formed network on data that fit it. -/

set_option linter.all false

namespace Snn

open Snn.Spec Snn.TrainProofs

section
variable {F : Type} [Flt F] [FTrans F] [Add F] [Sub F] [Mul F] [Div F] [Neg F]

/-- What the training loop needs of the data. -/
structure SafeData (ni no : Nat) (d : Data F) : Prop where
  inv : DInv d
  long : LongEnough d
  train : Examples ni no d.training.inputs d.training.labels
  trainSize : d.training.size = d.training.labels.length
  test : Examples ni no d.testing.inputs d.testing.labels
  testSize : d.testing.size = d.testing.labels.length
  sizeOfData : d.sizeOfData = ni
  numberOfLabels : d.numberOfLabels = no
  seq : d.typeOfTemporal = .sequential → d.training.areFirst.length = d.training.size ∧ d.testing.areFirst.length = d.testing.size ∧
    d.testing.needToEvaluate.length = d.testing.size
  classes : HasClasses d.typeOfProblem d.testing.labels

theorem SafeData.of_frame {ni no : Nat} {d d' : Data F} (h : SafeData ni no d) (hI : DInv d') (hf : Frame d d')
    (ha : d.typeOfTemporal = .sequential → d'.training.areFirst = d.training.areFirst) : SafeData ni no d' := by
  refine ⟨hI, ?_, ?_, ?_, ?_, ?_, ?_, ?_, ?_, ?_⟩
  · intro ht; rw [hf.recur, hf.size]; exact h.long (hf.temporal ▸ ht)
  · rw [hf.inputs, hf.labels]; exact h.train
  · rw [hf.size, hf.labels]; exact h.trainSize
  · rw [hf.testing]; exact h.test
  · rw [hf.testing]; exact h.testSize
  · rw [hf.sizeOfData]; exact h.sizeOfData
  · rw [hf.numberOfLabels]; exact h.numberOfLabels
  · intro ht
    have ht' : d.typeOfTemporal = .sequential := hf.temporal ▸ ht
    rw [ha ht', hf.size, hf.testing]; exact h.seq ht'
  · rw [hf.problem, hf.testing]; exact h.classes

theorem SafeData.buffers {ni no : Nat} {d d' : Data F} (h : SafeData ni no d) (hb : SameButBuffers d d') : SafeData ni no d' := by
  obtain ⟨b1, b2, rfl⟩ := hb
  refine h.of_frame ⟨h.inv.len, h.inv.bound, h.inv.nonTemporal, h.inv.seq, h.inv.ts⟩ (by constructor <;> rfl) (fun _ => rfl)

theorem shuffle_safe {ni no : Nat} {d : Data F} (h : SafeData ni no d) (r : Rng) :
    ∃ d', d.shuffle r = .ok d' ∧ SafeData ni no d' ∧ Frame d d' := by
  have step : ∃ d1, d.shuffle r = .ok d1 ∧ DInv d1 ∧ Frame d d1 := by
    cases ht : d.typeOfTemporal with
    | nonTemporal => exact shuffle_nonTemporal d r h.inv ht
    | sequential => obtain ⟨d1, a, b, c, _⟩ := shuffle_seq d r h.inv ht; exact ⟨d1, a, b, c⟩
    | timeSeries => obtain ⟨d1, W, a, b, c, _⟩ := shuffle_ts d r h.inv ht (h.long ht); exact ⟨d1, a, b, c⟩
  obtain ⟨d1, h1, h2, h3⟩ := step
  refine ⟨d1, h1, h.of_frame h2 h3 ?_, h3⟩
  intro ht
  unfold Data.shuffle at h1
  rw [ht] at h1
  simp only at h1
  obtain ⟨_, _, h1⟩ := Res.bind_eq_ok.1 h1
  cases h1; rfl

theorem unshuffle_safe {ni no : Nat} {d d' : Data F} (h : SafeData ni no d) (hu : d.unshuffle = .ok d') : SafeData ni no d' := by
  obtain ⟨d1, a, b, c, _⟩ := unshuffle_ok d h.inv (fun ht => by have := h.long ht; omega)
  rw [hu] at a
  cases a
  refine h.of_frame b c ?_
  intro ht
  unfold Data.unshuffle at hu
  rw [ht] at hu
  cases hu; rfl

theorem modify_len (rows : List (List F)) (j : Nat) (f : F → F) {w : Nat} (h : Rows w rows) : Rows w (rows.map fun r => r.modify j f) := by
  intro r hr
  obtain ⟨a, ha, rfl⟩ := List.mem_map.1 hr
  simp [h a ha]

theorem normalizeLoop_len {lo hi : F} {w : Nat} : ∀ {k j : Nat} {tr te tr' te' : List (List F)}, Rows w tr → Rows w te →
    normalizeLoop lo hi k j tr te = .ok (tr', te') → Rows w tr' ∧ Rows w te' ∧ tr'.length = tr.length ∧ te'.length = te.length
  | 0, _, _, _, _, _, h1, h2, h => by cases h; exact ⟨h1, h2, rfl, rfl⟩
  | k + 1, j, tr, te, tr', te', h1, h2, h => by
    unfold normalizeLoop at h
    obtain ⟨⟨a, b⟩, h3, h⟩ := Res.bind_eq_ok.1 h
    unfold normalizeColumn at h3
    obtain ⟨col, _, h3⟩ := Res.bind_eq_ok.1 h3
    obtain ⟨_, _, h3⟩ := Res.bind_eq_ok.1 h3
    split at h3
    · cases h3
    · cases h3
      obtain ⟨x, y, z, t⟩ := normalizeLoop_len (modify_len tr j _ h1) (modify_len te j _ h2) h
      exact ⟨x, y, by simpa using z, by simpa using t⟩

theorem initialize_sizes {d d' : Data F} {ti tl si sl : List (List F)} (h : d.initialize ti tl si sl = .ok d') {ni no : Nat}
    (h1 : Rows ni ti) (h2 : Rows no tl) : d'.sizeOfData = ni ∧ d'.numberOfLabels = no := by
  unfold Data.initialize at h
  obtain ⟨li, hli, h⟩ := Res.bind_eq_ok.1 h
  obtain ⟨ll, hll, h⟩ := Res.bind_eq_ok.1 h
  obtain ⟨d2, hd2, h⟩ := Res.bind_eq_ok.1 h
  obtain ⟨err, herr, h⟩ := Res.bind_eq_ok.1 h
  split at h
  · cases h
  · cases h
    have e1 : li.length = ni := by
      unfold backOf at hli
      split at hli
      · cases hli; exact h1 _ (List.mem_of_getLast? (by assumption))
      · cases hli
    have e2 : ll.length = no := by
      unfold backOf at hll
      split at hll
      · cases hll; exact h2 _ (List.mem_of_getLast? (by assumption))
      · cases hll
    unfold Data.makeTemporalComposite at hd2
    split at hd2
    · cases hd2; exact ⟨e1, e2⟩
    · cases hd2; exact ⟨e1, e2⟩
    · split at hd2
      · cases hd2
      · obtain ⟨_, _, hd2⟩ := Res.bind_eq_ok.1 hd2
        cases hd2; exact ⟨e1, e2⟩

theorem initialize_safe {d d' : Data F} {ti tl si sl : List (List F)} (h : d.initialize ti tl si sl = .ok d') {ni no : Nat}
    (ht : Examples ni no ti tl) (hs : Examples ni no si sl) (hc : HasClasses d.typeOfProblem sl)
    (hl : d.typeOfTemporal = .timeSeries → d.numberOfRecurrences < (tl.length : Int)) : SafeData ni no d' := by
  obtain ⟨hI, ei, el, eti, etl, es, ets, et, ep, er, _, _, eo, ev⟩ := initialize_inv _ _ _ _ _ _ h
  obtain ⟨z1, z2⟩ := initialize_sizes h ht.inputs ht.labels
  refine ⟨hI, ?_, by rw [ei, el]; exact ht, by rw [es, el], by rw [eti, etl]; exact hs, by rw [ets, etl], z1, z2, ?_, by rw [ep, etl]; exact hc⟩
  · intro h1
    have := hl (et ▸ h1)
    have hR := (hI.ts h1).1
    rw [er] at hR
    rw [er, es]; omega
  · intro h1
    unfold Data.temporalIsValid at ev
    rw [h1] at ev
    simp only at ev
    split at ev
    · simp at ev
    · rename_i hcc
      simp only [Bool.or_eq_true, decide_eq_true_eq, not_or, not_not] at hcc
      exact ⟨hcc.1.1.1.1.1, hcc.1.1.1.1.2, hcc.2⟩

theorem rows_flatten {w : Nat} {x : List (List (List F))} (h : ∀ q ∈ x, Rows w q) : Rows w x.flatten := by
  intro r hr
  obtain ⟨q, hq, hr⟩ := List.mem_flatten.1 hr
  exact h q hq r hr

/-- A fitted data object is safe. -/
theorem Spec.Fitted.safe {ni no : Nat} {d : Data F} (h : Fitted ni no d) : SafeData ni no d := by
  induction h with
  | make2 h ht hs hc hl => exact initialize_safe h ht hs hc hl
  | make1 h ht hc hl => exact initialize_safe h ht ht hc hl
  | @make2seq p ti si tl sl nat rec d h ht hs htl hsl hc =>
    unfold Data.make2seq at h
    split at h
    · cases h
    rename_i hn
    have hn : nat = .sequential := by simpa using hn
    subst hn
    obtain ⟨tr, htr, h⟩ := Res.bind_eq_ok.1 h
    obtain ⟨te, hte, h⟩ := Res.bind_eq_ok.1 h
    obtain ⟨a1, a2, _, _⟩ := flatten_ok _ _ _ _ htr
    obtain ⟨b1, b2, b3, _⟩ := flatten_ok _ _ _ _ hte
    obtain ⟨hI, ei, el, eti, etl, es, ets, et, ep, er, _, _, eo, ev⟩ := initialize_inv _ _ _ _ _ _ h
    obtain ⟨s1, s2, s3⟩ := initialize_seq _ _ _ _ _ _ (by rfl) h
    simp only at s1 s2 s3
    have et : d.typeOfTemporal = .sequential := et
    unfold Data.temporalIsValid at ev
    rw [et] at ev
    simp only at ev
    split at ev
    · simp at ev
    rename_i hcc
    simp only [Bool.or_eq_true, decide_eq_true_eq, not_or, not_not] at hcc
    have l1 : tr.inputs.length = tl.length := by rw [← es, ← hcc.1.1.1.1.1, s1, a2, a1]
    have l2 : te.inputs.length = sl.length := by rw [← ets, ← hcc.1.1.1.1.2, s2, b2, b1]
    refine initialize_safe h ⟨l1, ?_, htl⟩ ⟨l2, ?_, hsl⟩ hc (fun hh => ?_)
    · rw [a1]; exact rows_flatten ht
    · rw [b1]; exact rows_flatten hs
    · cases hh
  | @make1seq p ti tl nat rec d h ht htl hc =>
    unfold Data.make1seq at h
    split at h
    · cases h
    rename_i hn
    have hn : nat = .sequential := by simpa using hn
    subst hn
    obtain ⟨te, hte, h⟩ := Res.bind_eq_ok.1 h
    obtain ⟨b1, b2, b3, _⟩ := flatten_ok _ _ _ _ hte
    obtain ⟨hI, ei, el, eti, etl, es, ets, et, ep, er, _, _, eo, ev⟩ := initialize_inv _ _ _ _ _ _ h
    obtain ⟨s1, s2, s3⟩ := initialize_seq _ _ _ _ _ _ (by rfl) h
    simp only at s1 s2 s3
    have et : d.typeOfTemporal = .sequential := et
    unfold Data.temporalIsValid at ev
    rw [et] at ev
    simp only at ev
    split at ev
    · simp at ev
    rename_i hcc
    simp only [Bool.or_eq_true, decide_eq_true_eq, not_or, not_not] at hcc
    have l2 : te.inputs.length = tl.length := by rw [← ets, ← hcc.1.1.1.1.2, s2, b2, b1]
    refine initialize_safe h ⟨l2, ?_, htl⟩ ⟨l2, ?_, htl⟩ hc (fun hh => ?_)
    · show Rows _ te.inputs; rw [b1]; exact rows_flatten ht
    · rw [b1]; exact rows_flatten ht
    · cases hh
  | shuffle hd h ih =>
    obtain ⟨d1, a, b, _⟩ := shuffle_safe ih _
    rw [h] at a
    cases a; exact b
  | unshuffle hd h ih => exact unshuffle_safe ih h
  | setPrecision hd h ih =>
    unfold Data.setPrecision at h
    split at h
    · cases h; exact ⟨⟨ih.inv.len, ih.inv.bound, ih.inv.nonTemporal, ih.inv.seq, ih.inv.ts⟩, ih.long, ih.train, ih.trainSize, ih.test, ih.testSize, ih.sizeOfData, ih.numberOfLabels, ih.seq, ih.classes⟩
    · cases h
  | setSeparator hd h ih =>
    unfold Data.setSeparator at h
    split at h
    · cases h; exact ⟨⟨ih.inv.len, ih.inv.bound, ih.inv.nonTemporal, ih.inv.seq, ih.inv.ts⟩, ih.long, ih.train, ih.trainSize, ih.test, ih.testSize, ih.sizeOfData, ih.numberOfLabels, ih.seq, ih.classes⟩
    · cases h
  | normalize hd h ih =>
    unfold Data.normalize at h
    obtain ⟨⟨tr, te⟩, h1, h⟩ := Res.bind_eq_ok.1 h
    cases h
    obtain ⟨x, y, z, t⟩ := normalizeLoop_len ih.train.inputs ih.test.inputs h1
    exact ⟨⟨ih.inv.len, ih.inv.bound, ih.inv.nonTemporal, ih.inv.seq, ih.inv.ts⟩, ih.long, ⟨z.trans ih.train.count, x, ih.train.labels⟩, ih.trainSize,
      ⟨t.trans ih.test.count, y, ih.test.labels⟩, ih.testSize, ih.sizeOfData, ih.numberOfLabels, ih.seq, ih.classes⟩
  | used hd ih => exact ih.buffers ⟨_, _, rfl⟩

/-! ### Reading -/

theorem transformPlus_len {w : Nat} {a b out : List F} (ha : a.length = w) (hb : b.length = w) (ho : out.length = w) :
    ∃ o, transformPlus a b out = .ok o ∧ o.length = w := by
  unfold transformPlus
  have e : (List.zipWith (· + ·) a b).length = w := by simp [ha, hb]
  rw [if_pos (by omega)]
  exact ⟨_, rfl, by simp [ha, hb, ho]⟩

theorem batchLoop_len {w : Nat} {order : List Nat} {rows : List (List F)} (hb : ∀ x ∈ order, x < rows.length) (hr : Rows w rows) :
    ∀ (js : List Int) (acc : List F), (∀ j ∈ js, 0 ≤ j ∧ j < (order.length : Int)) → acc.length = w →
    ∃ o, batchLoop order rows js acc = .ok o ∧ o.length = w
  | [], acc, _, ha => ⟨acc, rfl, ha⟩
  | j :: js, acc, hj, ha => by
    obtain ⟨j0, j1⟩ := hj j (by simp)
    obtain ⟨k, rfl⟩ := Int.eq_ofNat_of_zero_le j0
    have hk : k < order.length := by exact_mod_cast j1
    have hi := hb _ (List.getElem_mem hk)
    obtain ⟨o1, h1, h2⟩ := transformPlus_len ha (hr _ (List.getElem_mem hi)) ha
    obtain ⟨o2, h3, h4⟩ := batchLoop_len hb hr js o1 (fun j hj' => hj j (by simp [hj'])) h2
    refine ⟨o2, ?_, h4⟩
    unfold batchLoop
    refine Res.bind_eq_ok.2 ⟨_, rd_nat _ k hk, ?_⟩
    refine Res.bind_eq_ok.2 ⟨_, rd_nat _ _ hi, ?_⟩
    exact Res.bind_eq_ok.2 ⟨_, h1, h3⟩

theorem getBatched_len {w : Nat} {order : List Nat} {rows : List (List F)} (hb : ∀ x ∈ order, x < rows.length) (hr : Rows w rows)
    (buffer : List F) {index b : Int} (h0 : 0 ≤ index) (h1 : 1 ≤ b) (h2 : index + b ≤ (order.length : Int)) :
    ∃ x buf, getBatched order rows w buffer index b = .ok (x, buf) ∧ x.length = w := by
  obtain ⟨k, rfl⟩ := Int.eq_ofNat_of_zero_le h0
  have hk : k < order.length := by omega
  have hi := hb _ (List.getElem_mem hk)
  unfold getBatched
  by_cases hle : b ≤ 1
  · refine ⟨_, buffer, ?_, hr _ (List.getElem_mem hi)⟩
    refine Res.bind_eq_ok.2 ⟨_, rd_nat _ k hk, ?_⟩
    rw [if_pos hle]
    exact Res.bind_eq_ok.2 ⟨_, rd_nat _ _ hi, rfl⟩
  · have hk1 : k + 1 < order.length := by omega
    have hi1 := hb _ (List.getElem_mem hk1)
    have hbuf : (buffer.take w ++ List.replicate (w - buffer.length) (lit 0 : F)).length = w := by simp; omega
    obtain ⟨o1, h3, h4⟩ := transformPlus_len (hr _ (List.getElem_mem hi)) (hr _ (List.getElem_mem hi1)) hbuf
    obtain ⟨o2, h5, h6⟩ := batchLoop_len hb hr ((List.range (b - 2).toNat).map fun (t : Nat) => (k : Int) + 2 + (t : Int)) o1 (by
      intro j hj
      obtain ⟨t, ht, rfl⟩ := List.mem_map.1 hj
      have := List.mem_range.1 ht
      omega) h4
    refine ⟨o2.map (· / lit b), o2.map (· / lit b), ?_, by simpa using h6⟩
    refine Res.bind_eq_ok.2 ⟨_, rd_nat _ k hk, ?_⟩
    rw [if_neg hle]
    refine Res.bind_eq_ok.2 ⟨_, rd_nat _ _ hi, ?_⟩
    refine Res.bind_eq_ok.2 ⟨order[k + 1], ?_, ?_⟩
    · have := rd_nat order (k + 1) hk1
      push_cast at this
      exact this
    refine Res.bind_eq_ok.2 ⟨_, rd_nat _ _ hi1, ?_⟩
    refine Res.bind_eq_ok.2 ⟨_, h3, ?_⟩
    exact Res.bind_eq_ok.2 ⟨_, h5, rfl⟩

theorem getTrainingData_safe {ni no : Nat} {d : Data F} (h : SafeData ni no d) {index b : Int} (h0 : 0 ≤ index) (h1 : 1 ≤ b)
    (h2 : index + b ≤ (d.training.size : Int)) : ∃ x d', d.getTrainingData index b = .ok (x, d') ∧ x.length = ni ∧ SameButBuffers d d' := by
  have hb : ∀ x ∈ d.training.shuffledIndexes, x < d.training.inputs.length := by
    intro x hx; have := h.inv.bound x hx; rw [h.train.count, ← h.trainSize]; exact this
  obtain ⟨x, buf, h3, h4⟩ := getBatched_len hb h.train.inputs d.batchedData h0 h1 (by rw [h.inv.len]; exact h2)
  have : d.getTrainingData index b = .ok (x, { d with batchedData := buf }) := by
    unfold Data.getTrainingData
    rw [h.sizeOfData, h3]; rfl
  exact ⟨x, _, this, h4, getTrainingData_same this⟩

theorem getTrainingOutputs_safe {ni no : Nat} {d : Data F} (h : SafeData ni no d) {index b : Int} (h0 : 0 ≤ index) (h1 : 1 ≤ b)
    (h2 : index + b ≤ (d.training.size : Int)) : ∃ x d', d.getTrainingOutputs index b = .ok (x, d') ∧ x.length = no ∧ SameButBuffers d d' := by
  have hb : ∀ x ∈ d.training.shuffledIndexes, x < d.training.labels.length := by
    intro x hx; have := h.inv.bound x hx; rw [← h.trainSize]; exact this
  obtain ⟨x, buf, h3, h4⟩ := getBatched_len hb h.train.labels d.batchedLabels h0 h1 (by rw [h.inv.len]; exact h2)
  have : d.getTrainingOutputs index b = .ok (x, { d with batchedLabels := buf }) := by
    unfold Data.getTrainingOutputs
    rw [h.numberOfLabels, h3]; rfl
  exact ⟨x, _, this, h4, getTrainingOutputs_same this⟩

theorem isFirstTraining_safe {ni no : Nat} {d : Data F} (h : SafeData ni no d) {k : Nat} (hk : k < d.training.size) :
    ∃ f, d.isFirstTraining (k : Int) = .ok f := by
  unfold Data.isFirstTraining
  cases ht : d.typeOfTemporal with
  | nonTemporal => exact ⟨_, rfl⟩
  | sequential => exact ⟨_, rd_nat _ k (by rw [(h.seq ht).1]; exact hk)⟩
  | timeSeries => exact ⟨_, rd_nat _ k (by rw [(h.inv.ts ht).2.1]; exact hk)⟩

theorem needToLearn_safe {ni no : Nat} {d : Data F} (h : SafeData ni no d) {k : Nat} (hk : k < d.training.size) :
    ∃ f, d.needToLearn (k : Int) = .ok f := by
  unfold Data.needToLearn
  cases ht : d.typeOfTemporal with
  | nonTemporal => exact ⟨_, rfl⟩
  | sequential => exact ⟨_, rfl⟩
  | timeSeries => exact ⟨_, rd_nat _ k (by rw [(h.inv.ts ht).2.2.1]; exact hk)⟩

theorem isFirstTesting_safe {ni no : Nat} {d : Data F} (h : SafeData ni no d) {k : Nat} (hk : k < d.testing.size) :
    ∃ f, d.isFirstTesting (k : Int) = .ok f := by
  unfold Data.isFirstTesting
  cases ht : d.typeOfTemporal with
  | nonTemporal => exact ⟨_, rfl⟩
  | sequential => exact ⟨_, rd_nat _ k (by rw [(h.seq ht).2.1]; exact hk)⟩
  | timeSeries => exact ⟨_, rfl⟩

theorem needToEvaluate_safe {ni no : Nat} {d : Data F} (h : SafeData ni no d) {k : Nat} (hk : k < d.testing.size) :
    ∃ f, d.needToEvaluate (k : Int) = .ok f := by
  unfold Data.needToEvaluate
  cases ht : d.typeOfTemporal with
  | nonTemporal => exact ⟨_, rfl⟩
  | sequential => exact ⟨_, rd_nat _ k (by rw [(h.seq ht).2.2]; exact hk)⟩
  | timeSeries => exact ⟨_, rfl⟩

theorem getTestingData_safe {ni no : Nat} {d : Data F} (h : SafeData ni no d) {k : Nat} (hk : k < d.testing.size) :
    ∃ x, d.getTestingData (k : Int) = .ok x ∧ x.length = ni := by
  have hk' : k < d.testing.inputs.length := by rw [h.test.count, ← h.testSize]; exact hk
  exact ⟨_, rd_nat _ k hk', h.test.inputs _ (List.getElem_mem hk')⟩

theorem getTestingOutputs_safe {ni no : Nat} {d : Data F} (h : SafeData ni no d) {k : Nat} (hk : k < d.testing.size)
    (hp : d.typeOfProblem ≠ .classification) : ∃ x, d.getTestingOutputs (k : Int) = .ok x ∧ x.length = no := by
  have hk' : k < d.testing.labels.length := by rw [← h.testSize]; exact hk
  refine ⟨d.testing.labels[k], ?_, h.test.labels _ (List.getElem_mem hk')⟩
  unfold Data.getTestingOutputs
  cases ht : d.typeOfProblem with
  | classification => exact absurd ht hp
  | _ => exact rd_nat _ k hk'

theorem firstOne_some : ∀ {l : List F}, (∃ v ∈ l, feq v (lit 1 : F) = true) → ∀ i, ∃ k, firstOne l i = some k
  | [], h, _ => by obtain ⟨v, hv, _⟩ := h; simp at hv
  | x :: xs, h, i => by
    unfold firstOne
    by_cases hx : feq x (lit 1 : F) = true
    · exact ⟨i, if_pos hx⟩
    · rw [if_neg hx]
      obtain ⟨v, hv, h1⟩ := h
      rcases List.mem_cons.1 hv with rfl | hv
      · exact absurd h1 hx
      · exact firstOne_some ⟨v, hv, h1⟩ _

theorem getTestingLabel_safe {ni no : Nat} {d : Data F} (h : SafeData ni no d) {k : Nat} (hk : k < d.testing.size)
    (hp : d.typeOfProblem = .classification) : ∃ x, d.getTestingLabel (k : Int) = .ok x := by
  have hk' : k < d.testing.labels.length := by rw [← h.testSize]; exact hk
  obtain ⟨i, hi⟩ := firstOne_some (h.classes hp _ (List.getElem_mem hk')) 0
  refine ⟨i, ?_⟩
  unfold Data.getTestingLabel
  rw [hp]
  refine Res.bind_eq_ok.2 ⟨_, rd_nat _ k hk', ?_⟩
  rw [hi]; rfl

/-! ### Evaluation -/

/-- A well formed network, with one cluster per output. -/
structure SafeNet (ni no : Nat) (n : Net F) : Prop where
  wf : n.WF ni no
  clusters : n.stats.clusters.length = no

theorem evaluateOnce_safe {s : Stats F} {no : Nat} (h : s.clusters.length = no) {e : Ev F}
    (he : match e with
      | .regression o d _ => o.length = no ∧ d.length = no
      | .multiple o d _ => o.length = no ∧ d.length = no
      | .classification o _ _ => o.length = no) : ∃ s', s.evaluateOnce e = .ok s' ∧ s'.clusters.length = no := by
  have hcount : ∀ (s : Stats F) (w : Bool), (s.count w).clusters = s.clusters := by
    intro s w; unfold Stats.count; split <;> rfl
  cases e with
  | regression o d p =>
    obtain ⟨h1, h2⟩ := he
    simp only [Stats.evaluateOnce]
    rw [if_neg (by omega)]
    exact ⟨_, rfl, by rw [hcount]; simp [h, h1, h2]⟩
  | multiple o d p =>
    obtain ⟨h1, h2⟩ := he
    simp only [Stats.evaluateOnce]
    rw [if_neg (by omega)]
    exact ⟨_, rfl, by rw [hcount]; simp [h, h1, h2]⟩
  | classification o k p =>
    simp only at he
    simp only [Stats.evaluateOnce]
    rw [if_neg (by omega)]
    exact ⟨_, rfl, by rw [hcount]; simp [h, he]⟩

theorem snnEvaluateOnce_safe {ni no : Nat} {s : Snn F} {d : Data F} (hn : SafeNet ni no s.net) (hd : SafeData ni no d) {k : Nat}
    (hi : s.index = (k : Int)) (hk : k < d.testing.size) : ∃ s', s.evaluateOnce d = .ok s' ∧ SafeNet ni no s'.net ∧ s'.index = s.index := by
  obtain ⟨x, hx1, hx2⟩ := getTestingData_safe hd hk
  obtain ⟨f, hf⟩ := isFirstTesting_safe hd hk
  obtain ⟨y, net, hy1, hy2, hy3, hy4⟩ := Net.output_ok hn.wf x hx2 f
  have hcl : net.stats.clusters.length = no := by rw [hy4]; exact hn.clusters
  unfold Snn.evaluateOnce
  rw [hi, hx1]
  simp only [Res.ok_bind]
  rw [hf]
  simp only [Res.ok_bind]
  cases hp : d.typeOfProblem with
  | classification =>
    obtain ⟨lab, hl⟩ := getTestingLabel_safe hd hk hp
    obtain ⟨st, h1, h2⟩ := evaluateOnce_safe hcl (e := .classification y (lab : Int) d.separator) hy2
    refine ⟨{ s with net := { net with stats := st } }, ?_, ⟨⟨hy3.layers, hy3.ne, hy3.last⟩, h2⟩, hi.symm ▸ rfl⟩
    refine Res.bind_eq_ok.2 ⟨_, hl, ?_⟩
    refine Res.bind_eq_ok.2 ⟨d.separator, by unfold Data.getSeparator; rw [if_pos (Or.inl hp)], ?_⟩
    refine Res.bind_eq_ok.2 ⟨_, hy1, ?_⟩
    exact Res.bind_eq_ok.2 ⟨_, h1, by rw [← hi]; rfl⟩
  | multipleClassification =>
    obtain ⟨des, hl, hl2⟩ := getTestingOutputs_safe hd hk (by rw [hp]; simp)
    obtain ⟨st, h1, h2⟩ := evaluateOnce_safe hcl (e := .multiple y des d.separator) ⟨hy2, hl2⟩
    refine ⟨{ s with net := { net with stats := st } }, ?_, ⟨⟨hy3.layers, hy3.ne, hy3.last⟩, h2⟩, hi.symm ▸ rfl⟩
    refine Res.bind_eq_ok.2 ⟨_, hl, ?_⟩
    refine Res.bind_eq_ok.2 ⟨d.separator, by unfold Data.getSeparator; rw [if_pos (Or.inr hp)], ?_⟩
    refine Res.bind_eq_ok.2 ⟨_, hy1, ?_⟩
    exact Res.bind_eq_ok.2 ⟨_, h1, by rw [← hi]; rfl⟩
  | regression =>
    obtain ⟨des, hl, hl2⟩ := getTestingOutputs_safe hd hk (by rw [hp]; simp)
    obtain ⟨st, h1, h2⟩ := evaluateOnce_safe hcl (e := .regression y des d.precision) ⟨hy2, hl2⟩
    refine ⟨{ s with net := { net with stats := st } }, ?_, ⟨⟨hy3.layers, hy3.ne, hy3.last⟩, h2⟩, hi.symm ▸ rfl⟩
    refine Res.bind_eq_ok.2 ⟨_, hl, ?_⟩
    refine Res.bind_eq_ok.2 ⟨d.precision, by unfold Data.getPrecision; rw [if_pos hp], ?_⟩
    refine Res.bind_eq_ok.2 ⟨_, hy1, ?_⟩
    exact Res.bind_eq_ok.2 ⟨_, h1, by rw [← hi]; rfl⟩

theorem evaluateLoop_safe {ni no : Nat} {nan : F} {d : Data F} (hd : SafeData ni no d) : ∀ (k : Nat) (s : Snn F), SafeNet ni no s.net →
    0 ≤ s.index → s.index + (k : Int) ≤ (d.testing.size : Int) → ∃ b s', evaluateLoop nan d k s = .ok (b, s') ∧ SafeNet ni no s'.net
  | 0, s, h, _, _ => ⟨false, s, rfl, h⟩
  | k + 1, s, h, h0, hk => by
    unfold evaluateLoop
    by_cases hn : s.net.outputNan = true
    · rw [if_pos hn]
      exact ⟨_, _, rfl, ⟨⟨h.wf.layers, h.wf.ne, h.wf.last⟩, by simpa [Snn.resetTrainingValues, Stats.setResultsAsNan] using h.clusters⟩⟩
    · rw [if_neg hn]
      obtain ⟨j, hj⟩ := Int.eq_ofNat_of_zero_le h0
      have hj' : j < d.testing.size := by push_cast at hk; omega
      obtain ⟨need, h1⟩ := needToEvaluate_safe hd hj'
      have hs1 : ∃ s1, (if need = true then s.evaluateOnce d
        else do
          let x ← d.getTestingData s.index
          let first ← d.isFirstTesting s.index
          let (_, net) ← s.net.output x first
          return { s with net := net }) = .ok s1 ∧ SafeNet ni no s1.net ∧ s1.index = s.index := by
        cases need
        · simp only [Bool.false_eq_true, if_false]
          obtain ⟨x, hx1, hx2⟩ := getTestingData_safe hd hj'
          obtain ⟨f, hf⟩ := isFirstTesting_safe hd hj'
          obtain ⟨y, net, hy1, hy2, hy3, hy4⟩ := Net.output_ok h.wf x hx2 f
          refine ⟨{ s with net := net }, ?_, ⟨hy3, by rw [hy4]; exact h.clusters⟩, rfl⟩
          rw [hj, hx1]
          simp only [Res.ok_bind]
          rw [hf]
          simp only [Res.ok_bind]
          rw [hy1]; rfl
        · simp only [if_true]
          exact snnEvaluateOnce_safe h hd hj hj'
      obtain ⟨s1, h2, h3, h4⟩ := hs1
      obtain ⟨b, s', h5, h6⟩ := evaluateLoop_safe hd k { s1 with index := s1.index + 1 } h3 (by simp only [h4]; omega)
        (by simp only [h4]; push_cast at hk; omega)
      refine ⟨b, s', ?_, h6⟩
      rw [hj, h1]
      simp only [Res.ok_bind]
      rw [← hj, h2]
      exact h5

theorem evaluate_safe {ni no : Nat} (env : Env F) {r : Run F} (hn : SafeNet ni no r.snn.net) (hd : SafeData ni no r.data) :
    ∃ r', r.evaluate env = .ok r' ∧ SafeNet ni no r'.snn.net ∧ EvalOut r r' := by
  obtain ⟨b, s, h1, h2⟩ := evaluateLoop_safe (nan := env.nan) hd r.data.testing.size
    { r.snn with net := { r.snn.net with stats := r.snn.net.stats.startTesting }, index := 0 }
    ⟨⟨hn.wf.layers, hn.wf.ne, hn.wf.last⟩, by simpa [Stats.startTesting] using hn.clusters⟩ (by simp) (by simp)
  have key : ∃ r', r.evaluate env = .ok r' ∧ SafeNet ni no r'.snn.net := by
    unfold Run.evaluate
    simp only
    rw [h1]
    simp only [Res.ok_bind]
    cases b
    · simp only [Bool.false_eq_true, if_false]
      have : SafeNet ni no { s.net with stats := s.net.stats.stopTesting } :=
        ⟨⟨h2.wf.layers, h2.wf.ne, h2.wf.last⟩, by simpa [Stats.stopTesting] using h2.clusters⟩
      split
      · exact ⟨_, rfl, this⟩
      · exact ⟨_, rfl, this⟩
    · exact ⟨_, rfl, h2⟩
  obtain ⟨r', h3, h4⟩ := key
  exact ⟨r', h3, h4, evaluate_frame h3⟩

/-! ### Training -/

/-- The state of a training run. -/
structure SafeRun (ni no : Nat) (b : Int) (r : Run F) : Prop where
  net : SafeNet ni no r.snn.net
  data : SafeData ni no r.data
  size : r.snn.numberOfTrainingsBetweenTwoEvaluations = r.data.training.size
  batch : 1 ≤ b

/-- The call returned with `P`, or it ran out of fuel and the fuel was too small (`Q`). -/
def Ends {α : Type} (Q : Prop) (P : α → Prop) (x : Res α) : Prop := (∃ v, x = .ok v ∧ P v) ∨ (Q ∧ x = .ub "out of fuel")

theorem trainStep_safe {ni no : Nat} {env : Env F} {b : Int} {r : Run F} (h : SafeRun ni no b r) (h0 : 0 ≤ r.snn.index)
    (h1 : r.snn.index + b ≤ r.snn.numberOfTrainingsBetweenTwoEvaluations) (hnan : r.snn.net.outputNan = false) :
    ∃ r', r.trainStep env b = .ok (false, r') ∧ SafeRun ni no b r' ∧ r'.snn.index = r.snn.index ∧ r'.snn.epoch = r.snn.epoch ∧
      r'.data.training.size = r.data.training.size := by
  have hb := h.batch
  rw [h.size] at h1
  obtain ⟨j, hj⟩ := Int.eq_ofNat_of_zero_le h0
  have hj' : j < r.data.training.size := by omega
  obtain ⟨need, e1⟩ := needToLearn_safe h.data hj'
  obtain ⟨x, d1, e2, e3, e4⟩ := getTrainingData_safe h.data h0 hb h1
  have s1 := h.data.buffers e4
  have z1 : d1.training.size = r.data.training.size := e4.frame.size
  obtain ⟨f, e5⟩ := isFirstTraining_safe s1 (k := j) (by omega)
  unfold Run.trainStep
  simp only
  rw [if_neg (by simp [hnan]), hj, e1]
  simp only [Res.ok_bind]
  rw [← hj, e2]
  simp only [Res.ok_bind]
  rw [hj, e5, ← hj]
  simp only [Res.ok_bind]
  cases need
  · simp only [Bool.false_eq_true, if_false]
    obtain ⟨y, net, dr, f1, f2, f3, f4⟩ := Net.outputForTraining_ok h.net.wf x e3 f r.draws
    rw [f1]
    refine ⟨_, rfl, ⟨⟨f3, by simp only [f4]; exact h.net.clusters⟩, s1, ?_, hb⟩, rfl, rfl, z1⟩
    simp only [h.size, z1]
  · simp only [if_true]
    obtain ⟨y, d2, e6, e7, e8⟩ := getTrainingOutputs_safe s1 h0 hb (by rw [z1]; exact h1)
    rw [e6]
    simp only [Res.ok_bind]
    have z2 : d2.training.size = r.data.training.size := e8.frame.size.trans z1
    obtain ⟨net, dr, f1, f3, f4⟩ := Net.trainOnce_ok h.net.wf x y e3 e7 f r.draws
    rw [f1]
    refine ⟨_, rfl, ⟨⟨f3, by simp only [f4]; exact h.net.clusters⟩, s1.buffers e8, ?_, hb⟩, rfl, rfl, z2⟩
    simp only [h.size, z2]

theorem continue_fields (env : Env F) (wait : Wait F) (r : Run F) : (r.continueTraining env wait).2 = { r with ticks := r.ticks + 1 } := rfl

theorem SafeRun.tick {ni no : Nat} {b : Int} {r : Run F} (h : SafeRun ni no b r) (k : Nat) : SafeRun ni no b { r with ticks := k } :=
  ⟨h.net, h.data, h.size, h.batch⟩

theorem stepLoop_safe {ni no : Nat} {env : Env F} {wait : Wait F} {b : Int} : ∀ (fuel : Nat) (r : Run F), SafeRun ni no b r →
    0 ≤ r.snn.index → r.snn.index ≤ r.data.training.size →
    Ends ((fuel : Int) < r.data.training.size - r.snn.index + 2)
      (fun p => p.1 = false ∧ SafeRun ni no b p.2 ∧ p.2.snn.epoch = r.snn.epoch ∧ p.2.data.training.size = r.data.training.size)
      (stepLoop env wait b fuel r)
  | 0, r, h, h0, h1 => Or.inr ⟨by push_cast; omega, rfl⟩
  | fuel + 1, r, h, h0, h1 => by
    have hb := h.batch
    unfold stepLoop
    by_cases hc : r.snn.index + b ≤ r.snn.numberOfTrainingsBetweenTwoEvaluations
    · rw [if_pos hc]
      cases hcont : (r.continueTraining env wait).1
      · refine Or.inl ⟨(false, (r.continueTraining env wait).2), ?_, rfl, h.tick _, rfl, rfl⟩
        simp only [hcont]; rfl
      · have hnan : r.snn.net.outputNan = false := by
          unfold Run.continueTraining at hcont
          simp only [Bool.and_eq_true, Bool.not_eq_true'] at hcont
          exact hcont.2
        obtain ⟨r', e1, e2, e3, e4, e5⟩ := trainStep_safe (env := env) (h.tick (r.ticks + 1)) h0 hc hnan
        have hsz := h.size
        have e5' : r'.data.training.size = r.data.training.size := e5
        have e3' : r'.snn.index = r.snn.index := e3
        have e4' : r'.snn.epoch = r.snn.epoch := e4
        have ih := stepLoop_safe (env := env) (wait := wait) fuel { r' with snn := { r'.snn with index := r'.snn.index + b } }
          ⟨e2.net, e2.data, e2.size, hb⟩ (by simp only [e3']; omega) (by simp only [e3', e5']; omega)
        simp only [hcont, continue_fields, e1, Res.ok_bind, if_true, Bool.false_eq_true, if_false]
        rcases ih with ⟨v, i1, i2, i3, i4, i5⟩ | ⟨i1, i2⟩
        · exact Or.inl ⟨v, i1, i2, i3, i4.trans e4', i5.trans e5'⟩
        · refine Or.inr ⟨?_, i2⟩
          simp only [e3', e5'] at i1
          push_cast; omega
    · rw [if_neg hc]
      exact Or.inl ⟨_, rfl, rfl, h, rfl, rfl⟩

theorem epochBody_safe {ni no : Nat} {env : Env F} {wait : Wait F} {b ef : Int} {fuel : Nat} {r : Run F} (h : SafeRun ni no b r) :
    Ends (fuel < r.data.training.size + 2)
      (fun p => p.1 = false ∧ SafeRun ni no b p.2 ∧ p.2.snn.epoch = r.snn.epoch ∧ p.2.data.training.size = r.data.training.size)
      (r.epochBody env wait b ef fuel) := by
  obtain ⟨d1, s1, s2, s3⟩ := shuffle_safe h.data (env.rng r.snn.epoch)
  have hl := stepLoop_safe (env := env) (wait := wait) fuel
    { r with data := d1, snn := { r.snn with index := 0 }, trace := .shuffled :: r.trace }
    ⟨h.net, s2, by simp only [h.size, s3.size], h.batch⟩ (by simp) (by simp)
  unfold Run.epochBody
  rw [s1]
  simp only [Res.ok_bind]
  rcases hl with ⟨⟨ret, r2⟩, i1, i2, i3, i4, i5⟩ | ⟨i1, i2⟩
  · have i5' : r2.data.training.size = r.data.training.size := i5.trans s3.size
    simp only at i2 i3 i4
    subst i2
    rw [i1]
    simp only [Res.ok_bind, Bool.false_eq_true, if_false]
    split
    · obtain ⟨r3, j1, j2, j3⟩ := evaluate_safe env i3.net i3.data
      rw [j1]
      refine Or.inl ⟨_, rfl, rfl, ⟨j2, by simp only [j3.data]; exact i3.data, by simp only [j3.between, j3.data]; exact i3.size, h.batch⟩, ?_, ?_⟩
      · simp only [j3.epoch]; exact i4
      · simp only [j3.data]; exact i5'
    · exact Or.inl ⟨_, rfl, rfl, i3, i4, i5'⟩
  · refine Or.inr ⟨?_, by rw [i2]; rfl⟩
    simp only [s3.size] at i1
    omega

theorem epochLoop_safe {ni no : Nat} {env : Env F} {wait : Wait F} {b ef : Int} {inner : Nat} : ∀ (fuel : Nat) (r : Run F), SafeRun ni no b r →
    Ends (inner < r.data.training.size + 2 ∨ ∀ E, OverFrom wait E → fuel = 0 ∨ r.snn.epoch + (fuel : Int) ≤ E)
      (fun p => p.1 = false ∧ SafeRun ni no b p.2 ∧ p.2.data.training.size = r.data.training.size)
      (epochLoop env wait b ef inner fuel r)
  | 0, r, h => Or.inr ⟨Or.inr fun _ _ => Or.inl rfl, rfl⟩
  | fuel + 1, r, h => by
    unfold epochLoop
    cases hcont : (r.continueTraining env wait).1
    · refine Or.inl ⟨(false, (r.continueTraining env wait).2), ?_, rfl, h.tick _, rfl⟩
      simp only [hcont]; rfl
    · have hnot : ∀ E, OverFrom wait E → r.snn.epoch < E := by
        intro E hE
        by_contra hle
        unfold Run.continueTraining at hcont
        simp only [Bool.and_eq_true, Bool.not_eq_true'] at hcont
        have := hE (env.clock r.ticks) r.snn.epoch r.snn.net.stats.globalRate r.snn.net.stats.mae (by omega)
        rw [this] at hcont
        exact absurd hcont.1.2 (by simp)
      simp only [hcont, continue_fields, if_true]
      have hbody := epochBody_safe (env := env) (wait := wait) (ef := ef) (fuel := inner) (h.tick (r.ticks + 1))
      rcases hbody with ⟨⟨ret, r2⟩, i1, i2, i3, i4, i5⟩ | ⟨i1, i2⟩
      · simp only at i2 i3 i4 i5
        subst i2
        rw [i1]
        simp only [Res.ok_bind, Bool.false_eq_true, if_false]
        have ih := epochLoop_safe (env := env) (wait := wait) (ef := ef) (inner := inner) fuel
          { r2 with snn := { r2.snn with epoch := r2.snn.epoch + 1 } } ⟨i3.net, i3.data, i3.size, h.batch⟩
        rcases ih with ⟨v, j1, j2, j3, j4⟩ | ⟨j1, j2⟩
        · exact Or.inl ⟨v, j1, j2, j3, j4.trans i5⟩
        · refine Or.inr ⟨?_, j2⟩
          rcases j1 with j1 | j1
          · left; rw [← i5]; exact j1
          · right
            intro E hE
            right
            have h1 := hnot E hE
            rcases j1 E hE with j | j
            · subst j; push_cast; omega
            · simp only [i4] at j; push_cast; omega
      · exact Or.inr ⟨Or.inl i1, by rw [i2]; rfl⟩

theorem train_safe {ni no : Nat} {env : Env F} {wait : Wait F} {b ef : Int} {fuel : Nat} {r : Run F} (hn : SafeNet ni no r.snn.net)
    (hd : SafeData ni no r.data) (hb : 1 ≤ b) (hb2 : b ≤ r.data.training.size)
    (hb3 : b ≠ 1 → r.data.typeOfTemporal = .nonTemporal) (hidle : r.snn.isIdle = true) :
    Ends (fuel < r.data.training.size + 2 ∨ ∀ E, OverFrom wait E → fuel = 0 ∨ 1 + (fuel : Int) ≤ E)
      (fun r' => SafeNet ni no r'.snn.net ∧ SafeData ni no r'.data ∧ r'.snn.isIdle = true) (r.train env wait b ef fuel) := by
  unfold Run.train
  have hv : r.snn.validData r.data b = .ok () := by
    unfold Snn.validData
    rw [hn.wf.numberOfOutputs, hn.wf.numberOfInputs]
    simp only [Res.ok_bind]
    rw [if_neg (by rw [hd.numberOfLabels, hd.sizeOfData]; simp), if_neg (by intro hc; exact hc.2 (hb3 hc.1)), if_neg (by omega), if_neg (by omega)]
  rw [hv]
  simp only [Res.ok_bind]
  rw [if_neg (by simp [hidle])]
  unfold Run.trainSync
  have hbegin : SafeRun ni no b ({ r with snn := { r.snn with wantToStopTraining := true } } : Run F).begin :=
    ⟨⟨⟨hn.wf.layers, hn.wf.ne, hn.wf.last⟩, hn.clusters⟩, hd, rfl, hb⟩
  have hr1 : ∃ r1, (if ef > 0 then ({ r with snn := { r.snn with wantToStopTraining := true } } : Run F).begin.evaluate env
      else .ok ({ r with snn := { r.snn with wantToStopTraining := true } } : Run F).begin) = .ok r1 ∧ SafeRun ni no b r1 ∧
      r1.data.training.size = r.data.training.size := by
    split
    · obtain ⟨r1, j1, j2, j3⟩ := evaluate_safe env hbegin.net hbegin.data
      exact ⟨r1, j1, ⟨j2, by rw [j3.data]; exact hd, by rw [j3.between, j3.data]; rfl, hb⟩, by rw [j3.data]; rfl⟩
    · exact ⟨_, rfl, hbegin, rfl⟩
  obtain ⟨r1, e1, e2, e3⟩ := hr1
  simp only at e1 ⊢
  rw [e1]
  simp only [Res.ok_bind]
  have hep := epochLoop_safe (env := env) (wait := wait) (ef := ef) (inner := fuel) fuel
    { r1 with snn := { r1.snn with epoch := 1 } } ⟨e2.net, e2.data, e2.size, hb⟩
  rcases hep with ⟨⟨ret, r2⟩, j1, j2, j3, j4⟩ | ⟨j1, j2⟩
  · simp only at j2 j3
    subst j2
    rw [j1]
    exact Or.inl ⟨_, rfl, ⟨⟨j3.net.wf.layers, j3.net.wf.ne, j3.net.wf.last⟩, j3.net.clusters⟩, j3.data, rfl⟩
  · refine Or.inr ⟨?_, by rw [j2]; rfl⟩
    simp only [e3] at j1
    exact j1

end

end Snn
