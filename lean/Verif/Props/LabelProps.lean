import Verif.Spec.LabelSpec
import Verif.Props.DataProps

/-!
# C89: the accessors of the data speak about the same example
-/

set_option linter.all false

namespace Snn.LabelProps

open Snn.Spec

section
variable {F : Type} [Add F] [Div F] [Flt F]

theorem firstOne_label (l : List F) (k : Nat) : firstOne l 0 = some k ↔ LabelOf l k := by
  have h := firstOne_spec l 0
  constructor
  · intro e
    rw [e] at h
    exact ⟨by simpa using h.2.1, by simpa using h.2.2⟩
  · rintro ⟨⟨v, h1, h2⟩, h3⟩
    cases e : firstOne l 0 with
    | none =>
      rw [e] at h
      rw [h v (List.mem_of_getElem? h1)] at h2
      cases h2
    | some j =>
      rw [e] at h
      obtain ⟨_, ⟨w, g1, g2⟩, g3⟩ := h
      simp only [Nat.sub_zero] at g1 g3
      rcases Nat.lt_trichotomy j k with hlt | rfl | hgt
      · rw [h3 j hlt w g1] at g2; cases g2
      · rfl
      · rw [g3 k hgt v h1] at h2; cases h2

theorem label_row {l : List F} {k : Nat} : ((match firstOne l 0 with | some i => pure i | none => Res.throw "wrong label") : Res Nat) = .ok k ↔ LabelOf l k := by
  rw [← firstOne_label]
  cases firstOne l 0 with
  | none => simp
  | some j => simp

theorem trainingLabel_iff {d : Data F} (hp : d.typeOfProblem = .classification) {i : Nat} {l : List F} (h : d.training.labels[i]? = some l) (k : Nat) :
    d.getLabel .training i = .ok k ↔ LabelOf l k := by
  have hrd : rd d.training.labels (i : Int) = .ok l := by rw [rd_eq_ok]; simpa using h
  show d.getTrainingLabel i = .ok k ↔ _
  unfold Data.getTrainingLabel
  rw [hp, hrd]
  exact label_row

theorem testingLabel_iff {d : Data F} (hp : d.typeOfProblem = .classification) {i : Nat} {l : List F} (h : d.testing.labels[i]? = some l) (k : Nat) :
    d.getLabel .testing i = .ok k ↔ LabelOf l k := by
  have hrd : rd d.testing.labels (i : Int) = .ok l := by rw [rd_eq_ok]; simpa using h
  show d.getTestingLabel i = .ok k ↔ _
  unfold Data.getTestingLabel
  rw [hp, hrd]
  exact label_row

/-- **C89**, testing set: after every history of shuffles, position i gives the i-th testing input of the constructor, and its label is
the one of the i-th expected output; `getOutputs` refuses to give the expected output of a classification. For every float type. -/
theorem C89_testing (inputs labels testI testL : List (List F)) (nat : Nature) (rec : Int) (d : Data F)
    (h : Data.make2 .classification inputs labels testI testL nat rec = .ok d) (hlen : inputs.length = labels.length)
    (hts : nat = .timeSeries → rec.toNat + 1 ≤ inputs.length) (ops : List OrderOp) :
    ∃ d', d.orderOps ops = .ok d' ∧ (∀ (i : Nat) (hi : i < testI.length), d'.getData .testing i = .ok testI[i]) ∧
      (∀ (i : Nat) (hi : i < testL.length), ∀ k, d'.getLabel .testing i = .ok k ↔ LabelOf testL[i] k) ∧
      ∀ i : Nat, (d'.getOutputs .testing i).isThrow = true := by
  obtain ⟨hI, _, _, esi, esl, es, _, et, ep, er, _⟩ := make2_inv _ inputs labels testI testL _ rec d h
  obtain ⟨d', h', hI', hF, hL⟩ := orderOps_ok ops d hI (by intro hh; rw [er, es, ← hlen]; exact hts (et ▸ hh))
  refine ⟨d', h', ?_, ?_, ?_⟩
  · intro i hi
    show rd d'.testing.inputs (i : Int) = _
    rw [hF.testing, esi]
    exact rd_nat _ i hi
  · intro i hi k
    exact testingLabel_iff (hF.problem.trans ep) (by rw [hF.testing, esl]; exact List.getElem?_eq_getElem hi) k
  · intro i
    show (d'.getTestingOutputs i).isThrow = true
    unfold Data.getTestingOutputs
    rw [hF.problem, ep]
    rfl

/-- **C89**, training set, what the calls give: after every history, `getData` and `getOutputs` give the input and the expected output of
one same example, but `getLabel(training, i)` gives the label of the i-th example of the constructor, shuffled or not. -/
theorem C89_positions_partial (inputs labels testI testL : List (List F)) (nat : Nature) (rec : Int) (d : Data F)
    (h : Data.make2 .classification inputs labels testI testL nat rec = .ok d) (hlen : inputs.length = labels.length)
    (hts : nat = .timeSeries → rec.toNat + 1 ≤ inputs.length) (ops : List OrderOp) :
    ∃ d', d.orderOps ops = .ok d' ∧ ∀ (i : Nat) (hi : i < labels.length),
      (∃ j, ∃ (h1 : j < inputs.length) (h2 : j < labels.length), d'.getData .training i = .ok inputs[j] ∧ d'.getOutputs .training i = .ok labels[j]) ∧
      ∀ k, d'.getLabel .training i = .ok k ↔ LabelOf labels[i] k := by
  obtain ⟨d', h', hp⟩ := C02_pairing .classification inputs labels testI testL nat rec d h hlen hts ops
  obtain ⟨hI, ei, el, _, _, es, _, et, ep, er, _⟩ := make2_inv _ inputs labels testI testL _ rec d h
  obtain ⟨d2, h2, hI', hF, hL⟩ := orderOps_ok ops d hI (by intro hh; rw [er, es, ← hlen]; exact hts (et ▸ hh))
  rw [h'] at h2
  cases h2
  refine ⟨d', h', fun i hi => ⟨hp i (by omega), fun k => ?_⟩⟩
  exact trainingLabel_iff (hF.problem.trans ep) (by rw [hF.labels, el]; exact List.getElem?_eq_getElem hi) k

/-- **C89**, training set: as long as the data have not been shuffled, after `unshuffle()`, and for sequential data after every history,
the label of position i is the one of the expected output of position i. Left out: shuffled data, see `C89_shuffled_refuted`. -/
theorem C89_unshuffled_partial (inputs labels testI testL : List (List F)) (nat : Nature) (rec : Int) (d : Data F)
    (h : Data.make2 .classification inputs labels testI testL nat rec = .ok d) (hlen : inputs.length = labels.length)
    (hts : nat = .timeSeries → rec.toNat + 1 ≤ inputs.length) (ops : List OrderOp) (hops : ops = [] ∨ (∃ os, ops = os ++ [.unshuffle]) ∨ nat = .sequential) :
    ∃ d', d.orderOps ops = .ok d' ∧ ∀ i < labels.length, Agree d' .training i := by
  obtain ⟨hI, ei, el, _, _, es, _, et, ep, er, hne, hne', eo, _⟩ := make2_inv _ inputs labels testI testL _ rec d h
  have hlong : LongEnough d := by intro hh; rw [er, es, ← hlen]; exact hts (et ▸ hh)
  have key : ∀ d' : Data F, DInv d' → Frame d d' → d'.training.shuffledIndexes = List.range labels.length → ∀ i < labels.length, Agree d' .training i := by
    intro d' hI' hF ho i hi
    have e2 : d'.training.labels = labels := hF.labels.trans el
    have hi' : i < d'.training.shuffledIndexes.length := by rw [ho]; simpa using hi
    have hx : d'.training.shuffledIndexes[i] = i := by simp [ho]
    refine ⟨labels[i], ?_, fun k => trainingLabel_iff (hF.problem.trans ep) (by rw [e2]; exact List.getElem?_eq_getElem hi) k⟩
    have := readOutput_ok d' i hi' (by rw [hx, e2]; exact hi)
    simp only [hx, e2] at this
    exact this
  rcases hops with rfl | ⟨os, rfl⟩ | hseq
  · exact ⟨d, rfl, key d hI (Frame.refl d) eo⟩
  · obtain ⟨d1, h1, hI1, hF1, hL1⟩ := orderOps_ok os d hI hlong
    obtain ⟨d2, h2, hI2, hF2, ho, _⟩ := unshuffle_ok d1 hI1 (fun hh => by have := hL1 hh; omega)
    refine ⟨d2, ?_, key d2 hI2 (hF1.trans hF2) (by rw [ho, hF1.size, es])⟩
    unfold Data.orderOps at h1 ⊢
    rw [List.foldlM_append, h1]
    simp [Data.orderOp, h2]
  · obtain ⟨d1, h1, hI1, hF1, hL1⟩ := orderOps_ok ops d hI hlong
    refine ⟨d1, h1, key d1 hI1 hF1 ?_⟩
    rw [(hI1.seq (hF1.temporal.trans (et.trans hseq))).2, hF1.size, es]

theorem perm_getD {l : List (List F)} {p : List Nat} (hp : p.Perm (List.range l.length)) : (p.map fun j => l.getD j []).Perm l := by
  have h1 := hp.map fun j => l.getD j []
  have h2 : (List.range l.length).map (fun j => l.getD j []) = l := by
    apply List.ext_getElem
    · simp
    · intro i h1 h2; simp [List.getD_eq_getElem?_getD, List.getElem?_eq_getElem h2]
  rwa [h2] at h1

open Classical in
/-- **C89**, training set: shuffled or not, counting the positions whose label is k gives the number of positions whose expected output
has label k. -/
theorem C89_counts_partial (inputs labels testI testL : List (List F)) (rec : Int) (d : Data F)
    (h : Data.make2 .classification inputs labels testI testL .nonTemporal rec = .ok d) (hlen : inputs.length = labels.length) (ops : List OrderOp) (k : Nat) :
    ∃ d', d.orderOps ops = .ok d' ∧ ((List.range labels.length).filter fun i => decide (d'.getLabel .training (i : Nat) = .ok k)).length =
      ((List.range labels.length).filter fun i => decide (∃ o, d'.getOutputs .training (i : Nat) = .ok o ∧ LabelOf o k)).length := by
  obtain ⟨hI, ei, el, _, _, es, _, et, ep, er, hne, hne', eo, _⟩ := make2_inv _ inputs labels testI testL _ rec d h
  obtain ⟨d', h', hI', hF, hL⟩ := orderOps_ok ops d hI (by intro hh; rw [et] at hh; cases hh)
  refine ⟨d', h', ?_⟩
  have hperm := hI'.nonTemporal (hF.temporal.trans et)
  rw [hF.size, es] at hperm
  have hpl : d'.training.shuffledIndexes.length = labels.length := by rw [hI'.len, hF.size, es]
  have e2 : d'.training.labels = labels := hF.labels.trans el
  have hg : ∀ {i : Nat} (hi : i < labels.length), labels.getD i [] = labels[i] := fun hi => by
    simp [List.getD_eq_getElem?_getD, List.getElem?_eq_getElem hi]
  have e3 : ((List.range labels.length).filter fun i => decide (d'.getLabel .training (i : Nat) = .ok k)).length
      = labels.countP fun l => decide (LabelOf l k) := by
    rw [← List.countP_eq_length_filter]
    have : labels = (List.range labels.length).map fun j => labels.getD j [] := by
      apply List.ext_getElem
      · simp
      · intro i h1 h2; simp [List.getD_eq_getElem?_getD, List.getElem?_eq_getElem h1]
    conv_rhs => rw [this]
    rw [List.countP_map]
    apply List.countP_congr
    intro i hi
    have hi' : i < labels.length := by simpa using hi
    simp only [Function.comp, decide_eq_true_eq, hg hi']
    exact trainingLabel_iff (hF.problem.trans ep) (by rw [e2]; exact List.getElem?_eq_getElem hi') k
  have e4 : ((List.range labels.length).filter fun i => decide (∃ o, d'.getOutputs .training (i : Nat) = .ok o ∧ LabelOf o k)).length
      = (d'.training.shuffledIndexes.map fun j => labels.getD j []).countP fun l => decide (LabelOf l k) := by
    rw [← List.countP_eq_length_filter]
    have : (d'.training.shuffledIndexes.map fun j => labels.getD j []) =
        (List.range labels.length).map fun i => labels.getD (d'.training.shuffledIndexes.getD i 0) [] := by
      apply List.ext_getElem
      · simp [hpl]
      · intro i h1 h2
        have : i < d'.training.shuffledIndexes.length := by simpa using h1
        simp [List.getD_eq_getElem?_getD, List.getElem?_eq_getElem this]
    rw [this, List.countP_map]
    apply List.countP_congr
    intro i hi
    have hi' : i < d'.training.shuffledIndexes.length := by rw [hpl]; simpa using hi
    have hk : d'.training.shuffledIndexes[i] < labels.length := by
      have := hI'.bound _ (List.getElem_mem hi'); rw [hF.size, es] at this; exact this
    have hx : d'.training.shuffledIndexes.getD i 0 = d'.training.shuffledIndexes[i] := by
      simp [List.getD_eq_getElem?_getD, List.getElem?_eq_getElem hi']
    have hread : d'.getOutputs .training (i : Nat) = .ok (labels[d'.training.shuffledIndexes[i]]) := by
      have := readOutput_ok d' i hi' (by rw [e2]; exact hk)
      simp only [e2] at this
      exact this
    simp only [Function.comp, decide_eq_true_eq, hx, hg hk, hread, Res.ok.injEq]
    constructor
    · rintro ⟨o, rfl, h⟩; exact h
    · intro h; exact ⟨_, rfl, h⟩
  rw [e3, e4]
  exact ((perm_getD hperm).countP_eq _).symm

end

def rowsI : List (List ℚ) := [[1, 2], [3, 4]]
def rowsL : List (List ℚ) := [[1, 0], [0, 1]]
def made : Data ℚ := Res.get (Data.make2 .classification rowsI rowsL [] [] .nonTemporal 0) (by decide +kernel)
def mixed : Data ℚ := Res.get (made.orderOps [.shuffle fun _ => 0]) (by decide +kernel)

/-- **C89 is false of shuffled data**: after one `shuffle()` the expected output at position 0 is `[0, 1]`, of class 1, and the label at
position 0 is 0. -/
theorem C89_shuffled_refuted : Data.make2 .classification rowsI rowsL [] [] .nonTemporal 0 = .ok made ∧
    made.orderOps [.shuffle fun _ => 0] = .ok mixed ∧ mixed.getData .training 0 = .ok [3, 4] ∧ mixed.getOutputs .training 0 = .ok [0, 1] ∧
    mixed.getLabel .training 0 = .ok 0 ∧ ¬ Agree mixed .training 0 := by
  refine ⟨Res.eq_get _ _, Res.eq_get _ _, by decide +kernel, by decide +kernel, by decide +kernel, ?_⟩
  rintro ⟨o, h1, h2⟩
  have e : o = [0, 1] := by
    have : mixed.getOutputs .training ((0 : Nat) : Int) = .ok ([0, 1] : List ℚ) := by decide +kernel
    exact Res.ok.inj (h1.symm.trans this)
  subst e
  obtain ⟨⟨v, a, b⟩, _⟩ := (h2 0).1 (by decide +kernel)
  simp at a
  subst a
  exact absurd b (by decide +kernel)

/-- A case of the other theorems: the same data, shuffled and unshuffled. -/
example : ∃ d', made.orderOps ([.shuffle fun _ => 0] ++ [.unshuffle]) = .ok d' ∧ (∀ i < rowsL.length, Agree d' .training i) ∧ d'.getLabel .training 1 = .ok 1 := by
  obtain ⟨d', h1, h2⟩ := C89_unshuffled_partial rowsI rowsL [] [] .nonTemporal 0 made (Res.eq_get _ _) rfl (by simp) _ (Or.inr (Or.inl ⟨_, rfl⟩))
  refine ⟨d', h1, h2, ?_⟩
  have : ∃ d, made.orderOps ([.shuffle fun _ => 0] ++ [.unshuffle]) = .ok d ∧ d.getLabel .training 1 = .ok 1 :=
    ⟨Res.get _ (by decide +kernel), Res.eq_get _ _, by decide +kernel⟩
  obtain ⟨d2, g1, g2⟩ := this
  rw [h1] at g1
  cases g1
  exact g2

end Snn.LabelProps
