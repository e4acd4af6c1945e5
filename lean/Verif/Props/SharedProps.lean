import Verif.Proofs.SharedProofs
import Verif.Demo.Demo

/-!
# C111: one data object used by several networks, one after the other
-/

set_option linter.all false

namespace Snn.Shared

open Snn.Spec Snn.HistoryProps Snn.TrainProofs

section
variable {F : Type} [Flt F] [FTrans F] [Add F] [Sub F] [Mul F] [Div F] [Neg F]

theorem rel_mono {α β : Type} {R S : α → β → Prop} {x : Res α} {y : Res β} (h : Res.Rel R x y) (k : ∀ a b, R a b → S a b) : Res.Rel S x y := by
  cases x <;> cases y <;> simp only [Res.Rel] at h ⊢
  · exact k _ _ h
  all_goals exact h

/-- **C111, evaluations**, for every carrier: whatever networks were evaluated and trained on a data object, of whatever kind, evaluating any network, in any
state, on it gives exactly the evaluation on the object as it was before. -/
theorem C111_evaluation_partial {d d' : Data F} (h : Uses d d') (r : Run F) (env : Env F) :
    SameCall (Call.run r (.evaluate env d')) (Call.run r (.evaluate env d)) :=
  rel_mono (evaluate_like (a := { r with data := d' }) (b := { r with data := d }) ⟨rfl, rfl, rfl, rfl⟩ (uses_frame h)) fun _ _ h => h.1

/-- **C111, the content**, for every carrier: no use changes the examples of the object, its testing set, its settings. -/
theorem C111_content_partial {d d' : Data F} (h : Uses d d') :
    d'.training.inputs = d.training.inputs ∧ d'.training.labels = d.training.labels ∧ d'.training.size = d.training.size ∧ d'.testing = d.testing ∧
    d'.typeOfProblem = d.typeOfProblem ∧ d'.typeOfTemporal = d.typeOfTemporal ∧ d'.numberOfRecurrences = d.numberOfRecurrences ∧
    d'.precision = d.precision ∧ d'.separator = d.separator ∧ d'.sizeOfData = d.sizeOfData ∧ d'.numberOfLabels = d.numberOfLabels := by
  obtain ⟨h1, h2, h3, h4, h5, h6, h7, h8, h9, h10, h11⟩ := uses_frame h
  exact ⟨h9, h10, h8, h11, h1, h2, h3, h4, h5, h6, h7⟩

theorem rect_of {ni no : Nat} {d : Data F} (h : Fitted ni no d) : Rect d :=
  ⟨fun x hx => by rw [h.safe.sizeOfData]; exact h.safe.train.inputs x hx, fun x hx => by rw [h.safe.numberOfLabels]; exact h.safe.train.labels x hx⟩

theorem same_of_buf {ni no : Nat} {d d' : Data F} (hd : Fitted ni no d) (h : SameButBuffers d d') (r : Run F) (env : Env F) (wait : Wait F) (b ef : Int)
    (fuel : Nat) : SameCall (Call.run r (.train env d' wait b ef fuel)) (Call.run r (.train env d wait b ef fuel)) :=
  rel_mono (train_pair (r := { r with data := d' }) (q := { r with data := d }) ⟨⟨rfl, rfl, rfl, rfl⟩, h, rect_of hd⟩) fun _ _ h => h.like

/-- **C111, trainings on sequences**: for sequential data of the right sizes, whatever networks were evaluated and trained on the object, training any network,
in any state, on it gives exactly the training on the object as it was before. -/
theorem C111_sequences_partial {ni no : Nat} {d d' : Data F} (hd : Fitted ni no d) (ht : d.typeOfTemporal = .sequential) (h : Uses d d') (r : Run F)
    (env : Env F) (wait : Wait F) (b ef : Int) (fuel : Nat) :
    SameCall (Call.run r (.train env d' wait b ef fuel)) (Call.run r (.train env d wait b ef fuel)) := by
  refine same_of_buf hd ?_ r env wait b ef fuel
  have hix := (hd.safe.inv.seq ht).1
  refine uses_induct (P := fun e => SameButBuffers d e) ?_ (fun _ _ h k => h.trans k) h (.refl d)
  rintro e e' g ⟨b1, b2, rfl⟩ hs
  unfold Data.shuffle at hs
  have e1 : shuffleList g d.indexesForShuffles = [] := by rw [hix]; rfl
  simp only [ht, e1, sequentialLoop, Res.ok_bind] at hs
  cases hs
  exact ⟨b1, b2, by simp [hix, ht]⟩

/-- **C111, trainings on examples**: for non-temporal data of the right sizes, whatever networks were evaluated and trained on the object, after `unshuffle()`
training any network, in any state, on it gives exactly the training on the object as it was before, unshuffled. Missing: without `unshuffle()`
(`C111_order_refuted`), and time series (`C111_series_refuted`). -/
theorem C111_unshuffled_partial {ni no : Nat} {d d' d0 : Data F} (hd : Fitted ni no d) (ht : d.typeOfTemporal = .nonTemporal) (h0 : d.unshuffle = .ok d0)
    (h : Uses d d') :
    ∃ d1, d'.unshuffle = .ok d1 ∧ ∀ (r : Run F) (env : Env F) (wait : Wait F) (b ef : Int) (fuel : Nat),
      SameCall (Call.run r (.train env d1 wait b ef fuel)) (Call.run r (.train env d0 wait b ef fuel)) := by
  obtain ⟨o, b1, b2, rfl⟩ : ∃ o b1 b2, d' = { d with training := { d.training with shuffledIndexes := o }, batchedData := b1, batchedLabels := b2 } := by
    refine uses_induct (P := fun d' => ∃ o b1 b2, d' = { d with training := { d.training with shuffledIndexes := o }, batchedData := b1, batchedLabels := b2 })
      ?_ ?_ h ⟨_, _, _, rfl⟩
    · rintro e e' g ⟨o, b1, b2, rfl⟩ hs
      unfold Data.shuffle at hs
      simp only [ht] at hs
      cases hs
      exact ⟨_, _, _, by rw [ht]⟩
    · rintro e e' ⟨o, b1, b2, rfl⟩ ⟨c1, c2, rfl⟩
      exact ⟨o, c1, c2, rfl⟩
  unfold Data.unshuffle at h0 ⊢
  simp only [ht] at h0 ⊢
  refine ⟨_, rfl, fun r env wait b ef fuel => ?_⟩
  have hd0 : Fitted ni no d0 := .unshuffle hd (by unfold Data.unshuffle; simp only [ht]; exact h0)
  cases h0
  exact same_of_buf hd0 ⟨b1, b2, rfl⟩ r env wait b ef fuel

end

/-! ### Without unshuffling, and time series -/

theorem not_same {x y : Res (Run ℚ)} (h : (fun r : Run ℚ => r.snn.net.layers.map fun l => l.body.weights) <$> x ≠
    (fun r : Run ℚ => r.snn.net.layers.map fun l => l.body.weights) <$> y) : ¬ SameCall x y := fun k =>
  h (Res.Rel.map_eq k fun a b e => by rw [e.1])

/-- The first network learned the regression for one epoch. -/
def first : Run ℚ := (Call.run (Demo.run Demo.dense Demo.regression) (.train Demo.env Demo.regression (litEp 1) 1 0 50)).get (by decide +kernel)

theorem first_uses : Uses Demo.regression first.data :=
  .train (Demo.run Demo.dense Demo.regression) first Demo.env (litEp 1) 1 0 50 (Res.eq_get _ _) (.none _)

/-- **C111 is false of trainings on examples, without `unshuffle()`**: a network that trains on a data object after another network learned other weights than
on the data object as it was before, with the same random numbers: the second training shuffles the order that the first one left. -/
theorem C111_order_refuted : ∃ (d d' : Data ℚ), Fitted 2 2 d ∧ d.typeOfTemporal = .nonTemporal ∧ Uses d d' ∧ ∃ (r : Run ℚ) (env : Env ℚ) (wait : Wait ℚ),
    ¬ SameCall (Call.run r (.train env d' wait 1 0 50)) (Call.run r (.train env d wait 1 0 50)) :=
  ⟨_, _, .make1 (Res.eq_get (Data.make1 (F := ℚ) .regression [[1, 0], [0, 1], [1, 1], [2, 1]] [[1, 0], [0, 1], [0, 1], [1, 1]] .nonTemporal 0) (by decide +kernel))
      ⟨by decide +kernel, by simp [Rows], by simp [Rows]⟩ (by intro h; cases h) (by intro h; cases h), by decide +kernel, first_uses,
    Demo.run Demo.dense Demo.regression, Demo.env, litEp 1, not_same (by decide +kernel)⟩

/-- The first network learned the series for one epoch. -/
def firstSeries : Run ℚ := (Call.run (Demo.run Demo.recurrent Demo.series) (.train Demo.env Demo.series (litEp 1) 1 0 50)).get (by decide +kernel)

/-- **C111 is false of time series, even with `unshuffle()`**: the windows of the second training begin at the offset that the first one left. -/
theorem C111_series_refuted : ∃ (d d' d0 d1 : Data ℚ), Fitted 1 1 d ∧ d.typeOfTemporal = .timeSeries ∧ Uses d d' ∧ d.unshuffle = .ok d0 ∧
    d'.unshuffle = .ok d1 ∧ ∃ (r : Run ℚ) (env : Env ℚ) (wait : Wait ℚ),
    ¬ SameCall (Call.run r (.train env d1 wait 1 0 50)) (Call.run r (.train env d0 wait 1 0 50)) :=
  ⟨Demo.series, firstSeries.data, Demo.series.unshuffle.get (by decide +kernel), firstSeries.data.unshuffle.get (by decide +kernel),
    .make1 (Res.eq_get (Data.make1 (F := ℚ) .regression [[1], [2], [3], [4], [5]] [[2], [3], [4], [5], [6]] .timeSeries 1) (by decide +kernel))
      ⟨by decide +kernel, by simp [Rows], by simp [Rows]⟩ (by intro h; cases h) (by intro h; decide), by decide +kernel,
    .train (Demo.run Demo.recurrent Demo.series) firstSeries Demo.env (litEp 1) 1 0 50 (Res.eq_get _ _) (.none _), Res.eq_get _ _, Res.eq_get _ _,
    Demo.run Demo.recurrent Demo.series, Demo.env, litEp 1, not_same (by decide +kernel)⟩

/-! ### The hypotheses are met -/

/-- A second network is trained on the object after the first one, unshuffled: the same training as alone, and it learns something. -/
example : ∃ d1, first.data.unshuffle = .ok d1 ∧ first.data ≠ Demo.regression ∧
    SameCall (Call.run (Demo.run Demo.dense Demo.regression) (.train Demo.env d1 (litEp 1) 1 1 50))
      (Call.run (Demo.run Demo.dense Demo.regression) (.train Demo.env Demo.regression (litEp 1) 1 1 50)) ∧
    (Call.run (Demo.run Demo.dense Demo.regression) (.train Demo.env Demo.regression (litEp 1) 1 1 50)).isOk = true := by
  have hd : Fitted (F := ℚ) 2 2 Demo.regression :=
    .make1 (Res.eq_get (Data.make1 (F := ℚ) .regression [[1, 0], [0, 1], [1, 1], [2, 1]] [[1, 0], [0, 1], [0, 1], [1, 1]] .nonTemporal 0) (by decide +kernel))
      ⟨by decide +kernel, by simp [Rows], by simp [Rows]⟩ (by intro h; cases h) (by intro h; cases h)
  have h0 : Demo.regression.unshuffle = .ok Demo.regression := by decide +kernel
  obtain ⟨d1, h1, h2⟩ := C111_unshuffled_partial hd (by decide +kernel) h0 first_uses
  exact ⟨d1, h1, by decide +kernel, h2 _ _ _ _ _ _, by decide +kernel⟩

/-- Two sequences. -/
def sequences : Data ℚ :=
  (Data.make1seq .regression [[[1], [2], [3]], [[4], [5]]] [[2], [3], [4], [5], [6]] .sequential 0).get (by decide +kernel)

/-- The first network learned the sequences for one epoch. -/
def firstSequences : Run ℚ := (Call.run (Demo.run Demo.recurrent sequences) (.train Demo.env sequences (litEp 1) 1 1 50)).get (by decide +kernel)

example : SameCall (Call.run (Demo.run Demo.recurrent sequences) (.train Demo.env firstSequences.data (litEp 1) 1 1 50))
      (Call.run (Demo.run Demo.recurrent sequences) (.train Demo.env sequences (litEp 1) 1 1 50)) ∧
    (Call.run (Demo.run Demo.recurrent sequences) (.train Demo.env sequences (litEp 1) 1 1 50)).isOk = true :=
  ⟨C111_sequences_partial (ni := 1) (no := 1)
    (.make1seq (Res.eq_get (Data.make1seq (F := ℚ) .regression [[[1], [2], [3]], [[4], [5]]] [[2], [3], [4], [5], [6]] .sequential 0) (by decide +kernel))
      (by simp [Rows]) (by simp [Rows]) (by intro h; cases h)) (by decide +kernel)
    (.train (Demo.run Demo.recurrent sequences) firstSequences Demo.env (litEp 1) 1 1 50 (Res.eq_get _ _) (.none _)) _ _ _ _ _ _, by decide +kernel⟩

end Snn.Shared
