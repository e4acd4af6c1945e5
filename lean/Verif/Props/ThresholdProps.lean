import Verif.Proofs.ThresholdProofs
import Verif.Demo.Demo

/-! # C112: what the precision and the separator of the data do to an evaluation -/

set_option linter.all false

namespace Snn.Threshold

open Snn.Spec Snn.HistoryProps Snn.TrainProofs

section
variable {F : Type} [Field F] [LinearOrder F] [IsStrictOrderedRing F] [FTrans F]

/-- **C112, precision** (exact arithmetic): one network in any state, one regression data set, two precisions, the second not smaller. The two evaluations both
return or fail in the same way; when they return, the accuracy reported with the larger precision is not smaller, the mean absolute error and the root mean
squared error are the same, and so are the two networks' layers. -/
theorem C112_precision {d d1 d2 : Data F} {p p' : F} (hp : p ≤ p') (h1 : d.setPrecision p = .ok d1) (h2 : d.setPrecision p' = .ok d2) (r : Run F) (env : Env F) :
    Res.Rel (fun a b => a.snn.net.layers = b.snn.net.layers ∧ a.snn.net.stats.globalRate ≤ b.snn.net.stats.globalRate ∧
      a.snn.net.stats.mae = b.snn.net.stats.mae ∧ a.snn.net.stats.rmse = b.snn.net.stats.rmse)
      (Call.run r (.evaluate env d1)) (Call.run r (.evaluate env d2)) := by
  unfold Data.setPrecision at h1 h2
  split at h1
  · rename_i ht
    rw [if_pos ht] at h2
    cases h1
    cases h2
    refine evaluate_alike (Q := QReg) (P := fun s t => s.globalRate ≤ t.globalRate ∧ s.mae = t.mae ∧ s.rmse = t.rmse) ⟨p', d.separator, rfl⟩ ?_ r env ?_ ?_ ?_
    · have := once_alike (Q := QReg) (d := d) (p := p) (p' := p') (s := d.separator) (s' := d.separator)
        (by simp only [ht]; intro a b out y h; exact regression_step hp h)
      exact this
    · refine ⟨?_, le_rfl, rfl, by simp [Stats.startTesting]⟩
      exact List.forall₂_same.2 fun _ _ => rfl
    · intro s t h
      refine ⟨?_, errors_eq h.clusters h.sum⟩
      show s.computeGlobalRate ≤ t.computeGlobalRate
      unfold Stats.computeGlobalRate
      rw [← h.sum]
      exact div_le_div_of_nonneg_right h.well h.nonneg
    · rintro s t ⟨h1, h2, _, _, h3, h4, h5, h6⟩
      exact ⟨by rw [h1, h2], by rw [h3, h4], by rw [h5, h6]⟩
  · cases h1

theorem sep_start (s : Stats F) : QSep s.startTesting s.startTesting := by
  refine ⟨?_, rfl⟩
  refine List.forall₂_same.2 fun c hc => ?_
  obtain ⟨_, _, rfl⟩ := List.mem_map.1 hc
  exact ⟨rfl, le_rfl, by simp [Cluster.zero], rfl, by simp [Cluster.zero]⟩

/-- **C112, separator of a classification** (exact arithmetic): one network in any state, one classification data set, two separators, the second not smaller. The
two evaluations both return or fail in the same way; when they return, the accuracy, the mean absolute error and the root mean squared error are the same, the
weighted accuracy reported with the larger separator is not larger, and the two networks' layers are the same. -/
theorem C112_separator {d d1 d2 : Data F} {s s' : F} (hs : s ≤ s') (ht : d.typeOfProblem = .classification) (h1 : d.setSeparator s = .ok d1)
    (h2 : d.setSeparator s' = .ok d2) (r : Run F) (env : Env F) :
    Res.Rel (fun a b => a.snn.net.layers = b.snn.net.layers ∧ a.snn.net.stats.globalRate = b.snn.net.stats.globalRate ∧
      b.snn.net.stats.weightedRate ≤ a.snn.net.stats.weightedRate ∧ a.snn.net.stats.mae = b.snn.net.stats.mae ∧
      a.snn.net.stats.rmse = b.snn.net.stats.rmse)
      (Call.run r (.evaluate env d1)) (Call.run r (.evaluate env d2)) := by
  unfold Data.setSeparator at h1 h2
  rw [if_pos (.inl ht)] at h1 h2
  cases h1
  cases h2
  refine evaluate_alike (Q := fun a b => QSep a b ∧ a.wellClassified = b.wellClassified)
    (P := fun x y => x.globalRate = y.globalRate ∧ y.weightedRate ≤ x.weightedRate ∧ x.mae = y.mae ∧ x.rmse = y.rmse) ⟨d.precision, s', rfl⟩ ?_ r env ?_ ?_ ?_
  · have := once_alike (Q := fun a b => QSep a b ∧ a.wellClassified = b.wellClassified) (d := d) (p := d.precision) (p' := d.precision) (s := s) (s' := s')
      (by simp only [ht]; intro a b out y h; exact classification_step hs h)
    exact this
  · exact ⟨sep_start _, rfl⟩
  · rintro x y ⟨h, hw⟩
    refine ⟨?_, weighted_le h, errors_eq (h.clusters.imp fun _ _ k => k.1) h.sum⟩
    show x.computeGlobalRate = y.computeGlobalRate
    unfold Stats.computeGlobalRate
    rw [h.sum, hw]
  · rintro x y ⟨h1, h2, h3, h4, h5, h6, h7, h8⟩
    exact ⟨by rw [h1, h2], by rw [h3, h4], by rw [h5, h6], by rw [h7, h8]⟩

/-- **C112, separator of a multiple classification** (exact arithmetic): the same for a multiple classification in which no expected value of the testing set lies
between the two separators (the values 0 and 1, with separators in [0, 1)): same errors, the weighted accuracy does not grow. The accuracy itself can go either
way: `C112_both_ways`. -/
theorem C112_multiple {d d1 d2 : Data F} {s s' : F} (hs : s ≤ s') (ht : d.typeOfProblem = .multipleClassification) (h1 : d.setSeparator s = .ok d1)
    (h2 : d.setSeparator s' = .ok d2) (hy : ∀ y ∈ d.testing.labels, ∀ x ∈ y, (s < x ↔ s' < x)) (r : Run F) (env : Env F) :
    Res.Rel (fun a b => a.snn.net.layers = b.snn.net.layers ∧ b.snn.net.stats.weightedRate ≤ a.snn.net.stats.weightedRate ∧
      a.snn.net.stats.mae = b.snn.net.stats.mae ∧ a.snn.net.stats.rmse = b.snn.net.stats.rmse)
      (Call.run r (.evaluate env d1)) (Call.run r (.evaluate env d2)) := by
  unfold Data.setSeparator at h1 h2
  rw [if_pos (.inr ht)] at h1 h2
  cases h1
  cases h2
  refine evaluate_alike (Q := QSep)
    (P := fun x y => y.weightedRate ≤ x.weightedRate ∧ x.mae = y.mae ∧ x.rmse = y.rmse) ⟨d.precision, s', rfl⟩ ?_ r env ?_ ?_ ?_
  · have := once_alike (Q := QSep) (d := d) (p := d.precision) (p' := d.precision) (s := s) (s' := s')
      (by simp only [ht]; intro a b out y hm h; exact multiple_step hs (hy y hm) h)
    exact this
  · exact sep_start _
  · intro x y h
    exact ⟨weighted_le h, errors_eq (h.clusters.imp fun _ _ k => k.1) h.sum⟩
  · rintro x y ⟨h1, h2, h3, h4, h5, h6, h7, h8⟩
    exact ⟨by rw [h3, h4], by rw [h5, h6], by rw [h7, h8]⟩

end

/-! ### Non-vacuity -/

section Examples

/-- What an evaluation reports. -/
def report (r : Res (Run ℚ)) : Option (ℚ × ℚ × ℚ) := match r with
  | .ok r => some (r.snn.net.stats.globalRate, r.snn.net.stats.weightedRate, r.snn.net.stats.mae)
  | _ => none

/-- A dense network 2 → 2, without hidden layer. -/
def flatArch : List (LayerModel ℚ) := [.input [2], .fullyConnected 2 .identity []]
/-- Its draws. -/
def flatDraws : Draws ℚ := fun i => if i = 1 ∨ i = 3 then 1 else 0
/-- Its outputs are 4/5 (1 - x + y) and 4/5 (1 + x - y). -/
def flat : Snn ℚ := ((Snn.make flatArch { learningRate := 1/10, momentum := 0 } flatDraws).get (by decide +kernel)).1
/-- A regression. -/
def reg : Data ℚ := (Data.make1 .regression [[1, 0], [0, 1], [1, 1], [2, 1]] [[1, 0], [0, 3], [0, 1], [1, 1]] .nonTemporal 0).get (by decide +kernel)
/-- A classification. -/
def cls : Data ℚ := (Data.make1 .classification [[1, 0], [0, 1], [1, 2], [2, 1]] [[1, 0], [0, 1], [1, 0], [1, 0]] .nonTemporal 0).get (by decide +kernel)
/-- A multiple classification whose example expects nothing. -/
def mul0 : Data ℚ := (Data.make1 .multipleClassification [[1, 1]] [[0, 0]] .nonTemporal 0).get (by decide +kernel)
/-- A multiple classification whose example expects both. -/
def mul1 : Data ℚ := (Data.make1 .multipleClassification [[1, 1]] [[1, 1]] .nonTemporal 0).get (by decide +kernel)

/-- Precision 1/2 then 2: the accuracy goes from 0 to 3/4, the mean absolute error stays 49/20. -/
example : report (Call.run (Demo.run flat reg) (.evaluate Demo.env ((reg.setPrecision (1/2)).get (by decide +kernel)))) = some (0, 0, 49/20) ∧
    report (Call.run (Demo.run flat reg) (.evaluate Demo.env ((reg.setPrecision 2).get (by decide +kernel)))) = some (3/4, 0, 49/20) := by decide +kernel

example := C112_precision (show (1/2 : ℚ) ≤ 2 by norm_num) (Res.eq_get (reg.setPrecision (1/2)) (by decide +kernel)) (Res.eq_get (reg.setPrecision 2) (by decide +kernel))
  (Demo.run flat reg) Demo.env

/-- Separator 1/2 then 2: the accuracy stays 1/4, the weighted accuracy goes from 1/6 to 0. -/
example : report (Call.run (Demo.run flat cls) (.evaluate Demo.env ((cls.setSeparator (1/2)).get (by decide +kernel)))) = some (1/4, 1/6, 21/10) ∧
    report (Call.run (Demo.run flat cls) (.evaluate Demo.env ((cls.setSeparator 2).get (by decide +kernel)))) = some (1/4, 0, 21/10) := by decide +kernel

example := C112_separator (show (1/2 : ℚ) ≤ 2 by norm_num) rfl (Res.eq_get (cls.setSeparator (1/2)) (by decide +kernel))
  (Res.eq_get (cls.setSeparator 2) (by decide +kernel)) (Demo.run flat cls) Demo.env

example := C112_multiple (show (1/2 : ℚ) ≤ 9/10 by norm_num) rfl (Res.eq_get (mul1.setSeparator (1/2)) (by decide +kernel))
  (Res.eq_get (mul1.setSeparator (9/10)) (by decide +kernel)) (by decide +kernel) (Demo.run flat mul1) Demo.env

/-- **C112, the accuracy of a multiple classification**: raising the separator from 1/2 to 9/10 raises the accuracy of the same network from 0 to 1 on one data
set, and lowers it from 1 to 0 on another (the weighted accuracy, too, goes from 1 to 0 there). -/
theorem C112_both_ways :
    (report (Call.run (Demo.run flat mul0) (.evaluate Demo.env ((mul0.setSeparator (1/2)).get (by decide +kernel))))).map Prod.fst = some 0 ∧
    (report (Call.run (Demo.run flat mul0) (.evaluate Demo.env ((mul0.setSeparator (9/10)).get (by decide +kernel))))).map Prod.fst = some 1 ∧
    report (Call.run (Demo.run flat mul1) (.evaluate Demo.env ((mul1.setSeparator (1/2)).get (by decide +kernel)))) = some (1, 1, 2/5) ∧
    report (Call.run (Demo.run flat mul1) (.evaluate Demo.env ((mul1.setSeparator (9/10)).get (by decide +kernel)))) = some (0, 0, 2/5) := by
  decide +kernel

end Examples

end Snn.Threshold
