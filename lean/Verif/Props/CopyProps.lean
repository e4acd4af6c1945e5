import Verif.Proofs.ReachProofs
import Verif.Proofs.EqualProofs
import Verif.Proofs.ObsProofs
import Verif.Demo.DemoSave

/-!
# C32: the copy of a network

Full statement: the copy constructor yields an equal network, and using either afterwards never changes the other. The second half is
in `Props/HeapProps.lean`. The first half holds for every idle network without a pending request to stop; it fails otherwise.
-/

set_option linter.all false

namespace Snn.CopyProps

open Snn.Spec

section
variable {F : Type} [Flt F] [FTrans F] [Add F] [Sub F] [Mul F] [Div F] [Neg F] [FText F]

theorem startTesting_idem (s : Stats F) : s.startTesting.startTesting = s.startTesting := by
  simp [Stats.startTesting]

/-- C32. A network that a program can hold, idle and without a request to stop, can be copied; no client can tell the copy from the
original, and if no float is NaN the two compare equal. -/
theorem C32_copy_partial (arch : List (LayerModel F)) (s : Snn F) (h : Reach arch s) (hi : s.isIdle = true)
    (hw : s.wantToStopTraining = false) :
    ∃ t, s.copy = .ok t ∧ SameForClients s t ∧ ((∀ x : F, feq x x = true) → s.eq t = .ok true) := by
  refine ⟨_, Snn.copy_eq h.set, Snn.Sim.sameForClients ⟨⟨?_, rfl, rfl, rfl, ?_⟩, hw.symm, hi.symm, rfl, rfl, rfl, rfl, rfl⟩, ?_⟩
  · exact (startTesting_idem _).symm
  · exact forall₂_refl Layer.Sim.refl _
  · intro hx
    have := Snn.eq_refl (s := s) (fun v _ => hx v) (fun v _ => hx v)
    unfold Snn.eq at this ⊢
    simp only [Net.eq, hi, hw] at this ⊢
    exact this

/-- The copy of any network is idle and has no request to stop; its parameters, its counters of training, its rates and its records
are those of the original. -/
theorem C32_copy_shows (arch : List (LayerModel F)) (s : Snn F) (h : Reach arch s) :
    ∃ t, s.copy = .ok t ∧ visible t = { visible s with isTraining := false } ∧ t.wantToStopTraining = false :=
  ⟨_, Snn.copy_eq h.set, rfl, rfl⟩

end

/-! ### Witness -/

/-- A trained recurrent network is copied. -/
example : ∃ t, Demo.trained.snn.copy = .ok t ∧ SameForClients Demo.trained.snn t ∧ Demo.trained.snn.eq t = .ok true := by
  obtain ⟨t, h1, h2, h3⟩ := C32_copy_partial Demo.recurrentArch Demo.trained.snn
    (.call (c := .train Demo.env Demo.series (litEp 1) 1 1 50) (r := Demo.run Demo.recurrent Demo.series)
      (.make (o := Demo.sgd) (d := Demo.draws) (Res.eq_get _ (by decide +kernel))) (Res.eq_get _ (by decide +kernel)))
    (by decide +kernel) (by decide +kernel)
  exact ⟨t, h1, h2, h3 fun x => by simp [feq]⟩

/-! ### Findings -/

/-- After `stopTrainingAsync` a network is not equal to its copy. -/
theorem C32_copy_after_stop_refuted : ∃ s t : Snn ℚ, Reach Demo.recurrentArch s ∧ s.isIdle = true ∧ s.copy = .ok t ∧
    s.eq t = .ok false := by
  refine ⟨{ Demo.trained.snn with wantToStopTraining := true },
    (Snn.copy { Demo.trained.snn with wantToStopTraining := true }).get (by decide +kernel), .stop ?_, by decide +kernel,
    Res.eq_get _ _, by decide +kernel⟩
  exact .call (c := .train Demo.env Demo.series (litEp 1) 1 1 50) (r := Demo.run Demo.recurrent Demo.series)
      (.make (o := Demo.sgd) (d := Demo.draws) (Res.eq_get _ (by decide +kernel))) (Res.eq_get _ (by decide +kernel))

/-- The check "must be idle to be copied" never fires: a network that is not idle is copied without error, and its copy is idle, hence
different. -/
theorem C32_copy_while_training_refuted : ∃ s t : Snn ℚ, s.isIdle = false ∧ s.copy = .ok t ∧ t.isIdle = true ∧
    s.eq t = .ok false := by
  refine ⟨{ Demo.trained.snn with isIdle := false },
    (Snn.copy { Demo.trained.snn with isIdle := false }).get (by decide +kernel), rfl, Res.eq_get _ _, by decide +kernel, by decide +kernel⟩

end Snn.CopyProps
