import Verif.Proofs.ObsProofs
import Verif.Proofs.EqualProofs
import Verif.Proofs.StrictProofs
import Verif.Demo.DemoSave

/-!
# C31: a network that is saved and loaded

Full statement: `loadFrom(path)` after `saveAs(path)` gives a network equal to the saved one, that no client can tell apart
from it. It fails when an output has been NaN (the flag is not saved) and when a float of the network is not finite (the file
cannot be read). It is proved for all the other states.
-/

set_option linter.all false

namespace Snn.SaveProps

open Snn.Spec Snn.HistoryProps

section
variable {F : Type} [Flt F] [FTrans F] [Add F] [Sub F] [Mul F] [Div F] [Neg F] [FText F]

theorem layer_forget_forget (l : Layer F) : l.forget.forget = l.forget := by
  obtain ⟨i, o, b⟩ := l
  cases b with
  | gru ns =>
    simp only [Layer.forget, List.map_map]
    congr 1
  | _ => rfl

theorem forget_sim (s : Snn F) (h : s.net.outputNan = false) : s.Sim Stats.Sim s.forget := by
  refine ⟨⟨?_, by simp [Snn.forget, Net.forget, h], rfl, rfl, ?_⟩, rfl, rfl, rfl, rfl, rfl, rfl, rfl⟩
  · simp [Stats.Sim, Snn.forget, Net.forget, Stats.forget, Stats.startTesting, Function.comp_def]
  · simp only [Snn.forget, Net.forget]
    generalize s.net.layers = ls
    induction ls with
    | nil => exact .nil
    | cons l ls ih => exact .cons (layer_forget_forget l).symm ih

/-- C31. After `saveAs(path)` of a network none of whose outputs was NaN and whose floats can all be read back, whatever the
files were before, `loadFrom(path)` returns a network that shows the same values and gives the same answers to every sequence
of calls; with a float comparison that is reflexive on the floats that can be read back, it is `==` to the saved one. -/
theorem C31_save_load_partial (r r' : Run F) (path : String) (files : Files F) (h : r.saveAs path = .ok r')
    (hn : r.snn.net.outputNan = false) (hr : r'.snn.Readable) :
    ∃ s, loadFrom (filesAfter r'.trace files) path = .ok s ∧ SameForClients r'.snn s ∧
      ((∀ x : F, readable x = true → feq x x = true) → r'.snn.eq s = .ok true) := by
  unfold Run.saveAs at h
  split at h
  · cases h
  · cases h
    obtain ⟨a, ha⟩ := load_saved _ hr
    refine ⟨_, ?_, Snn.Sim.sameForClients (forget_sim _ (by exact hn)), ?_⟩
    · simp only [Run.saveSync] at ha
      simp only [loadFrom, Run.saveSync, filesAfter, Event.apply, if_true, ha, Res.ok_bind, Res.pure_eq]
    · intro hx
      have hall : ∀ v, Tok.float v ∈ Snn.codec.save (r.saveSync path).snn → feq v v = true :=
        fun v hv => hx v (by simpa [Tok.ok] using hr _ hv)
      refine Snn.eq_forget ?_ ?_
      · intro v hv
        exact hall v (by simp [Snn.codec, Net.codec, Codec.obj, Codec.pair, hv])
      · intro v hv
        exact hall v (by simp [Snn.codec, Net.codec, Codec.obj, Codec.pair, hv])

/-- A saved file can be loaded exactly when every float written to it is one that can be read back; otherwise loading
throws. -/
theorem C31_loads_iff (r r' : Run F) (path : String) (files : Files F) (h : r.saveAs path = .ok r') :
    ((∃ s, loadFrom (filesAfter r'.trace files) path = .ok s) ↔ r'.snn.Readable) ∧
    ((∃ m, loadFrom (filesAfter r'.trace files) path = .throw m) ↔ ¬ r'.snn.Readable) := by
  unfold Run.saveAs at h
  split at h
  · cases h
  · cases h
    rcases load_saved_or (r.saveSync path).snn with ⟨h1, a, h2⟩ | ⟨h1, m, h2⟩
    · have e : loadFrom (filesAfter (r.saveSync path).trace files) path = .ok (r.saveSync path).snn.forget := by
        simp only [Run.saveSync] at h2
        simp only [loadFrom, Run.saveSync, filesAfter, Event.apply, if_true, h2, Res.ok_bind, Res.pure_eq]
      rw [e]
      exact ⟨⟨fun _ => h1, fun _ => ⟨_, rfl⟩⟩, ⟨fun ⟨m, hm⟩ => (by cases hm), fun hn => absurd h1 hn⟩⟩
    · have e : loadFrom (filesAfter (r.saveSync path).trace files) path = .throw m := by
        simp only [Run.saveSync] at h2
        simp only [loadFrom, Run.saveSync, filesAfter, Event.apply, if_true, h2]
        rfl
      rw [e]
      exact ⟨⟨fun ⟨m, hm⟩ => (by cases hm), fun hn => absurd hn h1⟩, ⟨fun _ => h1, fun _ => ⟨_, rfl⟩⟩⟩

/-- Saving keeps the network, except the path, which becomes the path of auto-save. -/
theorem C31_save_keeps (r r' : Run F) (path : String) (h : r.saveAs path = .ok r') :
    r'.snn = { r.snn with autoSaveFilePath := path } ∧ r'.data = r.data ∧ r'.draws = r.draws := by
  unfold Run.saveAs at h
  split at h
  · cases h
  · cases h; exact ⟨rfl, rfl, rfl⟩

/-- A later save to another file leaves the first file as it was; a later save to the same file replaces it. -/
theorem C31_files (r r' : Run F) (path other : String) (files : Files F) (h : r.saveAs path = .ok r') (ho : other ≠ path) :
    loadFrom (filesAfter r'.trace files) other = loadFrom (filesAfter r.trace files) other := by
  unfold Run.saveAs at h
  split at h
  · cases h
  · cases h
    simp [loadFrom, Run.saveSync, filesAfter, Event.apply, ho]

/-- A file that was never written cannot be loaded. -/
theorem C31_no_file (trace : List (Event F)) (files : Files F) (path : String)
    (h : ∀ s, Event.saved path s ∉ trace) (hf : files path = none) :
    ∃ m, loadFrom (filesAfter trace files) path = .throw m := by
  have : filesAfter trace files path = none := by
    induction trace with
    | nil => exact hf
    | cons e es ih =>
      have ih := ih fun s hs => h s (List.mem_cons_of_mem _ hs)
      cases e with
      | saved p s =>
        have : path ≠ p := fun e => h s (by rw [e]; simp)
        simp [filesAfter, Event.apply, this, ih]
      | _ => exact ih
  exact ⟨_, by simp only [loadFrom, this]; rfl⟩

theorem readable_iff (s : Snn F) : s.Readable ↔ (Snn.codec.save s).all Tok.ok = true := by
  simp [Snn.Readable, List.all_eq_true]

end

/-! ### The hypotheses are met -/

/-- A trained recurrent network that is saved, by the theorem. -/
example : ∃ s, loadFrom (filesAfter (Demo.trained.saveSync "a").trace Demo.noFiles) "a" = .ok s ∧
    SameForClients (Demo.trained.saveSync "a").snn s ∧ (Demo.trained.saveSync "a").snn.eq s = .ok true := by
  obtain ⟨s, h1, h2, h3⟩ := C31_save_load_partial Demo.trained (Demo.trained.saveSync "a") "a" Demo.noFiles
    (by unfold Run.saveAs; rw [if_neg (by decide +kernel)]) (by decide +kernel) ((readable_iff _).2 (by decide +kernel))
  exact ⟨s, h1, h2, h3 (fun x _ => by simp [feq])⟩

/-- It has learned 2 examples. -/
example : Demo.trained.snn.net.numberOfTraining = 2 := by decide +kernel

/-! ### Findings -/

/-- The NaN flag of a network whose output was once NaN is lost by saving and loading, although every saved float is finite:
`isNan` is true before and false after. -/
theorem C31_nan_flag_refuted : ∃ r r' : Run NF, ∃ s : Snn NF, r.saveAs "a" = .ok r' ∧ r'.snn.Readable ∧
    loadFrom (filesAfter r'.trace Demo.noFiles) "a" = .ok s ∧ (visible r'.snn).isNan = true ∧ (visible s).isNan = false := by
  refine ⟨Demo.nanRun Demo.nanThenNumber, (Demo.nanRun Demo.nanThenNumber).saveSync "a",
    (loadFrom (filesAfter ((Demo.nanRun Demo.nanThenNumber).saveSync "a").trace Demo.noFiles) "a").get (by decide +kernel), ?_,
    (readable_iff _).2 (by decide +kernel), Res.eq_get _ _, by decide +kernel, by decide +kernel⟩
  unfold Run.saveAs
  rw [if_neg (by decide +kernel)]

/-- A network whose last output is NaN is saved without error to a file that cannot be loaded. -/
theorem C31_unreadable_refuted : ∃ r r' : Run NF, r.saveAs "a" = .ok r' ∧
    ∃ m, loadFrom (filesAfter r'.trace Demo.noFiles) "a" = .throw m := by
  refine ⟨Demo.nanRun Demo.afterNan, (Demo.nanRun Demo.afterNan).saveSync "a", ?_, "input stream error", Res.eq_throw (by decide +kernel)⟩
  unfold Run.saveAs
  rw [if_neg (by decide +kernel)]

end Snn.SaveProps
