import Verif.Proofs.CrashProofs
import Verif.Props.SaveProps

/-! C83: a crash at any moment, in particular during a save or an auto-save. -/

set_option linter.all false

namespace Snn.CrashProps

open Snn

section
variable {F : Type} [Flt F] [FTrans F] [Add F] [Sub F] [Mul F] [Div F] [Neg F] [FText F]

theorem load_throws {files : Files F} {path : String} {a : Archive F} (hf : files path = some a) (h : (Snn.codec.load a).Throws) :
    ∃ m, loadFrom files path = .throw m := by
  simp only [loadFrom, hf]
  exact h.bind _

theorem cut_load {s : Snn F} {b : Archive F} (h : Cut (Snn.codec.save s) b) :
    (Snn.codec.load b).Throws ∨ ∃ j a, Snn.codec.load b = .ok ({ s.forget with numberOfTrainingsBetweenTwoEvaluations := j }, a) := by
  have hd : ∀ n, n < (Snn.codec.save s).length → (Snn.codec.save s).drop n ≠ [] := by
    intro n hn h
    have := congrArg List.length h
    simp at this
    omega
  cases h with
  | between n hn => exact .inl (Snn.whole.between s _ _ (List.take_append_drop n _) (hd n hn))
  | inside n t hn =>
    rcases Snn.inside_last s (t := t) (List.take_append_drop n _) (hd n hn) with h | ⟨j, h⟩
    · exact .inl h
    · exact .inr ⟨j, [], h⟩

/-- **C83, proved part.** Crash at any moment of any run, in particular in the middle of a save or an auto-save, at any byte of the
file. Afterwards, for every path: `loadFrom(path)` answers as if the run had stopped at some moment between two saves, or it throws,
or it gives the network that was being saved to this path, with all its parameters and settings, at most the last value of the file
(the number of trainings between two evaluations, which each training sets again) being another one. It never gives a mixture of
two networks, a network with other weights, or undefined behaviour; and a crash during a save to another path changes nothing here.
Missing: that one of the two networks can always be loaded, see `C83_lost_refuted`. -/
theorem C83_no_mixture_partial (trace : List (Event F)) (files cf : Files F) (h : AfterCrash trace files cf) (path : String) :
    (∃ newer older, trace = newer ++ older ∧ loadFrom cf path = loadFrom (filesAfter older files) path) ∨
    (∃ s, .saved path s ∈ trace ∧ ((∃ m, loadFrom cf path = .throw m) ∨
      ∃ j, loadFrom cf path = .ok { s.forget with numberOfTrainingsBetweenTwoEvaluations := j })) := by
  cases h with
  | between newer older h => exact .inl ⟨newer, older, h, rfl⟩
  | during newer older p s b h hb =>
    by_cases hp : path = p
    · subst hp
      refine .inr ⟨s, by rw [h]; simp, ?_⟩
      rcases cut_load hb with h1 | ⟨j, a, h1⟩
      · exact .inl (load_throws (by simp) h1)
      · refine .inr ⟨j, ?_⟩
        simp only [loadFrom, if_true, h1]
        rfl
    · refine .inl ⟨newer ++ [.saved p s], older, by rw [h]; simp, ?_⟩
      simp only [loadFrom, if_neg hp]

/-- The network that is loaded in the last case is the one that loading the complete file gives. -/
theorem C83_complete (s : Snn F) (path : String) (older : List (Event F)) (files : Files F) :
    loadFrom (filesAfter (.saved path s :: older) files) path = .ok s.forget ∨ ∃ m, loadFrom (filesAfter (.saved path s :: older) files) path = .throw m := by
  simp only [loadFrom, filesAfter, Event.apply, if_true]
  rcases load_saved_or s with ⟨_, a, h⟩ | ⟨_, m, h⟩
  · exact .inl (by rw [h]; rfl)
  · exact .inr ⟨m, by rw [h]; rfl⟩

/-- **C83, refutation.** The user expects that after a crash either the previous or the new network can be loaded. But every save
empties the file first: for every run and every path, whatever was in the file, there is a moment during `saveAs(path)` such that
after a crash at this moment nothing can be loaded from this path. The same holds for every save of any run, so for auto-saves. -/
theorem C83_lost_refuted (r r' : Run F) (path : String) (files : Files F) (h : r.saveAs path = .ok r') :
    ∃ cf, AfterCrash r'.trace files cf ∧ ∃ m, loadFrom cf path = .throw m := by
  unfold Run.saveAs at h
  split at h
  · cases h
  · cases h
    refine ⟨_, .during [] r.trace path (r.saveSync path).snn [] rfl (.between 0 ?_), ?_⟩
    · simp [Snn.codec, Net.codec, Stats.codec, Codec.obj, Codec.pair, Codec.vec]
    · exact load_throws (a := []) (by simp) Snn.whole.empty

/-- The same for the saves of a training (auto-saves). -/
theorem C83_autosave_refuted (trace newer older : List (Event F)) (path : String) (s : Snn F) (files : Files F)
    (h : trace = newer ++ .saved path s :: older) : ∃ cf, AfterCrash trace files cf ∧ ∃ m, loadFrom cf path = .throw m := by
  refine ⟨_, .during newer older path s [] h (.between 0 ?_), load_throws (a := []) (by simp) Snn.whole.empty⟩
  simp [Snn.codec, Net.codec, Stats.codec, Codec.obj, Codec.pair, Codec.vec]

end

/-! ### The hypotheses are met -/

/-- The trained network saved twice to one file. -/
def saved1 : Run ℚ := Demo.trained.saveSync "a"
/-- The second save. -/
def saved2 : Run ℚ := saved1.saveSync "a"

/-- The network can be loaded after the first save, and after a crash during the second it cannot. -/
example : (∃ s, loadFrom (filesAfter saved1.trace Demo.noFiles) "a" = .ok s) ∧
    ∃ cf, AfterCrash saved2.trace Demo.noFiles cf ∧ ∃ m, loadFrom cf "a" = .throw m := by
  refine ⟨⟨_, Res.eq_get _ (by decide +kernel)⟩, ?_⟩
  exact C83_lost_refuted saved1 saved2 "a" Demo.noFiles (by unfold Run.saveAs; rw [if_neg (by decide +kernel)]; rfl)

/-- A crash in the middle of the second save, 20 values and a piece of one more having been written: the conclusion of C83 is one of the
two last cases. -/
example : ∃ cf, AfterCrash saved2.trace Demo.noFiles cf ∧ cf "a" = some ((Snn.codec.save saved2.snn).take 20 ++ [.int 3]) ∧
    (loadFrom cf "a").isOk = false := by
  refine ⟨_, .during [] saved1.trace "a" saved2.snn _ rfl (.inside 20 (.int 3) (by decide +kernel)), rfl, by decide +kernel⟩

end Snn.CrashProps
