import Verif.Model.Training
import Verif.Props.HistoryProps

/-!
# Specification: the same data and calls with the inputs transformed
-/

namespace Snn.Spec

open Snn.HistoryProps

variable {F : Type}

/-- The data object with every training and testing input transformed by φ; labels, order, flags and settings are the same. -/
def mapData (φ : List F → List F) (d : Data F) : Data F :=
  { d with
    training := { d.training with inputs := d.training.inputs.map φ }
    testing := { d.testing with inputs := d.testing.inputs.map φ } }

/-- The call with its inputs transformed. -/
def mapCall (φ : List F → List F) : Call F → Call F
  | .computeOutput x t => .computeOutput (φ x) t
  | .computeCluster x t => .computeCluster (φ x) t
  | .evaluate env d => .evaluate env (mapData φ d)
  | .train env d wait b ef fuel => .train env (mapData φ d) wait b ef fuel
  | .saveAs path => .saveAs path
  | .autoSave w path => .autoSave w path

/-- Every input of the call has w values. -/
def CallRect (w : Nat) : Call F → Prop
  | .computeOutput x _ => x.length = w
  | .computeCluster x _ => x.length = w
  | .evaluate _ d => d.sizeOfData = w ∧ (∀ x ∈ d.training.inputs, x.length = w) ∧ (∀ x ∈ d.testing.inputs, x.length = w)
  | .train _ d _ _ _ _ => d.sizeOfData = w ∧ (∀ x ∈ d.training.inputs, x.length = w) ∧ (∀ x ∈ d.testing.inputs, x.length = w)
  | .saveAs _ => True
  | .autoSave _ _ => True

/-- What a run reported: the epoch and the statistics of each evaluation, the newest first. -/
def reports (r : Run F) : List (Int × Stats F) := r.trace.filterMap fun e => match e with
  | .evaluated epoch stats => some (epoch, stats)
  | _ => none

end Snn.Spec
