import Verif.Spec.OnlineSpec
import Verif.Props.HistoryProps

/-!
# Specification: studying a training set
-/

namespace Snn.Spec

open Snn.HistoryProps

/-- The examples of the training set of a data object. -/
def examplesOf (data : Data ℝ) : List Example := data.training.inputs.zip data.training.labels

/-- The rule W gives the expected outputs of all the examples. -/
def Explains (f : List ℝ → List ℝ) (X : List Example) : Prop := ∀ p ∈ X, f p.1 = p.2

/-- The call trains, if it trains at all, on the examples X: `train(data, N_ep, 1)` for some N, the data being no time series. -/
def Studies (X : List Example) : Call ℝ → Prop
  | .train _ data wait b _ _ => examplesOf data = X ∧ data.typeOfTemporal ≠ .timeSeries ∧ b = 1 ∧ ∃ N : Nat, N < 2 ^ 31 ∧ wait = litEp N
  | _ => True

/-- The number of epochs of a call. -/
def epochsOf : Call ℝ → Nat
  | .train _ _ wait _ _ _ => wait.epochs.toNat
  | _ => 0

/-- The number of epochs of a sequence of calls. -/
def epochs (calls : List (Call ℝ)) : Nat := (calls.map epochsOf).sum

end Snn.Spec
