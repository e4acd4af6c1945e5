import Mathlib.Probability.ProductMeasure
import Mathlib.MeasureTheory.Measure.Lebesgue.Basic
import Mathlib.MeasureTheory.Integral.Bochner.Set
import Verif.Model.Training
import Verif.Basic.RealFlt

/-!
# Specification: chance

The draws of the random generator as independent random numbers, uniform in [0, 1).
-/

namespace Snn.Spec

open MeasureTheory

/-- The uniform law on [0, 1). -/
noncomputable def uniform01 : Measure ℝ := volume.restrict (Set.Ico 0 1)

/-- The law of an infinite sequence of independent draws, each uniform in [0, 1). -/
noncomputable def drawsLaw : Measure (ℕ → ℝ) := Measure.infinitePi fun _ => uniform01

/-- The mean of a random number. -/
noncomputable def mean (f : (ℕ → ℝ) → ℝ) : ℝ := ∫ d, f d ∂drawsLaw

/-- The probability of an event. -/
noncomputable def probability (A : Set (ℕ → ℝ)) : ℝ := (drawsLaw A).toReal

/-- What a pass of training answers. -/
noncomputable def trainingAnswer (s : Snn ℝ) (inputs : List ℝ) (d : Draws ℝ) : Option (List ℝ) :=
  match s.net.outputForTraining inputs true d with
  | .ok (outputs, _, _) => some outputs
  | _ => none

/-- The output i of a pass of training that starts a new sequence, for the given draws. -/
noncomputable def trainingOutput (s : Snn ℝ) (inputs : List ℝ) (i : Nat) (d : Draws ℝ) : ℝ := ((trainingAnswer s inputs d).getD []).getD i 0

/-- The optimizers a layer may have after (or at) the first dropout: not Softmax, that is not linear, and rates that are probabilities. -/
def MeanSafe : LayerOptModel ℝ → Prop
  | .dropout p => 0 ≤ p ∧ p ≤ 1
  | .softmax => False
  | _ => True

/-- A layer of neurons, with these optimizers. -/
def Dense (m : LayerModel ℝ) (opts : List (LayerOptModel ℝ)) : Prop :=
  (∃ n a, m = .fullyConnected n a opts) ∨ (∃ n a, m = .recurrence n a opts) ∨ ∃ n, m = .gru n opts

/-- A linear layer, with these optimizers. -/
def Linear (m : LayerModel ℝ) (opts : List (LayerOptModel ℝ)) : Prop := ∃ n, m = .fullyConnected n .identity opts

end Snn.Spec
