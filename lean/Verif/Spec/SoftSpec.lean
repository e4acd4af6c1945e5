import Verif.Spec.GradSpec
import Verif.Spec.LayerOptSpec
import Mathlib.Analysis.SpecialFunctions.Log.Basic

/-!
# Specification: classification with Softmax

The loss of a network that answers with probabilities is the cross-entropy of its outputs.
-/

namespace Snn.Spec

open Finset

/-- The cross-entropy of the probabilities `p` for the expected probabilities `d`: `- Σ d_j log p_j`. -/
noncomputable def crossEntropy (d p : List ℝ) : ℝ := - ∑ j ∈ range d.length, d.getD j 0 * Real.log (p.getD j 0)

/-- The cross-entropy of the outputs of a network on one example. -/
noncomputable def crossLoss (n : Net ℝ) (x d : List ℝ) : ℝ :=
  match n.output x false with
  | .ok (p, _) => crossEntropy d p
  | _ => 0

/-- Layers as in `PlainChain`, that end with a fully connected layer with the optimizer Softmax. -/
inductive SoftChain : Bool → List (LayerModel ℝ) → List Nat → Prop
  | last {first : Bool} {n : Int} {act : Act} {s : List Nat} (ha : act ≠ .iSigmoid) : SoftChain first [.fullyConnected n act [.softmax]] s
  | cons {first : Bool} {m : LayerModel ℝ} {ms : List (LayerModel ℝ)} {s s' : List Nat} (hp : PlainLayer first m s) (hf : Fits m s s')
      (hs : SoftChain false ms s') : SoftChain first (m :: ms) s

/-- A well formed architecture of such layers. -/
structure SoftArch (arch : List (LayerModel ℝ)) (s s' : List Nat) : Prop where
  wellFormed : WellFormed arch s s'
  ends : EndsWithNeurons arch
  soft : SoftChain true arch.tail s

end Snn.Spec
