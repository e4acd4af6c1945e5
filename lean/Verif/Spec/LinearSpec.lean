import Verif.Spec.AccuracySpec
import Verif.Spec.ArchSpec
import Verif.Basic.RealFlt
import Mathlib.Algebra.BigOperators.Group.Finset.Basic

/-!
# Specification: networks without hidden nonlinearity, and what a plane can separate
-/

namespace Snn.Spec

open Finset

/-- The affine form `Σ_i w_i x_i + c`. -/
noncomputable def form (w : Nat → ℝ) (c : ℝ) (x : List ℝ) : ℝ := (∑ i ∈ range x.length, w i * x.getD i 0) + c

/-- A hidden layer that is linear: fully connected, with the activation identity, and any layer optimizers but Softmax. -/
inductive LinearHidden : LayerModel ℝ → Prop
  | fullyConnected {n : Int} {opts : List (LayerOptModel ℝ)} (h : LayerOptModel.softmax ∉ opts) : LinearHidden (.fullyConnected n .identity opts)

/-- The layer optimizers that change the training only. -/
def TrainingOnly : LayerOptModel ℝ → Prop
  | .l1 _ | .l2 _ | .errorMultiplier _ => True
  | .dropout _ | .softmax => False

/-- Any number of linear hidden layers, then a fully connected layer with the activation `act`. -/
def Perceptron (act : Act) (arch : List (LayerModel ℝ)) : Prop :=
  ∃ s hidden n opts, arch = .input s :: (hidden ++ [.fullyConnected n act opts]) ∧ (∀ m ∈ hidden, LinearHidden m) ∧ ∀ o ∈ opts, TrainingOnly o

/-- The activations that never decrease. -/
def Increasing : Act → Prop
  | .gelu | .gaussian => False
  | _ => True

/-- The activations that increase strictly. -/
def StrictlyIncreasing : Act → Prop
  | .gelu | .gaussian | .relu => False
  | _ => True

/-- A plane separates the examples that have the property P from the others. -/
def Separable (examples : List (List ℝ × List ℝ)) (P : List ℝ × List ℝ → Prop) : Prop :=
  ∃ w c, ∀ row ∈ examples, P row ↔ 0 < form w c row.1

end Snn.Spec
