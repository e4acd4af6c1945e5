import Verif.Spec.NeuronSpec
import Verif.Spec.ArchSpec
import Verif.Basic.B32

/-!
# Specification: accuracy of single-precision inference

An ideal network has the same weights and computes with exact numbers. The bound of the error of every value is computed from the
weights and the ideal values, layer by layer.
-/

namespace Snn.Spec

open Finset

/-- The activation functions without rounding: the identity and the rectified linear unit. -/
def exactAct (a : Act) (v : ℚ) : ℚ := if a = .relu then max 0 v else v

/-- The ideal outputs of a layer with weights W: the activation of the affine form with bias 1. -/
def idealLayer (a : Act) (W : List (List ℚ)) (x : List ℚ) : List ℚ := W.map fun w => exactAct a (affine w x 1)

/-- `Σ |w_i| δ_i`: what the errors of the inputs contribute. -/
def spread (w δ : List ℚ) : ℚ := ∑ i ∈ range δ.length, |w.getD i 0| * δ.getD i 0

/-- `Σ |w_i| (|x_i| + δ_i) + |w_n|`: the greatest value that the terms of the affine form can sum up to. -/
def magnitude (w x δ : List ℚ) : ℚ := (∑ i ∈ range x.length, |w.getD i 0| * (|x.getD i 0| + δ.getD i 0)) + |w.getD x.length 0|

/-- The bound of the errors of the outputs of a layer, from the ideal inputs x and the bounds δ of their errors: n + 2 roundings of
relative error 2^-24 (counted twice) and of absolute error 2^-150 in the subnormal range. -/
def errorLayer (W : List (List ℚ)) (x δ : List ℚ) : List ℚ :=
  W.map fun w => (x.length + 2) * 2 ^ (-23 : ℤ) * magnitude w x δ + (x.length + 1) * 2 ^ (-148 : ℤ) + spread w δ

/-- The ideal outputs of a network, given by the activations and the weights of its layers. -/
def ideal : List (Act × List (List ℚ)) → List ℚ → List ℚ
  | [], x => x
  | (a, W) :: ls, x => ideal ls (idealLayer a W x)

/-- The bounds of the errors of its outputs. -/
def errorBound : List (Act × List (List ℚ)) → List ℚ → List ℚ → List ℚ
  | [], _, δ => δ
  | (a, W) :: ls, x, δ => errorBound ls (idealLayer a W x) (errorLayer W x δ)

/-- No value of the network can overflow: the layers have less than 2^23 - 1 inputs, and the terms of no sum sum up to more than 2^125. -/
def Moderate : List (Act × List (List ℚ)) → List ℚ → List ℚ → Prop
  | [], _, _ => True
  | (a, W) :: ls, x, δ => x.length + 2 ≤ 2 ^ 23 ∧ (∀ w ∈ W, magnitude w x δ ≤ 2 ^ 125) ∧ Moderate ls (idealLayer a W x) (errorLayer W x δ)

/-- Fully connected layers with these activation functions and without layer optimizers. -/
def DenseArch (s : List Nat) (acts : List (Act × Nat)) : List (LayerModel B32) :=
  .input (s.map fun v : Nat => (v : Int)) :: acts.map fun a => .fullyConnected (a.2 : Int) a.1 []

end Snn.Spec
