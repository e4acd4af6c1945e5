import Verif.Spec.GradSpec

/-!
# Specification: a training step with a small learning rate
-/

namespace Snn.Spec

/-- Only fully connected layers after the input, without layer optimizer; the activation `iSigmoid`, whose derivative is wrong in the
code, is left out. -/
def DensePlain (arch : List (LayerModel ℝ)) : Prop :=
  ∀ m ∈ arch.tail, ∃ n act, m = .fullyConnected n act [] ∧ act ≠ .iSigmoid

/-- The neuron with the weight of its bias (the last one) replaced by 0. -/
def Neuron.withoutBias (n : Neuron ℝ) : Neuron ℝ := { n with weights := n.weights.set (n.weights.length - 1) 0 }

/-- The fully connected layer whose neurons ignore their biases. -/
def Layer.withoutBiases (l : Layer ℝ) : Layer ℝ :=
  match l.body with
  | .fullyConnected ns => { l with body := .fullyConnected (ns.map Neuron.withoutBias) }
  | _ => l

/-- The network whose neurons ignore their biases: all the other weights are the same. -/
def Net.withoutBiases (n : Net ℝ) : Net ℝ := { n with layers := n.layers.map Layer.withoutBiases }

end Snn.Spec
