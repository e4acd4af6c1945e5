import Verif.Spec.NetworkSpec
import Verif.Basic.RealFlt

/-!
# Specification: how much a network can amplify a change of its inputs

The gain of a layer is computed from what the getters of the network show: the activation functions, the weights and the layer
optimizers.
-/

namespace Snn.Spec

open Finset

/-- A bound of the slopes of the activation functions. -/
noncomputable def actGain : Act → ℝ
  | .sigmoid => 1 / 4
  | .iSigmoid => 3 / 10
  | .tanh => 1
  | .relu => 1
  | .gelu => 5 / 4
  | .gaussian => 1
  | .identity => 1

/-- The gain of a neuron: the bound of the slopes, times the sum of the absolute values of its weights without the last one,
which is the weight of the bias. -/
noncomputable def neuronGain (p : NeuronParams ℝ) : ℝ := actGain p.activation * (p.weights.dropLast.map fun w => |w|).sum

/-- The gain of a layer optimizer when the network answers: dropout multiplies the outputs by its reverse value, the softmax
function halves the changes, the others do not apply. -/
noncomputable def optGain : LayerOpt ℝ → ℝ
  | .dropout _ rv _ => |rv|
  | .softmax => 1 / 2
  | _ => 1

/-- The gain of the neurons of a layer: the greatest gain of a neuron; a pooling layer has none and selects inputs. -/
noncomputable def bodyGain (p : LayerParams ℝ) : ℝ :=
  match p.kind with
  | .pool _ => 1
  | _ => (p.neurons.map neuronGain).foldr max 0

/-- The gain of a layer. -/
noncomputable def layerGain (p : LayerParams ℝ) : ℝ := (p.optimizers.map optGain).prod * bodyGain p

/-- The gain of a network: the product of the gains of its layers. -/
noncomputable def netGain (n : Net ℝ) : ℝ := (n.layers.map fun l => layerGain (layerParams l)).prod

/-- Two vectors of the same size that differ by at most ε in every component. -/
def Near (ε : ℝ) (x x' : List ℝ) : Prop := List.Forall₂ (fun a b => |a - b| ≤ ε) x x'

end Snn.Spec
