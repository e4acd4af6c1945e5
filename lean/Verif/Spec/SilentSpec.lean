import Verif.Spec.NeuronSpec
import Verif.Props.HistoryProps

/-!
# Specification: a neuron that is silent on a training set
-/

namespace Snn.Spec

open HistoryProps (Call)

section
variable {F : Type} [Field F] [LinearOrder F] [IsStrictOrderedRing F] [FTrans F]

/-- The weights of a neuron with the weight of the bias (the last one) set to 0. -/
def withoutBias (w : List F) : List F := w.dropLast ++ [0]

/-- A ReLU neuron with the weights w is silent on the inputs: its affine form (with the bias 1) is never positive. -/
def SilentOn (w : List F) (inputs : List (List F)) : Prop := ∀ x ∈ inputs, affine w x 1 ≤ 0

/-- The neuron is silent on the training inputs of the call, with and without its bias. -/
def SilentCall (w : List F) : Call F → Prop
  | .train _ data _ _ _ _ => SilentOn w data.training.inputs ∧ SilentOn (withoutBias w) data.training.inputs
  | _ => True

/-- The weights of neuron k of the first hidden layer, as `getWeights` shows them. -/
def firstWeights (n : Net F) (k : Nat) : Option (List F) := (n.layers.head?.map fun l => l.body.weights).bind fun w => w[k]?

end

end Snn.Spec
