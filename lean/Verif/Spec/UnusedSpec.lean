import Verif.Spec.SilentSpec

/-!
# Specification: a feature that is always zero in the training data
-/

namespace Snn.Spec

open HistoryProps (Call)

section
variable {F : Type} [Field F] [LinearOrder F] [IsStrictOrderedRing F] [FTrans F]

/-- The feature f is 0 in every training input of the data set. -/
def ZeroFeature (f : Nat) (data : Data F) : Prop := ∀ x ∈ data.training.inputs, x[f]? = some 0

/-- The first hidden layer is a fully connected or a recurrent one. -/
inductive FirstNeurons : LayerModel F → Prop
  | fullyConnected (m : Int) (act : Act) (opts : List (LayerOptModel F)) : FirstNeurons (.fullyConnected m act opts)
  | recurrence (m : Int) (act : Act) (opts : List (LayerOptModel F)) : FirstNeurons (.recurrence m act opts)

/-- The weights of a gate of neuron k of the first layer, when this layer is gated: gate 0 is the reset gate, 1 the update gate, and
2 the output gate. -/
def firstGateWeights (n : Net F) (k g : Nat) : Option (List F) :=
  match n.layers with
  | l :: _ =>
    match l.body with
    | .gru ns => ns[k]?.map fun n => match g with
      | 0 => n.resetGate.base.weights
      | 1 => n.updateGate.base.weights
      | _ => n.outputGate.base.weights
    | _ => none
  | [] => none

end

end Snn.Spec
