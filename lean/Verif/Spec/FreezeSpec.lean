import Verif.Model.Layer

/-! Specification: the weights of a layer that an error of 0 has to keep. -/

namespace Snn.Spec

variable {F : Type}

/-- The weights of every neuron of a layer: all of them in a recurrent layer, and all but the last one, of the bias, in the others. -/
def weightsButBias : Body F → List (List F)
  | .fullyConnected ns => ns.map fun n => n.weights.dropLast
  | .recurrence ns => ns.map fun n => n.base.weights
  | .gru ns => ns.map fun g => g.resetGate.base.weights ++ g.updateGate.base.weights ++ g.outputGate.base.weights
  | .filter _ ns _ => ns.map fun n => n.weights.dropLast
  | .pool .. => []

end Snn.Spec
