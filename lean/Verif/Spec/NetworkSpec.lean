import Verif.Model.Network

/-!
# Specification: the parameters of a network

What inference must not change: the structure of the network, and for every neuron its weights, its bias, its momentum
memory, its activation and its optimizer.
-/

namespace Snn.Spec

/-- The parameters of one neuron. -/
structure NeuronParams (F : Type) where
  numberOfInputs : Int
  batchSize : Int
  weights : List F
  bias : F
  momentumMemory : Circ F
  activation : Act
  optimizer : Sgd F

/-- The kind of a layer. -/
inductive Kind where
  | fullyConnected | recurrence | gru | filter (k : FKind) | pool (twoD : Bool)

/-- The parameters of one layer; a gated recurrent unit counts for three neurons. -/
structure LayerParams (F : Type) where
  kind : Kind
  numberOfInputs : Int
  optimizers : List (LayerOpt F)
  filter : Option FilterInfo
  neurons : List (NeuronParams F)

/-- The parameters of a neuron. -/
def neuronParams {F : Type} (n : Neuron F) : NeuronParams F where
  numberOfInputs := n.numberOfInputs
  batchSize := n.batchSize
  weights := n.weights
  bias := n.bias
  momentumMemory := n.previousDeltaWeights
  activation := n.activationFunction
  optimizer := n.optimizer

/-- The parameters of a layer. -/
def layerParams {F : Type} (l : Layer F) : LayerParams F :=
  match l.body with
  | .fullyConnected ns => ⟨.fullyConnected, l.numberOfInputs, l.optimizers, none, ns.map neuronParams⟩
  | .recurrence ns => ⟨.recurrence, l.numberOfInputs, l.optimizers, none, ns.map fun n => neuronParams n.base⟩
  | .gru ns => ⟨.gru, l.numberOfInputs, l.optimizers, none, ns.flatMap fun g =>
      [neuronParams g.resetGate.base, neuronParams g.updateGate.base, neuronParams g.outputGate.base]⟩
  | .filter k ns info => ⟨.filter k, l.numberOfInputs, l.optimizers, some info, ns.map neuronParams⟩
  | .pool twoD info _ _ => ⟨.pool twoD, l.numberOfInputs, l.optimizers, some info, []⟩

/-- The parameters of a network. -/
def netParams {F : Type} (n : Net F) : Sgd F × List (LayerParams F) := (n.optimizer, n.layers.map layerParams)

/-- A layer optimizer without its random mask. -/
def noMask {F : Type} : LayerOpt F → LayerOpt F
  | .dropout v rv _ => .dropout v rv []
  | o => o

/-- The parameters of a layer, without the random masks of its optimizers. -/
def trainedParams {F : Type} (l : Layer F) : LayerParams F := { layerParams l with optimizers := l.optimizers.map noMask }

/-- The layer keeps no memory of past inputs that its outputs use. -/
def NonRecurrent {F : Type} (l : Layer F) : Prop :=
  match l.body with
  | .recurrence _ => False
  | .gru _ => False
  | _ => True

end Snn.Spec
