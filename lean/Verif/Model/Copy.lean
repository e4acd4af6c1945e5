import Verif.Model.Equal

/-!
# Model of the copy constructors and `clone`

Values only; which objects a copy shares with its original is modelled in `Model/Heap.lean`.
-/

namespace Snn

section
variable {F : Type} [Flt F]

/-- Dropout.cpp:24-30, L1Regularization.cpp:15-19, L2Regularization.cpp:15-19, ErrorMultiplier.cpp:14-18, Softmax.cpp:17-20:
`clone` copies every field (`dist` keeps its default, the distribution over [0, 1)). -/
def LayerOpt.clone (o : LayerOpt F) : LayerOpt F :=
  match o with
  | .dropout v rv p => .dropout v rv p
  | .l1 v => .l1 v
  | .l2 v => .l2 v
  | .errorMultiplier v => .errorMultiplier v
  | .softmax => .softmax

/-- Neuron.cpp:78-81 `setOptimizer`. -/
def Neuron.setOptimizer (n : Neuron F) (o : Sgd F) : Neuron F := { n with optimizer := o }

/-- Neuron.cpp:78-81 `setOptimizer` of a recurrent neuron. -/
def RecNeuron.setOptimizer (n : RecNeuron F) (o : Sgd F) : RecNeuron F := { n with base := n.base.setOptimizer o }

/-- GatedRecurrentUnit.cpp:114-119 `setOptimizer`. -/
def Gru.setOptimizer (g : Gru F) (o : Sgd F) : Gru F :=
  { g with
    resetGate := g.resetGate.setOptimizer o
    updateGate := g.updateGate.setOptimizer o
    outputGate := g.outputGate.setOptimizer o }

/-- The `neurons` and the other fields of a layer copied (Neuron.hpp:41 `= default` and the like), with the new network
optimizer: FullyConnected.cpp:13-21, Recurrence.cpp:13-21, GruLayer.cpp:13-21, Convolution1D.cpp:44-52, Convolution2D.cpp:54-60,
LocallyConnected1D.cpp:50-58, LocallyConnected2D.cpp:60-68, MaxPooling1D.cpp:52-55, MaxPooling2D.cpp:62-65. -/
def Body.clone (b : Body F) (o : Sgd F) : Body F :=
  match b with
  | .fullyConnected ns => .fullyConnected (ns.map fun n => n.setOptimizer o)
  | .recurrence ns => .recurrence (ns.map fun n => n.setOptimizer o)
  | .gru ns => .gru (ns.map fun n => n.setOptimizer o)
  | .filter k ns info => .filter k (ns.map fun n => n.setOptimizer o) info
  | .pool t info k mvi => .pool t info k mvi

/-- Layer.tpp:14-22 the copy constructor, called by the `clone` of each class. -/
def Layer.clone (l : Layer F) (o : Sgd F) : Layer F :=
  { numberOfInputs := l.numberOfInputs
    optimizers := l.optimizers.map LayerOpt.clone
    body := l.body.clone o }

/-- StatisticAnalysis.cpp:7-11 `initialize` on a copied object: `clusters.resize(numberOfCluster)` then `startTesting`. -/
def Stats.initialize [Add F] [Sub F] [Mul F] [Div F] [FTrans F] (s : Stats F) (numberOfCluster : Nat) : Stats F :=
  Stats.startTesting { s with
    clusters := s.clusters.take numberOfCluster ++ List.replicate (numberOfCluster - s.clusters.length) Cluster.zero }

variable [FTrans F] [Add F] [Sub F] [Mul F] [Div F] [Neg F]

/-- StochasticGradientDescent.cpp:15-18 `clone`. -/
def Sgd.clone (o : Sgd F) : Sgd F := { learningRate := o.learningRate, momentum := o.momentum }

/-- NeuralNetwork.cpp:20-30 the copy constructor. -/
def Net.copy (n : Net F) : Res (Net F) := do
  let o := n.optimizer.clone
  let layers := n.layers.map fun l => l.clone o
  let last ← backOf layers
  return {
    stats := n.stats.initialize last.getNumberOfNeurons
    outputNan := n.outputNan
    numberOfTraining := n.numberOfTraining
    optimizer := o
    layers := layers }

/-- StraightforwardNeuralNetwork.cpp:33-43 the copy constructor. Line 36 tests the `isIdle` of the new object, which is
always true (StraightforwardNeuralNetwork.hpp:21). -/
def Snn.copy (s : Snn F) : Res (Snn F) := do
  let net ← s.net.copy
  let newIsIdle := true
  if !newIsIdle then .throw "StraightforwardNeuralNetwork must be idle to be copy"
  else return {
    net := net
    wantToStopTraining := false
    isIdle := newIsIdle
    index := s.index
    epoch := s.epoch
    numberOfTrainingsBetweenTwoEvaluations := s.numberOfTrainingsBetweenTwoEvaluations
    autoSaveWhenBetter := s.autoSaveWhenBetter
    autoSaveFilePath := s.autoSaveFilePath }

end

end Snn
