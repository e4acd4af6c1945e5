import Verif.Model.Training

/-!
# Model of the `operator==` of networks, layers, neurons and optimizers

The comparison of two layers indexes the optimizers of the second layer with the positions of the first one, so it can run
out of bounds: its outcome is a `Res Bool`.
-/

namespace Snn

section
variable {F : Type} [Flt F]

/-- `std::vector<T>::operator==`: same size and equal elements. -/
def vecEq {α : Type} (eq : α → α → Bool) : List α → List α → Bool
  | [], [] => true
  | a :: as, b :: bs => eq a b && vecEq eq as bs
  | _, _ => false

/-- CircularData.cpp:32-37 `operator==`. -/
def Circ.eq (a b : Circ F) : Bool :=
  vecEq (vecEq feq) a.queue b.queue && a.indexGet == b.indexGet && a.indexPush == b.indexPush

/-- StochasticGradientDescent.cpp:89-102 and NeuralNetworkOptimizer.cpp:9-12 `operator==` (there is one class of network
optimizers). -/
def Sgd.eq (a b : Sgd F) : Bool := feq a.learningRate b.learningRate && feq a.momentum b.momentum

/-- Neuron.cpp:83-96 `operator==` (`batchSize` is not compared; `outputFunction` is the shared object of the activation, so
comparing the pointers is comparing the activations). SimpleNeuron.cpp:52-55 calls it. -/
def Neuron.eq (a b : Neuron F) : Bool :=
  a.numberOfInputs == b.numberOfInputs
    && vecEq feq a.weights b.weights
    && feq a.bias b.bias
    && a.previousDeltaWeights.eq b.previousDeltaWeights
    && a.lastInputs.eq b.lastInputs
    && vecEq feq a.errors b.errors
    && feq a.sum b.sum
    && a.activationFunction == b.activationFunction
    && a.optimizer.eq b.optimizer

/-- RecurrentNeuron.cpp:76-83 `operator==`. -/
def RecNeuron.eq (a b : RecNeuron F) : Bool :=
  a.base.eq b.base
    && feq a.lastOutput b.lastOutput
    && feq a.previousOutput b.previousOutput
    && feq a.recurrentError b.recurrentError
    && feq a.previousSum b.previousSum

/-- GatedRecurrentUnit.cpp:121-131 `operator==`. -/
def Gru.eq (a b : Gru F) : Bool :=
  a.numberOfInputs == b.numberOfInputs
    && feq a.previousOutput b.previousOutput
    && feq a.recurrentError b.recurrentError
    && feq a.updateGateOutput b.updateGateOutput
    && feq a.outputGateOutput b.outputGateOutput
    && a.resetGate.eq b.resetGate
    && a.updateGate.eq b.updateGate
    && a.outputGate.eq b.outputGate

/-- LayerOptimizer.cpp:13-17, Dropout.cpp:63-76, L1Regularization.cpp:39-51, L2Regularization.cpp:39-51,
ErrorMultiplier.cpp:37-49, Softmax.cpp:72-83 `operator==` (the mask of a Dropout is not compared). -/
def LayerOpt.eq (a b : LayerOpt F) : Bool :=
  match a, b with
  | .dropout v rv _, .dropout w rw _ => feq v w && feq rv rw
  | .l1 v, .l1 w => feq v w
  | .l2 v, .l2 w => feq v w
  | .errorMultiplier v, .errorMultiplier w => feq v w
  | .softmax, .softmax => true
  | _, _ => false

/-- Layer.tpp:137-144: the loop over `this->optimizers`, reading `l.optimizers[o]`. -/
def optsEq : List (LayerOpt F) → List (LayerOpt F) → Res Bool
  | [], _ => .ok true
  | o :: os, p :: ps => if o.eq p then optsEq os ps else .ok false
  | _ :: _, [] => .ub "l.optimizers[o] out of range"

/-- Layer.tpp:128-151 `operator==` of two layers of the same class; `neurons` is the comparison of their neurons. -/
def Layer.baseEq (a b : Layer F) (neurons : Bool) : Res Bool :=
  if a.numberOfInputs == b.numberOfInputs && neurons then optsEq a.optimizers b.optimizers else .ok false

/-- `operator==` of every class of layers: SimpleLayer.tpp:71-74, FilterLayer.cpp:48-68, Convolution1D.cpp:132-135,
Convolution2D.cpp:141-153, LocallyConnected1D.cpp:141-144, LocallyConnected2D.cpp:151-163, MaxPooling1D.cpp:115-129,
MaxPooling2D.cpp:125-139. Layers of different classes are different (`typeid`, `bad_cast`). -/
def Layer.eq (a b : Layer F) : Res Bool :=
  match a.body, b.body with
  | .fullyConnected ns, .fullyConnected ms => a.baseEq b (vecEq Neuron.eq ns ms)
  | .recurrence ns, .recurrence ms => a.baseEq b (vecEq RecNeuron.eq ns ms)
  | .gru ns, .gru ms => a.baseEq b (vecEq Gru.eq ns ms)
  | .filter k ns i, .filter k' ms j =>
    if k == k' then do
      let e ← a.baseEq b (vecEq Neuron.eq ns ms)
      return e && i == j
    else .ok false
  | .pool t i _ _, .pool t' j _ _ => .ok (t == t' && i.kernelSize == j.kernelSize && i.shapeOfInput == j.shapeOfInput)
  | _, _ => .ok false

/-- NeuralNetwork.cpp:196-204: the loop over the layers (of equal number). -/
def layersEq : List (Layer F) → List (Layer F) → Res Bool
  | [], _ => .ok true
  | a :: as, b :: bs => do
    let e ← a.eq b
    if e then layersEq as bs else return false
  | _ :: _, [] => .ub "neuralNetwork.layers[l] out of range"

/-- NeuralNetwork.cpp:192-205 `operator==`. -/
def Net.eq (a b : Net F) : Res Bool :=
  if a.optimizer.eq b.optimizer && a.layers.length == b.layers.length then layersEq a.layers b.layers else .ok false

/-- StraightforwardNeuralNetwork.cpp:327-337 `operator==`. -/
def Snn.eq (a b : Snn F) : Res Bool := do
  let e ← a.net.eq b.net
  return e
    && a.autoSaveFilePath == b.autoSaveFilePath
    && a.autoSaveWhenBetter == b.autoSaveWhenBetter
    && a.wantToStopTraining == b.wantToStopTraining
    && a.index == b.index
    && a.isIdle == b.isIdle
    && a.epoch == b.epoch
    && a.numberOfTrainingsBetweenTwoEvaluations == b.numberOfTrainingsBetweenTwoEvaluations

/-- StraightforwardNeuralNetwork.cpp:339-342 `operator!=`. -/
def Snn.ne (a b : Snn F) : Res Bool := do
  let e ← a.eq b
  return !e

end

end Snn
