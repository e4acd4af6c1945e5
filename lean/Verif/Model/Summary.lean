import Verif.Model.Training

/-!
# Model of `summary()`

StraightforwardNeuralNetwork.cpp:304-326 and the `summary()` of the layers and of the optimizers. Integers are printed by `toString`;
the text of a `float` (`ostream << float`) is the parameter `fl`.
-/

namespace Snn

section
variable {F : Type}

/-- `getName` of the activation functions: Sigmoid.hpp:14, ImprovedSigmoid.hpp:14, Tanh.hpp:14, ReLU.hpp:14, GELU.hpp:14, Gaussian.hpp:14,
Identity.hpp:14. -/
def ActObj.getName : ActObj → String
  | .Sigmoid => "sigmoid"
  | .ImprovedSigmoid => "iSigmoid"
  | .Tanh => "tanh"
  | .RectifiedLinearUnit => "ReLU"
  | .GaussianErrorLinearUnit => "GELU"
  | .Gaussian => "gaussian"
  | .Identity => "identity"

/-- `neurons[0].outputFunction->getName()` (FullyConnected.cpp:31): `outputFunction` is `ActivationFunction::get(activationFunction)`
(Neuron.cpp:11). -/
def firstName (ns : List (Neuron F)) : Res String := do
  let n0 ← rd ns 0
  let a ← n0.activationFunction.get
  return a.getName

/-- `summary` of the layer optimizers: Softmax.cpp:65-70, Dropout.cpp:56-61, L1Regularization.cpp:32-37, L2Regularization.cpp:32-37,
ErrorMultiplier.cpp:30-35. All but Softmax end with `endl`. -/
def LayerOpt.summary (fl : F → String) : LayerOpt F → String
  | .dropout v _ _ => "Dropout(" ++ fl v ++ ")\n"
  | .l1 v => "L1Regularization(" ++ fl v ++ ")\n"
  | .l2 v => "L2Regularization(" ++ fl v ++ ")\n"
  | .errorMultiplier v => "ErrorMultiplier(" ++ fl v ++ ")\n"
  | .softmax => "Softmax"

/-- StochasticGradientDescent.cpp:80-87 `summary`. -/
def Sgd.summary (fl : F → String) (o : Sgd F) : String :=
  " StochasticGradientDescent\n" ++
  "                Learning rate: " ++ fl o.learningRate ++ "\n" ++
  "                Momentum:      " ++ fl o.momentum ++ "\n"

/-- FullyConnected.cpp:37-40 and the same lines of every layer: the optimizers from the second one. -/
def summaryOthers (fl : F → String) : List (LayerOpt F) → String
  | [] => ""
  | o :: os => "                              " ++ o.summary fl ++ "\n" ++ summaryOthers fl os

/-- FullyConnected.cpp:33-40, Recurrence.cpp:33-40, GruLayer.cpp:32-39, Convolution1D.cpp:75-82, Convolution2D.cpp:83-90,
LocallyConnected1D.cpp:81-88, LocallyConnected2D.cpp:91-98, MaxPooling1D.cpp:73-80, MaxPooling2D.cpp:83-90. -/
def summaryOptimizers (fl : F → String) : List (LayerOpt F) → String
  | [] => ""
  | o :: os => "                Optimizers:   " ++ o.summary fl ++ "\n" ++ summaryOthers fl os

/-- `"[" << n << "]"` (FullyConnected.cpp:28). -/
def shape1 (n : Int) : String := "[" ++ toString n ++ "]"

/-- `"[" << s[0] << ", " << s[1] << "]"` (Convolution1D.cpp:69). -/
def shape2 (s : List Int) : Res String := do
  let a ← rd s 0
  let b ← rd s 1
  return "[" ++ toString a ++ ", " ++ toString b ++ "]"

/-- `"[" << s[0] << ", " << s[1] << ", " << s[2] << "]"` (Convolution2D.cpp:77). -/
def shape3 (s : List Int) : Res String := do
  let a ← rd s 0
  let b ← rd s 1
  let c ← rd s 2
  return "[" ++ toString a ++ ", " ++ toString b ++ ", " ++ toString c ++ "]"

/-- The rule above every layer (FullyConnected.cpp:26). -/
def rule : String := "------------------------------------------------------------\n"

/-- `summary` of the layers: FullyConnected.cpp:23-42, Recurrence.cpp:23-42, GruLayer.cpp:23-41, Convolution1D.cpp:64-84,
Convolution2D.cpp:72-92, LocallyConnected1D.cpp:70-90, LocallyConnected2D.cpp:80-100, MaxPooling1D.cpp:65-82, MaxPooling2D.cpp:75-92. -/
def Layer.summary (fl : F → String) (l : Layer F) : Res String :=
  match l.body with
  | .fullyConnected ns => do
    let p ← l.getNumberOfParameters
    let a ← firstName ns
    return rule ++ " " ++ "FullyConnected" ++ "\n" ++
      "                Input shape:  " ++ shape1 l.numberOfInputs ++ "\n" ++
      "                Neurons:      " ++ toString l.getNumberOfNeurons ++ "\n" ++
      "                Parameters:   " ++ toString p ++ "\n" ++
      "                Activation:   " ++ a ++ "\n" ++
      "                Output shape: " ++ shape1 l.getNumberOfNeurons ++ "\n" ++
      summaryOptimizers fl l.optimizers
  | .recurrence ns => do
    let p ← l.getNumberOfParameters
    let a ← firstName (ns.map RecNeuron.base)
    return rule ++ " " ++ "Recurrence" ++ "\n" ++
      "                Input shape:  " ++ shape1 l.getNumberOfNeurons ++ "\n" ++
      "                Neurons:      " ++ toString l.getNumberOfNeurons ++ "\n" ++
      "                Parameters:   " ++ toString p ++ "\n" ++
      "                Activation:   " ++ a ++ "\n" ++
      "                Output shape: " ++ shape1 l.numberOfInputs ++ "\n" ++
      summaryOptimizers fl l.optimizers
  | .gru _ => do
    let p ← l.getNumberOfParameters
    return rule ++ " " ++ "GruLayer" ++ "\n" ++
      "                Input shape:  " ++ shape1 l.getNumberOfNeurons ++ "\n" ++
      "                Neurons:      " ++ toString l.getNumberOfNeurons ++ "\n" ++
      "                Parameters:   " ++ toString p ++ "\n" ++
      "                Output shape: " ++ shape1 l.numberOfInputs ++ "\n" ++
      summaryOptimizers fl l.optimizers
  | .filter .conv1D ns info => do
    let i ← shape2 info.shapeOfInput
    let p ← l.getNumberOfParameters
    let a ← firstName ns
    let o ← shape2 info.shapeOfOutput
    return rule ++ " " ++ "Convolution1D" ++ "\n" ++
      "                Input shape:  " ++ i ++ "\n" ++
      "                Filters:      " ++ toString info.numberOfFilters ++ "\n" ++
      "                Kernel size:  " ++ toString info.kernelSize ++ "\n" ++
      "                Parameters:   " ++ toString p ++ "\n" ++
      "                Activation:   " ++ a ++ "\n" ++
      "                Output shape: " ++ o ++ "\n" ++
      summaryOptimizers fl l.optimizers
  | .filter .conv2D ns info => do
    let i ← shape3 info.shapeOfInput
    let p ← l.getNumberOfParameters
    let a ← firstName ns
    let o ← shape3 info.shapeOfOutput
    return rule ++ " " ++ "Convolution2D" ++ "\n" ++
      "                Input shape:  " ++ i ++ "\n" ++
      "                Filters:      " ++ toString info.numberOfFilters ++ "\n" ++
      "                Kernel size:  " ++ toString info.kernelSize ++ "x" ++ toString info.kernelSize ++ "\n" ++
      "                Parameters:   " ++ toString p ++ "\n" ++
      "                Activation:   " ++ a ++ "\n" ++
      "                Output shape: " ++ o ++ "\n" ++
      summaryOptimizers fl l.optimizers
  | .filter .lc1D ns info => do
    let i ← shape2 info.shapeOfInput
    let p ← l.getNumberOfParameters
    let a ← firstName ns
    let o ← shape2 info.shapeOfOutput
    return rule ++ " LocallyConnected1D" ++
      "                Input shape: " ++ i ++ "\n" ++
      "                Filters: " ++ toString info.numberOfFilters ++ "\n" ++
      "                Kernel size: " ++ toString info.kernelSize ++ "\n" ++
      "                Parameters: " ++ toString p ++ "\n" ++
      "                Activation: " ++ a ++ "\n" ++
      "                Output shape: " ++ o ++ "\n" ++
      summaryOptimizers fl l.optimizers
  | .filter .lc2D ns info => do
    let i ← shape3 info.shapeOfInput
    let p ← l.getNumberOfParameters
    let a ← firstName ns
    let o ← shape3 info.shapeOfOutput
    return rule ++ " LocallyConnected2D" ++
      "                Input shape: " ++ i ++ "\n" ++
      "                Filters: " ++ toString info.numberOfFilters ++ "\n" ++
      "                Kernel size: " ++ toString info.kernelSize ++ "x" ++ toString info.kernelSize ++ "\n" ++
      "                Parameters: " ++ toString p ++ "\n" ++
      "                Activation: " ++ a ++ "\n" ++
      "                Output shape: " ++ o ++ "\n" ++
      summaryOptimizers fl l.optimizers
  | .pool false info _ _ => do
    let i ← shape2 info.shapeOfInput
    let o ← shape2 info.shapeOfOutput
    return rule ++ " " ++ "MaxPooling1D" ++ "\n" ++
      "                Input shape:  " ++ i ++ "\n" ++
      "                Kernel size:  " ++ toString info.kernelSize ++ "\n" ++
      "                Output shape: " ++ o ++ "\n" ++
      summaryOptimizers fl l.optimizers
  | .pool true info _ _ => do
    let i ← shape3 info.shapeOfInput
    let o ← shape3 info.shapeOfOutput
    return rule ++ " " ++ "MaxPooling2D" ++ "\n" ++
      "                Input shape:  " ++ i ++ "\n" ++
      "                Kernel size:  " ++ toString info.kernelSize ++ "x" ++ toString info.kernelSize ++ "\n" ++
      "                Output shape: " ++ o ++ "\n" ++
      summaryOptimizers fl l.optimizers

/-- StraightforwardNeuralNetwork.cpp:317-318: the layers, in order. -/
def summaryLayers (fl : F → String) : List (Layer F) → Res String
  | [] => .ok ""
  | l :: ls => do
    let a ← l.summary fl
    let b ← summaryLayers fl ls
    return a ++ b

/-- The rules of the network summary (StraightforwardNeuralNetwork.cpp:307 and below). -/
def doubleRule : String := "============================================================\n"

/-- StraightforwardNeuralNetwork.cpp:304-326 `summary`. -/
def Snn.summary (fl : F → String) (s : Snn F) : Res String := do
  let p ← s.net.getNumberOfParameters
  let ls ← summaryLayers fl s.net.layers
  return doubleRule ++
    "| SNN Model Summary                                        |\n" ++
    doubleRule ++
    " Name:       " ++ s.autoSaveFilePath ++ "\n" ++
    " Parameters: " ++ toString p ++ "\n" ++
    " Epochs:     " ++ toString s.epoch ++ "\n" ++
    " Trainnig:   " ++ toString s.net.numberOfTraining ++ "\n" ++
    doubleRule ++
    "| Layers                                                   |\n" ++
    doubleRule ++
    ls ++
    doubleRule ++
    "|  Optimizer                                               |\n" ++
    doubleRule ++
    s.net.optimizer.summary fl ++
    doubleRule

end

end Snn
