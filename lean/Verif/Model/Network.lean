import Verif.Model.Factory
import Verif.Model.Stat

/-!
# Model of `src/neural_network/NeuralNetwork.cpp`

`numberOfTraining` is an `int64_t`; its overflow (2^63 training steps) is not modelled.
-/

namespace Snn

/-- NeuralNetwork.hpp:26-27, 70-72 the data members of `class NeuralNetwork : StatisticAnalysis`. -/
structure Net (F : Type) where
  stats : Stats F
  outputNan : Bool
  numberOfTraining : Int
  optimizer : Sgd F
  layers : List (Layer F)
  deriving DecidableEq, Repr

section
variable {F : Type} [Flt F] [FTrans F] [Add F] [Sub F] [Mul F] [Div F] [Neg F]

/-- NeuralNetwork.cpp:13-18 the constructor. -/
def Net.make (architecture : List (LayerModel F)) (optimizer : Sgd F) (d : Draws F) : Res (Net F × Draws F) := do
  let (layers, d') ← LayerFactory.build optimizer architecture d
  let last ← backOf layers
  return ({
    stats := Stats.init last.getNumberOfNeurons
    outputNan := false
    numberOfTraining := 0
    optimizer := optimizer
    layers := layers }, d')

/-- NeuralNetwork.cpp:62-65 the loop of `output`: each layer on the outputs of the previous one. -/
def outputLoop (temporalReset : Bool) : List (Layer F) → List F → Res (List F × List (Layer F))
  | [], x => .ok (x, [])
  | l :: ls, x => do
    let (y, l') ← l.output x temporalReset
    let (z, ls') ← outputLoop temporalReset ls y
    return (z, l' :: ls')

/-- NeuralNetwork.cpp:67 and :80: some output is infinite, not a number or subnormal. -/
def hasBadValue (outputs : List F) : Bool := outputs.any fun v => !isNormalOrZero v

/-- NeuralNetwork.cpp:60-71 `output`. -/
def Net.output (n : Net F) (inputs : List F) (temporalReset : Bool) : Res (List F × Net F) :=
  if n.layers.isEmpty then .ub "layers[0] out of range"
  else do
    let (out, layers) ← outputLoop temporalReset n.layers inputs
    return (out, { n with layers := layers, outputNan := n.outputNan || hasBadValue out })

/-- NeuralNetwork.cpp:75-78 the loop of `outputForTraining`. -/
def trainingLoop (temporalReset : Bool) : List (Layer F) → List F → Draws F → Res (List F × List (Layer F) × Draws F)
  | [], x, d => .ok (x, [], d)
  | l :: ls, x, d => do
    let (y, l', d1) ← l.outputForTraining x temporalReset d
    let (z, ls', d2) ← trainingLoop temporalReset ls y d1
    return (z, l' :: ls', d2)

/-- NeuralNetwork.cpp:73-84 `outputForTraining`. -/
def Net.outputForTraining (n : Net F) (inputs : List F) (temporalReset : Bool) (d : Draws F) :
    Res (List F × Net F × Draws F) :=
  if n.layers.isEmpty then .ub "layers[0] out of range"
  else do
    let (out, layers, d') ← trainingLoop temporalReset n.layers inputs d
    return (out, { n with layers := layers, outputNan := n.outputNan || hasBadValue out }, d')

/-- NeuralNetwork.cpp:104-107: `errors[n] = 2 * (desired[n] - outputs[n])` for the first `k` outputs. -/
def errorsLoop : Nat → List F → List F → Res (List F)
  | 0, _, _ => .ok []
  | k + 1, d :: ds, o :: os => do
    let r ← errorsLoop k ds os
    return (lit 2 * (d - o)) :: r
  | _ + 1, _, _ => .ub "desired[n] or outputs[n] out of range"

/-- NeuralNetwork.cpp:100-109 `calculateError`. -/
def Net.calculateError (n : Net F) (outputs desired : List F) : Res (List F) := do
  let last ← backOf n.layers
  errorsLoop last.getNumberOfNeurons desired outputs

/-- NeuralNetwork.cpp:95-96: `backOutput` from the last layer down to layer 1; the list is `layers[1], layers[2], …`. -/
def backLoop : List (Layer F) → List F → Res (List F × List (Layer F))
  | [], es => .ok (es, [])
  | l :: ls, es => do
    let (es1, ls') ← backLoop ls es
    let (es2, l') ← l.backOutput es1
    return (es2, l' :: ls')

/-- NeuralNetwork.cpp:95-97: the backward pass over all the layers. -/
def backwardPass (layers : List (Layer F)) (errors : List F) : Res (List (Layer F)) :=
  match layers with
  | [] => .ub "layers[0] out of range"
  | l0 :: rest => do
    let (es, rest') ← backLoop rest errors
    let l0' ← l0.train es
    return l0' :: rest'

/-- NeuralNetwork.cpp:87-98 `backpropagationAlgorithm`. -/
def Net.backpropagation (n : Net F) (inputs desired : List F) (temporalReset : Bool) (d : Draws F) :
    Res (Net F × Draws F) := do
  let (outputs, n1, d1) ← n.outputForTraining inputs temporalReset d
  if n1.outputNan then return (n1, d1)
  else do
    let errors ← n1.calculateError outputs desired
    let layers ← backwardPass n1.layers errors
    return ({ n1 with layers := layers }, d1)

/-- NeuralNetwork.cpp:54-58 `trainOnce`. -/
def Net.trainOnce (n : Net F) (inputs desired : List F) (temporalReset : Bool) (d : Draws F) :
    Res (Net F × Draws F) := do
  let (n1, d1) ← n.backpropagation inputs desired temporalReset d
  return ({ n1 with numberOfTraining := n1.numberOfTraining + 1 }, d1)

/-- NeuralNetwork.cpp:111-123 `getLayerOutputs`: the outputs of every layer (`temporalReset` is true). -/
def layerOutputsLoop : List (Layer F) → List F → Res (List (List F) × List (Layer F))
  | [], _ => .ok ([], [])
  | l :: ls, x => do
    let (y, l') ← l.output x true
    let (ys, ls') ← layerOutputsLoop ls y
    return (y :: ys, l' :: ls')

/-- NeuralNetwork.cpp:111-123 `getLayerOutputs`. -/
def Net.getLayerOutputs (n : Net F) (inputs : List F) : Res (List (List F) × Net F) :=
  if n.layers.isEmpty then .ub "layers[0] out of range"
  else do
    let (ys, layers) ← layerOutputsLoop n.layers inputs
    return (ys, { n with layers := layers })

/-- NeuralNetwork.cpp:140-143 `getNumberOfInputs`. -/
def Net.getNumberOfInputs (n : Net F) : Res Int := do
  let l ← rd n.layers 0
  return l.numberOfInputs

/-- NeuralNetwork.cpp:145-148 `getNumberOfOutputs`. -/
def Net.getNumberOfOutputs (n : Net F) : Res Int := do
  let l ← backOf n.layers
  return l.getNumberOfNeurons

/-- NeuralNetwork.cpp:135-138 `getNumberOfLayers`. -/
def Net.getNumberOfLayers (n : Net F) : Int := n.layers.length

/-- NeuralNetwork.cpp:150-158 `getNumberOfNeurons`: an `int` sum. -/
def Net.getNumberOfNeurons (n : Net F) : Res Int := n.layers.foldlM (fun sum l => addI sum l.getNumberOfNeurons) 0

/-- NeuralNetwork.cpp:160-166 `getNumberOfParameters`: an `int` sum. -/
def Net.getNumberOfParameters (n : Net F) : Res Int :=
  n.layers.foldlM (fun sum l => do
    let p ← l.getNumberOfParameters
    addI sum p) 0

/-- StochasticGradientDescent.cpp:71-78 `isValid`. -/
def Sgd.isValid (o : Sgd F) : Int :=
  if fle o.learningRate (lit 0) || fle (lit 1) o.learningRate then 103
  else if flt o.momentum (lit 0) || flt (lit 1) o.momentum then 104
  else 0

/-- NeuralNetwork.cpp:183-188: the first layer with a non zero code. -/
def layersIsValid : List (Layer F) → Res Int
  | [] => .ok 0
  | l :: ls => do
    let err ← l.isValid
    if err ≠ 0 then return err else layersIsValid ls

/-- NeuralNetwork.cpp:168-190 `isValid`. -/
def Net.isValid (n : Net F) : Res Int := do
  let ni ← n.getNumberOfInputs
  if ni < 1 ∨ ni > 2073600 then return 101
  else if n.layers.length < 1 ∨ n.layers.length > 1000 then return 102
  else if n.optimizer.isValid ≠ 0 then return n.optimizer.isValid
  else layersIsValid n.layers

end

end Snn
