import Verif.Model.Neuron

/-!
# Model of the layer optimizers: `src/neural_network/optimizer/{Dropout,L1Regularization,L2Regularization,
ErrorMultiplier,Softmax,LayerOptimizerFactory}.cpp`

The raw pointer `layer` of a `LayerOptimizer` always points to the owning layer (Layer.tpp:10, :21); the methods
below receive what they read through it.
-/

namespace Snn

/-- Stream of the draws of `tools::rng`, uniform in [0, 1). -/
abbrev Draws (F : Type) := Nat → F

/-- The five subclasses of `LayerOptimizer` with their fields (Dropout.hpp:17-20, L1Regularization.hpp,
L2Regularization.hpp, ErrorMultiplier.hpp, Softmax.hpp). -/
inductive LayerOpt (F : Type) where
  | dropout (value reverseValue : F) (presenceProbabilities : List Bool)
  | l1 (value : F)
  | l2 (value : F)
  | errorMultiplier (factor : F)
  | softmax
  deriving DecidableEq, Repr

/-- LayerOptimizerModel.hpp: `type` and `value`. -/
inductive LayerOptModel (F : Type) where
  | dropout (value : F)
  | l1 (value : F)
  | l2 (value : F)
  | errorMultiplier (factor : F)
  | softmax
  deriving DecidableEq, Repr

section
variable {F : Type} [Flt F] [FTrans F] [Add F] [Sub F] [Mul F] [Div F] [Neg F]

/-- Dropout.cpp:19-21 and 39-42: `generate(..., dist(rng) >= value)`, one draw per element. -/
def generateMask (value : F) (size : Nat) (draws : Draws F) : List Bool :=
  (List.range size).map fun i => fle value (draws i)

/-- LayerOptimizerFactory.cpp:66-88 `build` with the constructors Dropout.cpp:12-22, L1Regularization.cpp:10-13,
L2Regularization.cpp:10-13, ErrorMultiplier.cpp:9-12, Softmax.cpp:12-15. -/
def LayerOpt.build (numberOfNeurons : Nat) (m : LayerOptModel F) (draws : Draws F) : LayerOpt F × Draws F :=
  match m with
  | .dropout v => (.dropout v (lit 1 - v) (generateMask v numberOfNeurons draws), shiftDraws numberOfNeurons draws)
  | .l1 v => (.l1 v, draws)
  | .l2 v => (.l2 v, draws)
  | .errorMultiplier v => (.errorMultiplier v, draws)
  | .softmax => (.softmax, draws)

/-- LayerOptimizerFactory.cpp:90-96 `build` of all the optimizers of a layer, in order. -/
def LayerOpt.buildAll (numberOfNeurons : Nat) : List (LayerOptModel F) → Draws F → List (LayerOpt F) × Draws F
  | [], d => ([], d)
  | m :: ms, d =>
    let (o, d1) := LayerOpt.build numberOfNeurons m d
    let (os, d2) := LayerOpt.buildAll numberOfNeurons ms d1
    (o :: os, d2)

/-- `ranges::transform(v, mask, v.begin(), multiplies<float>())`: a `bool` converts to 0 or 1, and only the first
min(|v|, |mask|) elements are written (Dropout.cpp:43, :53). -/
def applyMask : List F → List Bool → List F
  | v :: vs, b :: bs => (v * (if b then lit 1 else lit 0)) :: applyMask vs bs
  | vs, _ => vs

/-- `ranges::max(outputs)` (Softmax.cpp:31): undefined for an empty range; a later element replaces the maximum
when the maximum is smaller. -/
def rangesMax : List F → Res F
  | [] => .ub "ranges::max of an empty range"
  | x :: xs => .ok (xs.foldl (fun m v => if flt m v then v else m) x)

/-- Softmax.cpp:28-46 `computeSoftmax`. -/
def computeSoftmax (outputs : List F) : Res (List F) := do
  let max ← rangesMax outputs
  let shifted := outputs.map fun v => v - max
  let sumExp := shifted.foldl (fun s v => s + fexp v) (lit 0)
  return shifted.map fun v =>
    let value := fexp v / sumExp
    if !isNormalOrZero value then lit 0 else value

/-- `applyAfterOutputForTraining`: Dropout.cpp:37-44, Softmax.cpp:49-52; L1, L2 and ErrorMultiplier do nothing
(L1Regularization.hpp, L2Regularization.hpp, ErrorMultiplier.hpp). -/
def LayerOpt.afterOutputForTraining (o : LayerOpt F) (outputs : List F) (temporalReset : Bool) (draws : Draws F) :
    Res (List F × LayerOpt F × Draws F) :=
  match o with
  | .dropout v rv mask =>
    let (mask', draws') :=
      if temporalReset then (generateMask v mask.length draws, shiftDraws mask.length draws) else (mask, draws)
    .ok (applyMask outputs mask', .dropout v rv mask', draws')
  | .softmax => do
    let out ← computeSoftmax outputs
    return (out, .softmax, draws)
  | o => .ok (outputs, o, draws)

/-- `applyAfterOutputForTesting`: Dropout.cpp:46-49, Softmax.cpp:55-58; the others do nothing. -/
def LayerOpt.afterOutputForTesting (o : LayerOpt F) (outputs : List F) : Res (List F) :=
  match o with
  | .dropout _ rv _ => .ok (outputs.map fun v => v * rv)
  | .softmax => computeSoftmax outputs
  | _ => .ok outputs

/-- Layer.tpp:83-91 `getAverageOfAbsNeuronWeights`: the sum over all weights divided by the number of
*neurons*. `ws` are the `getWeights()` of the neurons. -/
def averageAbs (ws : List (List F)) : F :=
  ws.foldl (fun s n => n.foldl (fun s w => s + fabs w) s) (lit 0) / lit (ws.length : Rat)

/-- Layer.tpp:94-102 `getAverageOfSquareNeuronWeights`. -/
def averageSquare (ws : List (List F)) : F :=
  ws.foldl (fun s n => n.foldl (fun s w => s + w * w) s) (lit 0) / lit (ws.length : Rat)

/-- `applyBeforeBackpropagation`: Dropout.cpp:51-54, ErrorMultiplier.cpp:25-28, L1Regularization.cpp:26-30,
L2Regularization.cpp:26-30, Softmax.cpp:61-63. `ws` are the weights of the neurons of the layer. -/
def LayerOpt.beforeBackpropagation (o : LayerOpt F) (ws : List (List F)) (inputErrors : List F) : List F :=
  match o with
  | .dropout _ _ mask => applyMask inputErrors mask
  | .errorMultiplier factor => inputErrors.map fun e => e * factor
  | .l1 v => inputErrors.map fun e => e + averageAbs ws * v
  | .l2 v => inputErrors.map fun e => e + averageSquare ws * v
  | .softmax => inputErrors

end

end Snn
