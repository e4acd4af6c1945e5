import Verif.Model.Activation
import Verif.Basic.CInt

/-!
# Model of `src/neural_network/layer/neuron/*.cpp` and `src/neural_network/optimizer/StochasticGradientDescent.cpp`

Asserts are not modelled (`NDEBUG` in release builds); an out of bounds access they would catch is `ub`.
Loops over `w` read their vectors front to back and are written as recursion over the lists. `#pragma omp
simd` and `-ffast-math` may reassociate the additions of a loop; the model adds from left to right.
-/

namespace Snn

section
variable {F : Type}

/-! ### CircularData -/

/-- CircularData.hpp:9-31 `class CircularData`. -/
structure Circ (F : Type) where
  queue : List (List F)
  indexPush : Nat
  indexGet : Nat
  deriving DecidableEq, Repr

/-- CircularData.cpp:8-14 `initialize` (the indexes keep their initial value 0, CircularData.hpp:18-19). A
negative size given by the callers becomes a huge `size_t`: `vector::resize` throws. -/
def Circ.init [Flt F] (queueSize dataSize : Int) : Res (Circ F) :=
  if queueSize < 0 then .throw "vector::_M_default_append"
  else if 0 < queueSize ∧ dataSize < 0 then .throw "cannot create std::vector larger than max_size()"
  else .ok { queue := List.replicate queueSize.toNat (List.replicate dataSize.toNat (lit 0)), indexPush := 0, indexGet := 0 }

/-- CircularData.cpp:16-22 `getBack`. -/
def Circ.getBack (c : Circ F) : Res (List F × Circ F) := do
  let i := if c.indexGet ≥ c.queue.length then 0 else c.indexGet
  let v ← rd c.queue (i : Int)
  return (v, { c with indexGet := i + 1 })

/-- CircularData.cpp:24-30 `pushBack`. -/
def Circ.pushBack (c : Circ F) (data : List F) : Res (Circ F) := do
  let i := if c.indexPush ≥ c.queue.length then 0 else c.indexPush
  let q ← wr c.queue (i : Int) data
  return { c with queue := q, indexPush := i + 1 }

/-! ### Neuron -/

/-- StochasticGradientDescent.hpp: the two parameters of the only network optimizer. They are private and
never written after construction, so the `shared_ptr` of each neuron is modelled as a value. -/
structure Sgd (F : Type) where
  learningRate : F
  momentum : F
  deriving DecidableEq, Repr

/-- NeuronModel.hpp:6-13. -/
structure NeuronModel (F : Type) where
  numberOfInputs : Int
  batchSize : Int
  numberOfWeights : Int
  bias : F
  activationFunction : Act
  deriving DecidableEq, Repr

/-- Neuron.hpp:15-59 `class Neuron` (SimpleNeuron adds no state). `outputFunction` is
`ActivationFunction::get(activationFunction)` (Neuron.cpp:16, Neuron.hpp:75), it is not stored twice. -/
structure Neuron (F : Type) where
  numberOfInputs : Int
  batchSize : Int
  weights : List F
  bias : F
  previousDeltaWeights : Circ F
  lastInputs : Circ F
  errors : List F
  sum : F
  activationFunction : Act
  optimizer : Sgd F
  deriving DecidableEq, Repr

variable [Flt F] [FTrans F] [Add F] [Sub F] [Mul F] [Div F] [Neg F]

/-- `outputFunction->function(x)`: Neuron.cpp:16 and ActivationFunction.cpp:37-58. -/
def Act.apply (a : Act) (x : F) : Res F := do
  let o ← a.get
  return o.function x

/-- `outputFunction->derivative(x)`: Neuron.cpp:16 and ActivationFunction.cpp:37-58. -/
def Act.deriv (a : Act) (x : F) : Res F := do
  let o ← a.get
  return o.derivative x

/-- `uniform_real_distribution(a, b)` applied to one draw `u` of the generator in [0, 1):
libstdc++ computes `u * (b - a) + a`. -/
def uniform (u a b : F) : F := u * (b - a) + a

/-- Neuron.cpp:28-32 `randomInitializeWeight`; `u` is the next draw of `tools::rng`. -/
def randomInitializeWeight (numberOfWeights : Int) (u : F) : F :=
  let valueMax := lit (12/5) / fsqrt (lit (numberOfWeights : Rat))
  uniform u (-valueMax) valueMax

/-- Neuron.cpp:8-26 the constructor; `draws` is the stream of draws of `tools::rng`, the constructor uses the
first `numberOfWeights` of them. -/
def Neuron.make (m : NeuronModel F) (opt : Sgd F) (draws : Nat → F) : Res (Neuron F) :=
  if m.numberOfInputs < 0 then .throw "vector::_M_fill_insert"
  else if m.numberOfWeights < 0 then .throw "vector::_M_default_append"
  else do
    let ws := (List.range m.numberOfWeights.toNat).map fun w => randomInitializeWeight m.numberOfWeights (draws w)
    let last ← backOf ws
    let weights := ws.dropLast ++ [fabs last]
    let lastInputs ← Circ.init m.batchSize m.numberOfInputs
    let previousDeltaWeights ← Circ.init m.batchSize m.numberOfWeights
    return {
      numberOfInputs := m.numberOfInputs
      batchSize := m.batchSize
      weights := weights
      bias := m.bias
      previousDeltaWeights := previousDeltaWeights
      lastInputs := lastInputs
      errors := List.replicate m.numberOfInputs.toNat (lit 0)
      sum := lit 0
      activationFunction := m.activationFunction
      optimizer := opt }

/-- Neuron.cpp:34-49 `isValid`. -/
def Neuron.isValid (n : Neuron F) : Int :=
  if flt n.bias (lit (-100000)) || flt (lit 10000) n.bias then 301
  else if n.weights.isEmpty || decide (n.weights.length > 1000000) then 302
  else if n.weights.any fun w => flt w (lit (-100000)) || flt (lit 10000) w then 303
  else 0

/-- Neuron.cpp:51-54 `getWeights`. -/
def Neuron.getWeights (n : Neuron F) : List F := n.weights

/-- Neuron.cpp:56-61 `setWeights`. -/
def Neuron.setWeights (n : Neuron F) (w : List F) : Res (Neuron F) :=
  if n.weights.length ≠ w.length then .throw "The size of weights does not match."
  else .ok { n with weights := w }

/-- Neuron.cpp:63-66 `getNumberOfParameters`. -/
def Neuron.getNumberOfParameters (n : Neuron F) : Int := n.weights.length

/-- SimpleNeuron.cpp:20-23, RecurrentNeuron.cpp:29-32: `tmp += inputs[w] * weights[w]`. -/
def dotLoop : F → List F → List F → Res F
  | tmp, [], _ => .ok tmp
  | tmp, x :: xs, w :: ws => dotLoop (tmp + x * w) xs ws
  | _, _ :: _, [] => .ub "weights[w] out of range"

/-- SimpleNeuron.cpp:13-26 `output`. -/
def Neuron.output (n : Neuron F) (inputs : List F) : Res (F × Neuron F) := do
  let lastInputs ← n.lastInputs.pushBack inputs
  let tmp ← dotLoop (lit 0) inputs n.weights
  let wb ← rd n.weights (inputs.length : Int)
  let sum := tmp + wb * n.bias
  let out ← n.activationFunction.apply sum
  return (out, { n with lastInputs := lastInputs, sum := sum })

/-- StochasticGradientDescent.cpp:31-35 / 54-58: for each of the first `k` positions, the increment
`lrError * lastInputs[w] + m * previousDeltaWeights[w]` and the incremented weight. -/
def sgdLoop (lrError m : F) : Nat → List F → List F → List F → Res (List F × List F)
  | 0, _, _, _ => .ok ([], [])
  | k + 1, x :: xs, p :: ps, w :: ws => do
    let d := lrError * x + m * p
    let r ← sgdLoop lrError m k xs ps ws
    return (d :: r.1, (w + d) :: r.2)
  | _ + 1, _, _, _ => .ub "vector index out of range"

/-- StochasticGradientDescent.cpp:20-39 `updateWeights(SimpleNeuron&)`. Line 37 assigns the last weight
(`=`), it does not increment it. -/
def Sgd.updateSimple (o : Sgd F) (n : Neuron F) (error : F) : Res (Neuron F) := do
  let lr := o.learningRate / lit (n.batchSize : Rat)
  let m := o.momentum
  let (lastInputs, li) ← n.lastInputs.getBack
  let (prev, pd) ← n.previousDeltaWeights.getBack
  let k := n.numberOfInputs.toNat
  let (deltas, ws) ← sgdLoop (lr * error) m k lastInputs prev n.weights
  let p ← rd prev (k : Int)
  let d := lr * error * n.bias + m * p
  let _ ← rd n.weights (k : Int)
  let weights := ws ++ d :: n.weights.drop (k + 1)
  let deltaWeights := deltas ++ d :: List.replicate (n.weights.length - (k + 1)) (lit 0)
  let pd' ← pd.pushBack deltaWeights
  return { n with lastInputs := li, previousDeltaWeights := pd', weights := weights }

/-- SimpleNeuron.cpp:33-36 and RecurrentNeuron.cpp:47-50: `errors[w] = error * weights[w]` for the first `k`
positions. -/
def errorLoop (error : F) : Nat → List F → List F → Res (List F)
  | 0, es, _ => .ok es
  | k + 1, _ :: es, w :: ws => do
    let r ← errorLoop error k es ws
    return (error * w) :: r
  | _ + 1, _, _ => .ub "vector index out of range"

/-- SimpleNeuron.cpp:28-39 `backOutput`. -/
def Neuron.backOutput (n : Neuron F) (error : F) : Res (List F × Neuron F) := do
  let d ← n.activationFunction.deriv n.sum
  let error := error * d
  let errors ← errorLoop error n.errors.length n.errors n.weights
  let n' ← n.optimizer.updateSimple { n with errors := errors } error
  return (n'.errors, n')

/-- SimpleNeuron.cpp:41-45 `train`. -/
def Neuron.train (n : Neuron F) (error : F) : Res (Neuron F) := do
  let d ← n.activationFunction.deriv n.sum
  n.optimizer.updateSimple n (error * d)

/-! ### RecurrentNeuron -/

/-- RecurrentNeuron.hpp:11-50 `class RecurrentNeuron : Neuron`. -/
structure RecNeuron (F : Type) where
  base : Neuron F
  lastOutput : F
  previousOutput : F
  recurrentError : F
  previousSum : F
  deriving DecidableEq, Repr

/-- RecurrentNeuron.cpp:9-12 (and the member initialisers of RecurrentNeuron.hpp). -/
def RecNeuron.make (m : NeuronModel F) (opt : Sgd F) (draws : Nat → F) : Res (RecNeuron F) := do
  let b ← Neuron.make m opt draws
  return { base := b, lastOutput := lit 0, previousOutput := lit 0, recurrentError := lit 0, previousSum := lit 0 }

/-- RecurrentNeuron.cpp:61-67 `reset`. -/
def RecNeuron.reset (n : RecNeuron F) : RecNeuron F :=
  { n with previousOutput := lit 0, recurrentError := lit 0, previousSum := lit 0 }

/-- RecurrentNeuron.cpp:17-40 `output`. -/
def RecNeuron.output (n0 : RecNeuron F) (inputs : List F) (temporalReset : Bool) : Res (F × RecNeuron F) := do
  let n := if temporalReset then n0.reset else n0
  let lastInputs ← n.base.lastInputs.pushBack inputs
  let previousSum := n.base.sum
  let previousOutput := n.lastOutput
  let tmp ← dotLoop (lit 0) inputs n.base.weights
  let wr ← rd n.base.weights (inputs.length : Int)
  let wb ← rd n.base.weights (inputs.length + 1 : Int)
  let sum := tmp + previousOutput * wr + n.base.bias * wb
  let out ← n.base.activationFunction.apply sum
  return (out, { n with
    base := { n.base with lastInputs := lastInputs, sum := sum }
    previousSum := previousSum, previousOutput := previousOutput, lastOutput := out })

/-- StochasticGradientDescent.cpp:44-69 `updateWeights(RecurrentNeuron&)`. After the loop `w` stays at
`numberOfInputs`: both the bias increment (line 59-60) and the recurrent increment (line 63-64) are applied to
`weights[numberOfInputs]`. -/
def Sgd.updateRec (o : Sgd F) (r : RecNeuron F) (error : F) : Res (RecNeuron F) := do
  let n := r.base
  let lr := o.learningRate / lit (n.batchSize : Rat)
  let m := o.momentum
  let (lastInputs, li) ← n.lastInputs.getBack
  let (prev, pd) ← n.previousDeltaWeights.getBack
  let k := n.numberOfInputs.toNat
  let (deltas, ws) ← sgdLoop (lr * error) m k lastInputs prev n.weights
  let p ← rd prev (k : Int)
  let d1 := lr * error * n.bias + m * p
  let w0 ← rd n.weights (k : Int)
  let w1 := w0 + d1
  let der ← n.activationFunction.deriv r.previousSum
  let recurrentError := error + r.recurrentError * der * w1
  let d2 := lr * recurrentError * r.previousOutput + m * p
  let w2 := w1 + d2
  let weights := ws ++ w2 :: n.weights.drop (k + 1)
  let deltaWeights := deltas ++ d2 :: List.replicate (n.weights.length - (k + 1)) (lit 0)
  let pd' ← pd.pushBack deltaWeights
  return { r with
    base := { n with lastInputs := li, previousDeltaWeights := pd', weights := weights }
    recurrentError := recurrentError }

/-- RecurrentNeuron.cpp:42-53 `backOutput`. -/
def RecNeuron.backOutput (r : RecNeuron F) (error : F) : Res (List F × RecNeuron F) := do
  let d ← r.base.activationFunction.deriv r.base.sum
  let error := error * d
  let errors ← errorLoop error r.base.numberOfInputs.toNat r.base.errors r.base.weights
  let r' ← r.base.optimizer.updateRec { r with base := { r.base with errors := errors } } error
  return (r'.base.errors, r')

/-- RecurrentNeuron.cpp:55-59 `train`. -/
def RecNeuron.train (r : RecNeuron F) (error : F) : Res (RecNeuron F) := do
  let d ← r.base.activationFunction.deriv r.base.sum
  r.base.optimizer.updateRec r (error * d)

/-- RecurrentNeuron.cpp:69-74 `isValid`. -/
def RecNeuron.isValid (r : RecNeuron F) : Int :=
  if (r.base.weights.length : Int) ≠ r.base.numberOfInputs + 2 then 304 else r.base.isValid

/-! ### GatedRecurrentUnit -/

/-- GatedRecurrentUnit.hpp:9-54 `class GatedRecurrentUnit`. -/
structure Gru (F : Type) where
  errors : List F
  numberOfInputs : Int
  previousOutput : F
  recurrentError : F
  updateGateOutput : F
  outputGateOutput : F
  resetGate : RecNeuron F
  updateGate : RecNeuron F
  outputGate : RecNeuron F
  deriving DecidableEq, Repr

/-- The stream of draws after `k` of them. -/
def shiftDraws (k : Nat) (draws : Nat → F) : Nat → F := fun i => draws (k + i)

/-- GatedRecurrentUnit.cpp:8-14 the constructor. -/
def Gru.make (m : NeuronModel F) (opt : Sgd F) (draws : Nat → F) : Res (Gru F) := do
  let nw := m.numberOfWeights.toNat
  let r ← RecNeuron.make { m with activationFunction := .sigmoid } opt draws
  let u ← RecNeuron.make { m with activationFunction := .sigmoid } opt (shiftDraws nw draws)
  let o ← RecNeuron.make { m with activationFunction := .tanh } opt (shiftDraws (nw + nw) draws)
  return {
    errors := []
    numberOfInputs := m.numberOfInputs
    previousOutput := lit 0
    recurrentError := lit 0
    updateGateOutput := lit 0
    outputGateOutput := lit 0
    resetGate := r
    updateGate := u
    outputGate := o }

/-- GatedRecurrentUnit.cpp:87-93 `reset`. -/
def Gru.reset (g : Gru F) : Gru F :=
  { g with previousOutput := lit 0, recurrentError := lit 0, updateGateOutput := lit 0 }

/-- GatedRecurrentUnit.cpp:16-32 `output`. -/
def Gru.output (g0 : Gru F) (inputs : List F) (temporalReset : Bool) : Res (F × Gru F) := do
  let g := if temporalReset then g0.reset else g0
  let (resetGateOutput, rg) ← g.resetGate.output inputs temporalReset
  let (updateGateOutput, ug) ← g.updateGate.output inputs temporalReset
  let og0 := { g.outputGate with lastOutput := g.outputGate.lastOutput * resetGateOutput }
  let (outputGateOutput, og) ← og0.output inputs temporalReset
  let out := (lit 1 - updateGateOutput) * g.previousOutput + updateGateOutput * outputGateOutput
  return (out, { g with
    updateGateOutput := updateGateOutput, outputGateOutput := outputGateOutput
    resetGate := { rg with lastOutput := out }
    updateGate := { ug with lastOutput := out }
    outputGate := { og with lastOutput := out } })

/-- `ranges::transform(a, b, a.begin(), plus<float>())`: the first min(|a|, |b|) elements. -/
def plusVec : List F → List F → List F
  | a :: as, b :: bs => (a + b) :: plusVec as bs
  | as, _ => as

/-- GatedRecurrentUnit.cpp:34-50 `backOutput`. -/
def Gru.backOutput (g : Gru F) (error : F) : Res (List F × Gru F) := do
  let d3 := error
  let d8 := d3 * g.updateGateOutput
  let d7 := d3 * g.outputGateOutput
  let d9 := d7 + d8
  let (errors, og) ← g.outputGate.backOutput d8
  let (e2, ug) ← g.updateGate.backOutput d9
  let d13 ← backOf errors
  let d16 := d13 * g.previousOutput
  let (e3, rg) ← g.resetGate.backOutput d16
  let errors := plusVec (plusVec errors e2) e3
  return (errors, { g with errors := errors, outputGate := og, updateGate := ug, resetGate := rg })

/-- GatedRecurrentUnit.cpp:52-64 `train`. -/
def Gru.train (g : Gru F) (error : F) : Res (Gru F) := do
  let d3 := error
  let d8 := d3 * g.updateGateOutput
  let d7 := d3 * g.outputGateOutput
  let d9 := d7 + d8
  let (errors, og) ← g.outputGate.backOutput d8
  let (_, ug) ← g.updateGate.backOutput d9
  let d13 ← backOf errors
  let d16 := d13 * g.previousOutput
  let (_, rg) ← g.resetGate.backOutput d16
  return { g with errors := errors, outputGate := og, updateGate := ug, resetGate := rg }

/-- GatedRecurrentUnit.cpp:66-73 `getWeights`. -/
def Gru.getWeights (g : Gru F) : List F :=
  g.resetGate.base.weights ++ g.updateGate.base.weights ++ g.outputGate.base.weights

/-- GatedRecurrentUnit.cpp:75-80 `getNumberOfParameters`. -/
def Gru.getNumberOfParameters (g : Gru F) : Int :=
  g.resetGate.base.getNumberOfParameters + g.updateGate.base.getNumberOfParameters
    + g.outputGate.base.getNumberOfParameters

/-- GatedRecurrentUnit.cpp:95-107 `isValid`. -/
def Gru.isValid (g : Gru F) : Int :=
  let err := g.resetGate.isValid
  if err ≠ 0 then err
  else
    let err := g.updateGate.isValid
    if err ≠ 0 then err
    else g.outputGate.isValid

end

end Snn
