import Verif.Model.LayerOpt

/-!
# Model of `include/snn/neural_network/layer/*.tpp` and `src/neural_network/layer/*.cpp`
-/

namespace Snn

/-- FilterLayer.hpp:18-26: the fields of `FilterLayer`. -/
structure FilterInfo where
  numberOfFilters : Int
  numberOfKernels : Int
  numberOfKernelsPerFilter : Int
  numberOfNeuronsPerFilter : Int
  kernelSize : Int
  sizeOfNeuronInputs : Int
  shapeOfInput : List Int
  shapeOfOutput : List Int
  kernelIndexes : List (List Int)
  deriving DecidableEq, Repr

/-- The four filter layers with neurons (Convolution1D/2D.hpp, LocallyConnected1D/2D.hpp). -/
inductive FKind where
  | conv1D | conv2D | lc1D | lc2D
  deriving DecidableEq, Repr

/-- The dynamic type of a layer with its `neurons`. MaxPooling layers inherit `neurons` too but it is always
empty (LayerFactory.hpp:121 builds them with 0 neurons), it is left out. -/
inductive Body (F : Type) where
  | fullyConnected (neurons : List (Neuron F))
  | recurrence (neurons : List (RecNeuron F))
  | gru (neurons : List (Gru F))
  | filter (kind : FKind) (neurons : List (Neuron F)) (info : FilterInfo)
  | pool (twoD : Bool) (info : FilterInfo) (numberOfOutputs : Int) (maxValueIndexes : List Int)
  deriving DecidableEq, Repr

/-- Layer.hpp:19-63 `class Layer`: `numberOfInputs`, `optimizers`, and the rest in `body`. -/
structure Layer (F : Type) where
  numberOfInputs : Int
  optimizers : List (LayerOpt F)
  body : Body F
  deriving DecidableEq, Repr

section
variable {F : Type} [Flt F] [FTrans F] [Add F] [Sub F] [Mul F] [Div F] [Neg F]

/-! ### Loops over neurons -/

/-- SimpleLayer.tpp:11-16, SimpleLayer.cpp:16-21 and 27-32: `outputs[n] = neurons[n].output(...)` for every n. -/
def runNeurons {N : Type} (f : N → Res (F × N)) : List N → Res (List F × List N)
  | [] => .ok ([], [])
  | n :: ns => do
    let (o, n') ← f n
    let (os, ns') ← runNeurons f ns
    return (o :: os, n' :: ns')

/-- SimpleLayer.tpp:26-27: `errors[e] += error[e]` for every e below `errors.size()`. -/
def addErrors : List F → List F → Res (List F)
  | [], _ => .ok []
  | a :: as, b :: bs => do
    let r ← addErrors as bs
    return (a + b) :: r
  | _ :: _, [] => .ub "error[e] out of range"

/-- SimpleLayer.tpp:23-28: the loop of `computeBackOutput`; the arguments are the neurons, `inputErrors` and
the accumulated `errors`. -/
def backNeurons {N : Type} (f : N → F → Res (List F × N)) : List N → List F → List F → Res (List F × List N)
  | [], _, errors => .ok (errors, [])
  | n :: ns, e :: es, errors => do
    let (error, n') ← f n e
    let errors' ← addErrors errors error
    let (r, ns') ← backNeurons f ns es errors'
    return (r, n' :: ns')
  | _ :: _, [], _ => .ub "inputErrors out of range"

/-- SimpleLayer.tpp:35-36, Convolution1D.cpp:129-130, Convolution2D.cpp:137-138, LocallyConnected1D.cpp:135-136,
LocallyConnected2D.cpp:146-147: `neurons[n].train(inputErrors[n])`, once per neuron. -/
def trainNeurons {N : Type} (f : N → F → Res N) : List N → List F → Res (List N)
  | [], _ => .ok []
  | n :: ns, e :: es => do
    let n' ← f n e
    let ns' ← trainNeurons f ns es
    return n' :: ns'
  | _ :: _, [] => .ub "inputErrors out of range"

/-! ### Filter layers -/

/-- Convolution1D.cpp:93-97, Convolution2D.cpp:101-105: `neuronInputs[i] = inputs[kernelIndexes[k][i]]` for the
first `size` entries of a row of `kernelIndexes`. -/
def gather (inputs : List F) : Nat → List Int → Res (List F)
  | 0, _ => .ok []
  | k + 1, i :: is => do
    let x ← rd inputs i
    let r ← gather inputs k is
    return x :: r
  | _ + 1, [] => .ub "kernelIndexes[k][i] out of range"

/-- LocallyConnected1D.cpp:99-106, LocallyConnected2D.cpp:109-116: the same with 0 for a negative index. -/
def gatherPad (inputs : List F) : Nat → List Int → Res (List F)
  | 0, _ => .ok []
  | k + 1, i :: is => do
    let x ← (if i ≥ 0 then rd inputs i else .ok (lit 0))
    let r ← gatherPad inputs k is
    return x :: r
  | _ + 1, [] => .ub "kernelIndexes[k][i] out of range"

/-- Convolution1D.cpp:91-102, Convolution2D.cpp:99-110: every neuron on every row of `kernelIndexes`. -/
def convOutputs (inputs : List F) (size : Nat) : List (List Int) → List (Neuron F) → Res (List F × List (Neuron F))
  | [], ns => .ok ([], ns)
  | row :: rows, ns => do
    let x ← gather inputs size row
    let (o, ns1) ← runNeurons (fun n => n.output x) ns
    let (os, ns2) ← convOutputs inputs size rows ns1
    return (o ++ os, ns2)

/-- LocallyConnected1D.cpp:97-111, LocallyConnected2D.cpp:107-121: row k feeds the neurons
k*numberOfFilters ... (k+1)*numberOfFilters - 1. -/
def lcOutputs (inputs : List F) (size filters : Nat) :
    List (List Int) → List (Neuron F) → Res (List F × List (Neuron F))
  | [], ns => .ok ([], ns)
  | row :: rows, ns => do
    let x ← gatherPad inputs size row
    if ns.length < filters then .ub "neurons[o] out of range"
    else do
      let (o, ns1) ← runNeurons (fun n => n.output x) (ns.take filters)
      let (os, ns2) ← lcOutputs inputs size filters rows (ns.drop filters)
      return (o ++ os, ns1 ++ ns2)

/-- `vector<float> outputs(numberOfKernels)` filled from the front (Convolution1D.cpp:89, Convolution2D.cpp:97,
LocallyConnected1D.cpp:95, LocallyConnected2D.cpp:105, MaxPooling1D.cpp:87, MaxPooling2D.cpp:97). -/
def fillOutputs (numberOfKernels : Int) (os : List F) : Res (List F) :=
  if numberOfKernels < 0 then .throw "cannot create std::vector larger than max_size()"
  else if numberOfKernels.toNat < os.length then .ub "outputs[o] out of range"
  else .ok (os ++ List.replicate (numberOfKernels.toNat - os.length) (lit 0))

/-- `vector<float> errors(numberOfInputs, 0)`. -/
def zeroErrors (numberOfInputs : Int) : Res (List F) :=
  if numberOfInputs < 0 then .throw "cannot create std::vector larger than max_size()"
  else .ok (List.replicate numberOfInputs.toNat (lit 0))

/-- Convolution1D.cpp:115-119, Convolution2D.cpp:123-127: `errors[kernelIndexes[k][e]] += error[e]`. -/
def scatter : List Int → List F → List F → Res (List F)
  | _, [], errors => .ok errors
  | i :: is, e :: es, errors => do
    let v ← rd errors i
    let errors' ← wr errors i (v + e)
    scatter is es errors'
  | [], _ :: _, _ => .ub "kernelIndexes[k][e] out of range"

/-- LocallyConnected1D.cpp:122-127, LocallyConnected2D.cpp:133-138: the same skipping negative indexes. -/
def scatterPad : List Int → List F → List F → Res (List F)
  | _, [], errors => .ok errors
  | i :: is, e :: es, errors =>
    if i ≥ 0 then do
      let v ← rd errors i
      let errors' ← wr errors i (v + e)
      scatterPad is es errors'
    else scatterPad is es errors
  | [], _ :: _, _ => .ub "kernelIndexes[k][e] out of range"

/-- Convolution1D.cpp:112-121, Convolution2D.cpp:120-129: the neurons on one row of `kernelIndexes`. -/
def convBackRow (row : List Int) : List (Neuron F) → List F → List F → Res (List F × List (Neuron F))
  | [], _, errors => .ok (errors, [])
  | n :: ns, e :: es, errors => do
    let (error, n') ← n.backOutput e
    let errors' ← scatter row error errors
    let (r, ns') ← convBackRow row ns es errors'
    return (r, n' :: ns')
  | _ :: _, [], _ => .ub "inputErrors out of range"

/-- Convolution1D.cpp:107-124, Convolution2D.cpp:115-132: the loop of `computeBackOutput`; `i` runs over
`inputErrors`, one element per (row, neuron). -/
def convBack : List (List Int) → List (Neuron F) → List F → List F → Res (List F × List (Neuron F))
  | [], ns, _, errors => .ok (errors, ns)
  | row :: rows, ns, ies, errors => do
    let (errors', ns') ← convBackRow row ns ies errors
    convBack rows ns' (ies.drop ns.length) errors'

/-- LocallyConnected1D.cpp:119-129, LocallyConnected2D.cpp:129-139: the loop of `computeBackOutput`; `rowOf n` is
the row of `kernelIndexes` used for the neuron n. -/
def lcBack (rowOf : Nat → Res (List Int)) :
    Nat → List (Neuron F) → List F → List F → Res (List F × List (Neuron F))
  | _, [], _, errors => .ok (errors, [])
  | i, n :: ns, e :: es, errors => do
    let (error, n') ← n.backOutput e
    let row ← rowOf i
    let errors' ← scatterPad row error errors
    let (r, ns') ← lcBack rowOf (i + 1) ns es errors'
    return (r, n' :: ns')
  | _, _ :: _, [], _ => .ub "inputErrors out of range"

/-- The row of `kernelIndexes` used in `computeBackOutput` for the neuron n: `kernelIndexes[n % numberOfKernelsPerFilter]`
in LocallyConnected1D.cpp:124, `kernelIndexes[n / numberOfFilters]` in LocallyConnected2D.cpp:132-135. -/
def lcRow (kind : FKind) (info : FilterInfo) (n : Nat) : Res (List Int) :=
  match kind with
  | .lc1D => do
    let k ← modI n info.numberOfKernelsPerFilter
    rd info.kernelIndexes k
  | _ => do
    let k ← divI n info.numberOfFilters
    rd info.kernelIndexes k

/-! ### Max pooling -/

/-- MaxPooling1D.cpp:90-97, MaxPooling2D.cpp:100-107: the index of the last largest input of a row; `m` is
`maxValueIndexes[k]`. -/
def poolMax (inputs : List F) : Nat → List Int → Int → Res Int
  | 0, _, m => .ok m
  | k + 1, i :: is, m =>
    if i ≥ 0 then
      if m = -1 then poolMax inputs k is i
      else do
        let a ← rd inputs i
        let b ← rd inputs m
        poolMax inputs k is (if fle b a then i else m)
    else poolMax inputs k is m
  | _ + 1, [], _ => .ub "kernelIndexes[k][i] out of range"

/-- MaxPooling1D.cpp:88-99, MaxPooling2D.cpp:98-109: outputs and `maxValueIndexes`. -/
def poolOutputs (inputs : List F) (size : Nat) : List (List Int) → Res (List F × List Int)
  | [] => .ok ([], [])
  | row :: rows => do
    let m ← poolMax inputs size row (-1)
    let o ← rd inputs m
    let (os, ms) ← poolOutputs inputs size rows
    return (o :: os, m :: ms)

/-- MaxPooling1D.cpp:107-110, MaxPooling2D.cpp:117-120: `errors[maxValueIndexes[e]] = inputErrors[e]`. -/
def poolBack : List Int → List F → List F → Res (List F)
  | _, [], errors => .ok errors
  | m :: ms, e :: es, errors => do
    let errors' ← wr errors m e
    poolBack ms es errors'
  | [], _ :: _, _ => .ub "maxValueIndexes[e] out of range"

/-! ### The virtual methods of a layer -/

/-- `computeOutput`: SimpleLayer.tpp:9-17, SimpleLayer.cpp:14-33, Convolution1D.cpp:87-104, Convolution2D.cpp:95-112,
LocallyConnected1D.cpp:93-113, LocallyConnected2D.cpp:103-123, MaxPooling1D.cpp:85-101, MaxPooling2D.cpp:95-111. -/
def Body.computeOutput (b : Body F) (inputs : List F) (temporalReset : Bool) : Res (List F × Body F) :=
  match b with
  | .fullyConnected ns => do
    let (os, ns') ← runNeurons (fun n => n.output inputs) ns
    return (os, .fullyConnected ns')
  | .recurrence ns => do
    let (os, ns') ← runNeurons (fun n => n.output inputs temporalReset) ns
    return (os, .recurrence ns')
  | .gru ns => do
    let (os, ns') ← runNeurons (fun n => n.output inputs temporalReset) ns
    return (os, .gru ns')
  | .filter kind ns info => do
    let (os, ns') ← (match kind with
      | .conv1D | .conv2D => convOutputs inputs info.sizeOfNeuronInputs.toNat info.kernelIndexes ns
      | .lc1D | .lc2D =>
        lcOutputs inputs info.sizeOfNeuronInputs.toNat info.numberOfFilters.toNat info.kernelIndexes ns)
    let outputs ← fillOutputs info.numberOfKernels os
    return (outputs, .filter kind ns' info)
  | .pool twoD info numberOfOutputs mvi => do
    let (os, ms) ← poolOutputs inputs info.sizeOfNeuronInputs.toNat info.kernelIndexes
    let outputs ← fillOutputs info.numberOfKernels os
    if mvi.length < ms.length then .ub "maxValueIndexes[k] out of range"
    else return (outputs, .pool twoD info numberOfOutputs (ms ++ mvi.drop ms.length))

/-- `computeBackOutput`: SimpleLayer.tpp:20-30, Convolution1D.cpp:107-124, Convolution2D.cpp:115-132,
LocallyConnected1D.cpp:116-130, LocallyConnected2D.cpp:126-141, MaxPooling1D.cpp:104-112, MaxPooling2D.cpp:114-122. -/
def Body.computeBackOutput (b : Body F) (numberOfInputs : Int) (inputErrors : List F) : Res (List F × Body F) := do
  let errors ← zeroErrors numberOfInputs
  match b with
  | .fullyConnected ns => do
    let (es, ns') ← backNeurons (fun n e => n.backOutput e) ns inputErrors errors
    return (es, .fullyConnected ns')
  | .recurrence ns => do
    let (es, ns') ← backNeurons (fun n e => n.backOutput e) ns inputErrors errors
    return (es, .recurrence ns')
  | .gru ns => do
    let (es, ns') ← backNeurons (fun n e => n.backOutput e) ns inputErrors errors
    return (es, .gru ns')
  | .filter kind ns info => do
    let (es, ns') ← (match kind with
      | .conv1D | .conv2D => convBack info.kernelIndexes ns inputErrors errors
      | .lc1D | .lc2D => lcBack (lcRow kind info) 0 ns inputErrors errors)
    return (es, .filter kind ns' info)
  | .pool twoD info numberOfOutputs mvi => do
    let es ← poolBack mvi inputErrors errors
    return (es, .pool twoD info numberOfOutputs mvi)

/-- `computeTrain`: SimpleLayer.tpp:33-37, Convolution1D.cpp:127-131 (there `n < numberOfFilters`, which is the
number of neurons, LayerFactory.cpp:213), Convolution2D.cpp:135-139, LocallyConnected1D.cpp:133-137,
LocallyConnected2D.cpp:144-148, MaxPooling1D.hpp:22 and MaxPooling2D.hpp:22 (empty). -/
def Body.computeTrain (b : Body F) (inputErrors : List F) : Res (Body F) :=
  match b with
  | .fullyConnected ns => do
    let ns' ← trainNeurons (fun n e => n.train e) ns inputErrors
    return .fullyConnected ns'
  | .recurrence ns => do
    let ns' ← trainNeurons (fun n e => n.train e) ns inputErrors
    return .recurrence ns'
  | .gru ns => do
    let ns' ← trainNeurons (fun n e => n.train e) ns inputErrors
    return .gru ns'
  | .filter kind ns info => do
    let ns' ← trainNeurons (fun n e => n.train e) ns inputErrors
    return .filter kind ns' info
  | .pool twoD info numberOfOutputs mvi => .ok (.pool twoD info numberOfOutputs mvi)

/-- `getWeights()` of every neuron of the layer (Layer.tpp:86-88 iterates over them). -/
def Body.weights (b : Body F) : List (List F) :=
  match b with
  | .fullyConnected ns => ns.map Neuron.getWeights
  | .recurrence ns => ns.map fun n => n.base.getWeights
  | .gru ns => ns.map Gru.getWeights
  | .filter _ ns _ => ns.map Neuron.getWeights
  | .pool .. => []

/-- Layer.tpp:111-114 `getNumberOfNeurons`. -/
def Body.numberOfNeurons (b : Body F) : Nat := b.weights.length

/-- Layer.tpp:111-114 `getNumberOfNeurons`. -/
def Layer.getNumberOfNeurons (l : Layer F) : Nat := l.body.numberOfNeurons

/-- `getNumberOfParameters()` of every neuron of the layer (Layer.tpp:120-122 iterates over them); a pooling layer has no neuron,
NoNeuronLayer.cpp:34-37 returns 0. -/
def Body.parameters (b : Body F) : List Int :=
  match b with
  | .fullyConnected ns => ns.map Neuron.getNumberOfParameters
  | .recurrence ns => ns.map fun n => n.base.getNumberOfParameters
  | .gru ns => ns.map Gru.getNumberOfParameters
  | .filter _ ns _ => ns.map Neuron.getNumberOfParameters
  | .pool .. => []

/-- Layer.tpp:117-125 `getNumberOfParameters`: an `int` sum. -/
def Layer.getNumberOfParameters (l : Layer F) : Res Int := l.body.parameters.foldlM addI 0

/-- Layer.tpp:28-29: the testing hooks, in order. -/
def testingHooks : List (LayerOpt F) → List F → Res (List F)
  | [], out => .ok out
  | o :: os, out => do
    let out' ← o.afterOutputForTesting out
    testingHooks os out'

/-- Layer.tpp:37-38: the training hooks, in order. -/
def trainingHooks (temporalReset : Bool) :
    List (LayerOpt F) → List F → Draws F → Res (List F × List (LayerOpt F) × Draws F)
  | [], out, d => .ok (out, [], d)
  | o :: os, out, d => do
    let (out1, o', d1) ← o.afterOutputForTraining out temporalReset d
    let (out2, os', d2) ← trainingHooks temporalReset os out1 d1
    return (out2, o' :: os', d2)

/-- Layer.tpp:45-46 and 54-55: the backpropagation hooks, in order. -/
def backHooks (ws : List (List F)) (opts : List (LayerOpt F)) (inputErrors : List F) : List F :=
  opts.foldl (fun es o => o.beforeBackpropagation ws es) inputErrors

/-- Layer.tpp:25-31 `output`. -/
def Layer.output (l : Layer F) (inputs : List F) (temporalReset : Bool) : Res (List F × Layer F) := do
  let (out, body) ← l.body.computeOutput inputs temporalReset
  let out' ← testingHooks l.optimizers out
  return (out', { l with body := body })

/-- Layer.tpp:34-40 `outputForTraining`. -/
def Layer.outputForTraining (l : Layer F) (inputs : List F) (temporalReset : Bool) (d : Draws F) :
    Res (List F × Layer F × Draws F) := do
  let (out, body) ← l.body.computeOutput inputs temporalReset
  let (out', opts, d') ← trainingHooks temporalReset l.optimizers out d
  return (out', { l with body := body, optimizers := opts }, d')

/-- Layer.tpp:43-49 `backOutput`. -/
def Layer.backOutput (l : Layer F) (inputErrors : List F) : Res (List F × Layer F) := do
  let es := backHooks l.body.weights l.optimizers inputErrors
  let (r, body) ← l.body.computeBackOutput l.numberOfInputs es
  return (r, { l with body := body })

/-- Layer.tpp:52-57 `train`. -/
def Layer.train (l : Layer F) (inputErrors : List F) : Res (Layer F) := do
  let es := backHooks l.body.weights l.optimizers inputErrors
  let body ← l.body.computeTrain es
  return { l with body := body }

/-- `getShapeOfOutput`: SimpleLayer.tpp:46-49, FilterLayer.cpp:25-28. -/
def Layer.getShapeOfOutput (l : Layer F) : List Int :=
  match l.body with
  | .filter _ _ info => info.shapeOfOutput
  | .pool _ info _ _ => info.shapeOfOutput
  | _ => [(l.getNumberOfNeurons : Int)]

/-- `getShapeOfInput`: SimpleLayer.tpp:40-43, FilterLayer.cpp:20-23. -/
def Layer.getShapeOfInput (l : Layer F) : List Int :=
  match l.body with
  | .filter _ _ info => info.shapeOfInput
  | .pool _ info _ _ => info.shapeOfInput
  | _ => [l.numberOfInputs]

/-- The first non zero code of a list of codes, 0 if there is none. -/
def firstError : List Int → Int
  | [] => 0
  | e :: es => if e ≠ 0 then e else firstError es

/-- Layer.tpp:60-74 `isValid` on the validity codes of the neurons. -/
def layerIsValid (neuronCodes : List Int) : Int :=
  if neuronCodes.length < 1 ∨ neuronCodes.length > 1000000 then 201
  else firstError neuronCodes

/-- SimpleLayer.tpp:52-68 `isValid`; `inputs` are the `getNumberOfInputs()` of the neurons. Code 202 cannot occur:
the shape is the number of neurons. -/
def simpleIsValid (numberOfInputs : Int) (inputs : List Int) (codes : List Int) : Int :=
  if inputs.any fun i => decide (i ≠ numberOfInputs) then 203 else layerIsValid codes

/-- FilterLayer.cpp:35-46 `isValid` (the product of the shape is computed in `int`). -/
def filterIsValid (info : FilterInfo) (codes : List Int) : Res Int := do
  let n ← info.shapeOfOutput.foldlM mulI 1
  return if n ≠ info.numberOfKernels then 202 else layerIsValid codes

/-- `isValid` of every layer: SimpleLayer.tpp:52-68, Convolution1D.cpp:54-62, Convolution2D.cpp:62-70,
LocallyConnected1D.cpp:60-68, LocallyConnected2D.cpp:70-78, MaxPooling1D.cpp:57-63, MaxPooling2D.cpp:67-73. -/
def Layer.isValid (l : Layer F) : Res Int :=
  match l.body with
  | .fullyConnected ns =>
    .ok (simpleIsValid l.numberOfInputs (ns.map (·.numberOfInputs)) (ns.map Neuron.isValid))
  | .recurrence ns =>
    .ok (simpleIsValid l.numberOfInputs (ns.map (·.base.numberOfInputs)) (ns.map RecNeuron.isValid))
  | .gru ns =>
    .ok (simpleIsValid l.numberOfInputs (ns.map (·.numberOfInputs)) (ns.map Gru.isValid))
  | .filter kind ns info => do
    let expected ← (match kind with
      | .conv1D | .lc1D => do
        let c ← rd info.shapeOfInput 0
        mulI info.kernelSize c
      | _ => .ok info.sizeOfNeuronInputs)
    if ns.any fun n => decide (n.numberOfInputs ≠ expected) then return 203
    else filterIsValid info (ns.map Neuron.isValid)
  | .pool _ info numberOfOutputs mvi =>
    .ok (if (mvi.length : Int) ≠ numberOfOutputs ∧ info.numberOfKernels ≠ numberOfOutputs then 204 else 0)

end

end Snn
