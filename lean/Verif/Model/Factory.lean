import Verif.Model.Layer

/-!
# Model of `src/neural_network/layer/LayerFactory.cpp`, `include/snn/neural_network/layer/LayerFactory.hpp` and of the
constructors of the layers

A shape is `(C, X, Y)` (Tools.hpp:30-35). `int` arithmetic of the factory is checked (`ub` on overflow or division by
zero).
-/

namespace Snn

/-- LayerFactory.hpp:10-192 the functions that make a `LayerModel`. -/
inductive LayerModel (F : Type) where
  | input (shape : List Int)
  | fullyConnected (numberOfNeurons : Int) (activation : Act) (optimizers : List (LayerOptModel F))
  | recurrence (numberOfNeurons : Int) (activation : Act) (optimizers : List (LayerOptModel F))
  | gru (numberOfNeurons : Int) (optimizers : List (LayerOptModel F))
  | maxPooling (kernelSize : Int)
  | locallyConnected (numberOfFilters kernelSize : Int) (activation : Act) (optimizers : List (LayerOptModel F))
  | convolution (numberOfFilters kernelSize : Int) (activation : Act) (optimizers : List (LayerOptModel F))
  deriving DecidableEq, Repr

section
variable {F : Type} [Flt F] [FTrans F] [Add F] [Sub F] [Mul F] [Div F] [Neg F]

/-! ### Kernel indexes

A row is a `vector<int>` of `sizeOfNeuronInputs` zeros in which the loops assign positions 0, 1, 2, ... in order
(`kernelIndex` increases by one at every iteration of the innermost loop). -/

/-- `kernelIndexes[k].resize(sizeOfNeuronInputs)` then the assignments in order. -/
def fillRow (size : Int) (entries : List Int) : Res (List Int) :=
  if size < 0 then .throw "vector::_M_default_append"
  else if size.toNat < entries.length then .ub "kernelIndexes[k][kernelIndex] out of range"
  else .ok (entries ++ List.replicate (size.toNat - entries.length) 0)

/-- Convolution1D.cpp:29-39. An entry is the `inputIndex` and whether it is kept (`false`: -1 is stored). -/
def conv1DEntries (maxC kSize : Int) (k : Nat) : List (Int × Bool) :=
  (List.range kSize.toNat).flatMap fun (x : Nat) => (List.range maxC.toNat).map fun (c : Nat) =>
    (((k : Int) + x) * maxC + c, true)

/-- Convolution2D.cpp:33-49; `outX` is `shapeOfOutput[X]`. -/
def conv2DEntries (maxC maxX kSize outX : Int) (k : Nat) : List (Int × Bool) :=
  let kernelPosX := (k : Int).tmod outX
  let kernelPosY := (k : Int).tdiv outX
  (List.range kSize.toNat).flatMap fun (y : Nat) =>
    (List.range kSize.toNat).flatMap fun (x : Nat) =>
      (List.range maxC.toNat).map fun (c : Nat) =>
        ((((kernelPosY + y) * maxX + kernelPosX) + x) * maxC + c, true)

/-- LocallyConnected1D.cpp:32-45. -/
def lc1DEntries (maxC kSize numberOfInputs : Int) (k : Nat) : List (Int × Bool) :=
  (List.range kSize.toNat).flatMap fun (x : Nat) => (List.range maxC.toNat).map fun (c : Nat) =>
    let inputIndex := ((k : Int) * kSize + x) * maxC + c
    (inputIndex, decide (inputIndex < numberOfInputs))

/-- LocallyConnected2D.cpp:33-55; `kernelPosY = k / shapeOfOutput[Y]`. -/
def lc2DEntries (maxC maxX kSize outX outY numberOfInputs : Int) (k : Nat) : List (Int × Bool) :=
  let kernelPosX := (k : Int).tmod outX
  let kernelPosY := (k : Int).tdiv outY
  (List.range kSize.toNat).flatMap fun (y : Nat) =>
    (List.range kSize.toNat).flatMap fun (x : Nat) =>
      (List.range maxC.toNat).map fun (c : Nat) =>
        let inputIndexY := (kernelPosY * kSize + y) * maxX * maxC
        let inputIndexX := (kernelPosX * kSize + x) * maxC
        let inputIndex := inputIndexY + inputIndexX + c
        (inputIndex, decide (inputIndexX + c < maxX * maxC ∧ inputIndex < numberOfInputs))

/-- MaxPooling1D.cpp:35-47. -/
def pool1DEntries (maxC kSize numberOfInputs : Int) (k : Nat) : List (Int × Bool) :=
  let kernelPosX := (k : Int).tdiv maxC
  (List.range kSize.toNat).map fun (x : Nat) =>
    let inputIndex := (kernelPosX * kSize + x) * maxC + (k : Int).tmod maxC
    (inputIndex, decide (inputIndex < numberOfInputs))

/-- MaxPooling2D.cpp:37-57; `kernelPosY = (k / maxC) / shapeOfOutput[Y]`. -/
def pool2DEntries (maxC maxX kSize outX outY numberOfInputs : Int) (k : Nat) : List (Int × Bool) :=
  let kernelPosX := ((k : Int).tdiv maxC).tmod outX
  let kernelPosY := ((k : Int).tdiv maxC).tdiv outY
  (List.range kSize.toNat).flatMap fun (y : Nat) =>
    (List.range kSize.toNat).map fun (x : Nat) =>
      let c := (k : Int).tmod maxC
      let inputIndexY := (kernelPosY * kSize + y) * maxX * maxC
      let inputIndexX := (kernelPosX * kSize + x) * maxC
      let inputIndex := inputIndexY + inputIndexX + c
      (inputIndex, decide (inputIndexX + c < maxX * maxC ∧ inputIndex < numberOfInputs))

/-- What is stored for an entry; the `int` computation of `inputIndex` must not overflow (its intermediate values are
between 0 and its value when the shape is positive). -/
def storedIndex (e : Int × Bool) : Res Int := do
  let i ← ckInt e.1
  return if e.2 then i else -1

/-- `buildKernelIndexes`: one row per kernel (Convolution1D.cpp:20-41, Convolution2D.cpp:23-51,
LocallyConnected1D.cpp:23-47, LocallyConnected2D.cpp:24-57, MaxPooling1D.cpp:26-49, MaxPooling2D.cpp:28-59). `% 0` and
`/ 0` are excluded by the callers. -/
def buildRows (rows : Int) (size : Int) (entries : Nat → List (Int × Bool)) : Res (List (List Int)) :=
  if rows < 0 then .throw "vector::_M_default_append"
  else (List.range rows.toNat).mapM fun k => do
    let es ← (entries k).mapM storedIndex
    fillRow size es

/-! ### Layers -/

/-- Layer.tpp:6-9: `numberOfNeurons` neurons built one after the other from the stream of draws. -/
def makeNeurons {N : Type} (mk : Draws F → Res N) (perNeuron : Nat) : Nat → Draws F → Res (List N × Draws F)
  | 0, d => .ok ([], d)
  | k + 1, d => do
    let n ← mk d
    let (ns, d') ← makeNeurons mk perNeuron k (shiftDraws perNeuron d)
    return (n :: ns, d')

/-- Layer.tpp:5-9: `neurons.reserve(numberOfNeurons)` throws for a negative number. -/
def makeAllNeurons {N : Type} (mk : Draws F → Res N) (perNeuron : Nat) (numberOfNeurons : Int) (d : Draws F) :
    Res (List N × Draws F) :=
  if numberOfNeurons < 0 then .throw "vector::reserve" else makeNeurons mk perNeuron numberOfNeurons.toNat d

/-- LayerFactory.cpp:17-24 `computeNumberOfInputs`. -/
def computeNumberOfInputs (shape : List Int) : Res Int := shape.foldlM mulI 1

/-- `shape / kernelSize + rest` with `rest = shape % kernelSize == 0 ? 0 : 1` (LayerFactory.cpp:29-31, 37-40, 48-50,
58-62; LocallyConnected1D.cpp:13-17, LocallyConnected2D.cpp:12-18, MaxPooling1D.cpp:13-17, MaxPooling2D.cpp:13-19). -/
def ceilDiv (size kernelSize : Int) : Res Int := do
  let r ← modI size kernelSize
  let q ← divI size kernelSize
  addI q (if r = 0 then 0 else 1)

/-- LayerFactory.cpp:123-126, 157-160, 202-205: one dimension becomes one channel. -/
def normalizeShape : List Int → List Int
  | [x] => [1, x]
  | s => s

/-- LayerFactory.cpp:108-113, 115-120, 98-106: the layers of FullyConnected, Recurrence and GruLayer (constructors
FullyConnected.cpp:8-11, Recurrence.cpp:8-11, GruLayer.cpp:8-11, Layer.tpp:2-11). -/
def buildSimple {N : Type} (mk : NeuronModel F → Draws F → Res N) (gates : Nat) (wrap : List N → Body F)
    (numberOfInputs : Int) (extraWeights : Int) (numberOfNeurons : Int) (act : Act) (opts : List (LayerOptModel F))
    (d : Draws F) : Res (Layer F × Draws F) := do
  let nw ← addI numberOfInputs extraWeights
  let model : NeuronModel F :=
    { numberOfInputs := numberOfInputs, batchSize := 1, numberOfWeights := nw, bias := lit 1, activationFunction := act }
  let (ns, d1) ← makeAllNeurons (mk model) (gates * nw.toNat) numberOfNeurons d
  let (os, d2) := LayerOpt.buildAll ns.length opts d1
  return ({ numberOfInputs := numberOfInputs, optimizers := os, body := wrap ns }, d2)

/-- LayerFactory.cpp:201-242 `case convolution` and the constructors Convolution1D.cpp:9-18, Convolution2D.cpp:11-21,
FilterLayer.cpp:9-18. -/
def buildConvolution (opt : Sgd F) (numberOfInputs : Int) (shape0 : List Int) (filters kernelSize : Int) (act : Act)
    (opts : List (LayerOptModel F)) (d : Draws F) : Res (Layer F × Draws F) :=
  match normalizeShape shape0 with
  | [c, x] =>
    if kernelSize > x then .throw "Convolution kernel is too big."
    else do
      let outX ← ckInt (x - (kernelSize - 1))
      let kernels ← mulI filters outX
      let perFilter ← divI kernels filters
      let ni ← mulI kernelSize c
      let nw ← addI ni 1
      let model : NeuronModel F :=
        { numberOfInputs := ni, batchSize := perFilter, numberOfWeights := nw, bias := lit (1/1000), activationFunction := act }
      let (ns, d1) ← makeAllNeurons (Neuron.make model opt) nw.toNat filters d
      let (os, d2) := LayerOpt.buildAll ns.length opts d1
      let rows ← buildRows perFilter ni (conv1DEntries c kernelSize)
      return ({ numberOfInputs := numberOfInputs, optimizers := os, body := .filter .conv1D ns {
        numberOfFilters := filters
        numberOfKernels := kernels
        numberOfKernelsPerFilter := perFilter
        numberOfNeuronsPerFilter := 1
        kernelSize := kernelSize
        sizeOfNeuronInputs := ni
        shapeOfInput := [c, x]
        shapeOfOutput := [filters, outX]
        kernelIndexes := rows } }, d2)
  | [c, x, y] =>
    if kernelSize > x ∨ kernelSize > y then .throw "Convolution kernel is too big."
    else do
      let outX ← ckInt (x - (kernelSize - 1))
      let outY ← ckInt (y - (kernelSize - 1))
      let k1 ← mulI filters outX
      let kernels ← mulI k1 outY
      let perFilter ← divI kernels filters
      let k2 ← mulI kernelSize kernelSize
      let ni ← mulI k2 c
      let nw ← addI ni 1
      let model : NeuronModel F :=
        { numberOfInputs := ni, batchSize := perFilter, numberOfWeights := nw, bias := lit (1/1000), activationFunction := act }
      let (ns, d1) ← makeAllNeurons (Neuron.make model opt) nw.toNat filters d
      let (os, d2) := LayerOpt.buildAll ns.length opts d1
      let rows ← buildRows perFilter ni (conv2DEntries c x kernelSize outX)
      return ({ numberOfInputs := numberOfInputs, optimizers := os, body := .filter .conv2D ns {
        numberOfFilters := filters
        numberOfKernels := kernels
        numberOfKernelsPerFilter := perFilter
        numberOfNeuronsPerFilter := 1
        kernelSize := kernelSize
        sizeOfNeuronInputs := ni
        shapeOfInput := [c, x, y]
        shapeOfOutput := [filters, outX, outY]
        kernelIndexes := rows } }, d2)
  | _ => .throw "Input with 3 dimensions or higher is not managed."

/-- LayerFactory.cpp:156-199 `case locallyConnected` and the constructors LocallyConnected1D.cpp:10-21,
LocallyConnected2D.cpp:9-22, FilterLayer.cpp:9-18. -/
def buildLocallyConnected (opt : Sgd F) (numberOfInputs : Int) (shape0 : List Int) (filters kernelSize : Int) (act : Act)
    (opts : List (LayerOptModel F)) (d : Draws F) : Res (Layer F × Draws F) :=
  match normalizeShape shape0 with
  | [c, x] =>
    if kernelSize > x then .throw "Kernel of locally connected layer is too big."
    else do
      let outX ← ceilDiv x kernelSize
      let neurons ← mulI filters outX
      let perFilter ← divI neurons filters
      let ni ← mulI kernelSize c
      let nw ← addI ni 1
      let model : NeuronModel F :=
        { numberOfInputs := ni, batchSize := 1, numberOfWeights := nw, bias := lit (1/1000), activationFunction := act }
      let (ns, d1) ← makeAllNeurons (Neuron.make model opt) nw.toNat neurons d
      let (os, d2) := LayerOpt.buildAll ns.length opts d1
      let rows ← buildRows perFilter ni (lc1DEntries c kernelSize numberOfInputs)
      return ({ numberOfInputs := numberOfInputs, optimizers := os, body := .filter .lc1D ns {
        numberOfFilters := filters
        numberOfKernels := neurons
        numberOfKernelsPerFilter := perFilter
        numberOfNeuronsPerFilter := perFilter
        kernelSize := kernelSize
        sizeOfNeuronInputs := ni
        shapeOfInput := [c, x]
        shapeOfOutput := [filters, outX]
        kernelIndexes := rows } }, d2)
  | [c, x, y] =>
    if kernelSize > x ∨ kernelSize > y then .throw "Kernel of locally connected layer is too big."
    else do
      let outX ← ceilDiv x kernelSize
      let outY ← ceilDiv y kernelSize
      let k1 ← mulI filters outX
      let neurons ← mulI k1 outY
      let perFilter ← divI neurons filters
      let k2 ← mulI kernelSize kernelSize
      let ni ← mulI k2 c
      let nw ← addI ni 1
      let model : NeuronModel F :=
        { numberOfInputs := ni, batchSize := 1, numberOfWeights := nw, bias := lit (1/1000), activationFunction := act }
      let (ns, d1) ← makeAllNeurons (Neuron.make model opt) nw.toNat neurons d
      let (os, d2) := LayerOpt.buildAll ns.length opts d1
      let rows ← buildRows perFilter ni (lc2DEntries c x kernelSize outX outY numberOfInputs)
      return ({ numberOfInputs := numberOfInputs, optimizers := os, body := .filter .lc2D ns {
        numberOfFilters := filters
        numberOfKernels := neurons
        numberOfKernelsPerFilter := perFilter
        numberOfNeuronsPerFilter := perFilter
        kernelSize := kernelSize
        sizeOfNeuronInputs := ni
        shapeOfInput := [c, x, y]
        shapeOfOutput := [filters, outX, outY]
        kernelIndexes := rows } }, d2)
  | _ => .throw "Input with 3 dimensions or higher is not managed."

/-- LayerFactory.cpp:122-154 `case maxPooling` and the constructors MaxPooling1D.cpp:10-24, MaxPooling2D.cpp:10-26,
FilterLayer.cpp:9-18 (`numberOfKernelsPerFilter` keeps the -1 of LayerFactory.hpp:132). -/
def buildMaxPooling (numberOfInputs : Int) (shape0 : List Int) (kernelSize : Int) : Res (Layer F) :=
  match normalizeShape shape0 with
  | [c, x] =>
    if kernelSize > x then .throw "Kernel of max pooling layer is too big."
    else do
      let outX ← ceilDiv x kernelSize
      let numberOfOutputs := outX
      if numberOfOutputs < 0 then .throw "vector::_M_default_append"
      else do
        let _ ← (if c = 0 ∧ 0 < numberOfOutputs then (.ub "division by zero" : Res Unit) else .ok ())
        let rows ← buildRows numberOfOutputs kernelSize (pool1DEntries c kernelSize numberOfInputs)
        return { numberOfInputs := numberOfInputs, optimizers := [], body := .pool false {
          numberOfFilters := c
          numberOfKernels := numberOfOutputs
          numberOfKernelsPerFilter := -1
          numberOfNeuronsPerFilter := 0
          kernelSize := kernelSize
          sizeOfNeuronInputs := kernelSize
          shapeOfInput := [c, x]
          shapeOfOutput := [c, outX]
          kernelIndexes := rows } numberOfOutputs (List.replicate numberOfOutputs.toNat 0) }
  | [c, x, y] =>
    if kernelSize > x ∨ kernelSize > y then .throw "Kernel of max pooling layer is too big."
    else do
      let outX ← ceilDiv x kernelSize
      let outY ← ceilDiv y kernelSize
      let k1 ← mulI c outX
      let numberOfOutputs ← mulI k1 outY
      let size ← mulI kernelSize kernelSize
      if numberOfOutputs < 0 then .throw "vector::_M_default_append"
      else do
        let rows ← buildRows numberOfOutputs size (pool2DEntries c x kernelSize outX outY numberOfInputs)
        return { numberOfInputs := numberOfInputs, optimizers := [], body := .pool true {
          numberOfFilters := c
          numberOfKernels := numberOfOutputs
          numberOfKernelsPerFilter := -1
          numberOfNeuronsPerFilter := 0
          kernelSize := kernelSize
          sizeOfNeuronInputs := size
          shapeOfInput := [c, x, y]
          shapeOfOutput := [c, outX, outY]
          kernelIndexes := rows } numberOfOutputs (List.replicate numberOfOutputs.toNat 0) }
  | _ => .throw "Input with 3 dimensions or higher is not managed."

/-- LayerFactory.cpp:83-250 `build` of one layer. -/
def buildLayer (opt : Sgd F) (m : LayerModel F) (shape : List Int) (d : Draws F) : Res (Layer F × Draws F) := do
  let numberOfInputs ← computeNumberOfInputs shape
  if shape.isEmpty then .throw "Input of layer has size of 0."
  else if numberOfInputs > 1000000 then .throw "Layer is too big."
  else match m with
  | .fullyConnected n act opts =>
    if numberOfInputs ≤ 0 then .throw "Input of layer has size of 0."
    else buildSimple (fun m d => Neuron.make m opt d) 1 .fullyConnected numberOfInputs 1 n act opts d
  | .recurrence n act opts => buildSimple (fun m d => RecNeuron.make m opt d) 1 .recurrence numberOfInputs 2 n act opts d
  | .gru n opts => buildSimple (fun m d => Gru.make m opt d) 3 .gru numberOfInputs 2 n .tanh opts d
  | .maxPooling k => do
    let l ← buildMaxPooling numberOfInputs shape k
    return (l, d)
  | .locallyConnected f k act opts => buildLocallyConnected opt numberOfInputs shape f k act opts d
  | .convolution f k act opts => buildConvolution opt numberOfInputs shape f k act opts d
  | .input _ => .throw "Input LayerModel should be in first position."

/-- LayerFactory.cpp:271-276: the layers after the input, each on the output shape of the previous one. -/
def buildLayers (opt : Sgd F) : List (LayerModel F) → List Int → Draws F → Res (List (Layer F) × Draws F)
  | [], _, d => .ok ([], d)
  | m :: ms, shape, d => do
    let (l, d1) ← buildLayer opt m shape d
    let (ls, d2) ← buildLayers opt ms l.getShapeOfOutput d1
    return (l :: ls, d2)

/-- LayerFactory.cpp:252-277 `build` of all the layers. -/
def LayerFactory.build (opt : Sgd F) (models : List (LayerModel F)) (d : Draws F) : Res (List (Layer F) × Draws F) :=
  if models.length > 1000 then .throw "Too much layers."
  else match models with
  | .input shape :: rest =>
    if models.length < 2 then .throw "Neural Network must have at least 1 layer."
    else do
      let numberOfInputs ← computeNumberOfInputs shape
      if numberOfInputs > 2073600 then .throw "Layer is too big."
      else buildLayers opt rest shape d
  | _ => .throw "First LayerModel must be a Input type LayerModel."

end

end Snn
