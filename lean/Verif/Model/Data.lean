import Verif.Basic.Res
import Verif.Basic.Flt
import Verif.Model.Shuffle

/-!
# Model of `include/snn/data/*.hpp` and `src/data/*.cpp`

Sizes are `Nat` (`static_cast<int>(v.size())` is exact below 2^31 elements); an index given to a getter
is an `Int`, negative or too large is an out of bounds access.
-/

namespace Snn

/-- Data.hpp:10-15 `enum class problem`. -/
inductive Problem where
  | classification | multipleClassification | regression
  deriving DecidableEq, Repr

/-- Data.hpp:17-22 `enum class nature`. -/
inductive Nature where
  | nonTemporal | sequential | timeSeries
  deriving DecidableEq, Repr

/-- Set.hpp:13-24 `struct Set` (the field `index`, only used by the training loop, is in the network
model). -/
structure DSet (F : Type) where
  size : Nat
  numberOfTemporalSequence : Nat
  inputs : List (List F)
  labels : List (List F)
  shuffledIndexes : List Nat
  areFirst : List Bool
  needToTrain : List Bool
  needToEvaluate : List Bool
  deriving DecidableEq, Repr

/-- Set.hpp:15-23 default member initialisers. -/
def DSet.empty {F : Type} : DSet F :=
  { size := 0, numberOfTemporalSequence := 0, inputs := [], labels := [], shuffledIndexes := [],
    areFirst := [], needToTrain := [], needToEvaluate := [] }

/-- Data.hpp:24-111 `class Data`, together with the state of its two composites:
`indexesForShuffles` (CompositeForTemporalData.hpp / CompositeForTimeSeries.hpp `indexesForShuffling`),
`offset` (CompositeForTimeSeries.hpp) and `batchedLabels` (ProblemComposite.hpp). -/
structure Data (F : Type) where
  typeOfProblem : Problem
  typeOfTemporal : Nature
  numberOfRecurrences : Int
  precision : F
  separator : F
  sizeOfData : Nat
  numberOfLabels : Nat
  training : DSet F
  testing : DSet F
  batchedData : List F
  batchedLabels : List F
  indexesForShuffles : List Nat
  offset : Nat
  deriving DecidableEq, Repr

section
variable {F : Type}

/-! ### Temporal composites -/

/-- CompositeForTimeSeries.cpp:11-32 (and TemporalComposite.cpp:7-10, CompositeForNonTemporalData.cpp:10-15,
CompositeForTemporalData.cpp:9-19): the constructor of the temporal composite. The loop of
`CompositeForTemporalData` is `for (i = 0; i > size; ++i)`: it never runs (a size is not negative). -/
def Data.makeTemporalComposite (d : Data F) : Res (Data F) :=
  match d.typeOfTemporal with
  | .nonTemporal =>
    .ok { d with
      training := { d.training with numberOfTemporalSequence := 0 }
      testing := { d.testing with numberOfTemporalSequence := 0 }
      indexesForShuffles := [] }
  | .sequential => .ok { d with indexesForShuffles := [] }
  | .timeSeries =>
    if d.numberOfRecurrences < 1 then
      .throw "The number of recurrence must be >= 1 for time series."
    else do
      let n := d.training.size
      let areFirst ← wr (List.replicate n false) 0 true
      .ok { d with
        training := { d.training with
          numberOfTemporalSequence := 1
          needToTrain := List.replicate n true
          areFirst := areFirst }
        testing := { d.testing with numberOfTemporalSequence := 1 }
        indexesForShuffles := List.range (n / (d.numberOfRecurrences.toNat + 1))
        offset := 0 }

/-- CompositeForNonTemporalData.cpp:47-57, CompositeForTemporalData.cpp:62-73,
CompositeForTimeSeries.cpp:109-120 `isValid` (`sets` is never null). -/
def Data.temporalIsValid (d : Data F) : Nat :=
  match d.typeOfTemporal with
  | .nonTemporal =>
    if !d.training.areFirst.isEmpty || !d.testing.areFirst.isEmpty || !d.training.needToTrain.isEmpty
      || !d.testing.needToTrain.isEmpty || !d.training.needToEvaluate.isEmpty
      || !d.testing.needToEvaluate.isEmpty then 404 else 0
  | .sequential =>
    if decide (d.training.areFirst.length ≠ d.training.size)
      || decide (d.testing.areFirst.length ≠ d.testing.size) || !d.training.needToTrain.isEmpty
      || !d.testing.needToTrain.isEmpty || !d.training.needToEvaluate.isEmpty
      || decide (d.testing.needToEvaluate.length ≠ d.testing.size) then 404 else 0
  | .timeSeries =>
    if decide (d.training.areFirst.length ≠ d.training.size) || !d.testing.areFirst.isEmpty
      || decide (d.training.needToTrain.length ≠ d.training.size)
      || !d.testing.needToTrain.isEmpty || !d.training.needToEvaluate.isEmpty
      || !d.testing.needToEvaluate.isEmpty then 404 else 0

/-- CompositeForClassification.cpp:14-19, CompositeForMultipleClassification.cpp:13-16,
CompositeForRegression.cpp:13-16 `isValid`. -/
def Data.problemIsValid (d : Data F) : Res Nat :=
  match d.typeOfProblem with
  | .classification => do
    let l ← rd d.training.labels 0
    return if l.length < 2 then 406 else 0
  | _ => .ok 0

/-- Data.cpp:269-288 `Data::isValid`. -/
def Data.isValid (d : Data F) : Res Nat :=
  if (!d.testing.shuffledIndexes.isEmpty && decide (d.training.size ≠ d.training.shuffledIndexes.length)) then
    .ok 403
  else if decide (d.training.size ≠ d.training.inputs.length) && decide (d.training.size ≠ d.training.labels.length)
      && decide (d.testing.size ≠ d.training.inputs.length) && decide (d.testing.size ≠ d.training.labels.length) then
    .ok 405
  else do
    let err ← d.problemIsValid
    if err ≠ 0 then return err
    return d.temporalIsValid

/-- Data.cpp:97-156 `Data::initialize`; `d` carries what the constructors and `flatten` have set. -/
def Data.initialize [Flt F] (d : Data F) (trainingInputs trainingLabels testingInputs testingLabels : List (List F)) :
    Res (Data F) := do
  let lastInput ← backOf trainingInputs
  let lastLabel ← backOf trainingLabels
  let d1 : Data F := { d with
    precision := lit (1/10)
    separator := lit (1/2)
    sizeOfData := lastInput.length
    numberOfLabels := lastLabel.length
    training := { d.training with
      inputs := trainingInputs, labels := trainingLabels, size := trainingLabels.length
      shuffledIndexes := List.range trainingLabels.length }
    testing := { d.testing with
      inputs := testingInputs, labels := testingLabels, size := testingLabels.length } }
  let d2 ← d1.makeTemporalComposite
  let err ← d2.isValid
  if err ≠ 0 then .throw s!"Error {err}: Wrong parameter in the creation of data"
  else return d2

/-- Data.hpp:41-77: the object before `initialize`. -/
def Data.blank [Flt F] (typeOfProblem : Problem) (typeOfTemporal : Nature) (numberOfRecurrences : Int) : Data F :=
  { typeOfProblem, typeOfTemporal, numberOfRecurrences
    precision := lit 0, separator := lit 0, sizeOfData := 0, numberOfLabels := 0
    training := DSet.empty, testing := DSet.empty
    batchedData := [], batchedLabels := [], indexesForShuffles := [], offset := 0 }

/-- Data.cpp:22-37: the constructor with 2D training and testing inputs. -/
def Data.make2 [Flt F] (p : Problem) (trainingInputs trainingLabels testingInputs testingLabels : List (List F))
    (nat : Nature) (numberOfRecurrences : Int) : Res (Data F) :=
  (Data.blank p nat numberOfRecurrences).initialize trainingInputs trainingLabels testingInputs testingLabels

/-- Data.cpp:39-52: the constructor with one 2D set used for both training and testing. -/
def Data.make1 [Flt F] (p : Problem) (inputs labels : List (List F)) (nat : Nature) (numberOfRecurrences : Int) :
    Res (Data F) :=
  (Data.blank p nat numberOfRecurrences).initialize inputs labels inputs labels

/-- Data.cpp:171-180 (and 198-207): the loop of `flatten` over the sequences: marks the first position
of each sequence in `areFirst`, and the last one in `needToEvaluate` when `evaluate` is set
(`needToEvaluateOnData[i - 1]`, where `i - 1` wraps around for `i = 0`: out of bounds). -/
def flattenLoop (evaluate : Bool) : List (List (List F)) → Nat → List Bool → List Bool → Res (List Bool × List Bool)
  | [], _, first, eval => .ok (first, eval)
  | v :: vs, i, first, eval => do
    let first ← wr first (i : Int) true
    let i' := i + v.length
    let eval ← (if evaluate then wr eval ((i' : Int) - 1) true else Res.ok eval)
    flattenLoop evaluate vs i' first eval

/-- Data.cpp:158-182 `Data::flatten(set, input3D)` for one set. -/
def DSet.flatten (s : DSet F) (isTesting : Bool) (input3D : List (List (List F))) : Res (DSet F) := do
  let size := (input3D.map List.length).sum
  let (first, eval) ← flattenLoop isTesting input3D 0 (List.replicate size false)
    (if isTesting then List.replicate size false else s.needToEvaluate)
  return { s with
    numberOfTemporalSequence := input3D.length
    inputs := input3D.flatten
    areFirst := first
    needToEvaluate := eval
    size := input3D.flatten.length }

/-- Data.cpp:54-75: the constructor with 3D training and testing inputs. -/
def Data.make2seq [Flt F] (p : Problem) (trainingInputs : List (List (List F))) (trainingLabels : List (List F))
    (testingInputs : List (List (List F))) (testingLabels : List (List F))
    (nat : Nature) (numberOfRecurrences : Int) : Res (Data F) :=
  if nat ≠ .sequential then .throw "Vector 3D type inputs are only for sequential data."
  else do
    let d : Data F := Data.blank p nat numberOfRecurrences
    let tr ← d.training.flatten false trainingInputs
    let te ← d.testing.flatten true testingInputs
    { d with training := tr, testing := te }.initialize tr.inputs trainingLabels te.inputs testingLabels

/-- Data.cpp:77-95 and 184-211: the constructor with one 3D set used for both. -/
def Data.make1seq [Flt F] (p : Problem) (inputs : List (List (List F))) (labels : List (List F))
    (nat : Nature) (numberOfRecurrences : Int) : Res (Data F) :=
  if nat ≠ .sequential then .throw "Vector 3D type inputs are only for sequential data."
  else do
    let d : Data F := Data.blank p nat numberOfRecurrences
    let te ← d.testing.flatten true inputs
    let tr : DSet F := { d.training with
      numberOfTemporalSequence := te.numberOfTemporalSequence
      inputs := te.inputs, areFirst := te.areFirst, size := te.size }
    { d with training := tr, testing := te }.initialize tr.inputs labels te.inputs labels

/-! ### Shuffling -/

/-- CompositeForTemporalData.cpp:25-34: the loop of `shuffle` that copies a sequence starting after
`index`, until the next first element. `fuel` bounds the `while`; the read of
`areFirstDataOfTemporalSequence[index]` past the end is undefined behaviour, so a fuel of
`areFirst.length + 1` is never exhausted. Returns the new order and `j`. -/
def copySequence (areFirst : List Bool) : Nat → Nat → List Nat → Nat → Res (List Nat × Nat)
  | 0, _, _, _ => .ub "unreachable"
  | fuel + 1, index, order, j => do
    let f ← rd areFirst (index : Int)
    if f then return (order, j)
    else do
      let order ← wr order (j : Int) index
      copySequence areFirst fuel (index + 1) order (j + 1)

/-- CompositeForTemporalData.cpp:25-34: the loop over the sequences. -/
def sequentialLoop (areFirst : List Bool) : List Nat → List Nat → Nat → Res (List Nat)
  | [], order, _ => .ok order
  | s :: ss, order, j => do
    let order ← wr order (j : Int) s
    let (order, j) ← copySequence areFirst (areFirst.length + 1) (s + 1) order (j + 1)
    sequentialLoop areFirst ss order j

/-- CompositeForTimeSeries.cpp: the three vectors written by `shuffle`. -/
structure TsState where
  order : List Nat
  first : List Bool
  train : List Bool
  deriving DecidableEq, Repr

/-- CompositeForTimeSeries.cpp:38-41: `for (i = size-(R+1); i < size; ++i) needToTrainOnData[i] = false;`
with `k` iterations left, starting at `i`. -/
def tsClearTail (train : List Bool) : Nat → Int → Res (List Bool)
  | 0, _ => .ok train
  | k + 1, i => do
    let train ← wr train i false
    tsClearTail train k (i + 1)

/-- CompositeForTimeSeries.cpp:43-48: the prefix loop `for (i = 0; i < offset; ++i)`, `k` iterations left. -/
def tsPrefix (t : TsState) : Nat → Nat → Res TsState
  | 0, _ => .ok t
  | k + 1, i => do
    let order ← wr t.order (i : Int) i
    let train ← wr t.train (i : Int) true
    let first ← wr t.first (i : Int) false
    tsPrefix { order, first, train } k (i + 1)

/-- CompositeForTimeSeries.cpp:57-71: the inner loop on `j` (from `j`, `k` iterations left) copying window
`w` to slot `slot`. -/
def tsWindow (R offset slot w : Nat) (t : TsState) : Nat → Nat → Res TsState
  | 0, _ => .ok t
  | k + 1, j => do
    let index := slot * (R + 1) + j + offset
    let order ← wr t.order (index : Int) (w * (R + 1) + j + offset)
    let first ← wr t.first (index : Int) (decide (j = 0))
    let train ← wr t.train (index : Int) (decide (j = R) && decide (index ≥ offset))
    tsWindow R offset slot w { order, first, train } k (j + 1)

/-- CompositeForTimeSeries.cpp:51-74: the loop over the shuffled windows. -/
def tsWindows (R offset size : Nat) : List Nat → Nat → TsState → Res TsState
  | [], _, t => .ok t
  | w :: ws, slot, t =>
    if w * (R + 1) + R + offset < size then do
      let t ← tsWindow R offset slot w t (R + 1) 0
      tsWindows R offset size ws (slot + 1) t
    else tsWindows R offset size ws slot t

/-- CompositeForNonTemporalData.cpp:17-20, CompositeForTemporalData.cpp:21-35,
CompositeForTimeSeries.cpp:34-76 `shuffle` (through Data.cpp:259-262). -/
def Data.shuffle (d : Data F) (r : Rng) : Res (Data F) :=
  match d.typeOfTemporal with
  | .nonTemporal =>
    .ok { d with training := { d.training with shuffledIndexes := shuffleList r d.training.shuffledIndexes } }
  | .sequential => do
    let ix := shuffleList r d.indexesForShuffles
    let order ← sequentialLoop d.training.areFirst ix d.training.shuffledIndexes 0
    return { d with indexesForShuffles := ix, training := { d.training with shuffledIndexes := order } }
  | .timeSeries => do
    let ix := shuffleList r d.indexesForShuffles
    let R := d.numberOfRecurrences.toNat
    let n := d.training.size
    let train ← tsClearTail d.training.needToTrain (R + 1) ((n : Int) - (R + 1))
    let t ← tsPrefix { order := d.training.shuffledIndexes, first := d.training.areFirst, train := train }
      d.offset 0
    let first ← wr t.first 0 true
    let t ← tsWindows R d.offset n ix 0 { t with first := first }
    return { d with
      indexesForShuffles := ix
      offset := (d.offset + 1) % (R + 1)
      training := { d.training with shuffledIndexes := t.order, areFirst := t.first, needToTrain := t.train } }

/-- TemporalComposite.cpp:12-17, CompositeForTimeSeries.cpp:78-84 `unshuffle` (through Data.cpp:264-267). -/
def Data.unshuffle (d : Data F) : Res (Data F) :=
  let d1 : Data F := { d with training := { d.training with shuffledIndexes := List.range d.training.size } }
  match d.typeOfTemporal with
  | .timeSeries => do
    let first ← wr (List.replicate d.training.size false) 0 true
    return { d1 with training := { d1.training with
      needToTrain := List.replicate d.training.size true, areFirst := first } }
  | _ => .ok d1

/-! ### Flags -/

/-- CompositeForNonTemporalData.cpp:27-30, CompositeForTemporalData.cpp:42-45,
CompositeForTimeSeries.cpp:86-89. -/
def Data.isFirstTraining (d : Data F) (index : Int) : Res Bool :=
  match d.typeOfTemporal with
  | .nonTemporal => .ok true
  | _ => rd d.training.areFirst index

/-- CompositeForNonTemporalData.cpp:32-35, CompositeForTemporalData.cpp:47-50,
CompositeForTimeSeries.cpp:91-94. -/
def Data.isFirstTesting (d : Data F) (index : Int) : Res Bool :=
  match d.typeOfTemporal with
  | .nonTemporal => .ok false
  | .sequential => rd d.testing.areFirst index
  | .timeSeries => .ok (decide (index = 0))

/-- CompositeForNonTemporalData.cpp:37-40, CompositeForTemporalData.cpp:52-55,
CompositeForTimeSeries.cpp:96-99. -/
def Data.needToLearn (d : Data F) (index : Int) : Res Bool :=
  match d.typeOfTemporal with
  | .timeSeries => rd d.training.needToTrain index
  | _ => .ok true

/-- CompositeForNonTemporalData.cpp:42-45, CompositeForTemporalData.cpp:57-60,
CompositeForTimeSeries.cpp:101-107. -/
def Data.needToEvaluate (d : Data F) (index : Int) : Res Bool :=
  match d.typeOfTemporal with
  | .sequential => rd d.testing.needToEvaluate index
  | _ => .ok true

end

/-! ### Getters -/

section
variable {F : Type} [Add F] [Div F] [Flt F]

/-- `std::ranges::transform(a, b, out.begin(), plus)`: writes `min |a| |b|` elements to `out`; more than
`|out|` is an out of bounds write. -/
def transformPlus (a b out : List F) : Res (List F) :=
  let s := List.zipWith (· + ·) a b
  if s.length ≤ out.length then .ok (s ++ out.drop s.length) else .ub "transform writes past the end"

/-- Data.cpp:324-329 / ProblemComposite.cpp:36-41: the loop over the rest of the batch. -/
def batchLoop (order : List Nat) (rows : List (List F)) : List Int → List F → Res (List F)
  | [], acc => .ok acc
  | j :: js, acc => do
    let i ← rd order j
    let row ← rd rows (i : Int)
    let acc ← transformPlus acc row acc
    batchLoop order rows js acc

/-- Data.cpp:310-332 `getTrainingData` and ProblemComposite.cpp:22-44 `getTrainingOutputs`, which are the
same code on `inputs`/`sizeOfData` and `labels`/`numberOfLabels`: returns the result and the new content
of the buffer. `vector::resize` keeps the first elements and appends zeros. -/
def getBatched (order : List Nat) (rows : List (List F)) (width : Nat) (buffer : List F) (index batchSize : Int) :
    Res (List F × List F) := do
  let i ← rd order index
  if batchSize ≤ 1 then do
    let row ← rd rows (i : Int)
    return (row, buffer)
  else do
    let buf := buffer.take width ++ List.replicate (width - buffer.length) (lit 0)
    let data0 ← rd rows (i : Int)
    let i1 ← rd order (index + 1)
    let data1 ← rd rows (i1 : Int)
    let buf ← transformPlus data0 data1 buf
    let js := (List.range (batchSize - 2).toNat).map fun (t : Nat) => index + 2 + (t : Int)
    let buf ← batchLoop order rows js buf
    let buf := buf.map (· / lit batchSize)
    return (buf, buf)

/-- Data.cpp:310-332 `Data::getTrainingData`. -/
def Data.getTrainingData (d : Data F) (index batchSize : Int) : Res (List F × Data F) := do
  let (x, b) ← getBatched d.training.shuffledIndexes d.training.inputs d.sizeOfData d.batchedData index batchSize
  return (x, { d with batchedData := b })

/-- Data.cpp:349-352, ProblemComposite.cpp:22-44 `getTrainingOutputs`. -/
def Data.getTrainingOutputs (d : Data F) (index batchSize : Int) : Res (List F × Data F) := do
  let (x, b) ← getBatched d.training.shuffledIndexes d.training.labels d.numberOfLabels d.batchedLabels index batchSize
  return (x, { d with batchedLabels := b })

end

section
variable {F : Type}

/-- Data.cpp:334-337 `getTestingData`. -/
def Data.getTestingData (d : Data F) (index : Int) : Res (List F) := rd d.testing.inputs index

/-- CompositeForMultipleClassification.cpp:18-21, CompositeForRegression.cpp:18-21,
CompositeForClassification.cpp:42-45 `getTestingOutputs`. -/
def Data.getTestingOutputs (d : Data F) (index : Int) : Res (List F) :=
  match d.typeOfProblem with
  | .classification => .throw "getTestingOutputs should never be called"
  | _ => rd d.testing.labels index

/-- CompositeForClassification.cpp:23-28 (33-38): the search for the first `1`, from position `i`. -/
def firstOne [Flt F] : List F → Nat → Option Nat
  | [], _ => none
  | x :: xs, i => if feq x (lit 1) then some i else firstOne xs (i + 1)

/-- CompositeForClassification.cpp:31-39 and the throwing versions of the other composites. -/
def Data.getTestingLabel [Flt F] (d : Data F) (index : Int) : Res Nat :=
  match d.typeOfProblem with
  | .classification => do
    let l ← rd d.testing.labels index
    match firstOne l 0 with
    | some i => return i
    | none => .throw "wrong label"
  | _ => .throw "getTestingLabel should never be called"

/-- CompositeForClassification.cpp:21-29: note that the index does not go through `shuffledIndexes`. -/
def Data.getTrainingLabel [Flt F] (d : Data F) (index : Int) : Res Nat :=
  match d.typeOfProblem with
  | .classification => do
    let l ← rd d.training.labels index
    match firstOne l 0 with
    | some i => return i
    | none => .throw "wrong label"
  | _ => .throw "getTrainingLabel should never be called"

/-- Data.cpp:383-389 `setPrecision`. -/
def Data.setPrecision (d : Data F) (v : F) : Res (Data F) :=
  if d.typeOfProblem = .regression then .ok { d with precision := v }
  else .throw "Precision is only for regression problems."

/-- Data.cpp:391-397 `getPrecision`. -/
def Data.getPrecision (d : Data F) : Res F :=
  if d.typeOfProblem = .regression then .ok d.precision
  else .throw "Precision is only for regression problems."

/-- Data.cpp:399-406 `setSeparator`. -/
def Data.setSeparator (d : Data F) (v : F) : Res (Data F) :=
  if d.typeOfProblem = .classification ∨ d.typeOfProblem = .multipleClassification then
    .ok { d with separator := v }
  else .throw "Separator is only for classification and multiple classification problems."

/-- Data.cpp:408-415 `getSeparator`. -/
def Data.getSeparator (d : Data F) : Res F :=
  if d.typeOfProblem = .classification ∨ d.typeOfProblem = .multipleClassification then .ok d.separator
  else .throw "Separator is only for classification and multiple classification problems."

end

/-! ### Normalisation -/

section
variable {F : Type} [Add F] [Sub F] [Mul F] [Div F] [Flt F]

/-- Data.cpp:222-235: minimum and maximum of a column (`first` is its first value). -/
def columnBounds (first : F) (rest : List F) : F × F :=
  rest.foldl (fun mm x => if flt x mm.1 then (x, mm.2) else if flt mm.2 x then (mm.1, x) else mm) (first, first)

/-- Data.cpp:241-243 (and 247-249): the new value of one component. -/
def normalizeValue (mn mx lo hi x : F) : F :=
  let difference := mx - mn
  let x := if !feq difference (lit 0) then (x - mn) / difference else x
  x * (hi - lo) + lo

/-- `rows[i][j]` for every row: a row that is too short is an out of bounds access. -/
def column (rows : List (List F)) (j : Nat) : Res (List F) := rows.mapM fun r => rd r (j : Int)

/-- Data.cpp:220-251: one column `j` in both sets. -/
def normalizeColumn (lo hi : F) (j : Nat) (tr te : List (List F)) : Res (List (List F) × List (List F)) := do
  let col ← column tr j
  let _ ← column te j
  match col with
  | [] => .ub "inputsTraining[0] of an empty set"
  | x :: xs =>
    let mm := columnBounds x xs
    let f := fun r : List F => r.modify j (normalizeValue mm.1 mm.2 lo hi)
    return (tr.map f, te.map f)

/-- Data.cpp:220: the loop over the columns `j, j+1, …` (`k` left). -/
def normalizeLoop (lo hi : F) : Nat → Nat → List (List F) → List (List F) → Res (List (List F) × List (List F))
  | 0, _, tr, te => .ok (tr, te)
  | k + 1, j, tr, te => do
    let (tr, te) ← normalizeColumn lo hi j tr te
    normalizeLoop lo hi k (j + 1) tr te

/-- Data.cpp:213-257 `Data::normalize(min, max)`. -/
def Data.normalize (d : Data F) (lo hi : F) : Res (Data F) := do
  let (tr, te) ← normalizeLoop lo hi d.sizeOfData 0 d.training.inputs d.testing.inputs
  return { d with training := { d.training with inputs := tr }, testing := { d.testing with inputs := te } }

end

end Snn
