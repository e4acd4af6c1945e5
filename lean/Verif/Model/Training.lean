import Verif.Model.Network
import Verif.Model.Data
import Verif.Model.Wait

/-!
# Model of `src/neural_network/StraightforwardNeuralNetwork.cpp` (one thread)

Logging is compiled out (`verbose = none`, Tools.hpp:25). The clock is a stream of readings, one per call of
`Wait::isOver`. The file written by `saveSync` is recorded as the event `saved` with the state that is archived (the
archive format is in `Model/Serialize.lean`). Loops without a static bound take a `fuel`; running out of it is the outcome
`ub "out of fuel"`, so a theorem about a returned value is a theorem for every number of iterations.
-/

namespace Snn

/-- StraightforwardNeuralNetwork.hpp:20-24, 54-55 the data members (without `thread`). -/
structure Snn (F : Type) where
  net : Net F
  wantToStopTraining : Bool
  isIdle : Bool
  index : Int
  epoch : Int
  numberOfTrainingsBetweenTwoEvaluations : Int
  autoSaveWhenBetter : Bool
  autoSaveFilePath : String
  deriving DecidableEq, Repr

/-- What an observer of a run sees. -/
inductive Event (F : Type) where
  /-- `data.shuffle()` at the beginning of an epoch -/
  | shuffled
  /-- `trainOnce` at a position of the current order -/
  | trained (position : Int) (inputs desired : List F) (temporalReset : Bool)
  /-- `outputForTraining` at a position that is not learned -/
  | skipped (position : Int)
  /-- an evaluation ended with these statistics -/
  | evaluated (epoch : Int) (stats : Stats F)
  /-- `saveSync` wrote this state to this file -/
  | saved (path : String) (state : Snn F)

/-- The state of a run: the network, the data it reads, the random draws left, the number of clock readings made and the
events so far (newest first). -/
structure Run (F : Type) where
  snn : Snn F
  data : Data F
  draws : Draws F
  ticks : Nat
  trace : List (Event F)

/-- The environment of a run: the milliseconds since `startClock` at each clock reading, the random generator given to
the shuffle of each epoch, and the value of `NAN`. -/
structure Env (F : Type) where
  clock : Nat → Int
  rng : Int → Rng
  nan : F

section
variable {F : Type} [Flt F] [FTrans F] [Add F] [Sub F] [Mul F] [Div F] [Neg F]

/-- StraightforwardNeuralNetwork.cpp:22-31 the constructor. -/
def Snn.make (architecture : List (LayerModel F)) (optimizer : Sgd F) (d : Draws F) : Res (Snn F × Draws F) := do
  let (net, d') ← Net.make architecture optimizer d
  let err ← net.isValid
  if err ≠ 0 then .throw s!"Error {err}: Wrong parameter in the creation of neural networks"
  else return ({
    net := net
    wantToStopTraining := false
    isIdle := true
    index := 0
    epoch := 0
    numberOfTrainingsBetweenTwoEvaluations := 0
    autoSaveWhenBetter := false
    autoSaveFilePath := "AutoSave.snn" }, d')

/-- StraightforwardNeuralNetwork.cpp:45-48 `computeOutput`. -/
def Snn.computeOutput (s : Snn F) (inputs : List F) (temporalReset : Bool) : Res (List F × Snn F) := do
  let (out, net) ← s.net.output inputs temporalReset
  return (out, { s with net := net })

/-- StraightforwardNeuralNetwork.cpp:50-64 `computeCluster`; the loop is the one of StatisticAnalysis.cpp:152-161. -/
def Snn.computeCluster (s : Snn F) (inputs : List F) (temporalReset : Bool) : Res (Int × Snn F) := do
  let (out, net) ← s.net.output inputs temporalReset
  return (argmaxLoop out, { s with net := net })

/-- StraightforwardNeuralNetwork.cpp:236-246 `validData`. -/
def Snn.validData (s : Snn F) (data : Data F) (batchSize : Int) : Res Unit := do
  let no ← s.net.getNumberOfOutputs
  let ni ← s.net.getNumberOfInputs
  if (data.numberOfLabels : Int) ≠ no ∨ (data.sizeOfData : Int) ≠ ni then
    .throw "Data has not the same format as the neural network"
  else if batchSize ≠ 1 ∧ data.typeOfTemporal ≠ .nonTemporal then .throw "Non temporal data cannot have batch size"
  else if batchSize < 1 then .throw "Wrong batch size"
  else if batchSize > data.training.size then .throw "Batch size is too large"
  else .ok ()

/-- StraightforwardNeuralNetwork.cpp:195-200 `resetTrainingValues`. -/
def Snn.resetTrainingValues (s : Snn F) : Snn F :=
  { s with index := 0, wantToStopTraining := false, isIdle := true }

/-- StraightforwardNeuralNetwork.cpp:203-213 `continueTraining`: one clock reading. -/
def Run.continueTraining (env : Env F) (wait : Wait F) (r : Run F) : Bool × Run F :=
  let s := r.snn
  (!s.wantToStopTraining
      && !(wait.isOver (env.clock r.ticks) s.epoch s.net.stats.globalRate s.net.stats.mae)
      && !s.net.outputNan,
    { r with ticks := r.ticks + 1 })

/-- StraightforwardNeuralNetwork.cpp:286-292 `saveSync` with the path `path`. -/
def Run.saveSync (r : Run F) (path : String) : Run F :=
  let s := { r.snn with autoSaveFilePath := path }
  { r with snn := s, trace := .saved path s :: r.trace }

/-- StraightforwardNeuralNetwork.cpp:248-253 `saveAs`. -/
def Run.saveAs (r : Run F) (path : String) : Res (Run F) :=
  if !r.snn.isIdle then
    .throw "Neural network cannot be saved during training, stop training before saving or use auto save"
  else .ok (r.saveSync path)

/-- StraightforwardNeuralNetwork.cpp:157-182 `evaluateOnce` at the position `index`, with NeuralNetwork.cpp:33-52. -/
def Snn.evaluateOnce (s : Snn F) (data : Data F) : Res (Snn F) := do
  let x ← data.getTestingData s.index
  let first ← data.isFirstTesting s.index
  match data.typeOfProblem with
  | .classification => do
    let label ← data.getTestingLabel s.index
    let sep ← data.getSeparator
    let (out, net) ← s.net.output x first
    let stats ← net.stats.evaluateOnce (.classification out (label : Int) sep)
    return { s with net := { net with stats := stats } }
  | .multipleClassification => do
    let desired ← data.getTestingOutputs s.index
    let sep ← data.getSeparator
    let (out, net) ← s.net.output x first
    let stats ← net.stats.evaluateOnce (.multiple out desired sep)
    return { s with net := { net with stats := stats } }
  | .regression => do
    let desired ← data.getTestingOutputs s.index
    let prec ← data.getPrecision
    let (out, net) ← s.net.output x first
    let stats ← net.stats.evaluateOnce (.regression out desired prec)
    return { s with net := { net with stats := stats } }

/-- StraightforwardNeuralNetwork.cpp:128-142 the loop of `evaluate`; `k` positions are left from `index` on. The result
is `true` when the loop returned from `evaluate` because of a NaN. -/
def evaluateLoop (nan : F) (data : Data F) : Nat → Snn F → Res (Bool × Snn F)
  | 0, s => .ok (false, s)
  | k + 1, s =>
    if s.net.outputNan then
      .ok (true, ({ s with net := { s.net with stats := s.net.stats.setResultsAsNan nan } }).resetTrainingValues)
    else do
      let need ← data.needToEvaluate s.index
      let s1 ← (if need then s.evaluateOnce data
        else do
          let x ← data.getTestingData s.index
          let first ← data.isFirstTesting s.index
          let (_, net) ← s.net.output x first
          return { s with net := net })
      evaluateLoop nan data k { s1 with index := s1.index + 1 }

/-- StraightforwardNeuralNetwork.cpp:125-154 `evaluate`. -/
def Run.evaluate (env : Env F) (r : Run F) : Res (Run F) := do
  let s0 := { r.snn with net := { r.snn.net with stats := r.snn.net.stats.startTesting }, index := 0 }
  let (stopped, s) ← evaluateLoop env.nan r.data r.data.testing.size s0
  if stopped then return { r with snn := s, trace := .evaluated s.epoch s.net.stats :: r.trace }
  else
    let s' := { s with net := { s.net with stats := s.net.stats.stopTesting } }
    let r' := { r with snn := s', trace := .evaluated s'.epoch s'.net.stats :: r.trace }
    if s'.autoSaveWhenBetter && s'.net.stats.globalBetter then return r'.saveSync s'.autoSaveFilePath
    else return r'

/-- StraightforwardNeuralNetwork.cpp:104-116 the body of the inner loop: one position. The result is `true` when it
returned from `trainSync`. -/
def Run.trainStep (env : Env F) (batchSize : Int) (r : Run F) : Res (Bool × Run F) := do
  let s := r.snn
  if s.net.outputNan then
    return (true, { r with
      snn := ({ s with net := { s.net with stats := s.net.stats.setResultsAsNan env.nan } }).resetTrainingValues })
  else do
    let need ← r.data.needToLearn s.index
    let (x, data1) ← r.data.getTrainingData s.index batchSize
    let first ← data1.isFirstTraining s.index
    if need then do
      let (y, data2) ← data1.getTrainingOutputs s.index batchSize
      let (net, d) ← s.net.trainOnce x y first r.draws
      return (false, { r with
        snn := { s with net := net }, data := data2, draws := d, trace := .trained s.index x y first :: r.trace })
    else do
      let (_, net, d) ← s.net.outputForTraining x first r.draws
      return (false, { r with
        snn := { s with net := net }, data := data1, draws := d, trace := .skipped s.index :: r.trace })

/-- StraightforwardNeuralNetwork.cpp:101-117 the inner loop, from the current `index` on. -/
def stepLoop (env : Env F) (wait : Wait F) (batchSize : Int) : Nat → Run F → Res (Bool × Run F)
  | 0, _ => .ub "out of fuel"
  | fuel + 1, r =>
    if r.snn.index + batchSize ≤ r.snn.numberOfTrainingsBetweenTwoEvaluations then
      let (c, r1) := r.continueTraining env wait
      if c then do
        let (returned, r2) ← r1.trainStep env batchSize
        if returned then return (true, r2)
        else stepLoop env wait batchSize fuel { r2 with snn := { r2.snn with index := r2.snn.index + batchSize } }
      else return (false, r1)
    else return (false, r)

/-- StraightforwardNeuralNetwork.cpp:99-119 the body of the outer loop: one epoch. -/
def Run.epochBody (env : Env F) (wait : Wait F) (batchSize evaluationFrequency : Int) (fuel : Nat) (r : Run F) :
    Res (Bool × Run F) := do
  let data ← r.data.shuffle (env.rng r.snn.epoch)
  let r1 := { r with data := data, snn := { r.snn with index := 0 }, trace := .shuffled :: r.trace }
  let (returned, r2) ← stepLoop env wait batchSize fuel r1
  if returned then return (true, r2)
  else if evaluationFrequency > 0 ∧ r2.snn.epoch.tmod evaluationFrequency = 0 then do
    let r3 ← r2.evaluate env
    return (false, r3)
  else return (false, r2)

/-- StraightforwardNeuralNetwork.cpp:98-120 the outer loop, from the current `epoch` on. -/
def epochLoop (env : Env F) (wait : Wait F) (batchSize evaluationFrequency : Int) (inner : Nat) :
    Nat → Run F → Res (Bool × Run F)
  | 0, _ => .ub "out of fuel"
  | fuel + 1, r =>
    let (c, r1) := r.continueTraining env wait
    if c then do
      let (returned, r2) ← r1.epochBody env wait batchSize evaluationFrequency inner
      if returned then return (true, r2)
      else
        let r3 : Run F := { r2 with snn := { r2.snn with epoch := r2.snn.epoch + 1 } }
        epochLoop env wait batchSize evaluationFrequency inner fuel r3
    else return (false, r1)

/-- StraightforwardNeuralNetwork.cpp:92-95: the state in which `trainSync` starts to work. -/
def Run.begin (r : Run F) : Run F :=
  { r with snn := { r.snn with
    epoch := 0
    numberOfTrainingsBetweenTwoEvaluations := r.data.training.size
    wantToStopTraining := false
    isIdle := false } }

/-- StraightforwardNeuralNetwork.cpp:88-123 `trainSync`; `startClock` makes the clock readings relative to now. -/
def Run.trainSync (env : Env F) (wait : Wait F) (batchSize evaluationFrequency : Int) (fuel : Nat) (r : Run F) :
    Res (Run F) := do
  let r1 ← (if evaluationFrequency > 0 then r.begin.evaluate env else .ok r.begin)
  let (returned, r2) ← epochLoop env wait batchSize evaluationFrequency fuel fuel
    { r1 with snn := { r1.snn with epoch := 1 } }
  if returned then return r2 else return { r2 with snn := r2.snn.resetTrainingValues }

/-- StraightforwardNeuralNetwork.cpp:79-86 `train` when no worker thread exists (`stopTrainingAsync` then only sets
`wantToStopTraining`). -/
def Run.train (env : Env F) (wait : Wait F) (batchSize evaluationFrequency : Int) (fuel : Nat) (r : Run F) :
    Res (Run F) := do
  let _ ← r.snn.validData r.data batchSize
  if !r.snn.isIdle then .throw "Neural network is already training"
  else
    let r1 : Run F := { r with snn := { r.snn with wantToStopTraining := true } }
    r1.trainSync env wait batchSize evaluationFrequency fuel

end

end Snn
