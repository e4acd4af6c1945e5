import Verif.Model.Training

/-!
# Model of the log of `StraightforwardNeuralNetwork` (a build with any value of `verbose`)

`Model/Training.lean` is the library as configured (`verbose = none`). Here the same functions are written with their log
statements, for each value of the constant `verbose`. A line of the log is a value of `Line`; its text is not modelled, except for
what it shows. The clock readings of the log are numbered apart from those of `Wait::isOver` (which reads `start` only:
Wait.cpp:65-86).
-/

namespace Snn

/-- Tools.hpp:18-23 `enum logLevel`. -/
inductive LogLevel where
  | none | minimal | complete
  deriving DecidableEq, Repr

/-- Tools.hpp:20-22 the values of the constants. -/
def LogLevel.rank : LogLevel → Nat
  | .none => 0
  | .minimal => 1
  | .complete => 2

/-- Tools.hpp:109, 116, StraightforwardNeuralNetwork.hpp:97, 112: `T > none && T <= verbose`. -/
def shown (level verbose : LogLevel) : Bool := decide (level.rank > LogLevel.none.rank) && decide (level.rank ≤ verbose.rank)

/-- What the log shows. -/
inductive Line (F : Type) where
  /-- `log<…>("…")` -/
  | message (text : String)
  /-- StraightforwardNeuralNetwork.hpp:99-105: epoch, accuracy, mean absolute error, milliseconds, " - Saved" -/
  | accuracy (epoch : Int) (rate mae : F) (duration : Int) (saved : Bool)
  /-- StraightforwardNeuralNetwork.hpp:116-120: epoch, "Training" or "Evaluation", position, size, milliseconds (the line shows the
  ratio of position and size as a percentage) -/
  | progress (epoch : Int) (name : String) (index : Int) (size : Nat) (duration : Int)
  deriving DecidableEq, Repr

/-- Wait.hpp: the two instants used by the log only. -/
structure Watch where
  lastTick : Int
  lastReset : Int
  deriving DecidableEq, Repr

/-- The log so far (newest line first), the number of clock readings it made, and the `Wait*` given to `evaluate` (`none` is
`nullptr`). -/
structure Console (F : Type) where
  watch : Option Watch
  now : Nat
  lines : List (Line F)

section
variable {F : Type} [Flt F] [FTrans F] [Add F] [Sub F] [Mul F] [Div F] [Neg F]

/-- Tools.hpp:106-111 `log<level>(text)`. -/
def Console.say (verbose level : LogLevel) (text : String) (c : Console F) : Console F :=
  if shown level verbose then { c with lines := .message text :: c.lines } else c

/-- StraightforwardNeuralNetwork.hpp:109-122 `logInProgress<minimal>(*wait, data, set)`, with Wait.cpp:90-103 `tick`, `getDuration`. The
reference `*wait` is only used when the level is shown: with a null pointer this is undefined behaviour. -/
def Console.inProgress (verbose : LogLevel) (clock : Nat → Int) (s : Snn F) (name : String) (size : Nat) (c : Console F) : Res (Console F) :=
  if shown .minimal verbose then
    match c.watch with
    | none => .ub "null pointer to Wait"
    | some w =>
      if clock c.now - w.lastTick ≥ 100 then
        .ok { watch := some { w with lastTick := clock (c.now + 1) }, now := c.now + 2,
              lines := .progress s.epoch name s.index size (clock (c.now + 1) - w.lastReset) :: c.lines }
      else .ok { c with now := c.now + 1 }
  else .ok c

/-- StraightforwardNeuralNetwork.hpp:94-107 `logAccuracy<minimal>(*wait, hasSaved)`, with Wait.cpp:105-112 `getDurationAndReset`. -/
def Console.accuracy (verbose : LogLevel) (clock : Nat → Int) (s : Snn F) (hasSaved : Bool) (c : Console F) : Res (Console F) :=
  if shown .minimal verbose then
    match c.watch with
    | none => .ub "null pointer to Wait"
    | some w =>
      .ok { watch := some { lastTick := clock c.now, lastReset := clock c.now }, now := c.now + 1,
            lines := .accuracy s.epoch s.net.stats.globalRate s.net.stats.mae (clock c.now - w.lastReset) hasSaved :: c.lines }
  else .ok c

/-- StraightforwardNeuralNetwork.cpp:128-142 the loop of `evaluate` with its log (line 141). -/
def evaluateLoopL (verbose : LogLevel) (clock : Nat → Int) (nan : F) (data : Data F) : Nat → Snn F → Console F → Res ((Bool × Snn F) × Console F)
  | 0, s, c => .ok ((false, s), c)
  | k + 1, s, c =>
    if s.net.outputNan then
      .ok ((true, ({ s with net := { s.net with stats := s.net.stats.setResultsAsNan nan } }).resetTrainingValues), c)
    else do
      let need ← data.needToEvaluate s.index
      let s1 ← (if need then s.evaluateOnce data
        else do
          let x ← data.getTestingData s.index
          let first ← data.isFirstTesting s.index
          let (_, net) ← s.net.output x first
          return { s with net := net })
      let c1 ← c.inProgress verbose clock s1 "Evaluation" data.testing.size
      evaluateLoopL verbose clock nan data k { s1 with index := s1.index + 1 } c1

/-- StraightforwardNeuralNetwork.cpp:125-154 `evaluate(data, wait)` with its log; the pointer `wait` is in the console. -/
def Run.evaluateL (verbose : LogLevel) (clock : Nat → Int) (env : Env F) (r : Run F) (c : Console F) : Res (Run F × Console F) := do
  let s0 := { r.snn with net := { r.snn.net with stats := r.snn.net.stats.startTesting }, index := 0 }
  let ((stopped, s), c1) ← evaluateLoopL verbose clock env.nan r.data r.data.testing.size s0 c
  if stopped then return ({ r with snn := s, trace := .evaluated s.epoch s.net.stats :: r.trace }, c1)
  else
    let s' := { s with net := { s.net with stats := s.net.stats.stopTesting } }
    let r' := { r with snn := s', trace := .evaluated s'.epoch s'.net.stats :: r.trace }
    if s'.autoSaveWhenBetter && s'.net.stats.globalBetter then
      let r2 := r'.saveSync s'.autoSaveFilePath
      if c1.watch.isSome then do
        let c2 ← c1.accuracy verbose clock r2.snn true
        return (r2, c2)
      else return (r2, c1)
    else do
      let c2 ← c1.accuracy verbose clock s' false
      return (r', c2)

/-- StraightforwardNeuralNetwork.hpp:66 the public `evaluate(data)`: `evaluate(data, nullptr)`. -/
def Run.evaluatePublicL (verbose : LogLevel) (clock : Nat → Int) (env : Env F) (r : Run F) (lines : List (Line F)) : Res (Run F × Console F) :=
  r.evaluateL verbose clock env { watch := none, now := 0, lines := lines }

/-- StraightforwardNeuralNetwork.cpp:203-213 `continueTraining` with its log (line 210). -/
def Run.continueTrainingL (verbose : LogLevel) (env : Env F) (wait : Wait F) (r : Run F) (c : Console F) : (Bool × Run F) × Console F :=
  (r.continueTraining env wait, if r.snn.net.outputNan then c.say verbose .minimal "A NaN value has been detected" else c)

/-- StraightforwardNeuralNetwork.cpp:104-116 one position of the inner loop with its log (line 116). -/
def Run.trainStepL (verbose : LogLevel) (clock : Nat → Int) (env : Env F) (batchSize : Int) (r : Run F) (c : Console F) : Res ((Bool × Run F) × Console F) := do
  let (returned, r1) ← r.trainStep env batchSize
  if returned then return ((true, r1), c)
  else do
    let c1 ← c.inProgress verbose clock r1.snn "Training  " r1.data.training.size
    return ((false, r1), c1)

/-- StraightforwardNeuralNetwork.cpp:101-117 the inner loop with its log. -/
def stepLoopL (verbose : LogLevel) (clock : Nat → Int) (env : Env F) (wait : Wait F) (batchSize : Int) : Nat → Run F → Console F → Res ((Bool × Run F) × Console F)
  | 0, _, _ => .ub "out of fuel"
  | fuel + 1, r, c =>
    if r.snn.index + batchSize ≤ r.snn.numberOfTrainingsBetweenTwoEvaluations then
      let ((go, r1), c1) := r.continueTrainingL verbose env wait c
      if go then do
        let ((returned, r2), c2) ← r1.trainStepL verbose clock env batchSize c1
        if returned then return ((true, r2), c2)
        else stepLoopL verbose clock env wait batchSize fuel { r2 with snn := { r2.snn with index := r2.snn.index + batchSize } } c2
      else return ((false, r1), c1)
    else return ((false, r), c)

/-- StraightforwardNeuralNetwork.cpp:99-119 one epoch with its log. -/
def Run.epochBodyL (verbose : LogLevel) (clock : Nat → Int) (env : Env F) (wait : Wait F) (batchSize evaluationFrequency : Int) (fuel : Nat)
    (r : Run F) (c : Console F) : Res ((Bool × Run F) × Console F) := do
  let data ← r.data.shuffle (env.rng r.snn.epoch)
  let r1 := { r with data := data, snn := { r.snn with index := 0 }, trace := .shuffled :: r.trace }
  let ((returned, r2), c2) ← stepLoopL verbose clock env wait batchSize fuel r1 c
  if returned then return ((true, r2), c2)
  else if evaluationFrequency > 0 ∧ r2.snn.epoch.tmod evaluationFrequency = 0 then do
    let (r3, c3) ← r2.evaluateL verbose clock env c2
    return ((false, r3), c3)
  else return ((false, r2), c2)

/-- StraightforwardNeuralNetwork.cpp:98-120 the outer loop with its log. -/
def epochLoopL (verbose : LogLevel) (clock : Nat → Int) (env : Env F) (wait : Wait F) (batchSize evaluationFrequency : Int) (inner : Nat) :
    Nat → Run F → Console F → Res ((Bool × Run F) × Console F)
  | 0, _, _ => .ub "out of fuel"
  | fuel + 1, r, c =>
    let ((go, r1), c1) := r.continueTrainingL verbose env wait c
    if go then do
      let ((returned, r2), c2) ← r1.epochBodyL verbose clock env wait batchSize evaluationFrequency inner c1
      if returned then return ((true, r2), c2)
      else
        let r3 : Run F := { r2 with snn := { r2.snn with epoch := r2.snn.epoch + 1 } }
        epochLoopL verbose clock env wait batchSize evaluationFrequency inner fuel r3 c2
    else return ((false, r1), c1)

/-- StraightforwardNeuralNetwork.cpp:88-123 `trainSync` with its log (lines 90, 122); `startClock` (Wait.cpp:58-63) sets the instants of
`wait`, the address of which is given to `evaluate` (lines 97, 119). -/
def Run.trainSyncL (verbose : LogLevel) (clock : Nat → Int) (env : Env F) (wait : Wait F) (batchSize evaluationFrequency : Int) (fuel : Nat)
    (r : Run F) (lines : List (Line F)) : Res (Run F × Console F) := do
  let c0 := ({ watch := some { lastTick := clock 0, lastReset := clock 0 }, now := 1, lines := lines } : Console F).say verbose .minimal "Start training"
  let (r1, c1) ← (if evaluationFrequency > 0 then r.begin.evaluateL verbose clock env c0 else .ok (r.begin, c0))
  let ((returned, r2), c2) ← epochLoopL verbose clock env wait batchSize evaluationFrequency fuel fuel
    { r1 with snn := { r1.snn with epoch := 1 } } c1
  if returned then return (r2, c2)
  else return ({ r2 with snn := r2.snn.resetTrainingValues }, c2.say verbose .minimal "Stop training")

/-- StraightforwardNeuralNetwork.cpp:79-86 `train` with its log (no worker thread: `stopTrainingAsync` logs nothing). -/
def Run.trainL (verbose : LogLevel) (clock : Nat → Int) (env : Env F) (wait : Wait F) (batchSize evaluationFrequency : Int) (fuel : Nat)
    (r : Run F) (lines : List (Line F)) : Res (Run F × Console F) := do
  let _ ← r.snn.validData r.data batchSize
  if !r.snn.isIdle then .throw "Neural network is already training"
  else
    let r1 : Run F := { r with snn := { r.snn with wantToStopTraining := true } }
    r1.trainSyncL verbose clock env wait batchSize evaluationFrequency fuel lines

end

end Snn
