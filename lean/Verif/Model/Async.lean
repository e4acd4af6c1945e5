import Verif.Model.Training

/-!
# Model of the asynchronous training (StraightforwardNeuralNetwork.cpp:71-123, 184-229)

The threads are interleaved instruction by instruction at the granularity of their accesses to the two flags
`wantToStopTraining` and `isIdle` and to the member `thread`: one action of `trainSync` is either one access to a flag or a block
that does not access them. Memory is sequentially consistent. *Simplification*: the two flags are plain `bool`s, so in C++ the
concurrent accesses are a data race; what a compiler may do on top of the behaviours below is not modelled.

One client thread uses the network. The threads it started are kept in a list (a thread that ended stays in it with the program
counter `done`) and the member `std::thread thread` is a handle into that list: `none` when it is not joinable.
-/

namespace Snn.Async

open Snn

/-- The arguments of a call of `trainSync`: the data, the criterion, the batch size and the evaluation frequency, and the clock,
generator and NaN of its environment. -/
structure Job (F : Type) where
  env : Env F
  data : Data F
  wait : Wait F
  batchSize : Int
  evaluationFrequency : Int

/-- Which of the two calls of `evaluate` in `trainSync`: line 97 (before the loop) or line 119 (end of an epoch). -/
inductive Site where
  | before | inLoop
  deriving DecidableEq, Repr

/-- The program counter of a thread in `trainSync`. -/
inductive Pc where
  /-- lines 91-94: before `wantToStopTraining = false` -/
  | enter
  /-- line 95: before `isIdle = false` -/
  | busy
  /-- lines 96 and 118: the test of `evaluationFrequency` -/
  | evalTest (s : Site)
  /-- lines 128-142: `k` positions of `evaluate` are left -/
  | evaluating (s : Site) (k : Nat)
  /-- line 133: `resetTrainingValues` in `evaluate`, before `wantToStopTraining = false` -/
  | evalReset (s : Site)
  /-- line 133: `resetTrainingValues` in `evaluate`, before `isIdle = true` -/
  | evalIdle (s : Site)
  /-- line 98: the condition of the loop over the epochs -/
  | epochTest
  /-- lines 100-101: `shuffle` and `index = 0` -/
  | shuffling
  /-- line 101: the condition of the loop over the positions -/
  | stepTest
  /-- lines 104-116: the body of the loop over the positions -/
  | stepBody
  /-- lines 107 and 121: `resetTrainingValues`, before `wantToStopTraining = false` -/
  | reset
  /-- lines 107 and 121: `resetTrainingValues`, before `isIdle = true` -/
  | idle
  /-- the function returned -/
  | done
  deriving DecidableEq, Repr

section
variable {F : Type} [Flt F] [FTrans F] [Add F] [Sub F] [Mul F] [Div F] [Neg F]

/-- The program counter and the state after a call of `evaluate` (lines 97-98 and 119-98). -/
def afterEvaluate (s : Site) (r : Run F) : Pc × Run F :=
  match s with
  | .before => (.epochTest, { r with snn := { r.snn with epoch := 1 } })
  | .inLoop => (.epochTest, { r with snn := { r.snn with epoch := r.snn.epoch + 1 } })

/-- StraightforwardNeuralNetwork.cpp:136-141 one position of `evaluate`, with the increment of line 128. -/
def evaluatePosition (r : Run F) : Res (Run F) := do
  let s := r.snn
  let need ← r.data.needToEvaluate s.index
  let s1 ← (if need then s.evaluateOnce r.data
    else do
      let x ← r.data.getTestingData s.index
      let first ← r.data.isFirstTesting s.index
      let (_, net) ← s.net.output x first
      return { s with net := net })
  return { r with snn := { s1 with index := s1.index + 1 } }

/-- StraightforwardNeuralNetwork.cpp:143-153 the end of `evaluate`. -/
def evaluateEnd (r : Run F) : Run F :=
  let s := { r.snn with net := { r.snn.net with stats := r.snn.net.stats.stopTesting } }
  let r' := { r with snn := s, trace := .evaluated s.epoch s.net.stats :: r.trace }
  if s.autoSaveWhenBetter && s.net.stats.globalBetter then r'.saveSync s.autoSaveFilePath else r'

/-- `setResultsAsNan()` (lines 106 and 132). -/
def nanResults (nan : F) (r : Run F) : Run F :=
  { r with snn := { r.snn with net := { r.snn.net with stats := r.snn.net.stats.setResultsAsNan nan } } }

/-- StraightforwardNeuralNetwork.cpp:88-123 one action of `trainSync`, cut at the accesses to the flags. -/
def next (j : Job F) : Pc → Run F → Res (Pc × Run F)
  | .enter, r => .ok (.busy, { r with
      data := j.data
      snn := { r.snn with
        epoch := 0
        numberOfTrainingsBetweenTwoEvaluations := j.data.training.size
        wantToStopTraining := false } })
  | .busy, r => .ok (.evalTest .before, { r with snn := { r.snn with isIdle := false } })
  | .evalTest s, r =>
    let run := match s with
      | .before => decide (j.evaluationFrequency > 0)
      | .inLoop => decide (j.evaluationFrequency > 0 ∧ r.snn.epoch.tmod j.evaluationFrequency = 0)
    if run then
      .ok (.evaluating s r.data.testing.size, { r with snn := { r.snn with
        net := { r.snn.net with stats := r.snn.net.stats.startTesting }
        index := 0 } })
    else .ok (afterEvaluate s r)
  | .evaluating s 0, r => .ok (afterEvaluate s (evaluateEnd r))
  | .evaluating s (k + 1), r =>
    if r.snn.net.outputNan then .ok (.evalReset s, nanResults j.env.nan r)
    else do
      let r' ← evaluatePosition r
      return (.evaluating s k, r')
  | .evalReset s, r => .ok (.evalIdle s, { r with snn := { r.snn with index := 0, wantToStopTraining := false } })
  | .evalIdle s, r =>
    let r' : Run F := { r with snn := { r.snn with isIdle := true }, trace := .evaluated r.snn.epoch r.snn.net.stats :: r.trace }
    .ok (afterEvaluate s r')
  | .epochTest, r =>
    let (c, r') := r.continueTraining j.env j.wait
    .ok (if c then .shuffling else .reset, r')
  | .shuffling, r => do
    let data ← r.data.shuffle (j.env.rng r.snn.epoch)
    return (.stepTest, { r with data := data, snn := { r.snn with index := 0 }, trace := .shuffled :: r.trace })
  | .stepTest, r =>
    if r.snn.index + j.batchSize ≤ r.snn.numberOfTrainingsBetweenTwoEvaluations then
      let (c, r') := r.continueTraining j.env j.wait
      .ok (if c then .stepBody else .evalTest .inLoop, r')
    else .ok (.evalTest .inLoop, r)
  | .stepBody, r =>
    if r.snn.net.outputNan then .ok (.reset, nanResults j.env.nan r)
    else do
      let (_, r') ← r.trainStep j.env j.batchSize
      return (.stepTest, { r' with snn := { r'.snn with index := r'.snn.index + j.batchSize } })
  | .reset, r => .ok (.idle, { r with snn := { r.snn with index := 0, wantToStopTraining := false } })
  | .idle, r => .ok (.done, { r with snn := { r.snn with isIdle := true } })
  | .done, r => .ok (.done, r)

end

/-- What the caller of `stopTrainingAsync` does when it returns: return to the client (line 184), start a thread (line 76),
train in the client's thread (line 85), or end the destructor (StraightforwardNeuralNetwork.cpp:17-20). -/
inductive Then (F : Type) where
  | ret
  | spawn (j : Job F)
  | trainHere (j : Job F)
  | destroy

/-- Where the client is. -/
inductive Client (F : Type) where
  /-- not in a call -/
  | ready
  /-- in `stopTrainingAsync`, before line 186 -/
  | stopping (k : Then F)
  /-- in `stopTrainingAsync`, at lines 187-190 -/
  | joining (k : Then F)
  /-- `stopTrainingAsync` returned to its caller -/
  | stopped (k : Then F)
  /-- in `train`, inside `trainSync` -/
  | training (j : Job F) (pc : Pc)
  /-- in `waitFor` (lines 215-229) -/
  | waiting (w : Wait F)
  /-- the destructor ended -/
  | destroyed
  /-- `std::terminate` was called -/
  | terminated

/-- The system: the network with its data, the threads started so far, the member `thread` and the client. -/
structure Sys (F : Type) where
  run : Run F
  threads : List (Job F × Pc)
  handle : Option Nat
  client : Client F

/-- What a client does: the trainings that it submits and the effect of its other calls (`computeOutput`, `saveAs`, …), each one
being one action. *Simplification*: a call of `computeOutput` during an asynchronous training is a data race in C++. -/
structure Program (F : Type) where
  submits : Job F → Prop
  other : Run F → Run F → Prop

section
variable {F : Type} [Flt F] [FTrans F] [Add F] [Sub F] [Mul F] [Div F] [Neg F]

/-- One action of the client. -/
inductive ClientStep (p : Program F) : Sys F → Sys F → Prop
  /-- StraightforwardNeuralNetwork.cpp:71-74 a call of `startTrainingAsync`: the criterion of the thread is `Wait()` -/
  | callStart {σ : Sys F} (j : Job F) (hp : p.submits j) (hr : σ.client = .ready) (hw : j.wait = Wait.default)
      (hv : σ.run.snn.validData j.data j.batchSize = .ok ()) : ClientStep p σ { σ with client := .stopping (.spawn j) }
  /-- lines 79-84 a call of `train` -/
  | callTrain {σ : Sys F} (j : Job F) (hp : p.submits j) (hr : σ.client = .ready) (hv : σ.run.snn.validData j.data j.batchSize = .ok ())
      (hi : σ.run.snn.isIdle = true) : ClientStep p σ { σ with client := .stopping (.trainHere j) }
  /-- lines 73, 81-83: a call that throws changes nothing -/
  | callThrows {σ : Sys F} (hr : σ.client = .ready) : ClientStep p σ σ
  /-- line 184 a call of `stopTrainingAsync` -/
  | callStop {σ : Sys F} (hr : σ.client = .ready) : ClientStep p σ { σ with client := .stopping .ret }
  /-- lines 17-20 the destructor -/
  | callDestructor {σ : Sys F} (hr : σ.client = .ready) : ClientStep p σ { σ with client := .stopping .destroy }
  /-- line 186 -/
  | setWant {σ : Sys F} (k : Then F) (hc : σ.client = .stopping k) : ClientStep p σ { σ with
      run := { σ.run with snn := { σ.run.snn with wantToStopTraining := true } }
      client := .joining k }
  /-- line 187: the thread is not joinable -/
  | notJoinable {σ : Sys F} (k : Then F) (hc : σ.client = .joining k) (hh : σ.handle = none) :
      ClientStep p σ { σ with client := .stopped k }
  /-- line 190: `join` returns when the thread ended -/
  | join {σ : Sys F} (k : Then F) (i : Nat) (j : Job F) (hc : σ.client = .joining k) (hh : σ.handle = some i)
      (hd : σ.threads[i]? = some (j, .done)) : ClientStep p σ { σ with handle := none, client := .stopped k }
  | returnStop {σ : Sys F} (hc : σ.client = .stopped .ret) : ClientStep p σ { σ with client := .ready }
  | endDestructor {σ : Sys F} (hc : σ.client = .stopped .destroy) : ClientStep p σ { σ with client := .destroyed }
  /-- line 76: a new thread is assigned to the member -/
  | spawn {σ : Sys F} (j : Job F) (hc : σ.client = .stopped (.spawn j)) (hh : σ.handle = none) : ClientStep p σ { σ with
      threads := σ.threads ++ [(j, .enter)]
      handle := some σ.threads.length
      client := .ready }
  /-- line 76: assigning to a joinable `std::thread` calls `std::terminate` (the new thread runs, too) -/
  | spawnTerminates {σ : Sys F} (j : Job F) (hc : σ.client = .stopped (.spawn j)) (hh : σ.handle ≠ none) : ClientStep p σ { σ with
      threads := σ.threads ++ [(j, .enter)]
      client := .terminated }
  /-- line 85 -/
  | enterTrain {σ : Sys F} (j : Job F) (hc : σ.client = .stopped (.trainHere j)) : ClientStep p σ { σ with client := .training j .enter }
  | trainAction {σ : Sys F} (j : Job F) (pc pc' : Pc) (r' : Run F) (hc : σ.client = .training j pc) (hne : pc ≠ .done)
      (hn : next j pc σ.run = .ok (pc', r')) : ClientStep p σ { σ with run := r', client := .training j pc' }
  | trainReturns {σ : Sys F} (j : Job F) (hc : σ.client = .training j .done) : ClientStep p σ { σ with client := .ready }
  /-- lines 215-229 a call of `waitFor` -/
  | callWait {σ : Sys F} (w : Wait F) (hr : σ.client = .ready) : ClientStep p σ { σ with client := .waiting w }
  /-- lines 218-228 one turn of `waitFor`, with a reading of the clock -/
  | poll {σ : Sys F} (w : Wait F) (t : Int) (hc : σ.client = .waiting w) : ClientStep p σ { σ with
      client := if σ.run.snn.net.outputNan || w.isOver t σ.run.snn.epoch σ.run.snn.net.stats.globalRate σ.run.snn.net.stats.mae
        then .ready else .waiting w }
  /-- any other call -/
  | use {σ : Sys F} (r' : Run F) (hr : σ.client = .ready) (hu : p.other σ.run r') : ClientStep p σ { σ with run := r' }

/-- One action of the thread number `i`. -/
inductive ThreadStep (i : Nat) : Sys F → Sys F → Prop
  | action {σ : Sys F} (j : Job F) (pc pc' : Pc) (r' : Run F) (ht : σ.threads[i]? = some (j, pc)) (hne : pc ≠ .done)
      (hn : next j pc σ.run = .ok (pc', r')) : ThreadStep i σ { σ with run := r', threads := σ.threads.set i (j, pc') }

/-- One action of the system. -/
def Step (p : Program F) (σ τ : Sys F) : Prop := ClientStep p σ τ ∨ ∃ i, ThreadStep i σ τ

/-- The system when the network has just been made. -/
def Sys.start (r : Run F) : Sys F := { run := r, threads := [], handle := none, client := .ready }

/-- The states that the system can reach. -/
inductive Reach (p : Program F) (r0 : Run F) : Sys F → Prop
  | start : Reach p r0 (Sys.start r0)
  | step {σ τ : Sys F} (h : Reach p r0 σ) (hs : Step p σ τ) : Reach p r0 τ

end

end Snn.Async
