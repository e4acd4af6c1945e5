import Verif.Model.Race
import Verif.Model.Equal
import Verif.Model.Copy
import Verif.Model.Summary
import Verif.Model.Counters
import Verif.Model.Bitmap

/-!
# Model of the other calls while a network may be training asynchronously

The public calls that read or write what a training uses, each one as one action of the client with its answer, its effect and its memory accesses.
-/

namespace Snn.Async

open Snn Snn.Race

/-- The calls (StraightforwardNeuralNetwork.hpp:57-92, NeuralNetwork.hpp:62-80, StatisticAnalysis.hpp:88-98). The calls that read only what is set at
the construction (the numbers of inputs, outputs, layers, neurons and parameters, `validData`, `saveData2DAsBitmap`) are left out. -/
inductive Use (F : Type) where
  | isTraining
  | hasNan
  /-- `getGlobalClusteringRate()` and the other results -/
  | getResults
  | getCurrentEpoch
  | getCurrentIndex
  | getNumberOfTrainingsBetweenTwoEvaluations
  | setNumberOfTrainingsBetweenTwoEvaluations (value : Int)
  | getNumberOfTraining
  | isValid
  /-- `summary()`; `fl` prints a float -/
  | summary (fl : F → String)
  /-- `operator==` -/
  | equal (other : Snn F)
  /-- the copy constructor, with this network as argument -/
  | copy
  | computeOutput (inputs : List F) (temporalReset : Bool)
  | computeCluster (inputs : List F) (temporalReset : Bool)
  | trainOnce (inputs desired : List F) (temporalReset : Bool)
  /-- `evaluate(data)`; `env` gives the value of `NAN` -/
  | evaluate (env : Env F) (data : Data F)
  | saveAs (path : String)
  | saveFeatureMapsAsBitmap (path : String)
  | saveFilterLayersAsBitmap (path : String) (data : Data F) (dataIndex : Int)

/-- What a call gives back: its value or the files that it writes. -/
inductive Answer (F : Type) where
  | nothing
  | flag (b : Bool)
  | number (n : Int)
  | results (s : Stats F)
  | values (l : List F)
  | text (s : String)
  | network (s : Snn F)
  | files (l : List (String × List Nat))

section
variable {F : Type} [Flt F] [FTrans F] [Add F] [Sub F] [Mul F] [Div F] [Neg F]

/-- A call: StraightforwardNeuralNetwork.cpp:33-69, 125-154, 231-234, 248-264, 271-284, 302-337, StraightforwardNeuralNetwork.hpp:78-90,
NeuralNetwork.cpp:54-58, 111-138, 168-190, StatisticAnalysis.cpp:247-299 — its answer and the state afterwards (the getters of the results are taken
together; the file of `saveAs` is an event of the run, the files of the bitmaps are the answer). -/
def Use.perform (u : Use F) (r : Run F) : Res (Answer F × Run F) :=
  match u with
  | .isTraining => .ok (.flag (!r.snn.isIdle), r)
  | .hasNan => .ok (.flag r.snn.net.outputNan, r)
  | .getResults => .ok (.results r.snn.net.stats, r)
  | .getCurrentEpoch => .ok (.number r.snn.getCurrentEpoch, r)
  | .getCurrentIndex => .ok (.number r.snn.getCurrentIndex, r)
  | .getNumberOfTrainingsBetweenTwoEvaluations => .ok (.number r.snn.getNumberOfTrainingsBetweenTwoEvaluations, r)
  | .setNumberOfTrainingsBetweenTwoEvaluations v => .ok (.nothing, { r with snn := r.snn.setNumberOfTrainingsBetweenTwoEvaluations v })
  | .getNumberOfTraining => .ok (.number r.snn.net.numberOfTraining, r)
  | .isValid => do
    let e ← r.snn.net.isValid
    return (.number e, r)
  | .summary fl => do
    let t ← r.snn.summary fl
    return (.text t, r)
  | .equal other => do
    let e ← r.snn.eq other
    return (.flag e, r)
  | .copy => do
    let s ← r.snn.copy
    return (.network s, r)
  | .computeOutput x t => do
    let (y, s) ← r.snn.computeOutput x t
    return (.values y, { r with snn := s })
  | .computeCluster x t => do
    let (c, s) ← r.snn.computeCluster x t
    return (.number c, { r with snn := s })
  | .trainOnce x y t => do
    let (net, d) ← r.snn.net.trainOnce x y t r.draws
    return (.nothing, { r with snn := { r.snn with net := net }, draws := d })
  | .evaluate env data => do
    let r1 ← Run.evaluate env { r with data := data }
    return (.nothing, { r1 with data := r.data })
  | .saveAs path => do
    let r1 ← r.saveAs path
    return (.nothing, r1)
  | .saveFeatureMapsAsBitmap path => do
    let fs ← r.snn.saveFeatureMapsAsBitmap path
    return (.files fs, r)
  | .saveFilterLayersAsBitmap path data i => do
    let (fs, s) ← r.snn.saveFilterLayersAsBitmap path data i
    return (.files fs, { r with snn := s })

/-- The state after a call. -/
def Use.effect (u : Use F) (r : Run F) : Res (Run F) := do
  let (_, r') ← u.perform r
  return r'

/-- The accesses of a call (the lines of `Use.perform`; StraightforwardNeuralNetwork.hpp:128-140 and NeuralNetwork.hpp:83-104 for what is
archived). *Simplifications*: the members that only the user changes (the optimizer, the path and the flag of the automatic save) are left out; what
`evaluate` accesses when it saves or finds a NaN is listed in every case. -/
def Use.accesses (u : Use F) (r : Run F) : List (Loc × Bool) :=
  match u with
  | .isTraining => [(.idle, false)]
  | .hasNan => [(.nan, false)]
  | .getResults => [(.stats, false)]
  | .getCurrentEpoch => [(.epoch, false)]
  | .getCurrentIndex => [(.index, false)]
  | .getNumberOfTrainingsBetweenTwoEvaluations => [(.perEpoch, false)]
  | .setNumberOfTrainingsBetweenTwoEvaluations _ => [(.perEpoch, true)]
  | .getNumberOfTraining => [(.layers, false)]
  | .isValid => [(.layers, false)]
  | .summary _ => [(.epoch, false), (.layers, false)]
  | .equal _ => [(.layers, false), (.want, false), (.index, false), (.idle, false), (.epoch, false), (.perEpoch, false)]
  | .copy => [(.stats, false), (.nan, false), (.layers, false), (.index, false), (.epoch, false), (.perEpoch, false)]
  | .computeOutput _ _ => [(.layers, true), (.nan, true)]
  | .computeCluster _ _ => [(.layers, true), (.nan, true)]
  | .trainOnce _ _ _ => [(.layers, true), (.nan, true)] ++ if drawsMasks r then [(.rng none, true)] else []
  | .evaluate _ _ => [(.layers, true), (.nan, true), (.stats, true), (.index, true), (.want, true), (.idle, true), (.epoch, false), (.perEpoch, false)]
  | .saveAs _ => [(.idle, false), (.stats, false), (.layers, false), (.want, false), (.index, false), (.epoch, false), (.perEpoch, false)]
  | .saveFeatureMapsAsBitmap _ => [(.idle, false), (.layers, false)]
  | .saveFilterLayersAsBitmap _ _ _ => [(.idle, false), (.layers, true)]

/-- What a client does: the trainings that it submits, and the other calls that it makes, which may depend on the state. -/
structure Caller (F : Type) where
  submits : Job F → Prop
  calls : Sys F → Use F → Prop

/-- The steps of a client without its other calls (`Model/Async.lean`). -/
def Caller.program (c : Caller F) : Program F := { submits := c.submits, other := fun _ _ => False }

/-- The executions with the other calls: a call is made when the client is in no other one; a call that throws does nothing and is left
out (*simplification*: what it reads before it throws). -/
inductive ExecCalls (c : Caller F) (r0 : Run F) : List (MemEvent Nat Loc) → Sys F → Prop
  | start : ExecCalls c r0 [] (Sys.start r0)
  | client {tr : List (MemEvent Nat Loc)} {σ τ : Sys F} (h : ExecCalls c r0 tr σ) (hs : ClientStep c.program σ τ) : ExecCalls c r0 (tr ++ clientEvents σ τ) τ
  | thread {tr : List (MemEvent Nat Loc)} {σ τ : Sys F} {i : Nat} (h : ExecCalls c r0 tr σ) (hs : ThreadStep i σ τ) : ExecCalls c r0 (tr ++ threadEvents i σ) τ
  | call {tr : List (MemEvent Nat Loc)} {σ : Sys F} {u : Use F} {r' : Run F} (h : ExecCalls c r0 tr σ) (hr : σ.client = .ready) (hc : c.calls σ u)
      (hu : u.effect σ.run = .ok r') : ExecCalls c r0 (tr ++ toEvents none (u.accesses σ.run)) { σ with run := r' }

end

end Snn.Async
