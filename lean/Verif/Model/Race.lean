import Verif.Model.Async
import Verif.Spec.RaceSpec

/-!
# Model of the memory accesses of the asynchronous training

The executions of `Model/Async.lean` with, for every action, the data members that it reads and writes. The members are plain `bool`,
`int`, `float` and `vector`s (StraightforwardNeuralNetwork.hpp:20-24, NeuralNetwork.hpp): no access is atomic.
-/

namespace Snn.Async

open Snn Snn.Race

/-- The memory locations. What is never written after the construction (shapes, sizes, options) is left out. -/
inductive Loc where
  /-- `wantToStopTraining` -/
  | want
  /-- `isIdle` -/
  | idle
  /-- `index` -/
  | index
  /-- `epoch` -/
  | epoch
  /-- `numberOfTrainingsBetweenTwoEvaluations` -/
  | perEpoch
  /-- `outputNan` -/
  | nan
  /-- the members of `StatisticAnalysis` -/
  | stats
  /-- the layers (weights and memories of the neurons) and `numberOfTraining` -/
  | layers
  /-- the indexes of the `Data` object -/
  | data
  /-- `tools::rng` of one translation unit (Tools.hpp:41 is `static` in a header: every source file has its own): one for each kind of
  data, and the one of Dropout.cpp -/
  | rng (k : Option Nature)
  deriving DecidableEq, Repr

section
variable {F : Type} [Flt F] [FTrans F] [Add F] [Sub F] [Mul F] [Div F] [Neg F]

/-- StraightforwardNeuralNetwork.cpp:203-213 `continueTraining`: the getters of the epoch and of the statistics, `hasNan()` and the
flag. -/
def continueAccesses : List (Loc × Bool) := [(.epoch, false), (.stats, false), (.nan, false), (.want, false)]

/-- The layer optimizers of the network draw masks (Dropout.cpp:37-44). -/
def drawsMasks (r : Run F) : Bool := r.snn.net.layers.any fun l => l.optimizers.any fun o => match o with | .dropout .. => true | _ => false

/-- The accesses of one action of `trainSync` (StraightforwardNeuralNetwork.cpp:88-154, 195-213): the location, and whether it is
written. A batch is gathered in a buffer of the data (Data.cpp:310-332); an automatic save reads every member that is archived
(StraightforwardNeuralNetwork.hpp:128-140). -/
def accesses (j : Job F) (pc : Pc) (r : Run F) : List (Loc × Bool) :=
  match pc with
  | .enter => [(.epoch, true), (.data, false), (.perEpoch, true), (.want, true)]
  | .busy => [(.idle, true)]
  | .evalTest .before => if j.evaluationFrequency > 0 then [(.stats, true), (.data, false), (.index, true)] else [(.epoch, true)]
  | .evalTest .inLoop =>
    if j.evaluationFrequency > 0 ∧ r.snn.epoch.tmod j.evaluationFrequency = 0 then [(.epoch, false), (.stats, true), (.data, false), (.index, true)]
    else [(.epoch, true)]
  | .evaluating _ 0 => [(.index, false), (.data, false), (.stats, true), (.layers, false), (.epoch, true)] ++
    if r.snn.autoSaveWhenBetter && r.snn.net.stats.stopTesting.globalBetter then [(.want, false), (.idle, false), (.perEpoch, false)] else []
  | .evaluating _ (_ + 1) =>
    if r.snn.net.outputNan then [(.index, false), (.data, false), (.nan, false), (.stats, true)]
    else [(.index, false), (.data, false), (.nan, true), (.layers, true), (.stats, true), (.index, true)]
  | .evalReset _ => [(.index, true), (.want, true)]
  | .evalIdle _ => [(.idle, true), (.stats, false), (.epoch, true)]
  | .epochTest => continueAccesses
  | .shuffling => [(.data, true), (.rng (some r.data.typeOfTemporal), true), (.index, true)]
  | .stepTest =>
    if r.snn.index + j.batchSize ≤ r.snn.numberOfTrainingsBetweenTwoEvaluations then [(.index, false), (.perEpoch, false)] ++ continueAccesses
    else [(.index, false), (.perEpoch, false)]
  | .stepBody =>
    if r.snn.net.outputNan then [(.nan, false), (.stats, true)]
    else [(.nan, true), (.data, decide (1 < j.batchSize)), (.layers, true), (.index, true)] ++ if drawsMasks r then [(.rng none, true)] else []
  | .reset => [(.index, true), (.want, true)]
  | .idle => [(.idle, true)]
  | .done => []

/-- The accesses as events of a thread. -/
def toEvents (who : Option Nat) (acc : List (Loc × Bool)) : List (MemEvent Nat Loc) := acc.map fun a => ⟨who, .access a.1 a.2⟩

/-- The events of one action of the client, from the state before and after it: line 82 reads `isIdle`, line 186 writes
`wantToStopTraining`, line 190 joins, line 76 starts a thread, line 85 trains, lines 218-226 read `outputNan`, the epoch and the
statistics. *Simplification*: the accesses of the other calls (`computeOutput`, …) are left out. -/
def clientEvents (σ τ : Sys F) : List (MemEvent Nat Loc) :=
  match σ.client with
  | .ready => match τ.client with
    | .stopping (.trainHere _) => toEvents none [(.idle, false)]
    | _ => []
  | .stopping _ => toEvents none [(.want, true)]
  | .joining _ => match σ.handle with
    | none => []
    | some i => [⟨none, .join i⟩]
  | .stopped (.spawn _) => [⟨none, .fork σ.threads.length⟩]
  | .stopped _ => []
  | .training j pc => toEvents none (accesses j pc σ.run)
  | .waiting _ => toEvents none [(.nan, false), (.epoch, false), (.stats, false)]
  | .destroyed => []
  | .terminated => []

/-- The events of one action of the thread number i. -/
def threadEvents (i : Nat) (σ : Sys F) : List (MemEvent Nat Loc) :=
  match σ.threads[i]? with
  | some (j, pc) => toEvents (some i) (accesses j pc σ.run)
  | none => []

/-- The executions of the system with their events. -/
inductive Exec (p : Program F) (r0 : Run F) : List (MemEvent Nat Loc) → Sys F → Prop
  | start : Exec p r0 [] (Sys.start r0)
  | client {tr : List (MemEvent Nat Loc)} {σ τ : Sys F} (h : Exec p r0 tr σ) (hs : ClientStep p σ τ) : Exec p r0 (tr ++ clientEvents σ τ) τ
  | thread {tr : List (MemEvent Nat Loc)} {σ τ : Sys F} {i : Nat} (h : Exec p r0 tr σ) (hs : ThreadStep i σ τ) : Exec p r0 (tr ++ threadEvents i σ) τ

end

end Snn.Async
