import Verif.Spec.NetworkSpec
import Verif.Props.HistoryProps

/-!
# Specification: what a client can see of a network

The values its getters return, and the answers of any sequence of public calls.
-/

namespace Snn.Spec

open HistoryProps (Call)

/-- What the getters and the public fields of a network show, and all its parameters. -/
structure Visible (F : Type) where
  parameters : Sgd F × List (LayerParams F)
  numberOfTraining : Int
  isNan : Bool
  isTraining : Bool
  index : Int
  epoch : Int
  trainingsBetweenTwoEvaluations : Int
  autoSaveWhenBetter : Bool
  autoSaveFilePath : String
  /-- accuracy, weighted accuracy, F1 score, mean absolute error, root mean square error -/
  rates : List F
  /-- the best value of each so far -/
  records : List F
  /-- whether the last evaluation improved each -/
  better : List Bool

/-- StraightforwardNeuralNetwork.hpp:83-88, NeuralNetwork.hpp:51-60, StatisticAnalysis.hpp:72-93 the getters. -/
def visible {F : Type} (s : Snn F) : Visible F where
  parameters := netParams s.net
  numberOfTraining := s.net.numberOfTraining
  isNan := s.net.outputNan
  isTraining := !s.isIdle
  index := s.index
  epoch := s.epoch
  trainingsBetweenTwoEvaluations := s.numberOfTrainingsBetweenTwoEvaluations
  autoSaveWhenBetter := s.autoSaveWhenBetter
  autoSaveFilePath := s.autoSaveFilePath
  rates := [s.net.stats.globalRate, s.net.stats.weightedRate, s.net.stats.f1Score, s.net.stats.mae, s.net.stats.rmse]
  records := [s.net.stats.globalRateMax, s.net.stats.weightedRateMax, s.net.stats.f1ScoreMax, s.net.stats.maeMin,
    s.net.stats.rmseMin]
  better := [s.net.stats.globalBetter, s.net.stats.weightedBetter, s.net.stats.f1Better, s.net.stats.maeBetter,
    s.net.stats.rmseBetter]

/-- The value a call returns. -/
inductive Returned (F : Type) where
  | outputs (o : List F)
  | cluster (c : Int)
  | nothing

/-- The answer of a call: the value it returns, and what the getters show afterwards. -/
structure Answer (F : Type) where
  returned : Returned F
  after : Visible F

section
variable {F : Type} [Flt F] [FTrans F] [Add F] [Sub F] [Mul F] [Div F] [Neg F]

/-- Make a call and look at the network. -/
def ask (r : Run F) (c : Call F) : Res (Answer F × Run F) :=
  match c with
  | .computeOutput x t => do
    let (o, s) ← r.snn.computeOutput x t
    return (⟨.outputs o, visible s⟩, { r with snn := s })
  | .computeCluster x t => do
    let (k, s) ← r.snn.computeCluster x t
    return (⟨.cluster k, visible s⟩, { r with snn := s })
  | c => do
    let r' ← c.run r
    return (⟨.nothing, visible r'.snn⟩, r')

/-- The answers of a sequence of calls; it ends with the first call that does not return. -/
def answers : List (Call F) → Run F → List (Res (Answer F))
  | [], _ => []
  | c :: cs, r =>
    match ask r c with
    | .ok (a, r') => .ok a :: answers cs r'
    | .throw m => [.throw m]
    | .ub m => [.ub m]

/-- Two networks that no client can tell apart: they show the same values, and every sequence of calls, with the same data,
clock and random numbers, gets the same answers from both. -/
def SameForClients (a b : Snn F) : Prop :=
  visible a = visible b ∧
  ∀ (calls : List (Call F)) (data : Data F) (draws : Draws F) (ticks : Nat),
    answers calls ⟨a, data, draws, ticks, []⟩ = answers calls ⟨b, data, draws, ticks, []⟩

end

end Snn.Spec
