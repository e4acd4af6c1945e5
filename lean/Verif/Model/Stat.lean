import Verif.Basic.Res
import Verif.Basic.Flt

/-!
# Model of `include/snn/neural_network/StatisticAnalysis.hpp` and `src/neural_network/StatisticAnalysis.cpp`
-/

namespace Snn

/-- StatisticAnalysis.hpp:7-13 `struct binaryClassification` (the counters are `float`). -/
structure Cluster (F : Type) where
  truePositive : F
  trueNegative : F
  falsePositive : F
  falseNegative : F
  totalError : F
  deriving DecidableEq, Repr

/-- StatisticAnalysis.hpp:30-84 the data members of `class StatisticAnalysis`. -/
structure Stats (F : Type) where
  clusters : List (Cluster F)
  wellClassified : F
  misclassified : F
  globalRate : F
  weightedRate : F
  f1Score : F
  mae : F
  rmse : F
  globalRateMax : F
  weightedRateMax : F
  f1ScoreMax : F
  maeMin : F
  rmseMin : F
  globalBetter : Bool
  weightedBetter : Bool
  f1Better : Bool
  maeBetter : Bool
  rmseBetter : Bool
  deriving DecidableEq, Repr

/-- One call of an `evaluateOnceFor…` method. -/
inductive Ev (F : Type) where
  /-- `evaluateOnceForRegression(outputs, desiredOutputs, precision)` -/
  | regression (outputs desired : List F) (precision : F)
  /-- `evaluateOnceForMultipleClassification(outputs, desiredOutputs, separator)` -/
  | multiple (outputs desired : List F) (separator : F)
  /-- `evaluateOnceForClassification(outputs, classNumber, separator)` -/
  | classification (outputs : List F) (classNumber : Int) (separator : F)

section
variable {F : Type} [Add F] [Sub F] [Mul F] [Div F] [Flt F] [FTrans F]

/-- StatisticAnalysis.cpp:35-42, one cluster of `startTesting` (also the value of a default
constructed `binaryClassification`, StatisticAnalysis.hpp:9-13). -/
def Cluster.zero : Cluster F :=
  { truePositive := lit 0, trueNegative := lit 0, falsePositive := lit 0, falseNegative := lit 0,
    totalError := lit 0 }

/-- StatisticAnalysis.cpp:33-45 `startTesting`. -/
def Stats.startTesting (s : Stats F) : Stats F :=
  { s with
    clusters := s.clusters.map fun _ => Cluster.zero
    wellClassified := lit 0
    misclassified := lit 0 }

/-- StatisticAnalysis.hpp:40-50,79-83 and StatisticAnalysis.cpp:7-11: a new object after
`initialize(numberOfCluster)`. -/
def Stats.init (numberOfCluster : Nat) : Stats F :=
  { clusters := List.replicate numberOfCluster Cluster.zero
    wellClassified := lit 0, misclassified := lit 0
    globalRate := lit (-1), weightedRate := lit (-1), f1Score := lit (-1), mae := lit (-1)
    rmse := lit (-1)
    globalRateMax := lit (-1), weightedRateMax := lit (-1), f1ScoreMax := lit (-1)
    maeMin := lit (-1), rmseMin := lit (-1)
    globalBetter := false, weightedBetter := false, f1Better := false, maeBetter := false
    rmseBetter := false }

/-- StatisticAnalysis.cpp:89-108, the body of the loop of `evaluateOnceForRegression` on one cluster:
the new cluster, and whether `classifiedWell` was left unchanged. -/
def regressionCluster (c : Cluster F) (o d p : F) : Cluster F × Bool :=
  let r : Cluster F × Bool :=
    if flt (d + p) o then ({ c with falsePositive := c.falsePositive + lit 1 }, false)
    else if flt o (d - p) then ({ c with falseNegative := c.falseNegative + lit 1 }, false)
    else if fle d o then ({ c with trueNegative := c.trueNegative + lit 1 }, true)
    else if fle o d then ({ c with trueNegative := c.trueNegative + lit 1 }, true)
    else (c, true)
  ({ r.1 with totalError := r.1.totalError + fabs (d - o) }, r.2)

/-- StatisticAnalysis.cpp:123-142, the body of the loop of `evaluateOnceForMultipleClassification`. -/
def multipleCluster (c : Cluster F) (o d s : F) : Cluster F × Bool :=
  let r : Cluster F × Bool :=
    if flt s o && flt s d then ({ c with truePositive := c.truePositive + lit 1 }, true)
    else if fle o s && fle d s then ({ c with trueNegative := c.trueNegative + lit 1 }, true)
    else if flt s o && fle d s then ({ c with falsePositive := c.falsePositive + lit 1 }, false)
    else if fle o s && flt s d then ({ c with falseNegative := c.falseNegative + lit 1 }, false)
    else (c, true)
  ({ r.1 with totalError := r.1.totalError + fabs (d - o) }, r.2)

/-- StatisticAnalysis.cpp:162-187, the counting part of the loop of `evaluateOnceForClassification`;
`isClass` is `i == classNumber`. -/
def classificationCluster (c : Cluster F) (isClass : Bool) (o s : F) : Cluster F :=
  if isClass then
    let c := { c with totalError := c.totalError + fabs (lit 1 - o) }
    if flt s o then { c with truePositive := c.truePositive + lit 1 }
    else { c with falseNegative := c.falseNegative + lit 1 }
  else
    let c := { c with totalError := c.totalError + fabs (lit 0 - o) }
    if flt s o then { c with falsePositive := c.falsePositive + lit 1 }
    else { c with trueNegative := c.trueNegative + lit 1 }

/-- StatisticAnalysis.cpp:152-161 (and StraightforwardNeuralNetwork.cpp `computeCluster`): the running
arg-max `maxOutputValue = -2, maxOutputIndex = -1`, strict comparison. `i` is the index of the head. -/
def argmaxFrom : List F → Int → F → Int → Int
  | [], _, _, idx => idx
  | o :: os, i, best, idx =>
    if flt best o then argmaxFrom os (i + 1) o i else argmaxFrom os (i + 1) best idx

/-- The arg-max loop on all the outputs. -/
def argmaxLoop (outputs : List F) : Int := argmaxFrom outputs 0 (lit (-2)) (-1)

/-- StatisticAnalysis.cpp:110-113, 144-147, 189-192: `numberOfDataWellClassified++` or
`numberOfDataMisclassified++`. -/
def Stats.count (s : Stats F) (well : Bool) : Stats F :=
  if well then { s with wellClassified := s.wellClassified + lit 1 }
  else { s with misclassified := s.misclassified + lit 1 }

/-- StatisticAnalysis.cpp:82-193 the three `evaluateOnceFor…` methods. The loops run over the clusters
and read `outputs[i]` (and `desiredOutputs[i]`): a shorter vector is an out of bounds access. -/
def Stats.evaluateOnce (s : Stats F) : Ev F → Res (Stats F)
  | .regression o d p =>
    if o.length < s.clusters.length ∨ d.length < s.clusters.length then .ub "outputs[i] out of range"
    else
      let rs := List.zipWith (fun c od => regressionCluster c od.1 od.2 p) s.clusters (List.zip o d)
      .ok (({ s with clusters := rs.map Prod.fst }).count (rs.all Prod.snd))
  | .multiple o d sep =>
    if o.length < s.clusters.length ∨ d.length < s.clusters.length then .ub "outputs[i] out of range"
    else
      let rs := List.zipWith (fun c od => multipleCluster c od.1 od.2 sep) s.clusters (List.zip o d)
      .ok (({ s with clusters := rs.map Prod.fst }).count (rs.all Prod.snd))
  | .classification o k sep =>
    if o.length < s.clusters.length then .ub "outputs[i] out of range"
    else
      let cs := List.zipWith (fun (ci : Cluster F × Nat) o => classificationCluster ci.1 (decide ((ci.2 : Int) = k)) o sep)
        s.clusters.zipIdx o
      .ok (({ s with clusters := cs }).count (decide (argmaxLoop (o.take s.clusters.length) = k)))

/-- StatisticAnalysis.cpp:195-198 `computeGlobalClusteringRate`. -/
def Stats.computeGlobalRate (s : Stats F) : F :=
  s.wellClassified / (s.wellClassified + s.misclassified)

/-- StatisticAnalysis.cpp:200-209 `computeWeightedClusteringRate`. -/
def Stats.computeWeightedRate (s : Stats F) : F :=
  s.clusters.foldl (fun r c =>
    if flt (lit 0) c.truePositive then r + c.truePositive / (c.truePositive + c.falseNegative) else r)
    (lit 0) / lit s.clusters.length

/-- StatisticAnalysis.cpp:211-224 `computeF1Score`. -/
def Stats.computeF1Score (s : Stats F) : F :=
  lit 2 * s.clusters.foldl (fun r c =>
    if flt (lit 0) c.truePositive then
      let precision := c.truePositive / (c.truePositive + c.falsePositive)
      let recall := c.truePositive / (c.truePositive + c.falseNegative)
      r + (precision * recall) / (precision + recall)
    else r) (lit 0) / lit s.clusters.length

/-- StatisticAnalysis.cpp:226-234 `computeMeanAbsoluteError`. -/
def Stats.computeMae (s : Stats F) : F :=
  s.clusters.foldl (fun r c => r + c.totalError) (lit 0) / (s.wellClassified + s.misclassified)

/-- StatisticAnalysis.cpp:236-245 `computeRootMeanSquaredError`. -/
def Stats.computeRmse (s : Stats F) : F :=
  fsqrt (s.clusters.foldl (fun r c => r + c.totalError * c.totalError) (lit 0)
    / (s.wellClassified + s.misclassified))

/-- StatisticAnalysis.cpp:47-80 `stopTesting`. As in the code, `f1ScoreMax` is never assigned,
`rootMeanSquaredErrorMin` receives the mean absolute error, and its condition tests
`meanAbsoluteErrorMin` (already updated by line 69). -/
def Stats.stopTesting (s : Stats F) : Stats F :=
  let g := s.computeGlobalRate
  let w := s.computeWeightedRate
  let f := s.computeF1Score
  let a := s.computeMae
  let r := s.computeRmse
  let gb := flt s.globalRateMax g
  let wb := flt s.weightedRateMax w
  let fb := flt s.f1ScoreMax f
  let ab := flt a s.maeMin || flt s.maeMin (lit 0)
  let maeMin := if ab then a else s.maeMin
  let rb := flt r s.rmseMin || flt maeMin (lit 0)
  { s with
    globalBetter := gb
    globalRateMax := if gb then g else s.globalRateMax
    weightedBetter := wb
    weightedRateMax := if wb then w else s.weightedRateMax
    f1Better := fb
    maeBetter := ab
    maeMin := maeMin
    rmseBetter := rb
    rmseMin := if rb then a else s.rmseMin
    globalRate := g
    weightedRate := w
    f1Score := f
    mae := a
    rmse := r }

/-- StatisticAnalysis.cpp:13-31 `setResultsAsNan`; `nan` is `NAN`. -/
def Stats.setResultsAsNan (nan : F) (s : Stats F) : Stats F :=
  { s with
    clusters := s.clusters.map fun _ =>
      { truePositive := nan, trueNegative := nan, falsePositive := nan, falseNegative := nan,
        totalError := nan }
    wellClassified := nan, misclassified := nan
    globalRate := nan, weightedRate := nan, f1Score := nan, mae := nan, rmse := nan }

/-- A whole testing phase as run by `evaluate`: `startTesting`, the evaluations, `stopTesting`. -/
def Stats.testingPhase (s : Stats F) (evs : List (Ev F)) : Res (Stats F) := do
  let s ← evs.foldlM Stats.evaluateOnce s.startTesting
  return s.stopTesting

end

end Snn
