import Verif.Model.Training
import Verif.Basic.CInt

/-!
# The loops of `trainSync` with the C++ `int` counters

`Model/Training.lean` counts with unbounded integers. `index`, `epoch`, `numberOfTrainingsBetweenTwoEvaluations` and the
parameter `batchSize` are `int` (StraightforwardNeuralNetwork.hpp:22-28): here every addition on them is checked, and a
result out of the range of `int` is the outcome `ub "signed integer overflow"`. The counter of `evaluate`
(StraightforwardNeuralNetwork.cpp:128) is not checked: it ends at the `int` `data.sets[testing].size`.
-/

namespace Snn

section
variable {F : Type} [Flt F] [FTrans F] [Add F] [Sub F] [Mul F] [Div F] [Neg F]

/-- StraightforwardNeuralNetwork.cpp:101-117 the inner loop: `index + batchSize` in the condition and `index += batchSize`
are checked. -/
def stepLoopInt (env : Env F) (wait : Wait F) (batchSize : Int) : Nat → Run F → Res (Bool × Run F)
  | 0, _ => .ub "out of fuel"
  | fuel + 1, r => do
    let next ← addI r.snn.index batchSize
    if next ≤ r.snn.numberOfTrainingsBetweenTwoEvaluations then
      let (c, r1) := r.continueTraining env wait
      if c then do
        let (returned, r2) ← r1.trainStep env batchSize
        if returned then return (true, r2)
        else do
          let index ← addI r2.snn.index batchSize
          stepLoopInt env wait batchSize fuel { r2 with snn := { r2.snn with index := index } }
      else return (false, r1)
    else return (false, r)

/-- StraightforwardNeuralNetwork.cpp:99-119 the body of the outer loop. -/
def Run.epochBodyInt (env : Env F) (wait : Wait F) (batchSize evaluationFrequency : Int) (fuel : Nat) (r : Run F) :
    Res (Bool × Run F) := do
  let data ← r.data.shuffle (env.rng r.snn.epoch)
  let r1 := { r with data := data, snn := { r.snn with index := 0 }, trace := .shuffled :: r.trace }
  let (returned, r2) ← stepLoopInt env wait batchSize fuel r1
  if returned then return (true, r2)
  else if evaluationFrequency > 0 ∧ r2.snn.epoch.tmod evaluationFrequency = 0 then do
    let r3 ← r2.evaluate env
    return (false, r3)
  else return (false, r2)

/-- StraightforwardNeuralNetwork.cpp:98-120 the outer loop: `epoch++` is checked. -/
def epochLoopInt (env : Env F) (wait : Wait F) (batchSize evaluationFrequency : Int) (inner : Nat) :
    Nat → Run F → Res (Bool × Run F)
  | 0, _ => .ub "out of fuel"
  | fuel + 1, r =>
    let (c, r1) := r.continueTraining env wait
    if c then do
      let (returned, r2) ← r1.epochBodyInt env wait batchSize evaluationFrequency inner
      if returned then return (true, r2)
      else do
        let epoch ← addI r2.snn.epoch 1
        epochLoopInt env wait batchSize evaluationFrequency inner fuel { r2 with snn := { r2.snn with epoch := epoch } }
    else return (false, r1)

/-- StraightforwardNeuralNetwork.cpp:88-123 `trainSync`. -/
def Run.trainSyncInt (env : Env F) (wait : Wait F) (batchSize evaluationFrequency : Int) (fuel : Nat) (r : Run F) :
    Res (Run F) := do
  let r1 ← (if evaluationFrequency > 0 then r.begin.evaluate env else .ok r.begin)
  let (returned, r2) ← epochLoopInt env wait batchSize evaluationFrequency fuel fuel
    { r1 with snn := { r1.snn with epoch := 1 } }
  if returned then return r2 else return { r2 with snn := r2.snn.resetTrainingValues }

/-- StraightforwardNeuralNetwork.cpp:79-86 `train`. -/
def Run.trainInt (env : Env F) (wait : Wait F) (batchSize evaluationFrequency : Int) (fuel : Nat) (r : Run F) :
    Res (Run F) := do
  let _ ← r.snn.validData r.data batchSize
  if !r.snn.isIdle then .throw "Neural network is already training"
  else
    let r1 : Run F := { r with snn := { r.snn with wantToStopTraining := true } }
    r1.trainSyncInt env wait batchSize evaluationFrequency fuel

end

end Snn
