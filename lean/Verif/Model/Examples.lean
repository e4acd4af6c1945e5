import Verif.Model.Training
import Verif.Model.Label

/-!
# Model of `examples/*.cpp` and of the example of `README.md`

Each program builds its data and its network, trains and tells whether the network has learned: `true` is EXIT_SUCCESS, `false` is
EXIT_FAILURE. The network at the end of the program is returned too. `fuel` bounds the iterations of `train` (see `Model/Training.lean`).
-/

namespace Snn.Examples

section
variable {F : Type} [Flt F] [FTrans F] [Add F] [Sub F] [Mul F] [Div F] [Neg F]

/-- StraightforwardNeuralNetwork.hpp:48-50 the default optimizer. -/
def defaultOptimizer : Sgd F := { learningRate := lit (3/100), momentum := lit 0 }

/-- `1.00_acc || 2_s` (ClassificationExample.cpp:22, MultipleClassificationExample.cpp:24, RegressionExample.cpp:24,
RecurrenceExample.cpp:35). -/
def goal : Res (Wait F) := do
  let s ← litS 2
  (litAcc (lit 1)).or s

/-- ClassificationExample.cpp:15 -/
def signInputs : List (List F) :=
  [[lit (-1/10), lit (4/10), lit (-6/10)], [lit (5/10), lit (-4/10), lit (-8/10)], [lit (-7/10), lit (9/10), lit (-7/10)],
    [lit (-9/10), lit (-5/10), lit (17/10)], [lit (5/10), lit (-5/10), lit (9/10)], [lit (3/10), lit (6/10), lit (8/10)]]
/-- ClassificationExample.cpp:16 -/
def signOutputs : List (List F) :=
  [[lit 1, lit 0], [lit 1, lit 0], [lit 1, lit 0], [lit 0, lit 1], [lit 0, lit 1], [lit 0, lit 1]]
/-- ClassificationExample.cpp:20 (LayerFactory.hpp:37: sigmoid by default). -/
def signArch : List (LayerModel F) := [.input [3], .fullyConnected 5 .sigmoid [], .fullyConnected 2 .sigmoid []]

/-- ClassificationExample.cpp:13-34 `classificationExample`. -/
def classificationExample (env : Env F) (d : Draws F) (fuel : Nat) : Res (Bool × Snn F) := do
  let data ← Data.make1 .classification signInputs signOutputs .nonTemporal 0
  let (snn, d1) ← Snn.make signArch defaultOptimizer d
  let wait ← goal
  let r ← ({ snn := snn, data := data, draws := d1, ticks := 0, trace := [] } : Run F).train env wait 1 1 fuel
  let accuracy := r.snn.net.stats.globalRateMax * lit 100
  let x ← r.data.getData .testing 0
  let (classNumber, snn2) ← r.snn.computeCluster x false
  let expectedClassNumber ← r.data.getLabel .testing 0
  let valid ← snn2.net.isValid
  return (feq accuracy (lit 100) && decide (classNumber = (expectedClassNumber : Int)) && decide (valid = 0), snn2)

/-- MultipleClassificationExample.cpp:15 -/
def logicInputs : List (List F) := [[lit 0, lit 0], [lit 0, lit 1], [lit 1, lit 0], [lit 1, lit 1]]
/-- MultipleClassificationExample.cpp:16 -/
def logicOutputs : List (List F) := [[lit 0, lit 1, lit 0], [lit 0, lit 1, lit 1], [lit 0, lit 1, lit 1], [lit 1, lit 0, lit 1]]
/-- MultipleClassificationExample.cpp:22 -/
def logicArch : List (LayerModel F) := [.input [2], .fullyConnected 8 .sigmoid [], .fullyConnected 3 .sigmoid []]

/-- MultipleClassificationExample.cpp:13-36 `multipleClassificationExample`. -/
def multipleClassificationExample (env : Env F) (d : Draws F) (fuel : Nat) : Res (Bool × Snn F) := do
  let data0 ← Data.make1 .multipleClassification logicInputs logicOutputs .nonTemporal 0
  let data ← data0.setSeparator (lit (1/2))
  let (snn, d1) ← Snn.make logicArch defaultOptimizer d
  let wait ← goal
  let r ← ({ snn := snn, data := data, draws := d1, ticks := 0, trace := [] } : Run F).train env wait 1 1 fuel
  let accuracy := r.snn.net.stats.globalRateMax * lit 100
  let x ← r.data.getData .testing 0
  let (output, snn2) ← r.snn.computeOutput x false
  let o0 ← rd output 0
  let o1 ← rd output 1
  let o2 ← rd output 2
  let valid ← snn2.net.isValid
  return (feq accuracy (lit 100) && flt o0 (lit (1/2)) && flt (lit (1/2)) o1 && flt o2 (lit (1/2)) && decide (valid = 0), snn2)

/-- RegressionExample.cpp:15 -/
def meanInputs : List (List F) :=
  [[lit 0, lit 1, lit 0], [lit 0, lit 1, lit 1], [lit 1, lit 0, lit 1], [lit 1, lit 1, lit 0], [lit 0, lit 0, lit 0], [lit 1, lit 1, lit 1]]
/-- RegressionExample.cpp:16 -/
def meanOutputs : List (List F) := [[lit (333/1000)], [lit (666/1000)], [lit (666/1000)], [lit (666/1000)], [lit 0], [lit 1]]
/-- RegressionExample.cpp:22 -/
def meanArch : List (LayerModel F) := [.input [3], .fullyConnected 5 .sigmoid [], .fullyConnected 1 .sigmoid []]

/-- RegressionExample.cpp:13-37 `regressionExample`. -/
def regressionExample (env : Env F) (d : Draws F) (fuel : Nat) : Res (Bool × Snn F) := do
  let data0 ← Data.make1 .regression meanInputs meanOutputs .nonTemporal 0
  let data ← data0.setPrecision (lit (1/10))
  let (snn, d1) ← Snn.make meanArch defaultOptimizer d
  let wait ← goal
  let r ← ({ snn := snn, data := data, draws := d1, ticks := 0, trace := [] } : Run F).train env wait 1 1 fuel
  let accuracy := r.snn.net.stats.globalRateMax * lit 100
  let x ← r.data.getData .testing 0
  let (output, snn2) ← r.snn.computeOutput x false
  let expectedOutput ← r.data.getOutputs .testing 0
  let o ← rd output 0
  let e ← rd expectedOutput 0
  let valid ← snn2.net.isValid
  return (feq accuracy (lit 100) && flt (fabs (o - e)) (lit (1/10)) && decide (valid = 0), snn2)

/-- RecurrenceExample.cpp:15-18 -/
def sumInputs : List (List F) :=
  [[lit (3/10)], [lit (5/10)], [lit (4/10)], [lit (2/10)], [lit 0], [lit (2/10)], [lit (2/10)], [lit (4/10)], [lit (1/10)], [lit (3/10)],
    [lit (4/10)], [lit 0], [lit 0], [lit (4/10)], [lit (4/10)], [lit (3/10)], [lit (2/10)], [lit (1/10)], [lit (2/10)], [lit 0], [lit (1/10)],
    [lit (5/10)], [lit (5/10)], [lit (3/10)], [lit (3/10)]]
/-- RecurrenceExample.cpp:19-22 -/
def sumOutputs : List (List F) :=
  [[lit (3/10)], [lit (8/10)], [lit (9/10)], [lit (6/10)], [lit (2/10)], [lit (2/10)], [lit (4/10)], [lit (6/10)], [lit (5/10)], [lit (4/10)],
    [lit (7/10)], [lit (4/10)], [lit 0], [lit (4/10)], [lit (8/10)], [lit (7/10)], [lit (5/10)], [lit (3/10)], [lit (3/10)], [lit (2/10)],
    [lit (1/10)], [lit (6/10)], [lit (10/100)], [lit (8/10)], [lit (6/10)]]
/-- RecurrenceExample.cpp:28-33 (LayerFactory.hpp:63: tanh by default). -/
def sumArch : List (LayerModel F) := [.input [1], .recurrence 10 .tanh [], .fullyConnected 1 .sigmoid []]

/-- RecurrenceExample.cpp:13-47 `recurrenceExample`. -/
def recurrenceExample (env : Env F) (d : Draws F) (fuel : Nat) : Res (Bool × Snn F) := do
  let data0 ← Data.make1 .regression sumInputs sumOutputs .timeSeries 1
  let data ← data0.setPrecision (lit (1/2))
  let (snn, d1) ← Snn.make sumArch { learningRate := lit (1/100), momentum := lit (8/10) } d
  let wait ← goal
  let r ← ({ snn := snn, data := data, draws := d1, ticks := 0, trace := [] } : Run F).train env wait 1 1 fuel
  let accuracy := r.snn.net.stats.globalRateMax * lit 100
  let mae := r.snn.net.stats.mae
  let valid ← r.snn.net.isValid
  return (feq accuracy (lit 100) && flt mae (lit (1/2)) && decide (valid = 0), r.snn)

/-- README.md:52-57 (`Softmax()` after the last layer). -/
def readmeArch : List (LayerModel F) :=
  [.input [1, 28, 28], .convolution 16 3 .relu [], .fullyConnected 92 .sigmoid [], .fullyConnected 10 .identity [.softmax]]

/-- README.md:47-62 on the data of the user; the reported accuracy is returned. -/
def readmeExample (env : Env F) (d : Draws F) (inputData expectedOutputs : List (List F)) (fuel : Nat) : Res (F × Snn F) := do
  let data ← Data.make1 .classification inputData expectedOutputs .nonTemporal 0
  let (snn, d1) ← Snn.make readmeArch defaultOptimizer d
  let s ← litS 20
  let wait ← (litAcc (lit (9/10))).or s
  let r ← ({ snn := snn, data := data, draws := d1, ticks := 0, trace := [] } : Run F).train env wait 1 1 fuel
  return (r.snn.net.stats.globalRate, r.snn)

end

end Snn.Examples
