import Verif.Props.HistoryProps
import Verif.Demo.Demo

/-!
# C22 and C23: what is not checked, and what an exception leaves behind
-/

set_option linter.all false

namespace Snn.FaultProps

/-- Data whose examples have 1 input, for networks with 2. -/
def narrow : Data ℚ := (Data.make1 .regression [[1], [2]] [[1, 0], [0, 1]] .nonTemporal 0).get (by decide +kernel)

/-- Data with 1 label, for networks with 2 outputs. -/
def oneLabel : Data ℚ := (Data.make1 .regression [[1, 2], [2, 1]] [[1], [0]] .nonTemporal 0).get (by decide +kernel)

/-- **C22 is false of `evaluate`**: data that do not fit are rejected by `train` with an exception, but the public `evaluate` does
not check them and reads the expected outputs out of bounds. -/
theorem C22_evaluate_refuted :
    (Run.train Demo.env (litEp 1) 1 0 10 (Demo.run Demo.dense oneLabel)).isThrow = true ∧
    (Run.evaluate Demo.env (Demo.run Demo.dense oneLabel)).isUb = true := by
  decide +kernel

/-- **C22 is false of `evaluate`**, inputs: with examples of 1 input on a network of 2 inputs, `train` throws; `evaluate` goes on
without an error and uses the weight of the missing input as the weight of the bias. -/
theorem C22_evaluate_inputs_refuted :
    (Run.train Demo.env (litEp 1) 1 0 10 (Demo.run Demo.dense narrow)).isThrow = true ∧
    (Run.evaluate Demo.env (Demo.run Demo.dense narrow)).isOk = true := by
  decide +kernel

/-- Classification data with a testing label that contains no 1. -/
def noClass : Data ℚ :=
  (Data.make2 .classification [[1, 0], [0, 1]] [[1, 0], [0, 1]] [[1, 2]] [[1/2, 1/2]] .nonTemporal 0).get (by decide +kernel)

/-- **C23 is false when training ends with an exception.** On data with a testing label that contains no 1, `train` throws during
its first evaluation, after it has marked the network as training: the network is left not idle, so every later `train` and
`saveAs` is refused. -/
theorem C23_exception_refuted :
    let r := Demo.run Demo.dense noClass
    r.snn.isIdle = true ∧
    Run.train Demo.env (litEp 1) 1 1 10 r = .throw "wrong label" ∧
    -- where the exception comes from, and the state of the network at that point
    r.begin.evaluate Demo.env = .throw "wrong label" ∧ r.begin.snn.isIdle = false ∧
    -- what the following calls do in this state
    Run.train Demo.env (litEp 1) 1 0 10 (Demo.run r.begin.snn Demo.classification) = .throw "Neural network is already training" ∧
    (Run.saveAs r.begin "file").isThrow = true := by
  refine ⟨by decide +kernel, ?_, ?_, by decide +kernel, ?_, by decide +kernel⟩
  · have h : (Run.train Demo.env (litEp 1) 1 1 10 (Demo.run Demo.dense noClass)).msg? = some "wrong label" := by decide +kernel
    exact Res.eq_throw h
  · have h : (Run.evaluate Demo.env (Demo.run Demo.dense noClass).begin).msg? = some "wrong label" := by decide +kernel
    exact Res.eq_throw h
  · have h : (Run.train Demo.env (litEp 1) 1 0 10 (Demo.run (Demo.run Demo.dense noClass).begin.snn Demo.classification)).msg? =
        some "Neural network is already training" := by decide +kernel
    exact Res.eq_throw h

end Snn.FaultProps
