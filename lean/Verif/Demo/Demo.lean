import Verif.Model.Training
import Verif.Basic.RatFlt

/-!
# Concrete objects for the examples

Networks, data and runs over ℚ that the kernel can compute with; used to show that the hypotheses of theorems are met.
-/

namespace Snn

/-- The message of the exception, if the call threw. -/
def Res.msg? {α : Type} : Res α → Option String
  | .throw m => some m
  | _ => none

theorem Res.eq_throw {α : Type} {x : Res α} {m : String} (h : x.msg? = some m) : x = .throw m := by
  cases x <;> simp [Res.msg?] at h
  rw [h]

namespace Demo

/-- The draws 1/2, 1/3, 1/4, 1/5, 1/2, … -/
def draws : Draws ℚ := fun i => 1 / (2 + i % 4 : Nat)

/-- A dense network: 2 inputs, 3 hidden neurons with ReLU and Dropout, 2 outputs. -/
def denseArch : List (LayerModel ℚ) := [.input [2], .fullyConnected 3 .relu [.dropout (1/2)], .fullyConnected 2 .identity []]

/-- A recurrent network: 1 input, 2 recurrent neurons, 1 output. -/
def recurrentArch : List (LayerModel ℚ) := [.input [1], .recurrence 2 .identity [], .fullyConnected 1 .identity []]

/-- A convolutional network: 4 × 4 inputs, 2 filters of kernel 2, pooling, locally connected, dense. -/
def convArch : List (LayerModel ℚ) :=
  [.input [1, 4, 4], .convolution 2 2 .relu [], .maxPooling 2, .locallyConnected 1 1 .identity [], .fullyConnected 2 .identity []]

/-- The optimizer of the examples. -/
def sgd : Sgd ℚ := { learningRate := 1/10, momentum := 1/2 }

/-- The dense network. -/
def dense : Snn ℚ := (Snn.make denseArch sgd draws |>.get (by decide +kernel)).1
/-- The recurrent network. -/
def recurrent : Snn ℚ := (Snn.make recurrentArch sgd draws |>.get (by decide +kernel)).1
/-- The convolutional network. -/
def conv : Snn ℚ := (Snn.make convArch sgd draws |>.get (by decide +kernel)).1

/-- A classification with 3 training and 2 testing examples. -/
def classification : Data ℚ :=
  (Data.make2 .classification [[1, 0], [0, 1], [1, 1]] [[1, 0], [0, 1], [0, 1]] [[1, 2], [2, 1]] [[0, 1], [1, 0]] .nonTemporal 0).get (by decide +kernel)

/-- A regression with 4 training examples. -/
def regression : Data ℚ :=
  (Data.make1 .regression [[1, 0], [0, 1], [1, 1], [2, 1]] [[1, 0], [0, 1], [0, 1], [1, 1]] .nonTemporal 0).get (by decide +kernel)

/-- A time series of 5 values, one recurrence. -/
def series : Data ℚ :=
  (Data.make1 .regression [[1], [2], [3], [4], [5]] [[2], [3], [4], [5], [6]] .timeSeries 1).get (by decide +kernel)

/-- An environment: a clock that ticks every millisecond and some shuffles. -/
def env : Env ℚ := { clock := fun t => t, rng := fun e i => e.toNat + i, nan := 0 }

/-- A run on a network and data. -/
def run (s : Snn ℚ) (d : Data ℚ) : Run ℚ := { snn := s, data := d, draws := draws, ticks := 0, trace := [] }

example : dense.net.layers.length = 2 := by decide +kernel
example : conv.net.layers.length = 4 := by decide +kernel
example : recurrent.isIdle = true := by decide +kernel

end Demo

end Snn
