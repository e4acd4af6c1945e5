import Verif.Demo.Demo
import Verif.Basic.NanFlt
import Verif.Model.Serialize
import Verif.Model.Copy
import Verif.Props.HistoryProps

/-! Which floats of the example carriers a text archive can read back, and a network with a NaN carrier. -/

namespace Snn

instance : FText ℚ := ⟨fun _ => true⟩

instance : FText NF := ⟨fun x => match x with | .num _ => true | .nan => false⟩

namespace Demo

/-- No file. -/
def noFiles {F : Type} : Files F := fun _ => none

/-- A network with a NaN carrier: one input, one output, no activation. -/
def nanArch : List (LayerModel NF) := [.input [1], .fullyConnected 1 .identity []]

/-- Its optimizer. -/
def nanSgd : Sgd NF := { learningRate := .num (1/10), momentum := .num 0 }

/-- The network. -/
def nanNet : Snn NF := (Snn.make nanArch nanSgd (fun _ => .num (1/2)) |>.get (by decide +kernel)).1

/-- Some data for it. -/
def nanData : Data NF :=
  (Data.make1 .regression [[.num 1], [.num 2]] [[.num 2], [.num 3]] .nonTemporal 0).get (by decide +kernel)

/-- A run on it. -/
def nanRun (s : Snn NF) : Run NF := { snn := s, data := nanData, draws := fun _ => .num (1/2), ticks := 0, trace := [] }

/-- Its state after an output that is NaN and then one that is a number. -/
def nanThenNumber : Snn NF :=
  (do
    let (_, s1) ← nanNet.computeOutput [.nan] false
    let (_, s2) ← s1.computeOutput [.num 1] false
    return s2 : Res (Snn NF)).get (by decide +kernel)

/-- Its state after an output that is NaN. -/
def afterNan : Snn NF :=
  (do
    let (_, s1) ← nanNet.computeOutput [.nan] false
    return s1 : Res (Snn NF)).get (by decide +kernel)

/-- The recurrent network after one epoch of training on the series. -/
def trained : Run ℚ := ((run recurrent series).train env (litEp 1) 1 1 50).get (by decide +kernel)

/-- A dense network. -/
def plainArch : List (LayerModel ℚ) := [.input [1], .fullyConnected 2 .identity []]
/-- The same with a Softmax. -/
def softmaxArch : List (LayerModel ℚ) := [.input [1], .fullyConnected 2 .identity [.softmax]]
/-- The network without the Softmax. -/
def plain : Snn ℚ := (Snn.make plainArch sgd draws |>.get (by decide +kernel)).1
/-- The network with the Softmax. -/
def withSoftmax : Snn ℚ := (Snn.make softmaxArch sgd draws |>.get (by decide +kernel)).1

/-- A copy of the recurrent network. -/
def copied : Snn ℚ := recurrent.copy.get (by decide +kernel)
/-- The copy, trained. -/
def copyTrained : Run ℚ :=
  ((HistoryProps.Call.train env series (litEp 1) 1 1 50).run ⟨copied, series, draws, 0, []⟩).get (by decide +kernel)
/-- The copy, trained and used. -/
def copyUsed : Run ℚ :=
  ((HistoryProps.Call.computeOutput [1] true).run ⟨copyTrained.snn, series, draws, 0, []⟩).get (by decide +kernel)

end Demo

end Snn
