import Verif.Model.Training
import Verif.Basic.RatFlt
import Verif.Demo.Demo

/-! # C105, the bound is the limit of the networks without hidden nonlinearity: two rectified hidden neurons are enough for the exclusive or -/

set_option linter.all false

namespace Snn.LinearProps

/-- Two rectified hidden neurons and one linear output per class. -/
def xorArch (a : Act) : List (LayerModel ℚ) := [.input [2], .fullyConnected 2 a [], .fullyConnected 2 .identity []]

/-- The random draws of the weights: hidden x - y and y - x, outputs 0 + bias and the sum of the hidden neurons. -/
def xorDraws : Draws ℚ := fun i => [1, 0, 1/2, 0, 1, 1/2, 1/2, 1/2, 3/4, 1, 1, 1/2].getD i 0

/-- The exclusive or as a classification. -/
def xorClasses : Data ℚ :=
  (Data.make1 .classification [[0, 0], [0, 1], [1, 0], [1, 1]] [[1, 0], [0, 1], [0, 1], [1, 0]] .nonTemporal 0).get (by decide +kernel)

/-- The accuracy that a new network with these draws reports on the exclusive or. -/
def xorAccuracy (a : Act) : Res ℚ := do
  let (snn, _) ← Snn.make (xorArch a) Demo.sgd xorDraws
  let r ← (Demo.run snn xorClasses).evaluate Demo.env
  return r.snn.net.stats.globalRate

/-- **C105, sharpness**: with rectified hidden neurons a network of the same sizes classifies the exclusive or entirely right, which `C105_xor_classes` forbids to the
networks whose hidden activation is the identity — with the same draws, that one is right on two examples of four. -/
theorem C105_hidden_enough : xorAccuracy .relu = .ok 1 ∧ xorAccuracy .identity = .ok (1/2) := by decide +kernel

end Snn.LinearProps
