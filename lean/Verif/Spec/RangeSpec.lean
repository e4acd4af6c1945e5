import Verif.Basic.RealFlt
import Verif.Spec.ArchSpec

/-!
# Specification: the values a network can return

What the name of the activation of its last layer promises of the outputs of a network, whatever the weights.
-/

namespace Snn.Spec

/-- The values an activation promises. -/
def Promised (a : Act) (v : ℝ) : Prop :=
  match a with
  | .sigmoid => 0 ≤ v ∧ v ≤ 1
  | .gaussian => 0 ≤ v ∧ v ≤ 1
  | .tanh => -1 ≤ v ∧ v ≤ 1
  | .relu => 0 ≤ v
  | _ => True

/-- A layer optimizer that keeps these promises: a dropout with a rate in [0, 1], or one that only acts on the errors. -/
def Tame : LayerOptModel ℝ → Prop
  | .dropout v => 0 ≤ v ∧ v ≤ 1
  | .softmax => False
  | _ => True

/-- The activation and the optimizers of a layer (of a gated recurrent unit, `tanh`). -/
def settings : LayerModel ℝ → Option (Act × List (LayerOptModel ℝ))
  | .fullyConnected _ a opts => some (a, opts)
  | .recurrence _ a opts => some (a, opts)
  | .gru _ opts => some (.tanh, opts)
  | .convolution _ _ a opts => some (a, opts)
  | .locallyConnected _ _ a opts => some (a, opts)
  | _ => none

/-- `EndsIn arch a opts`: the last layer of the architecture that is not a pooling has the activation a and the optimizers `opts`. -/
inductive EndsIn (a : Act) (opts : List (LayerOptModel ℝ)) : List (LayerModel ℝ) → Prop
  | last {pre : List (LayerModel ℝ)} {m : LayerModel ℝ} (h : settings m = some (a, opts)) : EndsIn a opts (pre ++ [m])
  | pool {pre : List (LayerModel ℝ)} {k : Int} (h : EndsIn a opts pre) : EndsIn a opts (pre ++ [.maxPooling k])

/-- The last layer is made of neurons, one per output. -/
def IsNeurons : LayerModel ℝ → Prop
  | .fullyConnected .. => True
  | .recurrence .. => True
  | .gru .. => True
  | _ => False

end Snn.Spec
