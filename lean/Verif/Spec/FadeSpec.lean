import Verif.Spec.RobustSpec
import Verif.Model.Training

/-!
# Specification: recurrent layers that forget

How much of a change of the previous output a recurrent neuron or a gated recurrent unit can hand on to its next output, computed from
the weights the getters show.
-/

namespace Snn.Spec

/-- The weight a recurrent neuron gives to its previous output: the last but one (the last one is the weight of the bias). -/
def recurrentWeight (p : NeuronParams ℝ) : ℝ := p.weights.getD (p.weights.length - 2) 0

/-- The feedback of a recurrent neuron: the bound of the slopes of its activation times the absolute value of its recurrent weight. -/
noncomputable def neuronFeedback (p : NeuronParams ℝ) : ℝ := actGain p.activation * |recurrentWeight p|

/-- The feedback of a gated recurrent unit with the reset gate r, the update gate u and the output gate o. -/
noncomputable def gruFeedback (r u o : NeuronParams ℝ) : ℝ :=
  |recurrentWeight u| / 4 + |recurrentWeight o| * (1 + |recurrentWeight r| / 4)

/-- Every unit of a gated layer has at most the feedback q; a unit counts for three neurons. -/
def GruBelow (q : ℝ) : List (NeuronParams ℝ) → Prop
  | r :: u :: o :: rest => gruFeedback r u o ≤ q ∧ GruBelow q rest
  | _ => True

/-- Every recurrent neuron or unit of a layer has at most the feedback q. -/
def FeedbackBelow (q : ℝ) (p : LayerParams ℝ) : Prop :=
  match p.kind with
  | .recurrence => ∀ n ∈ p.neurons, neuronFeedback n ≤ q
  | .gru => GruBelow q p.neurons
  | _ => True

/-- The answers of `computeOutput` to a sequence of inputs, each with its temporal reset flag. -/
def replies {F : Type} [Flt F] [FTrans F] [Add F] [Sub F] [Mul F] [Div F] [Neg F] : Snn F → List (List F × Bool) → Res (List (List F) × Snn F)
  | s, [] => .ok ([], s)
  | s, (x, reset) :: xs => do
    let (y, s1) ← s.computeOutput x reset
    let (ys, s2) ← replies s1 xs
    return (y :: ys, s2)

end Snn.Spec
