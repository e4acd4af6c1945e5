import Verif.Model.Neuron
import Verif.Basic.RealFlt
import Mathlib.Analysis.Calculus.Deriv.Basic

/-!
# Specification: a gated recurrent unit learns along the gradient of its answer

The answer of a unit on an input depends on the weights of its three gates. Gradient descent moves each weight by
`learningRate * error * D`, where `D` is the derivative of the answer with respect to this weight (plus what the momentum adds).
-/

namespace Snn.Spec

/-- The gates of a unit. -/
inductive Gate where
  | reset
  | update
  | output
  deriving DecidableEq

section
variable {F : Type}

/-- The gate of a unit. -/
def Gate.of (q : Gate) (g : Gru F) : RecNeuron F :=
  match q with
  | .reset => g.resetGate
  | .update => g.updateGate
  | .output => g.outputGate

/-- The neuron with weight i replaced by v. -/
def withGateWeight (n : RecNeuron F) (i : Nat) (v : F) : RecNeuron F := { n with base := { n.base with weights := n.base.weights.set i v } }

/-- The unit with weight i of the gate q replaced by v. -/
def Gate.withWeight (q : Gate) (g : Gru F) (i : Nat) (v : F) : Gru F :=
  match q with
  | .reset => { g with resetGate := withGateWeight g.resetGate i v }
  | .update => { g with updateGate := withGateWeight g.updateGate i v }
  | .output => { g with outputGate := withGateWeight g.outputGate i v }

end

/-- What a unit answers. -/
noncomputable def unitAnswer (g : Gru ℝ) (x : List ℝ) (t : Bool) : ℝ :=
  match g.output x t with
  | .ok (y, _) => y
  | _ => 0

/-- A training round of a unit: it answers, then receives the error of its answer. -/
noncomputable def roundGru (g : Gru ℝ) (x : List ℝ) (t : Bool) (e : ℝ) (back : Bool) : Res (Gru ℝ) := do
  let (_, g1) ← g.output x t
  if back then do
    let (_, g2) ← g1.backOutput e
    return g2
  else g1.train e

/-- In the round, weight i of the gate q moves by `learningRate * e * D`, plus `momentum` times its previous move, where `D` is the
derivative of the answer with respect to this weight. -/
def Learns (q : Gate) (g : Gru ℝ) (x : List ℝ) (t : Bool) (e : ℝ) (back : Bool) (i : Nat) : Prop :=
  ∃ g' D p, roundGru g x t e back = .ok g' ∧ (q.of g).base.previousDeltaWeights.queue = [p] ∧
    HasDerivAt (fun v => unitAnswer (q.withWeight g i v) x t) D ((q.of g).base.weights.getD i 0) ∧
    (q.of g').base.weights.getD i 0 = (q.of g).base.weights.getD i 0
      + ((q.of g).base.optimizer.learningRate * e * D + (q.of g).base.optimizer.momentum * p.getD i 0)

end Snn.Spec
