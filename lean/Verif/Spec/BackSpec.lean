import Verif.Model.Neuron
import Verif.Basic.RealFlt
import Mathlib.Analysis.Calculus.Deriv.Basic

/-!
# Specification: the errors a neuron sends to the previous layer

Back-propagation: a neuron that answered `y` on the inputs `x` and receives the error `e` of its answer must send to the previous layer, for its
input j, the error `e * D` where `D` is the derivative of its answer with respect to the input j.
-/

namespace Snn.Spec

/-- What a recurrent neuron answers. -/
noncomputable def recAnswer (n : RecNeuron ℝ) (t : Bool) (x : List ℝ) : ℝ :=
  match n.output x t with
  | .ok (y, _) => y
  | _ => 0

/-- What a gated recurrent unit answers. -/
noncomputable def gruAnswer (g : Gru ℝ) (t : Bool) (x : List ℝ) : ℝ :=
  match g.output x t with
  | .ok (y, _) => y
  | _ => 0

/-- A recurrent neuron answers the inputs x, then receives the error e: the errors it sends to the previous layer. -/
noncomputable def recSends (n : RecNeuron ℝ) (t : Bool) (x : List ℝ) (e : ℝ) : Res (List ℝ) := do
  let (_, n1) ← n.output x t
  let (es, _) ← n1.backOutput e
  return es

/-- A gated recurrent unit answers the inputs x, then receives the error e: the errors it sends to the previous layer. -/
noncomputable def gruSends (g : Gru ℝ) (t : Bool) (x : List ℝ) (e : ℝ) : Res (List ℝ) := do
  let (_, g1) ← g.output x t
  let (es, _) ← g1.backOutput e
  return es

/-- The error sent for the input j is e times the derivative of the answer with respect to this input. -/
def SendsGradient (answer : List ℝ → ℝ) (sends : List ℝ → ℝ → Res (List ℝ)) (x : List ℝ) (e : ℝ) (j : Nat) : Prop :=
  ∃ es D, sends x e = .ok es ∧ es.length = x.length ∧ HasDerivAt (fun v => answer (x.set j v)) D (x.getD j 0) ∧ es.getD j 0 = e * D

end Snn.Spec
