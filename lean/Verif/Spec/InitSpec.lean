import Verif.Model.Training

/-! Specification of the initial weights of a network. -/

namespace Snn.Spec

variable {F : Type} [Flt F] [FTrans F] [Add F] [Sub F] [Mul F] [Div F] [Neg F]

/-- The weight vectors of the elementary neurons of a layer, in order; a GRU is made of three of them. -/
def units (l : Layer F) : List (List F) :=
  match l.body with
  | .fullyConnected ns => ns.map fun n => n.weights
  | .recurrence ns => ns.map fun n => n.base.weights
  | .gru ns => ns.flatMap fun g => [g.resetGate.base.weights, g.updateGate.base.weights, g.outputGate.base.weights]
  | .filter _ ns _ => ns.map fun n => n.weights
  | .pool .. => []

/-- The initial value of the weight `j` of a neuron with `n` weights, from the draw `u` in [0, 1]: uniform between `-2.4/√n` and
`2.4/√n`, and its absolute value for the last weight (the one of the bias). -/
def initialWeight (n j : Nat) (u : F) : F :=
  let m : F := lit (12/5) / fsqrt (lit ((n : Int) : Rat))
  let w := u * (m - -m) + -m
  if j + 1 = n then fabs w else w

/-- `used` are the positions in the stream of draws that gave the weights: one vector of positions per neuron, one position per weight. -/
def Drawn (d : Draws F) (weights : List (List F)) (used : List (List Nat)) : Prop :=
  List.Forall₂ (fun ws is => ws = is.mapIdx fun j i => initialWeight is.length j (d i)) weights used

end Snn.Spec
