import Verif.Model.Network

/-!
# Specification: the features of the inputs in another order
-/

namespace Snn.Spec

variable {F : Type} [Flt F]

/-- The values of `x` in the order `p`: the i-th value is `x[p[i]]`. -/
def inOrder (p : List Nat) (x : List F) : List F := p.map fun i => x.getD i (lit 0)

/-- The first `p.length` values in the order `p`, the others at their places. -/
def frontInOrder (p : List Nat) (w : List F) : List F := inOrder p w ++ w.drop p.length

/-- The network whose first layer has its input weights in the order `p`; nothing else is changed. -/
def reorderFeatures (p : List Nat) (n : Net F) : Net F :=
  match n.layers with
  | [] => n
  | l :: ls =>
    { n with layers := { l with body := match l.body with
        | .fullyConnected ns => .fullyConnected (ns.map fun n => { n with weights := frontInOrder p n.weights })
        | .recurrence ns => .recurrence (ns.map fun n => { n with base := { n.base with weights := frontInOrder p n.base.weights } })
        | .gru ns => .gru (ns.map fun n => { n with
            resetGate := { n.resetGate with base := { n.resetGate.base with weights := frontInOrder p n.resetGate.base.weights } }
            updateGate := { n.updateGate with base := { n.updateGate.base with weights := frontInOrder p n.updateGate.base.weights } }
            outputGate := { n.outputGate with base := { n.outputGate.base with weights := frontInOrder p n.outputGate.base.weights } } })
        | b => b } :: ls }

end Snn.Spec
