import Verif.Spec.ReorderSpec
import Verif.Model.Factory

/-!
# Specification: the neurons of a hidden layer in another order
-/

namespace Snn.Spec

/-- The elements of a list in the order `p`: the i-th element is the `p[i]`-th one. -/
def picked {α : Type} (p : List Nat) (l : List α) : List α := p.filterMap fun i => l[i]?

variable {F : Type} [Flt F]

/-- The layer with its neurons in the order `p`. -/
def neuronsInOrder (p : List Nat) (l : Layer F) : Layer F :=
  { l with body := match l.body with
      | .fullyConnected ns => .fullyConnected (picked p ns)
      | .recurrence ns => .recurrence (picked p ns)
      | .gru ns => .gru (picked p ns)
      | b => b }

/-- The layers with the neurons of the layer `k` (counted from 0) and the input weights of the layer after it in the order `p`. -/
def reorderHidden (p : List Nat) : Nat → List (Layer F) → List (Layer F)
  | _, [] => []
  | 0, l :: ls => neuronsInOrder p l :: (match ls with
      | [] => []
      | b :: bs => { b with body := match b.body with
          | .fullyConnected ns => .fullyConnected (ns.map fun n => { n with weights := frontInOrder p n.weights })
          | .recurrence ns => .recurrence (ns.map fun n => { n with base := { n.base with weights := frontInOrder p n.base.weights } })
          | .gru ns => .gru (ns.map fun n => { n with
              resetGate := { n.resetGate with base := { n.resetGate.base with weights := frontInOrder p n.resetGate.base.weights } }
              updateGate := { n.updateGate with base := { n.updateGate.base with weights := frontInOrder p n.updateGate.base.weights } }
              outputGate := { n.outputGate with base := { n.outputGate.base with weights := frontInOrder p n.outputGate.base.weights } } })
          | o => o } :: bs)
  | k + 1, l :: ls => l :: reorderHidden p k ls

/-- The layer optimizers that treat every neuron alike: L1, L2 and the error multiplier. -/
def SameForAll {F : Type} : LayerOptModel F → Prop
  | .l1 _ => True
  | .l2 _ => True
  | .errorMultiplier _ => True
  | .dropout _ => False
  | .softmax => False

/-- A layer of `m` fully connected, recurrent or gated neurons, with such optimizers. -/
def LayerOf {F : Type} (m : Nat) (l : LayerModel F) : Prop :=
  ∃ opts : List (LayerOptModel F), (∀ o ∈ opts, SameForAll o) ∧
    ((∃ act, l = .fullyConnected (m : Int) act opts) ∨ (∃ act, l = .recurrence (m : Int) act opts) ∨ l = .gru (m : Int) opts)

end Snn.Spec
