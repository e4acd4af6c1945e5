import Verif.Model.Label
import Verif.Spec.DataSpec

/-! Vocabulary for the statements about labels. -/

namespace Snn.Spec

variable {F : Type} [Add F] [Div F] [Flt F]

/-- The label of an expected output: the position of its first component equal to 1. -/
def LabelOf (l : List F) (k : Nat) : Prop := (∃ v, l[k]? = some v ∧ feq v (lit 1) = true) ∧ ∀ j < k, ∀ v, l[j]? = some v → feq v (lit 1) = false

/-- The label that a reader gets for position i is the one of the expected output that the same reader gets for position i. -/
def Agree (d : Data F) (s : SetName) (i : Nat) : Prop := ∃ o, d.getOutputs s i = .ok o ∧ ∀ k, d.getLabel s i = .ok k ↔ LabelOf o k

end Snn.Spec
