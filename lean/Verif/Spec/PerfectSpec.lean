import Verif.Model.Factory

/-! Specification: layers whose training step is the plain descent of the error. -/

namespace Snn.Spec

section
variable {F : Type}

/-- The optimizers of a layer of an architecture. -/
def optimizersOf : LayerModel F → List (LayerOptModel F)
  | .input _ => []
  | .fullyConnected _ _ o => o
  | .recurrence _ _ o => o
  | .gru _ o => o
  | .maxPooling _ => []
  | .locallyConnected _ _ _ o => o
  | .convolution _ _ _ o => o

/-- No layer has an L1 or L2 regularization, that moves the weights whatever the error. -/
def NotRegularized (arch : List (LayerModel F)) : Prop :=
  ∀ m ∈ arch, ∀ o ∈ optimizersOf m, (∀ v, o ≠ .l1 v) ∧ ∀ v, o ≠ .l2 v

/-- No layer has a dropout, so the answers during training and testing are the same. -/
def NoDropout (arch : List (LayerModel F)) : Prop :=
  ∀ m ∈ arch, ∀ o ∈ optimizersOf m, ∀ v, o ≠ .dropout v

end

end Snn.Spec
