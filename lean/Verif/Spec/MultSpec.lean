import Verif.Spec.ArchSpec
import Verif.Spec.MapSimSpec

/-!
# Specification: an error multiplier on the last layer
-/

namespace Snn.Spec

variable {F : Type}

/-- The layer with one more optimizer, an error multiplier of factor c. -/
def multiplyErrors (c : F) : LayerModel F → LayerModel F
  | .fullyConnected n act opts => .fullyConnected n act (.errorMultiplier c :: opts)
  | .recurrence n act opts => .recurrence n act (.errorMultiplier c :: opts)
  | .gru n opts => .gru n (.errorMultiplier c :: opts)
  | .locallyConnected f k act opts => .locallyConnected f k act (.errorMultiplier c :: opts)
  | .convolution f k act opts => .convolution f k act (.errorMultiplier c :: opts)
  | m => m

/-- The architecture with an error multiplier of factor c on its last layer. -/
def multiplyLast (c : F) : List (LayerModel F) → List (LayerModel F)
  | [] => []
  | [m] => [multiplyErrors c m]
  | m :: m' :: ms => m :: multiplyLast c (m' :: ms)

/-- The optimizers of a layer. -/
def optimizersOfLayer : LayerModel F → List (LayerOptModel F)
  | .fullyConnected _ _ opts => opts
  | .recurrence _ _ opts => opts
  | .gru _ opts => opts
  | .locallyConnected _ _ _ opts => opts
  | .convolution _ _ _ opts => opts
  | _ => []

/-- No layer uses the regularizations L1 and L2. -/
def Unregularized (arch : List (LayerModel F)) : Prop := ∀ m ∈ arch, ∀ o ∈ optimizersOfLayer m, ∀ v, o ≠ .l1 v ∧ o ≠ .l2 v

end Snn.Spec
