import Verif.Model.Data

/-! The accessors of `Data` that take the name of the set. -/

namespace Snn

/-- Set.hpp:7-11 `enum set`. -/
inductive SetName where
  | testing | training
  deriving DecidableEq, Repr

section
variable {F : Type} [Add F] [Div F] [Flt F]

/-- Data.cpp:359-365 `getData(set, index)`; a batch size of 1 (the default argument of `getTrainingData`) leaves the buffers as they are. -/
def Data.getData (d : Data F) : SetName → Int → Res (List F)
  | .training, i => (·.1) <$> d.getTrainingData i 1
  | .testing, i => d.getTestingData i

/-- Data.cpp:367-373 `getOutputs(set, index)`. -/
def Data.getOutputs (d : Data F) : SetName → Int → Res (List F)
  | .training, i => (·.1) <$> d.getTrainingOutputs i 1
  | .testing, i => d.getTestingOutputs i

/-- Data.cpp:375-381 `getLabel(set, index)`. -/
def Data.getLabel (d : Data F) : SetName → Int → Res Nat
  | .training, i => d.getTrainingLabel i
  | .testing, i => d.getTestingLabel i

end

end Snn
