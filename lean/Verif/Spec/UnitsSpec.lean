import Verif.Model.Data

/-!
# Specification: the same data in other units
-/

namespace Snn.Spec

variable {F : Type} [Add F] [Mul F]

/-- Each component `x` of each input is replaced by `a * x + b`, with `a` and `b` of that component (degrees Celsius to Fahrenheit, metres to feet, …). -/
def otherUnits (a b : Nat → F) (inputs : List (List F)) : List (List F) := inputs.map fun row => row.mapIdx fun j x => a j * x + b j

/-- A data object whose training and testing inputs are those of `d` in other units, and otherwise like `d`. -/
def inUnits (a b : Nat → F) (d : Data F) : Data F :=
  { d with
    training := { d.training with inputs := otherUnits a b d.training.inputs }
    testing := { d.testing with inputs := otherUnits a b d.testing.inputs } }

end Snn.Spec
