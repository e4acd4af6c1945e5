import Verif.Spec.TrainSpec
import Mathlib.Order.Defs.LinearOrder

/-! Specification of auto-save: which evaluations are records. -/

namespace Snn.TrainSpec

variable {F : Type} [LT F] [DecidableLT F]

/-- The new evaluation has a strictly greater accuracy than every earlier one. -/
def improving (earlier : List (Int × Stats F)) (new : Stats F) : Bool :=
  earlier.all fun p => decide (p.2.globalRate < new.globalRate)

/-- The statistics of the evaluations of the second list that are improving, given the earlier evaluations. -/
def records : List (Int × Stats F) → List (Int × Stats F) → List (Stats F)
  | _, [] => []
  | earlier, p :: ps => (if improving earlier p.2 then [p.2] else []) ++ records (earlier ++ [p]) ps

end Snn.TrainSpec
