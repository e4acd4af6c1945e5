import Verif.Props.HistoryProps

/-!
# Specification: one data object used by several networks, one after the other
-/

namespace Snn.Spec

open Snn.HistoryProps

variable {F : Type} [Flt F] [FTrans F] [Add F] [Sub F] [Mul F] [Div F] [Neg F]

/-- Networks — any networks, in any state — are evaluated and trained on the same data object, one call after the other: the object before the
first call and after the last one. -/
inductive Uses : Data F → Data F → Prop
  | none (d : Data F) : Uses d d
  | evaluate {d d' : Data F} (r r' : Run F) (env : Env F) (h : Call.run r (.evaluate env d) = .ok r') (hu : Uses r'.data d') : Uses d d'
  | train {d d' : Data F} (r r' : Run F) (env : Env F) (wait : Wait F) (batchSize evaluationFrequency : Int) (fuel : Nat)
      (h : Call.run r (.train env d wait batchSize evaluationFrequency fuel) = .ok r') (hu : Uses r'.data d') : Uses d d'

/-- Two calls made by the same network end in the same way: both return, with the same network, the same random numbers and clock readings
consumed, the same events (examples learned, evaluations, saved files), or both fail in the same way. -/
def SameCall (x y : Res (Run F)) : Prop :=
  Res.Rel (fun a b => a.snn = b.snn ∧ a.draws = b.draws ∧ a.ticks = b.ticks ∧ a.trace = b.trace) x y

end Snn.Spec
