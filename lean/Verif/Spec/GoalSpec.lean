import Verif.Spec.AccuracySpec

/-!
# Specification: the accuracy that a training was asked for
-/

namespace Snn.Spec

section
variable {F : Type} [Field F] [LinearOrder F] [IsStrictOrderedRing F] [FTrans F]

/-- The criterion is over, whatever the rest, when the reported accuracy is at least a. -/
def Requests (wait : Wait F) (a : F) : Prop := ∀ t e acc mae, a ≤ acc → 0 < acc → wait.isOver t e acc mae = true

open Classical in
/-- The share of the testing examples on which the network is right. -/
noncomputable def rightShare (s : Snn F) (data : Data F) : F :=
  (((testingExamples data).countP fun x => decide (Correct s data x) : Nat) : F) / ((testingExamples data).length : Nat)

end

end Snn.Spec
