import Verif.Spec.AccuracySpec

/-!
# Specification: recall, precision, F1 and mean absolute error of a network

In terms of the public call `computeOutput`, on the testing examples (input, expected output). A label is predicted when its
output is above the separator of the data.
-/

namespace Snn.Spec

section
variable {F : Type} [Field F] [LinearOrder F] [IsStrictOrderedRing F] [FTrans F]

/-- The network predicts label k for an example: its output number k is above the separator. -/
def Predicts (s : Snn F) (data : Data F) (example' : List F × List F) (k : Nat) : Prop :=
  ∃ out s', s.computeOutput example'.1 false = .ok (out, s') ∧ ∃ v, out[k]? = some v ∧ data.separator < v

/-- An example has label k: for a classification k is its class, for a multiple classification its expected output number k is
above the separator; a regression has no labels. -/
def HasLabel (data : Data F) (example' : List F × List F) (k : Nat) : Prop :=
  match data.typeOfProblem with
  | .classification => IsClass example'.2 k
  | .multipleClassification => ∃ v, example'.2[k]? = some v ∧ data.separator < v
  | .regression => False

open Classical in
/-- The number of testing examples that have label k and for which it is predicted. -/
noncomputable def hits (s : Snn F) (data : Data F) (k : Nat) : Nat :=
  (testingExamples data).countP fun x => decide (Predicts s data x k ∧ HasLabel data x k)

open Classical in
/-- The number of testing examples for which label k is predicted. -/
noncomputable def predicted (s : Snn F) (data : Data F) (k : Nat) : Nat :=
  (testingExamples data).countP fun x => decide (Predicts s data x k)

open Classical in
/-- The number of testing examples that have label k. -/
noncomputable def support (data : Data F) (k : Nat) : Nat := (testingExamples data).countP fun x => decide (HasLabel data x k)

/-- The share of the examples of label k that are found; 0 if there is none (division by 0 is 0). -/
noncomputable def recall (s : Snn F) (data : Data F) (k : Nat) : F := (hits s data k : F) / (support data k : F)

/-- The F1 score of label k, the Dice coefficient of what is predicted and what is true; 0 if both are empty. -/
noncomputable def f1 (s : Snn F) (data : Data F) (k : Nat) : F :=
  2 * (hits s data k : F) / ((predicted s data k : F) + (support data k : F))

open Classical in
/-- The value output number k should have: 1 for the class of a classification and 0 for the others, else the expected output. -/
noncomputable def target (data : Data F) (example' : List F × List F) (k : Nat) : F :=
  match data.typeOfProblem with
  | .classification => if IsClass example'.2 k then 1 else 0
  | _ => example'.2.getD k 0

/-- The outputs `computeOutput` gives for an input. -/
noncomputable def answer (s : Snn F) (x : List F) : List F :=
  match s.computeOutput x false with
  | .ok (out, _) => out
  | _ => []

end

end Snn.Spec
