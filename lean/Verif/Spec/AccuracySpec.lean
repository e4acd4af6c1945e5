import Verif.Model.Training
import Mathlib.Algebra.Order.Field.Basic

/-!
# Specification: what a user calls a correct prediction

In terms of the public calls `computeOutput` and `computeCluster` of a network, on one testing example (input, expected output).
-/

namespace Snn.Spec

section
variable {F : Type} [Field F] [LinearOrder F] [IsStrictOrderedRing F] [FTrans F]

/-- The class of an expected output: its first component equal to 1. -/
def IsClass (label : List F) (k : Nat) : Prop := label[k]? = some 1 ∧ ∀ j < k, label[j]? ≠ some 1

/-- The network s is right on an example: for a classification `computeCluster` is the class of the example; for a multiple
classification each output of `computeOutput` is on the same side of the separator as the expected one; for a regression each output
is at most the precision away from the expected one. -/
def Correct (s : Snn F) (data : Data F) (example' : List F × List F) : Prop :=
  match data.typeOfProblem with
  | .classification => ∃ (k : Nat) (s' : Snn F), s.computeCluster example'.1 false = .ok ((k : Int), s') ∧ IsClass example'.2 k
  | .multipleClassification => ∃ out s', s.computeOutput example'.1 false = .ok (out, s') ∧
      List.Forall₂ (fun o e => data.separator < o ↔ data.separator < e) out example'.2
  | .regression => ∃ out s', s.computeOutput example'.1 false = .ok (out, s') ∧
      List.Forall₂ (fun o e => |o - e| ≤ data.precision) out example'.2

/-- The testing examples. -/
def testingExamples (data : Data F) : List (List F × List F) := data.testing.inputs.zip data.testing.labels

end

end Snn.Spec
