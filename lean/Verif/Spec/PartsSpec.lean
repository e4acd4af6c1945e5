import Verif.Spec.AccuracySpec

/-!
# Specification: testing sets in parts
-/

namespace Snn.Spec

section
variable {F : Type} [Field F] [LinearOrder F] [IsStrictOrderedRing F] [FTrans F]

/-- Two data objects ask the same of a network: the same kind of problem with the same separator and precision. -/
def SameTask (d e : Data F) : Prop := e.typeOfProblem = d.typeOfProblem ∧ e.separator = d.separator ∧ e.precision = d.precision

/-- The testing examples of `d` are those of the parts, in some order. -/
def SplitInto (d : Data F) (parts : List (Data F)) : Prop := (testingExamples d).Perm (parts.flatMap testingExamples)

/-- The testing examples of `e` are those of `d`, each k times, in some order. -/
def Repeats (k : Nat) (d e : Data F) : Prop := (testingExamples e).Perm (List.replicate k (testingExamples d)).flatten

end

end Snn.Spec
