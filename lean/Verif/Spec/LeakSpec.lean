import Verif.Props.HistoryProps

/-!
# Specification: what a program teaches a network

Of all the calls of a program only the trainings teach something, and only through the training part of the data, the stopping
criterion, the size of the batches, the random order of the examples and the clock.
-/

namespace Snn.Spec

open HistoryProps (Call)

section
variable {F : Type} [Flt F]

/-- The data without what is only used by evaluations: the testing set, the kind of problem, the precision, the separator. -/
def learningPart (d : Data F) : Data F :=
  { d with typeOfProblem := .classification, precision := lit 0, separator := lit 0, testing := DSet.empty }

/-- What a training gives to learn. The evaluation frequency is not part of it. -/
structure Lesson (F : Type) where
  clock : Nat → Int
  rng : Int → Rng
  data : Data F
  wait : Wait F
  batchSize : Int

/-- What a call gives to learn. -/
def lesson : Call F → Option (Lesson F)
  | .train env data wait b _ _ => some ⟨env.clock, env.rng, learningPart data, wait, b⟩
  | _ => none

/-- The criterion looks neither at the accuracy nor at the mean absolute error, which evaluations compute. -/
def MetricFree (w : Wait F) : Prop := ∀ ms e a m a' m', w.isOver ms e a m = w.isOver ms e a' m'

/-- No layer of the architecture is recurrent. -/
def Feedforward (arch : List (LayerModel F)) : Prop :=
  ∀ m ∈ arch, match m with
    | .recurrence .. => False
    | .gru .. => False
    | _ => True

end

end Snn.Spec
