import Verif.Model.Training

/-! Vocabulary for the statements about a training run: what an observer sees, oldest first. -/

namespace Snn.TrainSpec

variable {F : Type}

/-- `some none` for a shuffle, `some (some p)` for a training position, `none` for the other events. -/
def mark : Event F → Option (Option Int)
  | .shuffled => some none
  | .trained p _ _ _ => some (some p)
  | .skipped p => some (some p)
  | _ => none

/-- The shuffles and the training positions of a trace (newest first), in chronological order. -/
def steps (trace : List (Event F)) : List (Option Int) := trace.reverse.filterMap mark

/-- The steps of one complete epoch: a shuffle, then the positions 0, b, 2b, … of the ⌊n/b⌋ batches. -/
def epochSteps (b n : Nat) : List (Option Int) := none :: (List.range (n / b)).map fun k => some ((k * b : Nat) : Int)

/-- The evaluations of a trace (epoch and statistics), in chronological order. -/
def evaluations (trace : List (Event F)) : List (Int × Stats F) :=
  trace.reverse.filterMap fun
    | .evaluated e st => some (e, st)
    | _ => none

/-- The saved files of a trace, in chronological order. -/
def saves (trace : List (Event F)) : List (String × Snn F) :=
  trace.reverse.filterMap fun
    | .saved p s => some (p, s)
    | _ => none

/-- The number of `trainOnce` calls of a trace. -/
def trainedCount (trace : List (Event F)) : Nat :=
  trace.countP fun
    | .trained .. => true
    | _ => false

/-- The criterion does not look at the clock. -/
def ClockFree [Flt F] (w : Wait F) : Prop := ∀ t t' e a m, w.isOver t e a m = w.isOver t' e a m

section
variable [Add F] [Div F] [Flt F]

/-- The event is the training (or the skipping) of the batch of size `b` at its position in the order of `ds`. -/
def Reads (b : Int) (ds : Data F) : Event F → Prop
  | .trained p x y f => (∃ buf, (·.1) <$> ({ ds with batchedData := buf }).getTrainingData p b = .ok x) ∧
      (∃ buf, (·.1) <$> ({ ds with batchedLabels := buf }).getTrainingOutputs p b = .ok y) ∧
      ds.isFirstTraining p = .ok f ∧ ds.needToLearn p = .ok true
  | .skipped p => ds.needToLearn p = .ok false
  | _ => False

end

end Snn.TrainSpec
