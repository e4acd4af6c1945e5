import Verif.Model.Data
import Mathlib.Algebra.Order.Field.Rat

/-! Vocabulary for the statements about `Data`: histories of calls and what a reader sees. -/

namespace Snn

section
variable {F : Type}

/-- A call on the order of the training data. -/
inductive OrderOp where
  | shuffle (r : Rng)
  | unshuffle

/-- One call. -/
def Data.orderOp (d : Data F) : OrderOp → Res (Data F)
  | .shuffle r => d.shuffle r
  | .unshuffle => d.unshuffle

/-- Any sequence of calls. -/
def Data.orderOps (d : Data F) (ops : List OrderOp) : Res (Data F) := ops.foldlM Data.orderOp d

/-- The number of steps is enough for the windows of a time series. -/
def LongEnough (d : Data F) : Prop :=
  d.typeOfTemporal = .timeSeries → d.numberOfRecurrences.toNat + 1 ≤ d.training.size

end

section
variable {F : Type} [Add F] [Div F] [Flt F]

/-- What `getTrainingData(i)` returns. -/
def Data.readInput (d : Data F) (i : Nat) : Res (List F) := (·.1) <$> d.getTrainingData i 1

/-- What `getTrainingOutputs(i)` returns. -/
def Data.readOutput (d : Data F) (i : Nat) : Res (List F) := (·.1) <$> d.getTrainingOutputs i 1

/-- All the training inputs, in the order in which a reader sees them. -/
def Data.readInputs (d : Data F) (n : Nat) : Res (List (List F)) := (List.range n).mapM d.readInput

/-- All the training examples, in the order in which a reader sees them. -/
def Data.readExamples (d : Data F) (n : Nat) : Res (List (List F × List F)) :=
  (List.range n).mapM fun i => do
    let x ← d.readInput i
    let y ← d.readOutput i
    return (x, y)

end

/-- The mean of a non-empty list of vectors of the same width, component by component. -/
def meanRows {F : Type} [Field F] (w : Nat) (rows : List (List F)) : List F :=
  (List.range w).map fun c => (rows.map fun r => r.getD c 0).sum / (rows.length : F)

/-- `p` is the position of the first element of one of the sequences. -/
def IsStart {α : Type} (seqs : List (List α)) (p : Nat) : Prop :=
  ∃ k < seqs.length, p = ((seqs.take k).map List.length).sum

/-- `p` is the position of the last element of one of the sequences. -/
def IsEnd {α : Type} (seqs : List (List α)) (p : Nat) : Prop :=
  ∃ k < seqs.length, p + 1 = ((seqs.take (k + 1)).map List.length).sum

end Snn
