import Verif.Spec.DataSpec
import Mathlib.Probability.Distributions.Uniform
import Mathlib.Data.Nat.Factorial.BigOperators

/-! Vocabulary for C95: what a fair `shuffle()` is.

The library shuffles with the generator of the C++ standard library. An ideal generator gives, for a range
of `n` elements, independent numbers, the number for position `k` being uniform in `0..k`. -/

namespace Snn

/-- The numbers an ideal generator gives to one shuffle of `n` elements. -/
abbrev IdealDraws (n : Nat) : Type := (k : Fin n) → Fin (k.val + 1)

/-- As raw draws of the shuffle. -/
def IdealDraws.rng {n : Nat} (c : IdealDraws n) : Rng := fun k => if h : k < n then (c ⟨k, h⟩).val else 0

/-- The law of the draws: every tuple has the same probability. -/
noncomputable def idealLaw (n : Nat) : PMF (IdealDraws n) := PMF.uniformOfFintype _

section
variable {F : Type} [Add F] [Div F] [Flt F]

/-- What a reader of the `n` training examples sees after one more `shuffle()`. -/
def Data.readAfterShuffle (d : Data F) (n : Nat) (r : Rng) : Res (List (List F × List F)) := do
  let d' ← d.shuffle r
  d'.readExamples n

/-- The law of what a reader sees after one more `shuffle()` with an ideal generator of `m` numbers. -/
noncomputable def Data.shuffleLaw (d : Data F) (m n : Nat) : PMF (Res (List (List F × List F))) :=
  (idealLaw m).map fun c => d.readAfterShuffle n c.rng

/-- What a position contributes to the training: its example, when it must be trained on. -/
def Data.trainedAt (d : Data F) (i : Nat) : Res (List (List F × List F)) := do
  let b ← d.needToLearn i
  if b then do
    let x ← d.readInput i
    let y ← d.readOutput i
    return [(x, y)]
  else return []

/-- The examples trained on in an epoch, in their order, after one more `shuffle()`. -/
def Data.trainedAfterShuffle (d : Data F) (n : Nat) (r : Rng) : Res (List (List F × List F)) := do
  let d' ← d.shuffle r
  let parts ← (List.range n).mapM d'.trainedAt
  return parts.flatten

/-- The law of the examples trained on in an epoch, with an ideal generator of `m` numbers. -/
noncomputable def Data.epochLaw (d : Data F) (m n : Nat) : PMF (Res (List (List F × List F))) :=
  (idealLaw m).map fun c => d.trainedAfterShuffle n c.rng

/-- The number of shuffles of a history. -/
def shufflesOf (ops : List OrderOp) : Nat := ops.countP fun o => match o with | .shuffle _ => true | .unshuffle => false

end
end Snn
