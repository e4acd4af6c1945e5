import Verif.Model.Stat

/-!
# Specification of the evaluation statistics

What each evaluation of an example means, independently of how it is counted.
-/

namespace Snn.StatSpec

/-- The cell of the confusion matrix. -/
inductive Cell where
  | tp | tn | fp | fn
  deriving DecidableEq, Repr

variable {F : Type} [Field F] [LinearOrder F]

/-- `k` is the first index at which `o` takes its largest value. -/
def IsFirstArgmax (o : List F) (k : Nat) : Prop :=
  ∃ v, o[k]? = some v ∧ (∀ x ∈ o, x ≤ v) ∧ ∀ j < k, ∀ x, o[j]? = some x → x < v

/-- The verdict of one evaluation for label `i`.
Regression: beyond `expected + precision` is a false positive, below `expected - precision` a false
negative, anything else is fine (counted as a true negative).
Multiple classification: both the output and the expected value are compared with the separator.
Classification: the expected value is "is `i` the expected class". -/
noncomputable def cell (i : Nat) : Ev F → Cell
  | .regression o d p =>
    let x := o.getD i 0; let y := d.getD i 0
    if y + p < x then .fp else if x < y - p then .fn else .tn
  | .multiple o d s =>
    let x := o.getD i 0; let y := d.getD i 0
    if s < x then (if s < y then .tp else .fp) else (if s < y then .fn else .tn)
  | .classification o k s =>
    let x := o.getD i 0
    if s < x then (if (i : Int) = k then .tp else .fp) else (if (i : Int) = k then .fn else .tn)

/-- Whether the example is judged right, with `n` labels. -/
def right (n : Nat) : Ev F → Prop
  | .regression o d p => ∀ i < n, |o.getD i 0 - d.getD i 0| ≤ p
  | .multiple o d s => ∀ i < n, (s < o.getD i 0 ↔ s < d.getD i 0)
  | .classification o k _ => ∃ j : Nat, IsFirstArgmax o j ∧ (j : Int) = k

/-- The absolute error of label `i` in one evaluation. -/
def absError (i : Nat) : Ev F → F
  | .regression o d _ => |o.getD i 0 - d.getD i 0|
  | .multiple o d _ => |o.getD i 0 - d.getD i 0|
  | .classification o k _ => |o.getD i 0 - (if (i : Int) = k then 1 else 0)|

/-- The evaluation is well formed for `n` labels: the vectors have `n` components, the
precision and the class number are not negative. -/
def wf (n : Nat) : Ev F → Prop
  | .regression o d p => o.length = n ∧ d.length = n ∧ 0 ≤ p
  | .multiple o d _ => o.length = n ∧ d.length = n
  | .classification o k _ => o.length = n ∧ 0 ≤ k

/-- In a classification some output is greater than `-2` (true of every output of the library's
activation functions bounded below by `-1`, and of Softmax). -/
def aboveFloor : Ev F → Prop
  | .classification o _ _ => ∃ x ∈ o, -2 < x
  | _ => True

/-- How the library counts an example: right, and (for classification) not entirely below its floor. -/
def judged (n : Nat) (e : Ev F) : Prop := right n e ∧ aboveFloor e

end Snn.StatSpec
