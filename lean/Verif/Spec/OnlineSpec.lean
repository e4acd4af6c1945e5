import Verif.Spec.GradSpec
import Verif.Spec.ConvergeSpec

/-!
# Specification: learning one example after another
-/

namespace Snn.Spec

open Finset

/-- An example: its inputs and its expected outputs. -/
abbrev Example := List ℝ × List ℝ

/-- The answers of a linear rule that has one row of coefficients for each output (and no constant term). -/
def rule (W : List (List ℝ)) (x : List ℝ) : List ℝ := W.map fun w => ∑ i ∈ range x.length, w.getD i 0 * x.getD i 0

/-- The answers of an affine rule: one row of coefficients and one constant term for each output. -/
def affineRule (W : List (List ℝ × ℝ)) (x : List ℝ) : List ℝ := W.map fun w => (∑ i ∈ range x.length, w.1.getD i 0 * x.getD i 0) + w.2

/-- The network answers each example, then learns it: its answers. -/
noncomputable def onlineAnswers : List Example → Net ℝ → Draws ℝ → Res (List (List ℝ))
  | [], _, _ => .ok []
  | p :: ps, n, d => do
    let (y, _) ← n.output p.1 false
    let (n1, d1) ← n.trainOnce p.1 p.2 false d
    let rest ← onlineAnswers ps n1 d1
    return y :: rest

/-- The squared errors of the answers. -/
noncomputable def squaredErrors (ps : List Example) (ys : List (List ℝ)) : List ℝ := List.zipWith (fun p y => squaredError p.2 y) ps ys

/-- The sum of the squared errors of given answers. -/
noncomputable def hindsightError (f : List ℝ → List ℝ) (ps : List Example) : ℝ := (ps.map fun p => squaredError p.2 (f p.1)).sum

/-- The rows of weights of the layers of a network (the last weight of a row is the one of the bias). -/
def Net.rows (n : Net ℝ) : List (List ℝ) := (n.layers.map fun l => l.body.weights).flatten

/-- How far rows of weights are from a linear rule for inputs of size ni: the sum of the squared differences, and 4η times the squared weights
of the biases. -/
def ruleDistance (η : ℝ) (ni : Nat) (W rows : List (List ℝ)) : ℝ :=
  ∑ k ∈ range W.length, ((∑ i ∈ range ni, ((rows.getD k []).getD i 0 - (W.getD k []).getD i 0) ^ 2) + 4 * η * (rows.getD k []).getD ni 0 ^ 2)

end Snn.Spec
