import Mathlib.Analysis.SpecialFunctions.Exp

/-!
# Specification of the layer optimizers (independent of the model)
-/

namespace Snn.Spec

/-- The softmax function: `exp x_i / Σ_j exp x_j`. -/
noncomputable def softmax (x : List ℝ) : List ℝ := x.map fun v => Real.exp v / (x.map Real.exp).sum

/-- `ys` is `xs` with the positions of a set `drop` replaced by 0 and the others unchanged. -/
def DropsExactly (drop : Nat → Prop) (xs ys : List ℝ) : Prop :=
  ys.length = xs.length ∧ ∀ i v, xs[i]? = some v → (drop i → ys[i]? = some 0) ∧ (¬ drop i → ys[i]? = some v)

/-- The average of the values `f w` over all the weights of all the neurons of a layer. -/
noncomputable def averageWeight (f : ℝ → ℝ) (ws : List (List ℝ)) : ℝ := (ws.flatten.map f).sum / ws.flatten.length

/-- The sum of the values `f w` over all the weights of all the neurons, divided by the number of neurons. -/
noncomputable def sumPerNeuron (f : ℝ → ℝ) (ws : List (List ℝ)) : ℝ := (ws.flatten.map f).sum / ws.length

end Snn.Spec
