import Verif.Spec.GradSpec
import Verif.Demo.Demo
import Verif.Basic.RatFlt

/-!
# C40: locally connected layers in one dimension with several filters send the errors to the wrong inputs
-/

set_option linter.all false

namespace Snn.LocalBackProps

open Snn.Spec

/-- One input, two identity neurons, then a locally connected layer of two filters with a kernel of size 1: the outputs 0 and 1 are
computed from the first hidden neuron, the outputs 2 and 3 from the second one. -/
def twoFilters : Snn ℚ :=
  (Snn.make (F := ℚ) [.input [1], .fullyConnected 2 .identity [], .locallyConnected 2 1 .identity []] { learningRate := 1/10, momentum := 0 }
    Demo.draws |>.get (by decide +kernel)).1

/-- The answer of the network for the input 1. -/
def answer : List ℚ × Net ℚ := (twoFilters.net.output [1] false).get (by decide +kernel)

/-- The expected outputs: the answer is right but for the output 1. -/
def wanted : List ℚ := answer.1.modify 1 (· + 1)

/-- The squared error, for rational numbers. -/
def lossQ (n : Net ℚ) (x d : List ℚ) : ℚ :=
  match n.output x false with
  | .ok (o, _) => ((d.zip o).map fun p => (p.1 - p.2) ^ 2).sum
  | _ => 0

/-- The weight of the input in the hidden neuron k. -/
def hidden (n : Net ℚ) (k : Nat) : ℚ :=
  match n.layers[0]? with
  | some l => (neuronWeights l k).getD 0 0
  | none => 0

/-- The partial derivative of the loss for this weight: the central difference, which is exact because all the activation functions are
the identity, so that the loss is a polynomial of degree 2 in each weight. -/
def derivative (n : Net ℚ) (k : Nat) : ℚ :=
  (lossQ (Net.withWeight n 0 k 0 (hidden n k + 1)) [1] wanted - lossQ (Net.withWeight n 0 k 0 (hidden n k - 1)) [1] wanted) / 2

/-- The network after one training step. -/
def stepped : Net ℚ × Draws ℚ := (twoFilters.net.trainOnce [1] wanted true Demo.draws).get (by decide +kernel)

/-- **C40 is false of a locally connected layer in one dimension with several filters** that is not the first layer: the error of the
output 1, that depends on the first hidden neuron only, changes the second one. The derivative of the loss is not 0 for the first hidden
neuron and 0 for the second one, but the training step changes the weight of the second one and leaves the first one as it is.
(LocallyConnected1D.cpp: the errors of neuron n go to tile `n % numberOfKernelsPerFilter`, its inputs come from tile `n / numberOfFilters`.) -/
theorem C40_locally1D_refuted : twoFilters.net.output [1] false = .ok answer ∧ twoFilters.net.trainOnce [1] wanted true Demo.draws = .ok stepped ∧
    derivative twoFilters.net 0 ≠ 0 ∧ derivative twoFilters.net 1 = 0 ∧
    hidden stepped.1 0 = hidden twoFilters.net 0 ∧ hidden stepped.1 1 ≠ hidden twoFilters.net 1 :=
  ⟨Res.eq_get _ _, Res.eq_get _ _, by decide +kernel, by decide +kernel, by decide +kernel, by decide +kernel⟩

end Snn.LocalBackProps
