import Verif.Spec.NeuronSpec
import Verif.Model.Layer
import Verif.Proofs.NeuronProofs

/-!
# Specification of one round (forward then backward) of a convolution

A convolution has P positions and N filters; position p of every filter reads the inputs through its own row of indexes, and the
output of filter q at position p is number `p*N + q`. A round of training runs the positions 0, 1, …, P-1 forward, then the
positions 0, 1, …, P-1 backward.
-/

namespace Snn.Spec

open Finset

section
variable {F : Type} [Field F] [LinearOrder F] [IsStrictOrderedRing F] [FTrans F]

/-- The inputs that a position reads: its row of indexes applied to the inputs of the layer. -/
def seen (x : List F) (row : List Int) : List F := row.map fun i => x.getD i.toNat 0

/-- What one position adds to weight i of a filter: `lr * error * input i + m * (what the same position added the round before)`;
the last weight belongs to the bias, whose input is constant. -/
def increment (lr m error bias : F) (inputs memory : List F) (i : Nat) : F :=
  lr * error * (inputs ++ [bias]).getD i 0 + m * memory.getD i 0

/-- The affine form of filter n on the inputs of the row. -/
def atRow (n : Neuron F) (x : List F) (row : List Int) : F := affine n.weights (seen x row) n.bias

/-- What the code uses as the derivative of filter n at *every* position: the derivative at the *last* position. -/
def lastSlope (rows : List (List Int)) (n : Neuron F) (x : List F) : F :=
  n.activationFunction.obj.derivative (atRow n x (rows.getD (rows.length - 1) []))

/-- What position p of filter n adds to weight i in a round with the inputs x, where `e p` is the error of its output. The inputs are
those that position p saw in the forward pass of this round, and the memory is what position p added in the round before. -/
def positionStep (rows : List (List Int)) (n : Neuron F) (x : List F) (e : Nat → F) (p i : Nat) : F :=
  increment (n.optimizer.learningRate / rows.length) n.optimizer.momentum (e p * lastSlope rows n x) n.bias
    (seen x (rows.getD p [])) (n.previousDeltaWeights.queue.getD p []) i

/-- The errors of the outputs of filter q among N. -/
def errorsOf (N q : Nat) (e : List F) (p : Nat) : F := e.getD (p * N + q) 0

/-- One round of a convolution with the filters ns (ns' after the round), inputs x and errors e of the outputs: the outputs y and
the update of every filter. -/
structure Replays (rows : List (List Int)) (size : Nat) (ns ns' : List (Neuron F)) (x e y : List F) : Prop where
  filters : ns'.length = ns.length
  outputs : y.length = rows.length * ns.length ∧ ∀ p < rows.length, ∀ (q : Nat) n, ns[q]? = some n →
    y.getD (p * ns.length + q) 0 = n.activationFunction.obj.function (atRow n x (rows.getD p []))
  weights : ∀ (q : Nat) n n', ns[q]? = some n → ns'[q]? = some n' → ∀ i < size,
    n'.weights.getD i 0 = n.weights.getD i 0 + ∑ p ∈ range rows.length, positionStep rows n x (errorsOf ns.length q e) p i
  bias : ∀ (q : Nat) n n', ns[q]? = some n → ns'[q]? = some n' →
    n'.weights.getD size 0 = positionStep rows n x (errorsOf ns.length q e) (rows.length - 1) size
  memory : ∀ (q : Nat) n n', ns[q]? = some n → ns'[q]? = some n' → ∀ p < rows.length, ∀ i ≤ size,
    (n'.previousDeltaWeights.queue.getD p []).getD i 0 = positionStep rows n x (errorsOf ns.length q e) p i

/-- The errors that the code sends back to the inputs: for every position p, filter n and weight j, the error of the output times
the derivative *at the last position* times the weight *after the updates of the positions before p*. -/
def codeErrors (rows : List (List Int)) (size : Nat) (ns : List (Neuron F)) (x e : List F) (i : Nat) : F :=
  ∑ p ∈ range rows.length, (ns.mapIdx fun q n => ∑ j ∈ range size, if (rows.getD p []).getD j 0 = (i : Int) then
    errorsOf ns.length q e p * lastSlope rows n x * (n.weights.getD j 0 + ∑ p' ∈ range p, positionStep rows n x (errorsOf ns.length q e) p' j)
    else 0).sum

/-- The errors that the property asks for: the derivative at the position, times the weight used in the forward pass. -/
def trueErrors (rows : List (List Int)) (size : Nat) (ns : List (Neuron F)) (x e : List F) (i : Nat) : F :=
  ∑ p ∈ range rows.length, (ns.mapIdx fun q n => ∑ j ∈ range size, if (rows.getD p []).getD j 0 = (i : Int) then
    errorsOf ns.length q e p * n.activationFunction.obj.derivative (atRow n x (rows.getD p [])) * n.weights.getD j 0
    else 0).sum

end

end Snn.Spec
