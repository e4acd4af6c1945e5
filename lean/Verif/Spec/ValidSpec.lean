import Verif.Model.Network
import Mathlib.Algebra.Order.Field.Basic

/-!
# Specification: the documented ranges, in the order in which they are checked

The validity of a network is an ordered list of rules, each with the error code that reports its violation.
-/

namespace Snn.Spec

/-- A rule and the code that reports its violation. -/
structure Rule where
  holds : Prop
  code : Int

/-- `c` reports the rules: 0 if all of them hold, and otherwise the code of the first one that does not. -/
def Reports (rules : List Rule) (c : Int) : Prop :=
  (c = 0 ∧ ∀ r ∈ rules, r.holds) ∨
    ∃ before r after, rules = before ++ r :: after ∧ (∀ b ∈ before, b.holds) ∧ ¬ r.holds ∧ c = r.code

section
variable {F : Type} [Field F] [LinearOrder F]

/-- Neuron: bias in [-100000, 10000] (301), 1 to 1000000 weights (302), each weight in [-100000, 10000] (303). -/
def neuronRules (n : Neuron F) : List Rule := [
  ⟨-100000 ≤ n.bias ∧ n.bias ≤ 10000, 301⟩,
  ⟨1 ≤ n.weights.length ∧ n.weights.length ≤ 1000000, 302⟩,
  ⟨∀ w ∈ n.weights, -100000 ≤ w ∧ w ≤ 10000, 303⟩]

/-- Recurrent neuron: one weight per input, one for the bias and one for the last output (304), then the rules of a neuron. -/
def recurrentRules (n : RecNeuron F) : List Rule :=
  ⟨(n.base.weights.length : Int) = n.base.numberOfInputs + 2, 304⟩ :: neuronRules n.base

/-- Gated recurrent unit: the rules of its reset, update and output gates. -/
def gruRules (g : Gru F) : List Rule := recurrentRules g.resetGate ++ recurrentRules g.updateGate ++ recurrentRules g.outputGate

/-- A layer of neurons: the neurons have the inputs of the layer (203), there are 1 to 1000000 of them (201), then the rules of
each neuron in turn. -/
def neuronsRules {N : Type} (inputsOk : N → Prop) (rules : N → List Rule) (neurons : List N) (more : List Rule) : List Rule :=
  ⟨∀ n ∈ neurons, inputsOk n, 203⟩ :: more ++ ⟨1 ≤ neurons.length ∧ neurons.length ≤ 1000000, 201⟩ :: neurons.flatMap rules

/-- The inputs of the neurons of a filter layer: those of a kernel. -/
def kernelInputs (kind : FKind) (info : FilterInfo) : Int :=
  match kind with
  | .conv1D | .lc1D => info.kernelSize * info.shapeOfInput.headD 0
  | _ => info.sizeOfNeuronInputs

/-- The rules of a layer. Filter layers also check that the shape of the output has one entry per kernel (202); pooling layers only
that there is one recorded position per output (204). -/
def layerRules (l : Layer F) : List Rule :=
  match l.body with
  | .fullyConnected ns => neuronsRules (fun n => n.numberOfInputs = l.numberOfInputs) neuronRules ns []
  | .recurrence ns => neuronsRules (fun n => n.base.numberOfInputs = l.numberOfInputs) recurrentRules ns []
  | .gru ns => neuronsRules (fun n => n.numberOfInputs = l.numberOfInputs) gruRules ns []
  | .filter kind ns info => neuronsRules (fun n => n.numberOfInputs = kernelInputs kind info) neuronRules ns
      [⟨info.shapeOfOutput.prod = info.numberOfKernels, 202⟩]
  | .pool _ _ outputs positions => [⟨(positions.length : Int) = outputs, 204⟩]

/-- The rules of a network: 1 to 2073600 inputs (101), 1 to 1000 layers (102), learning rate in (0, 1) (103), momentum in
[0, 1] (104), then the rules of each layer in turn. -/
def networkRules (n : Net F) : List Rule := [
  ⟨∃ l, n.layers.head? = some l ∧ 1 ≤ l.numberOfInputs ∧ l.numberOfInputs ≤ 2073600, 101⟩,
  ⟨1 ≤ n.layers.length ∧ n.layers.length ≤ 1000, 102⟩,
  ⟨0 < n.optimizer.learningRate ∧ n.optimizer.learningRate < 1, 103⟩,
  ⟨0 ≤ n.optimizer.momentum ∧ n.optimizer.momentum ≤ 1, 104⟩] ++ n.layers.flatMap layerRules

end

end Snn.Spec
