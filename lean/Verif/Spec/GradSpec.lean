import Verif.Model.Network
import Verif.Spec.NeuronSpec
import Verif.Spec.ArchSpec
import Verif.Basic.RealFlt

/-!
# Specification: gradient descent

The loss of a network on one example is the squared error of its outputs; its partial derivative with respect to a weight is taken by
changing this weight alone in the network and running `output`.
-/

namespace Snn.Spec

open Finset

section
variable {F : Type}

/-- The neuron with weight i replaced by v. -/
def withWeight (i : Nat) (v : F) (n : Neuron F) : Neuron F := { n with weights := n.weights.set i v }

/-- The layer with weight i of neuron k replaced by v (layers of simple neurons only: a layer of another kind is not changed). -/
def Layer.withWeight (l : Layer F) (k i : Nat) (v : F) : Layer F :=
  match l.body with
  | .fullyConnected ns => { l with body := .fullyConnected (ns.modify k (Spec.withWeight i v)) }
  | .filter kind ns info => { l with body := .filter kind (ns.modify k (Spec.withWeight i v)) info }
  | _ => l

/-- The network with weight i of neuron k of layer j replaced by v. -/
def Net.withWeight (n : Net F) (j k i : Nat) (v : F) : Net F :=
  { n with layers := n.layers.modify j fun l => Layer.withWeight l k i v }

/-- The weights of neuron k of a layer, as `getWeights` returns them. -/
def neuronWeights (l : Layer F) (k : Nat) : List F := l.body.weights.getD k []

end

/-- Weight i of neuron k of layer j. -/
noncomputable def Net.weight (n : Net ℝ) (j k i : Nat) : ℝ :=
  match n.layers[j]? with
  | some l => (neuronWeights l k).getD i 0
  | none => 0

/-- The layer j has a neuron k, and weight i of this neuron is not the last one (the last weight is the one of the bias). -/
def HasInputWeight (n : Net ℝ) (j k i : Nat) : Prop :=
  ∃ l, n.layers[j]? = some l ∧ k < l.body.weights.length ∧ i + 1 < (neuronWeights l k).length

/-- Weight i is the last weight of neuron k of layer j: the one that multiplies the bias. -/
def IsBiasWeight (n : Net ℝ) (j k i : Nat) : Prop :=
  ∃ l, n.layers[j]? = some l ∧ k < l.body.weights.length ∧ i + 1 = (neuronWeights l k).length

/-- The squared error of the outputs `o` for the expected outputs `d`. -/
def squaredError (d o : List ℝ) : ℝ := ∑ j ∈ range d.length, (d.getD j 0 - o.getD j 0) ^ 2

/-- The loss of a network on one example. -/
noncomputable def loss (n : Net ℝ) (x d : List ℝ) : ℝ :=
  match n.output x false with
  | .ok (o, _) => squaredError d o
  | _ => 0

/-- The values that a row of indexes selects; a negative index is a padding by 0. -/
noncomputable def window (x : List ℝ) (row : List Int) : List ℝ := row.map fun i => if 0 ≤ i then x.getD i.toNat 0 else 0

/-- The layer is differentiable at the input x: no rectified linear unit is at 0 and no pooling has two maxima. -/
def NoKink (l : Layer ℝ) (x : List ℝ) : Prop :=
  match l.body with
  | .fullyConnected ns => ∀ n ∈ ns, n.activationFunction = .relu → affine n.weights x n.bias ≠ 0
  | .filter _ ns info => ∀ (k : Nat) n row, ns[k]? = some n → info.kernelIndexes[k / info.numberOfFilters.toNat]? = some row →
      n.activationFunction = .relu → affine n.weights (window x row) n.bias ≠ 0
  | .pool _ info _ _ => ∀ row ∈ info.kernelIndexes, ∃ m ∈ row, 0 ≤ m ∧ ∀ i ∈ row, 0 ≤ i → i ≠ m → x.getD i.toNat 0 < x.getD m.toNat 0
  | _ => True

/-- Every layer is differentiable at the values it receives when x enters the first one. -/
inductive NoKinks : List (Layer ℝ) → List ℝ → Prop
  | nil {x : List ℝ} : NoKinks [] x
  | cons {l l' : Layer ℝ} {ls : List (Layer ℝ)} {x y : List ℝ} (h : NoKink l x) (ho : l.output x false = .ok (y, l')) (hs : NoKinks ls y) :
      NoKinks (l :: ls) x

/-- The layers for which training is gradient descent, on inputs of shape s (`first`: the layer is the first one, nothing is sent back
through it): fully connected, locally connected and max pooling layers without layer optimizer. Left out, because the code does
something else: the activation `iSigmoid`, locally connected layers of one dimension with several filters that are not first, poolings
with other numbers of tiles in x and in y; convolutions, recurrent layers and GRU layers. -/
inductive PlainLayer (first : Bool) : LayerModel ℝ → List Nat → Prop
  | fullyConnected {n : Int} {act : Act} {s : List Nat} (ha : act ≠ .iSigmoid) : PlainLayer first (.fullyConnected n act []) s
  | locally1D {f k : Int} {act : Act} {s : List Nat} (ha : act ≠ .iSigmoid) (hf : first = true ∨ f = 1) :
      PlainLayer first (.locallyConnected f k act []) s
  | locally2D {f k : Int} {act : Act} {c x y : Nat} (ha : act ≠ .iSigmoid) : PlainLayer first (.locallyConnected f k act []) [c, x, y]
  | pool1 {k : Int} {x : Nat} : PlainLayer first (.maxPooling k) [x]
  | pool1D {k : Int} {x : Nat} : PlainLayer first (.maxPooling k) [1, x]
  | pool2D {k c x y : Nat} (h : ceil x k = ceil y k) : PlainLayer first (.maxPooling k) [c, x, y]

/-- Every layer is one of these, on the outputs of the previous one. -/
inductive PlainChain : Bool → List (LayerModel ℝ) → List Nat → Prop
  | nil {first : Bool} {s : List Nat} : PlainChain first [] s
  | cons {first : Bool} {m : LayerModel ℝ} {ms : List (LayerModel ℝ)} {s s' : List Nat} (hp : PlainLayer first m s) (hf : Fits m s s')
      (hs : PlainChain false ms s') : PlainChain first (m :: ms) s

/-- A well formed architecture of such layers, that ends with neurons. -/
structure PlainArch (arch : List (LayerModel ℝ)) (s s' : List Nat) : Prop where
  wellFormed : WellFormed arch s s'
  ends : EndsWithNeurons arch
  plain : PlainChain true arch.tail s

/-- The network `n'` is `n` after any number of inferences, on inputs of the right size. -/
inductive Inferred : Net ℝ → Net ℝ → Prop
  | refl {n : Net ℝ} : Inferred n n
  | step {n n1 n2 : Net ℝ} {x y : List ℝ} {t : Bool} (h : Inferred n n1) (hx : n1.getNumberOfInputs = .ok (x.length : Int))
      (ho : n1.output x t = .ok (y, n2)) : Inferred n n2

end Snn.Spec
