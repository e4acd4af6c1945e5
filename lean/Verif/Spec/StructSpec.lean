import Verif.Spec.ArchSpec

/-!
# Specification: the structure of a network

What the documentation says a layer of an architecture is made of, on inputs of shape s (`[X]`, `[C, X]` or `[C, X, Y]`), and the numbers of
neurons and parameters that follow.
-/

namespace Snn.Spec

section
variable {F : Type}

/-- The number of neurons of a layer: a convolution has one neuron per filter, a locally connected layer one per filter and tile, a
pooling none. -/
def neuronsOf (m : LayerModel F) (s : List Nat) : Nat :=
  match m, s with
  | .input _, _ => 0
  | .fullyConnected n _ _, _ => n.toNat
  | .recurrence n _ _, _ => n.toNat
  | .gru n _, _ => n.toNat
  | .convolution f _ _ _, _ => f.toNat
  | .locallyConnected f k _ _, [x] => f.toNat * ceil x k.toNat
  | .locallyConnected f k _ _, [_, x] => f.toNat * ceil x k.toNat
  | .locallyConnected f k _ _, [_, x, y] => f.toNat * (ceil x k.toNat * ceil y k.toNat)
  | .locallyConnected .., _ => 0
  | .maxPooling _, _ => 0

/-- The number of weights of each neuron of a layer: one per input of the neuron and one for the bias; one more for a recurrent neuron;
a gated recurrent unit is three recurrent neurons; a filter sees a kernel of every channel. -/
def weightsOf (m : LayerModel F) (s : List Nat) : Nat :=
  match m, s with
  | .input _, _ => 0
  | .fullyConnected .., s => s.prod + 1
  | .recurrence .., s => s.prod + 2
  | .gru .., s => 3 * (s.prod + 2)
  | .convolution _ k _ _, [_] | .locallyConnected _ k _ _, [_] => k.toNat + 1
  | .convolution _ k _ _, [c, _] | .locallyConnected _ k _ _, [c, _] => k.toNat * c + 1
  | .convolution _ k _ _, [c, _, _] | .locallyConnected _ k _ _, [c, _, _] => k.toNat * k.toNat * c + 1
  | .convolution .., _ | .locallyConnected .., _ => 0
  | .maxPooling _, _ => 0

/-- `Counts ms s n p`: the layers `ms`, the first on inputs of shape s, have n neurons and p parameters in all. -/
inductive Counts : List (LayerModel F) → List Nat → Nat → Nat → Prop
  | nil {s : List Nat} : Counts [] s 0 0
  | cons {m : LayerModel F} {ms : List (LayerModel F)} {s s' : List Nat} {n p : Nat} (hm : Fits m s s') (hs : Counts ms s' n p) :
      Counts (m :: ms) s (neuronsOf m s + n) (neuronsOf m s * weightsOf m s + p)

/-- The setting a layer optimizer was made from. -/
def settingOf : LayerOpt F → LayerOptModel F
  | .dropout v _ _ => .dropout v
  | .l1 v => .l1 v
  | .l2 v => .l2 v
  | .errorMultiplier v => .errorMultiplier v
  | .softmax => .softmax

/-- The activation, bias, optimizer and number of weights of a neuron. -/
structure NeuronIs (act : Act) (bias : F) (opt : Sgd F) (weights : Nat) (n : Neuron F) : Prop where
  activation : n.activationFunction = act
  bias : n.bias = bias
  optimizer : n.optimizer = opt
  weights : n.weights.length = weights

/-- The shape a kernel slides over: one channel when the input has only one dimension. -/
def withChannel : List Nat → List Nat
  | [x] => [1, x]
  | s => s

/-- `LayerIs opt m s l`: l is the layer m on inputs of shape s, with the optimizer opt. -/
def LayerIs [Flt F] (opt : Sgd F) (m : LayerModel F) (s : List Nat) (l : Layer F) : Prop :=
  l.numberOfInputs = s.prod ∧
  match m with
  | .input _ => False
  | .fullyConnected n act opts => l.optimizers.map settingOf = opts ∧
      ∃ ns, l.body = .fullyConnected ns ∧ (ns.length : Int) = n ∧ ∀ x ∈ ns, NeuronIs act (lit 1) opt (s.prod + 1) x
  | .recurrence n act opts => l.optimizers.map settingOf = opts ∧
      ∃ ns, l.body = .recurrence ns ∧ (ns.length : Int) = n ∧ ∀ x ∈ ns, NeuronIs act (lit 1) opt (s.prod + 2) x.base
  | .gru n opts => l.optimizers.map settingOf = opts ∧
      ∃ ns, l.body = .gru ns ∧ (ns.length : Int) = n ∧ ∀ x ∈ ns, NeuronIs .sigmoid (lit 1) opt (s.prod + 2) x.resetGate.base ∧
        NeuronIs .sigmoid (lit 1) opt (s.prod + 2) x.updateGate.base ∧ NeuronIs .tanh (lit 1) opt (s.prod + 2) x.outputGate.base
  | .convolution f k act opts => l.optimizers.map settingOf = opts ∧
      ∃ kind ns info, l.body = .filter kind ns info ∧ kind = (if s.length = 3 then .conv2D else .conv1D) ∧
        info.numberOfFilters = f ∧ info.kernelSize = k ∧ info.shapeOfInput = (withChannel s).map (fun v : Nat => (v : Int)) ∧ (ns.length : Int) = f ∧
        ∀ x ∈ ns, NeuronIs act (lit (1/1000)) opt (weightsOf m s) x
  | .locallyConnected f k act opts => l.optimizers.map settingOf = opts ∧
      ∃ kind ns info, l.body = .filter kind ns info ∧ kind = (if s.length = 3 then .lc2D else .lc1D) ∧
        info.numberOfFilters = f ∧ info.kernelSize = k ∧ info.shapeOfInput = (withChannel s).map (fun v : Nat => (v : Int)) ∧ ns.length = neuronsOf m s ∧
        ∀ x ∈ ns, NeuronIs act (lit (1/1000)) opt (weightsOf m s) x
  | .maxPooling k => l.optimizers = [] ∧
      ∃ twoD info o mvi, l.body = .pool twoD info o mvi ∧ twoD = decide (s.length = 3) ∧ info.kernelSize = k ∧
        info.shapeOfInput = (withChannel s).map (fun v : Nat => (v : Int))

/-- `NetIs opt ms s ls`: the layers `ls` are the layers `ms`, the first on inputs of shape s, each with the output shape of its model. -/
inductive NetIs [Flt F] (opt : Sgd F) : List (LayerModel F) → List Nat → List (Layer F) → Prop
  | nil {s : List Nat} : NetIs opt [] s []
  | cons {m : LayerModel F} {ms : List (LayerModel F)} {s s' : List Nat} {l : Layer F} {ls : List (Layer F)}
      (hm : Fits m s s') (hl : LayerIs opt m s l)
      (ho : l.getShapeOfOutput = s'.map (fun v : Nat => (v : Int))) (hs : NetIs opt ms s' ls) : NetIs opt (m :: ms) s (l :: ls)

end

end Snn.Spec
