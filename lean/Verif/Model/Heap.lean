import Verif.Model.Copy
import Verif.Props.HistoryProps

/-!
# Model of the objects a network is made of, and of the pointers between them

A `StraightforwardNeuralNetwork` holds a `shared_ptr` to its optimizer (NeuralNetwork.hpp:47), `unique_ptr`s to its layers
(NeuralNetwork.hpp:46); a layer holds its neurons by value and `unique_ptr`s to its layer optimizers (Layer.hpp:47-48); a neuron holds
a `shared_ptr` to the optimizer of the network (Neuron.hpp:36); a layer optimizer holds a pointer to a layer (LayerOptimizer.hpp:20).
The other fields are values. The activation functions are shared constants without state (ActivationFunction.cpp:12-24).

Simplification: a call of a network acts on the values of its objects as in `Model/Training.lean` and writes them back through its
pointers; it allocates no object.
-/

namespace Snn

open HistoryProps (Call)

/-- An address. -/
scoped notation "Addr" => Nat

/-- A layer object. The optimizers inside `body` are not used: the neurons point to them. -/
structure HLayer (F : Type) where
  numberOfInputs : Int
  body : Body F
  /-- `Neuron::optimizer` of every neuron. -/
  neuronOptimizers : List Addr
  /-- `Layer::optimizers`. -/
  optimizers : List Addr

/-- A layer optimizer object. -/
structure HLayerOpt (F : Type) where
  value : LayerOpt F
  /-- `LayerOptimizer::layer`. -/
  layer : Addr

/-- An object. -/
inductive Cell (F : Type) where
  | sgd (o : Sgd F)
  | layer (l : HLayer F)
  | layerOpt (o : HLayerOpt F)

/-- The heap. -/
structure Heap (F : Type) where
  next : Addr
  cell : Addr → Option (Cell F)

/-- A network object: its own fields (`own`, where `net.optimizer` and `net.layers` are not used) and its pointers. -/
structure HSnn (F : Type) where
  own : Snn F
  optimizer : Addr
  layers : List Addr

section
variable {F : Type}

/-- `new`. -/
def Heap.alloc (h : Heap F) (c : Cell F) : Addr × Heap F :=
  (h.next, { next := h.next + 1, cell := fun a => if a = h.next then some c else h.cell a })

/-- Writing an object. -/
def Heap.set (h : Heap F) (a : Addr) (c : Cell F) : Heap F := { h with cell := fun b => if b = a then some c else h.cell b }

/-- Layer optimizers allocated one after the other, for the layer at `layer`. -/
def Heap.allocOpts (h : Heap F) (layer : Addr) : List (LayerOpt F) → List Addr × Heap F
  | [] => ([], h)
  | v :: vs =>
    let (b, h1) := h.alloc (.layerOpt ⟨v, layer⟩)
    let (bs, h2) := h1.allocOpts layer vs
    (b :: bs, h2)

/-- A layer object allocated, then filled with neurons and new layer optimizers for the pointer `this`. -/
def Heap.allocLayer (h : Heap F) (numberOfInputs : Int) (body : Body F) (neuronOptimizers : List Addr) (values : List (LayerOpt F)) :
    Addr × Heap F :=
  let (this, h1) := h.alloc (.layer ⟨numberOfInputs, body, neuronOptimizers, []⟩)
  let (os, h2) := h1.allocOpts this values
  (this, h2.set this (.layer ⟨numberOfInputs, body, neuronOptimizers, os⟩))

/-- Layer.tpp:1-11 the constructor of a layer: every neuron gets the optimizer of the network, every layer optimizer gets `this`
(LayerOptimizerFactory.cpp:94-100). -/
def Heap.makeLayer (h : Heap F) (opt : Addr) (l : Layer F) : Addr × Heap F :=
  h.allocLayer l.numberOfInputs l.body (List.replicate l.getNumberOfNeurons opt) l.optimizers

/-- LayerFactory.cpp: the layers one after the other. -/
def Heap.makeLayers (h : Heap F) (opt : Addr) : List (Layer F) → List Addr × Heap F
  | [] => ([], h)
  | l :: ls =>
    let (a, h1) := h.makeLayer opt l
    let (as, h2) := h1.makeLayers opt ls
    (a :: as, h2)

/-- NeuralNetwork.cpp:13-18 the objects the constructor allocates for a network of value `s`. -/
def Heap.make (h : Heap F) (s : Snn F) : HSnn F × Heap F :=
  let (o, h1) := h.alloc (.sgd s.net.optimizer)
  let (ls, h2) := h1.makeLayers o s.net.layers
  (⟨s, o, ls⟩, h2)

/-- The layer optimizers read through their pointers. -/
def Heap.readOpts (h : Heap F) : List Addr → Res (List (LayerOpt F))
  | [] => .ok []
  | a :: as =>
    match h.cell a with
    | some (.layerOpt o) => do
      let os ← h.readOpts as
      return o.value :: os
    | _ => .ub "dangling pointer"

/-- Layer.tpp:13-22 the copy constructor of a layer and FullyConnected.cpp:13-21 (and the other classes) `clone`: the neurons are copied
with their pointers, each layer optimizer is cloned for the new `this`, then every neuron gets the new optimizer. -/
def Heap.cloneLayer (h : Heap F) (opt a : Addr) : Res (Addr × Heap F) :=
  match h.cell a with
  | some (.layer l) => do
    let values ← h.readOpts l.optimizers
    return h.allocLayer l.numberOfInputs l.body (l.neuronOptimizers.map fun _ => opt) (values.map LayerOpt.clone)
  | _ => .ub "dangling pointer"

/-- NeuralNetwork.cpp:26-28 the loop over the layers. -/
def Heap.cloneLayers (h : Heap F) (opt : Addr) : List Addr → Res (List Addr × Heap F)
  | [] => .ok ([], h)
  | a :: as => do
    let (b, h1) ← h.cloneLayer opt a
    let (bs, h2) ← h1.cloneLayers opt as
    return (b :: bs, h2)

/-- `layers.back()->getNumberOfNeurons()`. -/
def Heap.lastNeurons (h : Heap F) (layers : List Addr) : Res Nat := do
  let a ← backOf layers
  match h.cell a with
  | some (.layer l) => .ok l.body.numberOfNeurons
  | _ => .ub "dangling pointer"

variable [Flt F] [FTrans F] [Add F] [Sub F] [Mul F] [Div F] [Neg F]

/-- NeuralNetwork.cpp:20-30 and StraightforwardNeuralNetwork.cpp:33-43 the copy constructor. -/
def Heap.copy (h : Heap F) (p : HSnn F) : Res (HSnn F × Heap F) :=
  match h.cell p.optimizer with
  | some (.sgd o) => do
    let (opt, h1) := h.alloc (.sgd o.clone)
    let (ls, h2) ← h1.cloneLayers opt p.layers
    let k ← h2.lastNeurons ls
    let own : Snn F := { p.own with
      net := { p.own.net with stats := p.own.net.stats.initialize k }
      wantToStopTraining := false
      isIdle := true }
    return (⟨own, opt, ls⟩, h2)
  | _ => .ub "dangling pointer"

/-- The objects of a layer. -/
def Heap.layerAddrs (h : Heap F) (a : Addr) : List Addr :=
  match h.cell a with
  | some (.layer l) => a :: l.optimizers
  | _ => [a]

/-- The objects a network owns. -/
def Heap.owned (h : Heap F) (p : HSnn F) : List Addr := p.optimizer :: p.layers.flatMap h.layerAddrs

/-- The writes of a call on a layer object: the values of the neurons and of the layer optimizers, through the pointers. -/
def Heap.layerWrites (h : Heap F) (a : Addr) (l' : Layer F) : List (Addr × Cell F) :=
  match h.cell a with
  | some (.layer l) =>
    (a, .layer { l with numberOfInputs := l'.numberOfInputs, body := l'.body }) ::
      List.zipWith (fun b o => (b, .layerOpt ⟨o, a⟩)) l.optimizers l'.optimizers
  | _ => []

/-- The writes of a call on the objects of a network that gives it the value `s`. -/
def Heap.writes (h : Heap F) (p : HSnn F) (s : Snn F) : List (Addr × Cell F) :=
  (p.optimizer, .sgd s.net.optimizer) :: (List.zipWith h.layerWrites p.layers s.net.layers).flatten

/-- All the writes. -/
def Heap.setMany (h : Heap F) (cs : List (Addr × Cell F)) : Heap F :=
  { h with cell := fun a => match cs.lookup a with
    | some c => some c
    | none => h.cell a }

/-- The destructor: the objects the network owns are freed. -/
def Heap.free (h : Heap F) (p : HSnn F) : Heap F := { h with cell := fun a => if a ∈ h.owned p then none else h.cell a }

end

end Snn
