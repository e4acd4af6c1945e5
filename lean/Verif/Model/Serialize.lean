import Verif.Model.Copy

/-!
# Model of the `serialize` templates, `saveSync` and `loadFrom`

Each class has one `serialize` template, used to write (`ar & x` writes x) and to read (`ar & x` assigns x). A `Codec` is
such a template: the list of its fields gives both directions. Boost.Serialization itself is trusted: an archive is the
sequence of the written values; class information, object tracking (the network optimizer is written once and then referred to;
the pointer of a layer optimizer to its layer refers to the object being written) and the decimal text of numbers are not
modelled. A finite float is written with enough digits to be read back exactly; a float that is not finite is written as
`nan` or `inf`, which `operator>>` cannot read: `text_iarchive` throws.
-/

namespace Snn

/-- Which floats a text archive can read back. -/
class FText (F : Type) where
  readable : F → Bool

export FText (readable)

/-- One value of a text archive. -/
inductive Tok (F : Type) where
  | int (i : Int)
  | float (x : F)
  | str (s : String)
  deriving DecidableEq, Repr

/-- A text archive. -/
abbrev Archive (F : Type) := List (Tok F)

/-- One `serialize` template. -/
structure Codec (F α : Type) where
  save : α → Archive F
  load : Archive F → Res (α × Archive F)

/-- boost/archive/basic_text_iprimitive.hpp: reading a value that is not there. -/
def streamError {α : Type} : Res α := .throw "input stream error"

namespace Codec

variable {F α β : Type}

/-- `ar & int`, `ar & size_t` (not negative), `ar & int64_t`. -/
def int : Codec F Int where
  save i := [.int i]
  load
    | .int i :: a => .ok (i, a)
    | _ => streamError

/-- `ar & bool`, written as 0 or 1. -/
def bool : Codec F Bool where
  save b := [.int (if b then 1 else 0)]
  load
    | .int i :: a => .ok (decide (i ≠ 0), a)
    | _ => streamError

/-- `ar & size_t`. -/
def nat : Codec F Nat where
  save n := [.int n]
  load
    | .int i :: a => .ok (i.toNat, a)
    | _ => streamError

/-- `ar & float`. -/
def float [FText F] : Codec F F where
  save x := [.float x]
  load
    | .float x :: a => if readable x then .ok (x, a) else streamError
    | _ => streamError

/-- `ar & std::string`. -/
def str : Codec F String where
  save s := [.str s]
  load
    | .str s :: a => .ok (s, a)
    | _ => streamError

/-- `ar & first; ar & second;` -/
def pair (c : Codec F α) (d : Codec F β) : Codec F (α × β) where
  save p := c.save p.1 ++ d.save p.2
  load a := do
    let (x, a1) ← c.load a
    let (y, a2) ← d.load a1
    return ((x, y), a2)

/-- The fields of an object, and the object after its fields have been read. -/
def obj (fields : α → β) (make : β → α) (c : Codec F β) : Codec F α where
  save x := c.save (fields x)
  load a := do
    let (y, a1) ← c.load a
    return (make y, a1)

/-- Read `n` elements. -/
def loadMany (c : Codec F α) : Nat → Archive F → Res (List α × Archive F)
  | 0, a => .ok ([], a)
  | n + 1, a => do
    let (x, a1) ← c.load a
    let (xs, a2) ← loadMany c n a1
    return (x :: xs, a2)

/-- `ar & std::vector<T>` (boost/serialization/vector.hpp): the count, then the elements. -/
def vec (c : Codec F α) : Codec F (List α) where
  save xs := .int xs.length :: xs.flatMap c.save
  load
    | .int n :: a => loadMany c n.toNat a
    | _ => streamError

end Codec

section
variable {F : Type} [FText F]
open Codec

/-- CircularData.hpp:34-39. -/
def Circ.codec : Codec F (Circ F) :=
  obj (fun c => (c.queue, c.indexGet, c.indexPush)) (fun p => { queue := p.1, indexGet := p.2.1, indexPush := p.2.2 })
    (pair (vec (vec float)) (pair nat nat))

/-- StochasticGradientDescent.hpp:39-45. -/
def Sgd.codec : Codec F (Sgd F) :=
  obj (fun o => (o.learningRate, o.momentum)) (fun p => { learningRate := p.1, momentum := p.2 }) (pair float float)

/-- ActivationFunction.hpp:8-17: the values of the enumerators. -/
def Act.code : Act → Int
  | .sigmoid => 0
  | .iSigmoid => 1
  | .tanh => 2
  | .relu => 3
  | .gelu => 4
  | .gaussian => 5
  | .identity => 6

/-- The enumerator of a value; ActivationFunction.cpp:55-56 throws for the others (Neuron.hpp:75 calls `get`). -/
def Act.ofCode (i : Int) : Res Act :=
  if i = 0 then .ok .sigmoid
  else if i = 1 then .ok .iSigmoid
  else if i = 2 then .ok .tanh
  else if i = 3 then .ok .relu
  else if i = 4 then .ok .gelu
  else if i = 5 then .ok .gaussian
  else if i = 6 then .ok .identity
  else .throw "activation"

/-- `ar & this->activationFunction` and Neuron.hpp:75. -/
def Act.codec : Codec F Act where
  save a := [.int a.code]
  load
    | .int i :: a => do
      let x ← Act.ofCode i
      return (x, a)
    | _ => streamError

/-- Neuron.hpp:61-76; SimpleNeuron.hpp:33-38. -/
def Neuron.codec : Codec F (Neuron F) :=
  obj
    (fun n => (n.optimizer, n.numberOfInputs, n.batchSize, n.weights, n.bias, n.previousDeltaWeights, n.lastInputs, n.errors,
      n.sum, n.activationFunction))
    (fun (o, ni, b, w, bias, pd, li, e, s, act) =>
      { optimizer := o, numberOfInputs := ni, batchSize := b, weights := w, bias := bias, previousDeltaWeights := pd,
        lastInputs := li, errors := e, sum := s, activationFunction := act })
    (pair Sgd.codec (pair int (pair int (pair (vec float) (pair float (pair Circ.codec (pair Circ.codec
      (pair (vec float) (pair float Act.codec)))))))))

/-- RecurrentNeuron.hpp:41-50. -/
def RecNeuron.codec : Codec F (RecNeuron F) :=
  obj (fun n => (n.base, n.lastOutput, n.previousOutput, n.recurrentError, n.previousSum))
    (fun (b, lo, po, re, ps) =>
      { base := b, lastOutput := lo, previousOutput := po, recurrentError := re, previousSum := ps })
    (pair Neuron.codec (pair float (pair float (pair float float))))

/-- GatedRecurrentUnit.hpp:56-67; `errors` is not serialized. -/
def Gru.codec : Codec F (Gru F) :=
  obj
    (fun g => (g.numberOfInputs, g.previousOutput, g.recurrentError, g.updateGateOutput, g.outputGateOutput, g.resetGate,
      g.updateGate, g.outputGate))
    (fun (ni, po, re, ug, og, r, u, o) =>
      { errors := [], numberOfInputs := ni, previousOutput := po, recurrentError := re, updateGateOutput := ug,
        outputGateOutput := og, resetGate := r, updateGate := u, outputGate := o })
    (pair int (pair float (pair float (pair float (pair float (pair RecNeuron.codec (pair RecNeuron.codec
      RecNeuron.codec)))))))

/-- `std::unique_ptr<LayerOptimizer>` (boost/serialization/unique_ptr.hpp): the class and the object. Dropout.hpp:42-49,
L1Regularization.hpp:41-46, L2Regularization.hpp:39-44, ErrorMultiplier.hpp:38-43, Softmax.hpp:39-43. -/
def LayerOpt.codec : Codec F (LayerOpt F) where
  save
    | .dropout v rv p => .int 0 :: (pair float (pair float (vec bool))).save (v, rv, p)
    | .l1 v => .int 1 :: float.save v
    | .l2 v => .int 2 :: float.save v
    | .errorMultiplier v => .int 3 :: float.save v
    | .softmax => [.int 4]
  load
    | .int 0 :: a => do
      let ((v, rv, p), a1) ← (pair float (pair float (vec bool))).load a
      return (.dropout v rv p, a1)
    | .int 1 :: a => do
      let (v, a1) ← float.load a
      return (.l1 v, a1)
    | .int 2 :: a => do
      let (v, a1) ← float.load a
      return (.l2 v, a1)
    | .int 3 :: a => do
      let (v, a1) ← float.load a
      return (.errorMultiplier v, a1)
    | .int 4 :: a => .ok (.softmax, a)
    | _ => .throw "unregistered class"

/-- FilterLayer.hpp:45-59 (after its base class). -/
def FilterInfo.codec : Codec F FilterInfo :=
  obj
    (fun i => (i.numberOfFilters, i.numberOfKernels, i.numberOfKernelsPerFilter, i.numberOfNeuronsPerFilter, i.kernelSize,
      i.sizeOfNeuronInputs, i.shapeOfInput, i.shapeOfOutput, i.kernelIndexes))
    (fun (nf, nk, nkf, nnf, ks, sn, si, so, ki) =>
      { numberOfFilters := nf, numberOfKernels := nk, numberOfKernelsPerFilter := nkf, numberOfNeuronsPerFilter := nnf,
        kernelSize := ks, sizeOfNeuronInputs := sn, shapeOfInput := si, shapeOfOutput := so, kernelIndexes := ki })
    (pair int (pair int (pair int (pair int (pair int (pair int (pair (vec int) (pair (vec int) (vec (vec int))))))))))

/-- Layer.hpp:65-79: `numberOfInputs`, `neurons`, `optimizers`. -/
def Layer.baseCodec {N : Type} (c : Codec F N) : Codec F (Int × List N × List (LayerOpt F)) :=
  pair int (pair (vec c) (vec LayerOpt.codec))

/-- `std::unique_ptr<BaseLayer>`: the class, in the order of the registrations of NeuralNetwork.hpp:87-96, then the object.
FullyConnected.hpp:29-33, Recurrence.hpp:29-33, GruLayer.hpp:29-33, SimpleLayer.hpp:41-45, Convolution1D.hpp:38-42,
Convolution2D.hpp:38-42, LocallyConnected1D.hpp:38-42, LocallyConnected2D.hpp:38-42, MaxPooling1D.hpp:41-47,
MaxPooling2D.hpp:41-47 (the `neurons` of a pooling layer are empty). -/
def Layer.codec : Codec F (Layer F) where
  save l :=
    match l.body with
    | .fullyConnected ns => .int 0 :: (Layer.baseCodec Neuron.codec).save (l.numberOfInputs, ns, l.optimizers)
    | .recurrence ns => .int 1 :: (Layer.baseCodec RecNeuron.codec).save (l.numberOfInputs, ns, l.optimizers)
    | .gru ns => .int 2 :: (Layer.baseCodec Gru.codec).save (l.numberOfInputs, ns, l.optimizers)
    | .filter .conv1D ns i =>
      .int 3 :: (pair (Layer.baseCodec Neuron.codec) FilterInfo.codec).save ((l.numberOfInputs, ns, l.optimizers), i)
    | .filter .conv2D ns i =>
      .int 4 :: (pair (Layer.baseCodec Neuron.codec) FilterInfo.codec).save ((l.numberOfInputs, ns, l.optimizers), i)
    | .filter .lc1D ns i =>
      .int 5 :: (pair (Layer.baseCodec Neuron.codec) FilterInfo.codec).save ((l.numberOfInputs, ns, l.optimizers), i)
    | .filter .lc2D ns i =>
      .int 6 :: (pair (Layer.baseCodec Neuron.codec) FilterInfo.codec).save ((l.numberOfInputs, ns, l.optimizers), i)
    | .pool false i n m =>
      .int 8 :: (pair (pair (Layer.baseCodec Neuron.codec) FilterInfo.codec) (pair int (vec int))).save
        (((l.numberOfInputs, [], l.optimizers), i), n, m)
    | .pool true i n m =>
      .int 9 :: (pair (pair (Layer.baseCodec Neuron.codec) FilterInfo.codec) (pair int (vec int))).save
        (((l.numberOfInputs, [], l.optimizers), i), n, m)
  load
    | .int 0 :: a => do
      let ((ni, ns, os), a1) ← (Layer.baseCodec Neuron.codec).load a
      return (⟨ni, os, .fullyConnected ns⟩, a1)
    | .int 1 :: a => do
      let ((ni, ns, os), a1) ← (Layer.baseCodec RecNeuron.codec).load a
      return (⟨ni, os, .recurrence ns⟩, a1)
    | .int 2 :: a => do
      let ((ni, ns, os), a1) ← (Layer.baseCodec Gru.codec).load a
      return (⟨ni, os, .gru ns⟩, a1)
    | .int 3 :: a => do
      let (((ni, ns, os), i), a1) ← (pair (Layer.baseCodec Neuron.codec) FilterInfo.codec).load a
      return (⟨ni, os, .filter .conv1D ns i⟩, a1)
    | .int 4 :: a => do
      let (((ni, ns, os), i), a1) ← (pair (Layer.baseCodec Neuron.codec) FilterInfo.codec).load a
      return (⟨ni, os, .filter .conv2D ns i⟩, a1)
    | .int 5 :: a => do
      let (((ni, ns, os), i), a1) ← (pair (Layer.baseCodec Neuron.codec) FilterInfo.codec).load a
      return (⟨ni, os, .filter .lc1D ns i⟩, a1)
    | .int 6 :: a => do
      let (((ni, ns, os), i), a1) ← (pair (Layer.baseCodec Neuron.codec) FilterInfo.codec).load a
      return (⟨ni, os, .filter .lc2D ns i⟩, a1)
    | .int 8 :: a => do
      let ((((ni, _, os), i), n, m), a1) ←
        (pair (pair (Layer.baseCodec Neuron.codec) FilterInfo.codec) (pair int (vec int))).load a
      return (⟨ni, os, .pool false i n m⟩, a1)
    | .int 9 :: a => do
      let ((((ni, _, os), i), n, m), a1) ←
        (pair (pair (Layer.baseCodec Neuron.codec) FilterInfo.codec) (pair int (vec int))).load a
      return (⟨ni, os, .pool true i n m⟩, a1)
    | _ => .throw "unregistered class"

variable [Flt F]

/-- StatisticAnalysis.hpp:20-27; `totalError` is not serialized, it keeps its initial value 0 (line 13). -/
def Cluster.codec : Codec F (Cluster F) :=
  obj (fun c => (c.truePositive, c.trueNegative, c.falsePositive, c.falseNegative))
    (fun (tp, tn, fp, fn) =>
      { truePositive := tp, trueNegative := tn, falsePositive := fp, falseNegative := fn, totalError := lit 0 })
    (pair float (pair float (pair float float)))

/-- StatisticAnalysis.hpp:104-125. -/
def Stats.codec : Codec F (Stats F) :=
  obj
    (fun s => (s.clusters, s.wellClassified, s.misclassified, s.globalRate, s.weightedRate, s.f1Score, s.mae, s.rmse,
      s.globalRateMax, s.weightedRateMax, s.f1ScoreMax, s.maeMin, s.rmseMin, s.globalBetter, s.weightedBetter, s.f1Better,
      s.maeBetter, s.rmseBetter))
    (fun (cl, w, m, g, wr, f1, mae, rmse, gm, wm, fm, mm, rm, gb, wb, fb, mb, rb) =>
      { clusters := cl, wellClassified := w, misclassified := m, globalRate := g, weightedRate := wr, f1Score := f1,
        mae := mae, rmse := rmse, globalRateMax := gm, weightedRateMax := wm, f1ScoreMax := fm, maeMin := mm, rmseMin := rm,
        globalBetter := gb, weightedBetter := wb, f1Better := fb, maeBetter := mb, rmseBetter := rb })
    (pair (vec Cluster.codec) (pair float (pair float (pair float (pair float (pair float (pair float (pair float
      (pair float (pair float (pair float (pair float (pair float (pair bool (pair bool (pair bool (pair bool
      bool)))))))))))))))))

/-- NeuralNetwork.hpp:82-102 (version 1); `outputNan` is not serialized, it keeps its initial value
(NeuralNetwork.hpp:27). -/
def Net.codec : Codec F (Net F) :=
  obj (fun n => (n.stats, n.numberOfTraining, n.layers, n.optimizer))
    (fun (s, k, ls, o) => { stats := s, outputNan := false, numberOfTraining := k, optimizer := o, layers := ls })
    (pair Stats.codec (pair int (pair (vec Layer.codec) Sgd.codec)))

/-- StraightforwardNeuralNetwork.hpp:125-137. -/
def Snn.codec : Codec F (Snn F) :=
  obj
    (fun s => (s.net, s.autoSaveFilePath, s.autoSaveWhenBetter, s.wantToStopTraining, s.index, s.isIdle, s.epoch,
      s.numberOfTrainingsBetweenTwoEvaluations))
    (fun (net, path, asb, wts, idx, idle, ep, nb) =>
      { net := net, wantToStopTraining := wts, isIdle := idle, index := idx, epoch := ep,
        numberOfTrainingsBetweenTwoEvaluations := nb, autoSaveWhenBetter := asb, autoSaveFilePath := path })
    (pair Net.codec (pair str (pair bool (pair bool (pair int (pair bool (pair int int)))))))

/-- The files of the machine. -/
abbrev Files (F : Type) := String → Option (Archive F)

/-- StraightforwardNeuralNetwork.cpp:286-292: the effect of a `saveSync` on the files; the other events write nothing. A file
that cannot be opened is not modelled. -/
def Event.apply : Event F → Files F → Files F
  | .saved path s, files => fun p => if p = path then some (Snn.codec.save s) else files p
  | _, files => files

/-- The files after the events of a run (newest first). -/
def filesAfter : List (Event F) → Files F → Files F
  | [], files => files
  | e :: es, files => e.apply (filesAfter es files)

/-- StraightforwardNeuralNetwork.cpp:295-302 `loadFrom`. -/
def loadFrom (files : Files F) (path : String) : Res (Snn F) :=
  match files path with
  | none => streamError
  | some a => do
    let (s, _) ← Snn.codec.load a
    return s

end

end Snn
