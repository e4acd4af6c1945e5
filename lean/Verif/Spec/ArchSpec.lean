import Verif.Model.Training
import Verif.Spec.LayerSpec

/-!
# Specification of architectures (independent of the factory)

What the documentation says a layer makes of an input shape. Shapes are lists of positive numbers `[X]`, `[C, X]`, `[C, X, Y]`.
-/

namespace Snn.Spec

section
variable {F : Type}

/-- `Fits m s s'`: a layer `m` on inputs of shape s has outputs of shape s'. The cases in which the code does not do what is
documented are left out: pooling in one dimension with several channels, tiles in two dimensions with more tiles in x than in y. -/
inductive Fits : LayerModel F → List Nat → List Nat → Prop
  | fullyConnected {n : Nat} {act : Act} {opts : List (LayerOptModel F)} {s : List Nat} (hn : 0 < n) :
      Fits (.fullyConnected n act opts) s [n]
  | recurrence {n : Nat} {act : Act} {opts : List (LayerOptModel F)} {s : List Nat} (hn : 0 < n) :
      Fits (.recurrence n act opts) s [n]
  | gru {n : Nat} {opts : List (LayerOptModel F)} {s : List Nat} (hn : 0 < n) : Fits (.gru n opts) s [n]
  | convolution1 {f k x : Nat} {act : Act} {opts : List (LayerOptModel F)} (hf : 0 < f) (hk : 0 < k) (hx : k ≤ x) :
      Fits (.convolution f k act opts) [x] [f, x - k + 1]
  | convolution1D {f k c x : Nat} {act : Act} {opts : List (LayerOptModel F)} (hf : 0 < f) (hk : 0 < k) (hx : k ≤ x) :
      Fits (.convolution f k act opts) [c, x] [f, x - k + 1]
  | convolution2D {f k c x y : Nat} {act : Act} {opts : List (LayerOptModel F)} (hf : 0 < f) (hk : 0 < k) (hx : k ≤ x) (hy : k ≤ y) :
      Fits (.convolution f k act opts) [c, x, y] [f, x - k + 1, y - k + 1]
  | locally1 {f k x : Nat} {act : Act} {opts : List (LayerOptModel F)} (hf : 0 < f) (hk : 0 < k) (hx : k ≤ x) :
      Fits (.locallyConnected f k act opts) [x] [f, ceil x k]
  | locally1D {f k c x : Nat} {act : Act} {opts : List (LayerOptModel F)} (hf : 0 < f) (hk : 0 < k) (hx : k ≤ x) :
      Fits (.locallyConnected f k act opts) [c, x] [f, ceil x k]
  | locally2D {f k c x y : Nat} {act : Act} {opts : List (LayerOptModel F)} (hf : 0 < f) (hk : 0 < k) (hx : k ≤ x) (hy : k ≤ y)
      (hxy : ceil x k ≤ ceil y k) : Fits (.locallyConnected f k act opts) [c, x, y] [f, ceil x k, ceil y k]
  | pool1 {k x : Nat} (hk : 0 < k) (hx : k ≤ x) : Fits (.maxPooling k) [x] [1, ceil x k]
  | pool1D {k x : Nat} (hk : 0 < k) (hx : k ≤ x) : Fits (.maxPooling k) [1, x] [1, ceil x k]
  | pool2D {k c x y : Nat} (hk : 0 < k) (hx : k ≤ x) (hy : k ≤ y) (hxy : ceil x k ≤ ceil y k) :
      Fits (.maxPooling k) [c, x, y] [c, ceil x k, ceil y k]

/-- A shape: at least one dimension, all positive, and a number of values that layers accept (the code accepts 1000000 inputs
of a layer and 1000000 weights of a neuron, of which two are not inputs). -/
structure GoodShape (s : List Nat) : Prop where
  ne : s ≠ []
  pos : ∀ v ∈ s, 0 < v
  small : s.prod ≤ 999998

/-- The layers `ms` fit one after the other from shape s to shape s'. -/
inductive Chain : List (LayerModel F) → List Nat → List Nat → Prop
  | nil {s : List Nat} (hs : GoodShape s) : Chain [] s s
  | cons {m : LayerModel F} {ms : List (LayerModel F)} {s s' s'' : List Nat} (hs : GoodShape s) (hm : Fits m s s') (hc : Chain ms s' s'') :
      Chain (m :: ms) s s''

/-- A well formed architecture: an input and at least one layer, at most 1000 in all, and fitting shapes. -/
structure WellFormed (arch : List (LayerModel F)) (s s' : List Nat) : Prop where
  layers : ∃ m rest, arch = .input (s.map (fun v : Nat => (v : Int))) :: m :: rest ∧ Chain (m :: rest) s s'
  count : arch.length ≤ 1000

/-- The last layer of an architecture has neurons for outputs: it is neither a convolution nor a pooling. -/
def EndsWithNeurons (arch : List (LayerModel F)) : Prop :=
  match arch.getLast? with
  | some (.convolution ..) => False
  | some (.maxPooling _) => False
  | _ => True

/-- The kernel is at most as large as the input: shapes `[X]`, `[C, X]`, `[C, X, Y]`; other shapes have no kernels. -/
def KernelFits (k : Int) : List Int → Prop
  | [x] => k ≤ x
  | [_, x] => k ≤ x
  | [_, x, y] => k ≤ x ∧ k ≤ y
  | _ => False

/-- What is required of a layer on inputs of a shape. -/
def Acceptable (m : LayerModel F) (shape : List Int) : Prop :=
  shape ≠ [] ∧ shape.prod ≤ 1000000 ∧
    match m with
    | .input _ => False
    | .fullyConnected .. => 0 < shape.prod
    | .maxPooling k => KernelFits k shape
    | .locallyConnected _ k _ _ => KernelFits k shape
    | .convolution _ k _ _ => KernelFits k shape
    | .recurrence .. => True
    | .gru .. => True

/-- A layer that cannot follow outputs of shape s: an Input, or a kernel larger than the input (or an input of more than three
dimensions for a layer with kernels). -/
def BadLayer (m : LayerModel F) (s : List Nat) : Prop :=
  match m with
  | .input _ => True
  | .maxPooling k => ¬ KernelFits k (s.map fun v : Nat => (v : Int))
  | .locallyConnected _ k _ _ => ¬ KernelFits k (s.map fun v : Nat => (v : Int))
  | .convolution _ k _ _ => ¬ KernelFits k (s.map fun v : Nat => (v : Int))
  | _ => False

/-- Malformed architectures: empty or not starting with an Input, an Input alone, more than 1000 layers, an Input without
dimension, more than a million inputs, or a bad layer after layers that fit. -/
inductive Malformed : List (LayerModel F) → Prop
  | empty : Malformed []
  | noInput {m : LayerModel F} {ms : List (LayerModel F)} (h : ∀ s, m ≠ .input s) : Malformed (m :: ms)
  | alone {shape : List Int} : Malformed [.input shape]
  | tooMany {arch : List (LayerModel F)} (h : 1000 < arch.length) : Malformed arch
  | noDimension {m : LayerModel F} {ms : List (LayerModel F)} : Malformed (.input [] :: m :: ms)
  | tooLarge {s : List Nat} {m : LayerModel F} {ms : List (LayerModel F)} (hp : ∀ v ∈ s, 0 < v) (h : 1000000 < s.prod) (h2 : s.prod < 2 ^ 31) :
      Malformed (.input (s.map fun v : Nat => (v : Int)) :: m :: ms)
  | badLayer {s s' : List Nat} {pre post : List (LayerModel F)} {m : LayerModel F} (hc : Chain pre s s') (hm : BadLayer m s') :
      Malformed (.input (s.map fun v : Nat => (v : Int)) :: (pre ++ m :: post))

/-- The layers `ls` are the layers `ms`, each acceptable on the output shape of the previous one (the first one on `shape`) and
with as many inputs as that shape has values. -/
inductive Linked : List (LayerModel F) → List Int → List (Layer F) → Prop
  | nil {shape : List Int} : Linked [] shape []
  | cons {m : LayerModel F} {ms : List (LayerModel F)} {shape : List Int} {l : Layer F} {ls : List (Layer F)}
      (hm : Acceptable m shape) (hl : l.numberOfInputs = shape.prod) (hs : Linked ms l.getShapeOfOutput ls) :
      Linked (m :: ms) shape (l :: ls)

end

end Snn.Spec
