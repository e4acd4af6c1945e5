import Verif.Model.Layer
import Mathlib.Algebra.BigOperators.Group.Finset.Basic
import Mathlib.Algebra.BigOperators.Intervals
import Mathlib.Algebra.Field.Basic

/-!
# Specification of the layers (independent of the model of the layers)

A vector of inputs of shape (C, X) stores channel c of position x at `x*C + c`; of shape (C, X, Y) channel c of the pixel
(x, y) at `(y*X + x)*C + c`. The outputs of a filter layer with N filters store filter q of tile p at `p*N + q`.
-/

namespace Snn.Spec

open Finset

section
variable {F : Type} [Field F]

/-- Weight i of neuron q. -/
def weight (w : List (List F)) (q i : Nat) : F := (w.getD q []).getD i 0

/-- A fully connected layer of N neurons: `σ(Σ_i w_qi x_i + w_qn b)`. -/
def fullyConnected (σ : F → F) (b : F) (w : List (List F)) (x : List F) (N : Nat) : List F :=
  (List.range N).map fun q => σ ((∑ i ∈ range x.length, weight w q i * x.getD i 0) + weight w q x.length * b)

/-- Valid cross-correlation in one dimension: X positions, C channels, a kernel of K positions, N filters. -/
def conv1D (σ : F → F) (b : F) (w : List (List F)) (x : List F) (C X K N : Nat) : List F :=
  (List.range (X - K + 1)).flatMap fun p => (List.range N).map fun q =>
    σ ((∑ j ∈ range K, ∑ c ∈ range C, weight w q (j * C + c) * x.getD ((p + j) * C + c) 0) + weight w q (K * C) * b)

/-- Valid cross-correlation in two dimensions: X × Y pixels, C channels, a kernel of K × K pixels, N filters. -/
def conv2D (σ : F → F) (b : F) (w : List (List F)) (x : List F) (C X Y K N : Nat) : List F :=
  (List.range (Y - K + 1)).flatMap fun py => (List.range (X - K + 1)).flatMap fun px => (List.range N).map fun q =>
    σ ((∑ i ∈ range K, ∑ j ∈ range K, ∑ c ∈ range C,
      weight w q ((i * K + j) * C + c) * x.getD (((py + i) * X + (px + j)) * C + c) 0) + weight w q (K * K * C) * b)

/-- The value of channel c of position x, 0 outside of the input (padding). -/
def at1D (x : List F) (C X : Nat) (i c : Nat) : F := if i < X then x.getD (i * C + c) 0 else 0

/-- The value of channel c of pixel (i, j), 0 outside of the input (padding). -/
def at2D (x : List F) (C X Y : Nat) (i j c : Nat) : F := if i < X ∧ j < Y then x.getD ((j * X + i) * C + c) 0 else 0

/-- `⌈a / b⌉` -/
def ceil (a b : Nat) : Nat := a / b + if a % b = 0 then 0 else 1

/-- Locally connected layer in one dimension: neuron q of tile p has the index `p*N + q` and its own weights. -/
def locally1D (σ : F → F) (b : F) (w : List (List F)) (x : List F) (C X K N : Nat) : List F :=
  (List.range (ceil X K)).flatMap fun p => (List.range N).map fun q =>
    σ ((∑ j ∈ range K, ∑ c ∈ range C, weight w (p * N + q) (j * C + c) * at1D x C X (p * K + j) c)
      + weight w (p * N + q) (K * C) * b)

/-- Locally connected layer in two dimensions; tile (px, py) has the index `py * ⌈X/K⌉ + px`. -/
def locally2D (σ : F → F) (b : F) (w : List (List F)) (x : List F) (C X Y K N : Nat) : List F :=
  (List.range (ceil Y K)).flatMap fun py => (List.range (ceil X K)).flatMap fun px => (List.range N).map fun q =>
    σ ((∑ i ∈ range K, ∑ j ∈ range K, ∑ c ∈ range C,
        weight w ((py * ceil X K + px) * N + q) ((i * K + j) * C + c) * at2D x C X Y (px * K + j) (py * K + i) c)
      + weight w ((py * ceil X K + px) * N + q) (K * K * C) * b)

end

/-- Input i belongs to channel c of tile p of a pooling in one dimension: positions `p*K ... p*K+K-1` that exist. Output
`p*C + c` is the maximum over this tile. -/
def inTile1D (C X K p c i : Nat) : Prop := ∃ j < K, p * K + j < X ∧ i = (p * K + j) * C + c

/-- Input i belongs to channel c of tile (px, py) of a pooling in two dimensions. Output `(py*⌈X/K⌉ + px)*C + c` is the maximum
over this tile. -/
def inTile2D (C X Y K px py c i : Nat) : Prop :=
  ∃ a < K, ∃ b < K, px * K + a < X ∧ py * K + b < Y ∧ i = ((py * K + b) * X + (px * K + a)) * C + c

/-- Every output k below n is the maximum of the inputs of its tile; `arg k` is the position of this maximum. -/
structure MaxPooled {F : Type} [Field F] [LinearOrder F] (n : Nat) (tile : Nat → Nat → Prop) (x y : List F) (arg : Nat → Nat) : Prop where
  length : y.length = n
  exists_ : ∀ k < n, tile k (arg k) ∧ arg k < x.length
  value : ∀ k < n, y.getD k 0 = x.getD (arg k) 0
  max : ∀ k < n, ∀ i, tile k i → x.getD i 0 ≤ y.getD k 0

/-- The errors `e` of the outputs are sent back to the positions `arg` of the maxima and nowhere else. -/
structure SentBack {F : Type} [Field F] (n ni : Nat) (arg : Nat → Nat) (e errs : List F) : Prop where
  length : errs.length = ni
  sent : ∀ k < n, errs.getD (arg k) 0 = e.getD k 0
  others : ∀ i < ni, (∀ k < n, arg k ≠ i) → errs.getD i 0 = 0

/-- A shape of one dimension: X positions with C channels; `[X]` means one channel. -/
inductive Shape1D : List Int → Nat → Nat → Prop
  | positions (X : Nat) : Shape1D [(X : Int)] 1 X
  | channels (C X : Nat) : Shape1D [(C : Int), (X : Int)] C X

/-- The state of a layer after any number of uses with vectors of the right sizes: inference, training passes forward and
backward. -/
inductive Used {F : Type} [Flt F] [FTrans F] [Add F] [Sub F] [Mul F] [Div F] [Neg F] (ni no : Nat) (l0 : Layer F) : Layer F → Prop
  | new : Used ni no l0 l0
  | output {l l' : Layer F} {x y : List F} {t : Bool} (h : Used ni no l0 l) (hx : x.length = ni)
      (ho : l.output x t = .ok (y, l')) : Used ni no l0 l'
  | outputForTraining {l l' : Layer F} {x y : List F} {t : Bool} {d d' : Draws F} (h : Used ni no l0 l) (hx : x.length = ni)
      (ho : l.outputForTraining x t d = .ok (y, l', d')) : Used ni no l0 l'
  | backOutput {l l' : Layer F} {e y : List F} (h : Used ni no l0 l) (he : e.length = no)
      (ho : l.backOutput e = .ok (y, l')) : Used ni no l0 l'
  | train {l l' : Layer F} {e : List F} (h : Used ni no l0 l) (he : e.length = no) (ho : l.train e = .ok l') : Used ni no l0 l'

end Snn.Spec
