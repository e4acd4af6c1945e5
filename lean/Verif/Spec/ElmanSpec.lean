import Verif.Spec.LayerSpec

/-!
# Specification of the recurrent layers (independent of the model of the layers)
-/

namespace Snn.Spec

open Finset

section
variable {F : Type} [Field F]

/-- One step of a recurrent layer of N neurons: `σ(Σ_i w_qi x_i + w_qn h_q + w_q(n+1))`, `h` are the previous outputs: every neuron sees
its own previous output. -/
def recurrentStep (σ : F → F) (w : List (List F)) (N : Nat) (h x : List F) : List F :=
  (List.range N).map fun q => σ ((∑ i ∈ range x.length, weight w q i * x.getD i 0) + weight w q x.length * h.getD q 0
    + weight w q (x.length + 1))

/-- The outputs of a recurrent layer on a sequence of inputs, from the previous outputs `h`. -/
def recurrentRun (σ : F → F) (w : List (List F)) (N : Nat) : List F → List (List F) → List (List F)
  | _, [] => []
  | h, x :: xs => recurrentStep σ w N h x :: recurrentRun σ w N (recurrentStep σ w N h x) xs

/-- The affine form of gate k (0: reset, 1: update, 2: candidate) of a unit whose gates have one weight per input, one for the recurrent
input `h` and one for the bias. -/
def gate (w : List F) (k : Nat) (x : List F) (h : F) : F :=
  (∑ i ∈ range x.length, w.getD (k * (x.length + 2) + i) 0 * x.getD i 0) + w.getD (k * (x.length + 2) + x.length) 0 * h
    + w.getD (k * (x.length + 2) + x.length + 1) 0

/-- One step of a gated recurrent layer of N units, with the share `keep` of the previous output in the blend:
`r = σ(gate 0)`, `z = σ(gate 1)`, `c = τ(gate 2 with r h)`, and the output is `(1 - z) keep(h) + z c`. A GRU has `keep(h) = h`. -/
def gatedStep (σ τ keep : F → F) (w : List (List F)) (N : Nat) (h x : List F) : List F :=
  (List.range N).map fun q =>
    let r := σ (gate (w.getD q []) 0 x (h.getD q 0))
    let z := σ (gate (w.getD q []) 1 x (h.getD q 0))
    let c := τ (gate (w.getD q []) 2 x (h.getD q 0 * r))
    (1 - z) * keep (h.getD q 0) + z * c

/-- The outputs of a gated recurrent layer on a sequence of inputs. -/
def gatedRun (σ τ keep : F → F) (w : List (List F)) (N : Nat) : List F → List (List F) → List (List F)
  | _, [] => []
  | h, x :: xs => gatedStep σ τ keep w N h x :: gatedRun σ τ keep w N (gatedStep σ τ keep w N h x) xs

end

/-- The outputs of a layer used on a sequence of inputs, each with its flag of temporal reset. -/
def outputs {F : Type} [Flt F] [FTrans F] [Add F] [Sub F] [Mul F] [Div F] [Neg F] (l : Layer F) : List (List F × Bool) → Res (List (List F) × Layer F)
  | [] => .ok ([], l)
  | (x, t) :: xs => do
    let (y, l1) ← l.output x t
    let (ys, l2) ← outputs l1 xs
    return (y :: ys, l2)

end Snn.Spec
