import Mathlib.Algebra.BigOperators.Group.Finset.Basic
import Mathlib.Algebra.BigOperators.Intervals
import Mathlib.Algebra.Field.Basic

/-!
# Specification of neurons (independent of the model)
-/

namespace Snn.Spec

open Finset

/-- The affine form of a neuron: `Σ_i w_i x_i + w_n b` where `n` is the number of inputs. -/
def affine {F : Type} [Field F] (w x : List F) (b : F) : F :=
  (∑ i ∈ range x.length, w.getD i 0 * x.getD i 0) + w.getD x.length 0 * b

/-- The affine form of a recurrent neuron: `Σ_i w_i x_i + w_n y + w_{n+1} b` where `y` is its previous output. -/
def affineRec {F : Type} [Field F] (w x : List F) (y b : F) : F :=
  (∑ i ∈ range x.length, w.getD i 0 * x.getD i 0) + w.getD x.length 0 * y + w.getD (x.length + 1) 0 * b

end Snn.Spec
