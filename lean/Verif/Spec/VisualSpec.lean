import Verif.Model.Visual
import Mathlib.Algebra.BigOperators.Intervals

/-!
# Specification of the bitmaps

A bitmap with N pictures of X × Y pixels is a grid of `a` columns and `b` rows, with one black line between the pictures. Picture f
is at column `f % a` and row `f / a`.
-/

namespace Snn.Spec

/-- The pixel (i, j) of picture f in a grid with `a` columns. -/
def gridPixel (a X Y f i j : Nat) : Int × Int := ((((f % a) * (X + 1) + i : Nat) : Int), (((f / a) * (Y + 1) + j : Nat) : Int))

/-- The bitmap shows N pictures of X × Y pixels, each in its own place, and nothing else: `v f i j` is at the pixel (i, j) of
picture f, which is inside of the bitmap, different (f, i, j) have different pixels, every other pixel is black, and no other value was ever drawn.
The grid is nearly square. -/
structure Shows {F : Type} (img : Image F) (N X Y : Nat) (v : Nat → Nat → Nat → List F) : Prop where
  grid : ∃ a b : Nat, 0 < a ∧ 0 < b ∧ N ≤ a * b ∧ a ≤ Nat.sqrt N + 1 ∧ b ≤ Nat.sqrt N + 1 ∧ img.width = (((X + 1) * a : Nat) : Int) - 1 ∧ img.height = (((Y + 1) * b : Nat) : Int) - 1 ∧
    (∀ f < N, ∀ i < X, ∀ j < Y, img.at (gridPixel a X Y f i j) = some (v f i j)) ∧
    (∀ f < N, ∀ i < X, ∀ j < Y, 0 ≤ (gridPixel a X Y f i j).1 ∧ (gridPixel a X Y f i j).1 < img.width ∧
      0 ≤ (gridPixel a X Y f i j).2 ∧ (gridPixel a X Y f i j).2 < img.height) ∧
    (∀ f < N, ∀ i < X, ∀ j < Y, ∀ f' < N, ∀ i' < X, ∀ j' < Y, gridPixel a X Y f i j = gridPixel a X Y f' i' j' → f = f' ∧ i = i' ∧ j = j') ∧
    (∀ p, (∀ f < N, ∀ i < X, ∀ j < Y, p ≠ gridPixel a X Y f i j) → img.at p = none) ∧
    ∀ w ∈ img.writes, ∃ f i j, f < N ∧ i < X ∧ j < Y ∧ w = (gridPixel a X Y f i j, v f i j)

end Snn.Spec

namespace Snn.Spec

open Finset

/-- What the library draws at the pixel (i, j) of the picture of filter f of a layer with `ox × oy` positions and kernel K: the sum of
the weights number `y*K + x` of the neurons number `n*(f+1)`, for the positions n and the kernel offsets (x, y) that fall on (i, j)
when the positions are one pixel apart. -/
def drawn {F : Type} [Field F] (weights : List (List F)) (ox oy K f i j : Nat) : F :=
  ∑ n ∈ range (ox * oy), ∑ y ∈ range K, ∑ x ∈ range K,
    if n % ox + x = i ∧ n / ox + y = j then (weights.getD (n * (f + 1)) []).getD (y * K + x) 0 else 0

end Snn.Spec
