import Verif.Basic.Res

/-!
# Model of `std::ranges::shuffle` (used by `src/data/Composite*.cpp`)

The C++ standard only requires "a uniformly random permutation". Both libstdc++ and the MSVC library
implement it as a sequence of swaps of element `i` with an earlier-or-equal random element, for
`i = 1, 2, …`. The random draws are an arbitrary function (`Rng`), so a theorem holds for every outcome.
-/

namespace Snn

/-- The random draws of one call: `r i` is the raw draw used for position `i`. -/
abbrev Rng := Nat → Nat

/-- `std::iter_swap(first + i, first + j)`. -/
def swapAt {α : Type} (l : List α) (i j : Nat) : List α :=
  match l[i]?, l[j]? with
  | some a, some b => (l.set i b).set j a
  | _, _ => l

/-- The first `k` rounds of the shuffle: round `i` swaps element `i` with element `r i % (i+1)`. -/
def shuffleRounds {α : Type} (r : Rng) (l : List α) : Nat → List α
  | 0 => l
  | k + 1 => swapAt (shuffleRounds r l k) k (r k % (k + 1))

/-- `std::ranges::shuffle(v, rng)`. -/
def shuffleList {α : Type} (r : Rng) (l : List α) : List α := shuffleRounds r l l.length

end Snn
