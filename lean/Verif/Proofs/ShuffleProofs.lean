import Verif.Model.Shuffle
import Mathlib.Data.List.Perm.Basic

/-! `shuffleList` is a permutation, whatever the draws. -/

set_option linter.all false

namespace Snn

theorem swapAt_perm {α : Type} (l : List α) (i j : Nat) : (swapAt l i j).Perm l := by
  unfold swapAt
  split
  · rename_i a b h1 h2
    obtain ⟨hi, rfl⟩ := List.getElem?_eq_some_iff.1 h1
    obtain ⟨hj, rfl⟩ := List.getElem?_eq_some_iff.1 h2
    have h := Array.swap_perm (xs := l.toArray) (i := i) (j := j) (by simpa using hi) (by simpa using hj)
    have h' := Array.perm_iff_toList_perm.1 h
    rw [Array.swap_def] at h'
    simpa using h'
  · exact List.Perm.refl _

theorem swapAt_length {α : Type} (l : List α) (i j : Nat) : (swapAt l i j).length = l.length :=
  (swapAt_perm l i j).length_eq

theorem shuffleRounds_perm {α : Type} (r : Rng) (l : List α) (k : Nat) : (shuffleRounds r l k).Perm l := by
  induction k with
  | zero => exact List.Perm.refl _
  | succ k ih => exact (swapAt_perm _ _ _).trans ih

theorem shuffleList_perm {α : Type} (r : Rng) (l : List α) : (shuffleList r l).Perm l :=
  shuffleRounds_perm r l l.length

@[simp] theorem shuffleList_nil {α : Type} (r : Rng) : shuffleList r ([] : List α) = [] := rfl

end Snn
