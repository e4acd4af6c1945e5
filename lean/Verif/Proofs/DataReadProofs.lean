import Verif.Proofs.DataProofs

/-! Helper lemmas on the getters of `Data`. -/

set_option linter.all false

namespace Snn

theorem mapM_ok {α β : Type} (f : α → Res β) (g : α → β) (l : List α) (h : ∀ x ∈ l, f x = .ok (g x)) :
    l.mapM f = .ok (l.map g) := by
  induction l with
  | nil => rfl
  | cons a l ih =>
    simp only [List.mapM_cons, List.map_cons]
    rw [h a (by simp), ih (fun x hx => h x (by simp [hx]))]
    rfl

section
variable {F : Type} [Add F] [Div F] [Flt F]

theorem readInput_eq (d : Data F) (i : Nat) :
    d.readInput i = (rd d.training.shuffledIndexes i >>= fun k => rd d.training.inputs (k : Int)) := by
  unfold Data.readInput Data.getTrainingData getBatched
  cases h : rd d.training.shuffledIndexes (i : Int) with
  | ok k =>
    simp only [Res.ok_bind, le_refl, if_true]
    cases h2 : rd d.training.inputs (k : Int) <;> simp
  | throw m => simp
  | ub m => simp

theorem readOutput_eq (d : Data F) (i : Nat) :
    d.readOutput i = (rd d.training.shuffledIndexes i >>= fun k => rd d.training.labels (k : Int)) := by
  unfold Data.readOutput Data.getTrainingOutputs getBatched
  cases h : rd d.training.shuffledIndexes (i : Int) with
  | ok k =>
    simp only [Res.ok_bind, le_refl, if_true]
    cases h2 : rd d.training.labels (k : Int) <;> simp
  | throw m => simp
  | ub m => simp

theorem readInput_ok (d : Data F) (i : Nat) (hi : i < d.training.shuffledIndexes.length)
    (hk : d.training.shuffledIndexes[i] < d.training.inputs.length) :
    d.readInput i = .ok (d.training.inputs[d.training.shuffledIndexes[i]]) := by
  rw [readInput_eq, rd_nat _ i hi]; simp only [Res.ok_bind]; exact rd_nat _ _ hk

theorem readOutput_ok (d : Data F) (i : Nat) (hi : i < d.training.shuffledIndexes.length)
    (hk : d.training.shuffledIndexes[i] < d.training.labels.length) :
    d.readOutput i = .ok (d.training.labels[d.training.shuffledIndexes[i]]) := by
  rw [readOutput_eq, rd_nat _ i hi]; simp only [Res.ok_bind]; exact rd_nat _ _ hk

/-- Reading through a permutation of the indices reads a permutation of the rows. -/
theorem read_perm {α : Type} [Inhabited α] (ix : List Nat) (rows : List α)
    (h : ix.Perm (List.range rows.length)) : (ix.map fun k => rows.getD k default).Perm rows := by
  have := h.map (fun k => rows.getD k default)
  refine this.trans ?_
  have e : (List.range rows.length).map (fun k => rows.getD k default) = rows := by
    apply List.ext_getElem
    · simp
    · intro i h1 h2
      simp [List.getD_eq_getElem?_getD, List.getElem?_eq_getElem h2]
  rw [e]

theorem range_map_ix {α : Type} (ix : List Nat) (f : Nat → α) :
    (List.range ix.length).map (fun i => f (ix.getD i 0)) = ix.map f := by
  apply List.ext_getElem
  · simp
  · intro i h1 h2
    simp at h1
    simp [List.getD_eq_getElem?_getD, List.getElem?_eq_getElem h1]

theorem readInputs_eq (d : Data F) (n : Nat) (hl : d.training.shuffledIndexes.length = n)
    (hb : ∀ x ∈ d.training.shuffledIndexes, x < d.training.inputs.length) :
    d.readInputs n = .ok (d.training.shuffledIndexes.map fun k => d.training.inputs.getD k default) := by
  subst hl
  unfold Data.readInputs
  rw [mapM_ok _ (fun i => d.training.inputs.getD (d.training.shuffledIndexes.getD i 0) default)]
  · rw [range_map_ix _ (fun k => d.training.inputs.getD k default)]
  · intro i hi
    have hi := List.mem_range.1 hi
    have hk := hb _ (List.getElem_mem hi)
    rw [readInput_ok d i hi hk]
    simp [List.getD_eq_getElem?_getD, List.getElem?_eq_getElem hi, List.getElem?_eq_getElem hk]

theorem readExamples_eq (d : Data F) (n : Nat) (hl : d.training.shuffledIndexes.length = n)
    (hb : ∀ x ∈ d.training.shuffledIndexes, x < d.training.inputs.length)
    (hb2 : ∀ x ∈ d.training.shuffledIndexes, x < d.training.labels.length) :
    d.readExamples n = .ok (d.training.shuffledIndexes.map
      fun k => (d.training.inputs.zip d.training.labels).getD k default) := by
  subst hl
  unfold Data.readExamples
  rw [mapM_ok _ (fun i => (d.training.inputs.zip d.training.labels).getD (d.training.shuffledIndexes.getD i 0) default)]
  · rw [range_map_ix _ (fun k => (d.training.inputs.zip d.training.labels).getD k default)]
  · intro i hi
    have hi := List.mem_range.1 hi
    have hk := hb _ (List.getElem_mem hi)
    have hk2 := hb2 _ (List.getElem_mem hi)
    rw [readInput_ok d i hi hk, readOutput_ok d i hi hk2]
    simp only [Res.ok_bind, Res.pure_eq]
    congr 1
    rw [List.getD_eq_getElem?_getD, List.getD_eq_getElem?_getD, List.getElem?_eq_getElem hi]
    simp only [Option.getD_some]
    rw [List.getElem?_eq_getElem (by rw [List.length_zip]; omega)]
    simp

end

section
variable {F : Type} [Flt F]

theorem make2_inv (p : Problem) (ti tl si sl : List (List F)) (nat : Nature) (rec : Int) (d : Data F)
    (h : Data.make2 p ti tl si sl nat rec = .ok d) : DInv d ∧ d.training.inputs = ti ∧ d.training.labels = tl ∧
      d.testing.inputs = si ∧ d.testing.labels = sl ∧ d.training.size = tl.length ∧ d.testing.size = sl.length ∧
      d.typeOfTemporal = nat ∧ d.typeOfProblem = p ∧ d.numberOfRecurrences = rec ∧ ti ≠ [] ∧ tl ≠ [] ∧
      d.training.shuffledIndexes = List.range tl.length ∧ d.temporalIsValid = 0 :=
  initialize_inv _ d ti tl si sl h

theorem make1_inv (p : Problem) (ti tl : List (List F)) (nat : Nature) (rec : Int) (d : Data F)
    (h : Data.make1 p ti tl nat rec = .ok d) : DInv d ∧ d.training.inputs = ti ∧ d.training.labels = tl ∧
      d.testing.inputs = ti ∧ d.testing.labels = tl ∧ d.training.size = tl.length ∧ d.testing.size = tl.length ∧
      d.typeOfTemporal = nat ∧ d.typeOfProblem = p ∧ d.numberOfRecurrences = rec ∧ ti ≠ [] ∧ tl ≠ [] ∧
      d.training.shuffledIndexes = List.range tl.length ∧ d.temporalIsValid = 0 :=
  initialize_inv _ d ti tl ti tl h

end

end Snn
