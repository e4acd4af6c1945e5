import Verif.Spec.UnitsSpec
import Verif.Basic.Rel
import Verif.Props.DataProps
import Verif.Demo.Demo

/-! # C113: after `normalize`, the units of the inputs do not matter -/

set_option linter.all false

namespace Snn.Units

open Snn.Spec

section
variable {F : Type} [Flt F] [Add F] [Mul F]

theorem back_units (a b : Nat → F) (rows : List (List F)) : Res.Rel (fun x y => x.length = y.length) (backOf rows) (backOf (otherUnits a b rows)) := by
  unfold backOf otherUnits
  rw [List.getLast?_map]
  cases rows.getLast? with
  | none => exact rfl
  | some r => simp [Res.Rel]

theorem initialize_rel (a b : Nat → F) (d : Data F) (i l ti tl : List (List F)) :
    Res.Rel (fun x y => y = inUnits a b x) (d.initialize i l ti tl) (d.initialize (otherUnits a b i) l (otherUnits a b ti) tl) := by
  unfold Data.initialize
  refine Res.Rel.bind (back_units a b i) ?_
  intro x y hxy
  refine Res.Rel.bind (R := fun x y => x = y) (Res.Rel.eq (β := List F)) ?_
  rintro z _ rfl
  dsimp only
  refine Res.Rel.bind (R := fun x y => y = inUnits a b x) ?_ ?_
  · unfold Data.makeTemporalComposite
    dsimp only
    cases d.typeOfTemporal with
    | nonTemporal => simp only [Res.Rel, inUnits, hxy]
    | sequential => simp only [Res.Rel, inUnits, hxy]
    | timeSeries =>
      dsimp only
      split
      · exact rfl
      · refine Res.Rel.bind (R := fun x y => x = y) (Res.Rel.eq (β := List Bool)) ?_
        rintro z _ rfl
        simp only [Res.Rel, inUnits, hxy]
  · rintro u _ rfl
    have : (inUnits a b u).isValid = u.isValid := by
      unfold Data.isValid Data.problemIsValid Data.temporalIsValid inUnits otherUnits
      simp only [List.length_map]
    rw [this]
    refine Res.Rel.bind (R := fun x y => x = y) (Res.Rel.eq (β := Nat)) ?_
    rintro e _ rfl
    split
    · exact rfl
    · exact rfl

theorem of_rel {α β : Type} {f : α → β} {x : Res α} {y : Res β} (h : Res.Rel (fun x y => y = f x) x y) : y = f <$> x := by
  cases x <;> cases y <;> simp only [Res.Rel] at h
  · subst h; rfl
  all_goals subst h; rfl

theorem initialize_units (a b : Nat → F) (d : Data F) (i l ti tl : List (List F)) :
    d.initialize (otherUnits a b i) l (otherUnits a b ti) tl = inUnits a b <$> d.initialize i l ti tl := of_rel (initialize_rel a b d i l ti tl)

theorem flattenLoop_units (a b : Nat → F) (ev : Bool) : ∀ (v : List (List (List F))) (i : Nat) (x y : List Bool),
    flattenLoop ev (v.map (otherUnits a b)) i x y = flattenLoop ev v i x y
  | [], _, _, _ => rfl
  | v :: vs, i, x, y => by
    simp only [List.map_cons, flattenLoop, flattenLoop_units a b ev vs]
    simp [otherUnits]

/-- The examples of a set in other units. -/
def setUnits (a b : Nat → F) (s : DSet F) : DSet F := { s with inputs := otherUnits a b s.inputs }

theorem flatten_units (a b : Nat → F) (s : DSet F) (t : Bool) (v : List (List (List F))) :
    Res.Rel (fun x y => y = setUnits a b x) (s.flatten t v) (s.flatten t (v.map (otherUnits a b))) := by
  have e1 : (v.map (otherUnits a b)).map List.length = v.map List.length := by simp [otherUnits, Function.comp_def]
  have e2 : (v.map (otherUnits a b)).flatten = otherUnits a b v.flatten := by
    unfold otherUnits
    rw [List.map_flatten]
  unfold DSet.flatten
  rw [e1, e2]
  simp only [flattenLoop_units]
  refine Res.Rel.bind (R := fun x y => x = y) (Res.Rel.eq (β := List Bool × List Bool)) ?_
  rintro ⟨x, y⟩ _ rfl
  simp only [Res.Rel, Res.pure_eq, setUnits, otherUnits, List.length_map]

/-- **C113, construction**, for every carrier: building a data object from inputs in other units gives the object in other units (or fails in the same way); the
four constructors. -/
theorem C113_constructors (a b : Nat → F) (p : Problem) (nat : Nature) (rec : Int) :
    (∀ i l ti tl : List (List F), Data.make2 p (otherUnits a b i) l (otherUnits a b ti) tl nat rec = inUnits a b <$> Data.make2 p i l ti tl nat rec) ∧
    (∀ i l : List (List F), Data.make1 p (otherUnits a b i) l nat rec = inUnits a b <$> Data.make1 p i l nat rec) ∧
    (∀ (i ti : List (List (List F))) (l tl : List (List F)), Data.make2seq p (i.map (otherUnits a b)) l (ti.map (otherUnits a b)) tl nat rec
      = inUnits a b <$> Data.make2seq p i l ti tl nat rec) ∧
    (∀ (i : List (List (List F))) (l : List (List F)), Data.make1seq p (i.map (otherUnits a b)) l nat rec
      = inUnits a b <$> Data.make1seq p i l nat rec) := by
  refine ⟨fun i l ti tl => initialize_units a b _ i l ti tl, fun i l => initialize_units a b _ i l i l, fun i ti l tl => ?_, fun i l => ?_⟩
  · refine of_rel ?_
    unfold Data.make2seq
    split
    · exact rfl
    · refine Res.Rel.bind (flatten_units a b _ false i) ?_
      rintro tr _ rfl
      refine Res.Rel.bind (flatten_units a b _ true ti) ?_
      rintro te _ rfl
      exact initialize_rel a b { (Data.blank p nat rec : Data F) with training := tr, testing := te } tr.inputs l te.inputs tl
  · refine of_rel ?_
    unfold Data.make1seq
    split
    · exact rfl
    · refine Res.Rel.bind (flatten_units a b _ true i) ?_
      rintro te _ rfl
      exact initialize_rel a b { (Data.blank p nat rec : Data F) with
        training := { (Data.blank p nat rec : Data F).training with
          numberOfTemporalSequence := te.numberOfTemporalSequence, inputs := te.inputs, areFirst := te.areFirst, size := te.size }
        testing := te } te.inputs l te.inputs l

end

section
variable {F : Type} [Field F] [LinearOrder F] [IsStrictOrderedRing F]

theorem bounds_unique {rows : List (List F)} {j : Nat} (hne : rows ≠ []) {mn mx : F} (h1 : ∃ r ∈ rows, r.getD j 0 = mn) (h2 : ∃ r ∈ rows, r.getD j 0 = mx)
    (h : ∀ r ∈ rows, mn ≤ r.getD j 0 ∧ r.getD j 0 ≤ mx) : colBounds rows j = (mn, mx) := by
  obtain ⟨⟨r, hr, er⟩, ⟨s, hs, es⟩, c⟩ := colBounds_spec rows j hne
  obtain ⟨t, ht, rfl⟩ := h1
  obtain ⟨u, hu, rfl⟩ := h2
  refine Prod.ext (le_antisymm (c t ht).1 ?_) (le_antisymm ?_ (c u hu).2)
  · rw [← er]; exact (h r hr).1
  · rw [← es]; exact (h s hs).2

/-- **C113, normalization** (exact arithmetic): inputs given in other units — each component multiplied by a positive factor of its own and shifted by a constant
of its own, in training and testing inputs alike — are normalized to the same data object, bit for bit, when the rows have the declared size and every component
takes two different values in the training inputs. Everything done afterwards with the object is therefore the same. -/
theorem C113_normalize (a b : Nat → F) (ha : ∀ j, 0 < a j) (d : Data F) (lo hi : F) (hne : d.training.inputs ≠ [])
    (h1 : ∀ r ∈ d.training.inputs, r.length = d.sizeOfData) (h2 : ∀ r ∈ d.testing.inputs, r.length = d.sizeOfData)
    (hvar : ∀ j < d.sizeOfData, ∃ r ∈ d.training.inputs, ∃ s ∈ d.training.inputs, r.getD j 0 ≠ s.getD j 0) :
    ∃ e, d.normalize lo hi = .ok e ∧ (inUnits a b d).normalize lo hi = .ok e := by
  have hu : ∀ rows : List (List F), (∀ r ∈ rows, r.length = d.sizeOfData) → ∀ r ∈ otherUnits a b rows, r.length = d.sizeOfData := by
    intro rows h r hr
    obtain ⟨s, hs, rfl⟩ := List.mem_map.1 hr
    simpa using h s hs
  have r1 := normalizeLoop_ok lo hi d.sizeOfData d.sizeOfData 0 d.training.inputs d.testing.inputs (by omega) hne h1 h2
  have r2 := normalizeLoop_ok lo hi d.sizeOfData d.sizeOfData 0 (otherUnits a b d.training.inputs) (otherUnits a b d.testing.inputs) (by omega)
    (by simpa [otherUnits] using hne) (hu _ h1) (hu _ h2)
  have hg : ∀ r : List F, ∀ j < r.length, (r.mapIdx fun j x => a j * x + b j).getD j 0 = a j * r.getD j 0 + b j := by
    intro r j hj
    simp [List.getD_eq_getElem?_getD, List.getElem?_mapIdx, List.getElem?_eq_getElem hj]
  have hb : ∀ j < d.sizeOfData, colBounds (otherUnits a b d.training.inputs) j =
      (a j * (colBounds d.training.inputs j).1 + b j, a j * (colBounds d.training.inputs j).2 + b j) := by
    intro j hj
    obtain ⟨⟨r, hr, er⟩, ⟨s, hs, es⟩, c⟩ := colBounds_spec d.training.inputs j hne
    refine bounds_unique (by simpa [otherUnits] using hne) ⟨_, List.mem_map.2 ⟨r, hr, rfl⟩, ?_⟩ ⟨_, List.mem_map.2 ⟨s, hs, rfl⟩, ?_⟩ ?_
    · rw [hg r j (by rw [h1 r hr]; exact hj), er]
    · rw [hg s j (by rw [h1 s hs]; exact hj), es]
    · intro r' hr'
      obtain ⟨t, ht, rfl⟩ := List.mem_map.1 hr'
      rw [hg t j (by rw [h1 t ht]; exact hj)]
      obtain ⟨c1, c2⟩ := c t ht
      exact ⟨by nlinarith [ha j], by nlinarith [ha j]⟩
  have hval : ∀ j < d.sizeOfData, ∀ x, normVal (otherUnits a b d.training.inputs) lo hi j (a j * x + b j) = normVal d.training.inputs lo hi j x := by
    intro j hj x
    unfold normVal
    rw [hb j hj]
    obtain ⟨_, _, c⟩ := colBounds_spec d.training.inputs j hne
    obtain ⟨r, hr, s, hs, hrs⟩ := hvar j hj
    have hd : (colBounds d.training.inputs j).2 - (colBounds d.training.inputs j).1 ≠ 0 := by
      intro h0
      exact hrs (le_antisymm (by linarith [(c r hr).2, (c s hs).1]) (by linarith [(c s hs).2, (c r hr).1]))
    have haj := (ha j).ne'
    unfold normalizeValue
    have e1 : feq ((colBounds d.training.inputs j).2 - (colBounds d.training.inputs j).1) (lit 0 : F) = false := by
      rw [feq_false_iff]; simpa using hd
    have e2 : a j * (colBounds d.training.inputs j).2 + b j - (a j * (colBounds d.training.inputs j).1 + b j)
        = a j * ((colBounds d.training.inputs j).2 - (colBounds d.training.inputs j).1) := by ring
    have e3 : feq (a j * ((colBounds d.training.inputs j).2 - (colBounds d.training.inputs j).1)) (lit 0 : F) = false := by
      rw [feq_false_iff]; simp only [lit_eq, Rat.cast_zero]; exact mul_ne_zero haj hd
    have e4 : a j * x + b j - (a j * (colBounds d.training.inputs j).1 + b j) = a j * (x - (colBounds d.training.inputs j).1) := by ring
    dsimp only
    rw [e2, e1, e3, e4]
    simp only [Bool.not_false, if_true]
    rw [mul_div_mul_left _ _ haj]
  have hm : ∀ rows : List (List F), (∀ r ∈ rows, r.length = d.sizeOfData) →
      (otherUnits a b rows).map (mapRange (normVal (otherUnits a b d.training.inputs) lo hi) 0 (0 + d.sizeOfData)) =
        rows.map (mapRange (normVal d.training.inputs lo hi) 0 (0 + d.sizeOfData)) := by
    intro rows h
    unfold otherUnits
    rw [List.map_map]
    refine List.map_congr_left fun r hr => ?_
    unfold mapRange
    simp only [Function.comp]
    apply List.ext_getElem?
    intro j
    simp only [List.getElem?_mapIdx, Option.map_map]
    by_cases hj : j < r.length
    · rw [List.getElem?_eq_getElem hj]
      have hj' : j < d.sizeOfData := by rw [← h r hr]; exact hj
      simp only [Option.map_some, Function.comp, Nat.zero_add, Nat.zero_le, hj', and_self, if_true]
      rw [← hval j hj']
      rfl
    · rw [List.getElem?_eq_none (by omega)]; rfl
  unfold Data.normalize inUnits
  dsimp only
  rw [r1, r2, hm _ h1, hm _ h2]
  exact ⟨_, rfl, rfl⟩

end

/-! ### Non-vacuity -/

/-- Two temperatures in degrees Celsius. -/
def celsius : Data ℚ := (Data.make2 .regression [[10, 0], [20, 5], [40, 25]] [[1], [0], [1]] [[30, 10]] [[0]] .nonTemporal 0).get (by decide +kernel)

/-- The same in degrees Fahrenheit and in kelvins. -/
def scaleOf : Nat → ℚ := fun j => if j = 0 then 9/5 else 1
def shiftOf : Nat → ℚ := fun j => if j = 0 then 32 else 273

example : (inUnits scaleOf shiftOf celsius).training.inputs = [[50, 273], [68, 278], [104, 298]] := by decide +kernel

example : ∃ e, celsius.normalize 0 1 = .ok e ∧ (inUnits scaleOf shiftOf celsius).normalize 0 1 = .ok e ∧ e.training.inputs = [[0, 0], [1/3, 1/5], [1, 1]] ∧
    e.testing.inputs = [[2/3, 2/5]] := by
  obtain ⟨e, h1, h2⟩ := C113_normalize scaleOf shiftOf (by intro j; unfold scaleOf; split <;> norm_num) celsius 0 1 (by decide +kernel) (by decide +kernel)
    (by decide +kernel) (by decide +kernel)
  have h3 := Res.eq_get (celsius.normalize 0 1) (by decide +kernel)
  have h4 := Res.ok.inj (h1.symm.trans h3)
  subst h4
  exact ⟨_, h1, h2, by decide +kernel, by decide +kernel⟩

/-- Without two different values of the component the units matter: 5 °C everywhere is left as 5, 41 °F as 41 (`C08_constant_refuted`). -/
theorem C113_constant : ∃ d e e' : Data ℚ, Data.make2 .regression [[5], [5]] [[1], [0]] [] [] .nonTemporal 0 = .ok d ∧ d.normalize 0 1 = .ok e ∧
    (inUnits (fun _ => 9/5) (fun _ => 32) d).normalize 0 1 = .ok e' ∧ e.training.inputs = [[5], [5]] ∧ e'.training.inputs = [[41], [41]] := by
  refine ⟨Res.get _ (by decide +kernel), Res.get _ (by decide +kernel), Res.get _ (by decide +kernel), Res.eq_get _ _, Res.eq_get _ _, Res.eq_get _ _, by decide +kernel,
    by decide +kernel⟩

end Snn.Units
