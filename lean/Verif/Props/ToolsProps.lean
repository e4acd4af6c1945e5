import Verif.Model.Tools
import Mathlib.Tactic.Linarith
import Mathlib.Tactic.Ring
import Mathlib.Tactic.NormNum
import Mathlib.Tactic.Positivity

/-!
# Properties of the tools (C52, C53)
-/

set_option linter.all false

namespace Snn.Tools

/-- **C52, two dimensions (full).** In a box of at most 2^31-1 cells, `flatten` computes an index of the box and
`roughenX`/`roughenY` recover the coordinates; hence `flatten` is injective. -/
theorem C52_flatten2 (x y maxX maxY : Int) (hx0 : 0 ≤ x) (hx : x < maxX) (hy0 : 0 ≤ y) (hy : y < maxY)
    (hbox : maxX * maxY ≤ 2147483647) :
    ∃ i, flatten2 x y maxX = .ok i ∧ 0 ≤ i ∧ i < maxX * maxY ∧ roughenX2 i maxX = .ok x ∧ roughenY2 i maxX = .ok y := by
  have h1 : y * maxX + x < maxX * maxY := by nlinarith
  have h2 : 0 ≤ y * maxX := mul_nonneg hy0 (by omega)
  have hmx : maxX ≠ 0 := by omega
  have hxle : maxX ≤ maxX * maxY := by nlinarith
  have hyle : maxY ≤ maxX * maxY := by nlinarith
  refine ⟨y * maxX + x, ?_, by omega, h1, ?_, ?_⟩
  · unfold flatten2 mulI addI
    rw [ckInt_ok (by omega) (by omega)]
    simp only [Res.ok_bind]
    rw [ckInt_ok (by omega) (by omega)]
  · unfold roughenX2 modI
    rw [if_neg hmx, Int.tmod_eq_emod_of_nonneg (by omega)]
    have : (y * maxX + x) % maxX = x := by
      rw [add_comm, Int.add_mul_emod_self_right, Int.emod_eq_of_lt hx0 hx]
    rw [this, ckInt_ok (by omega) (by omega)]
  · unfold roughenY2 divI
    rw [if_neg hmx, Int.tdiv_eq_ediv_of_nonneg (by omega)]
    have : (y * maxX + x) / maxX = y := by
      rw [add_comm, Int.add_mul_ediv_right _ _ hmx, Int.ediv_eq_zero_of_lt hx0 hx, zero_add]
    rw [this, ckInt_ok (by omega) (by omega)]

/-- **C52, three dimensions, proved part.** In a box of at most 2^31-1 cells, the index is in the box, is injective, and
`roughenX`/`roughenY` recover their coordinates; `roughenZ` gives the position inside the plane instead of `z`. Missing: `roughenZ`
recovers `z`, see `C52_roughenZ_refuted`. -/
theorem C52_flatten3_partial (x y z maxX maxY maxZ : Int) (hx0 : 0 ≤ x) (hx : x < maxX) (hy0 : 0 ≤ y) (hy : y < maxY)
    (hz0 : 0 ≤ z) (hz : z < maxZ) (hbox : maxX * maxY * maxZ ≤ 2147483647) :
    ∃ i, flatten3 x y z maxX maxY = .ok i ∧ 0 ≤ i ∧ i < maxX * maxY * maxZ ∧
      roughenX3 i maxX maxY = .ok x ∧ roughenY3 i maxX maxY = .ok y ∧ roughenZ3 i maxX maxY = .ok (x + y * maxX) ∧
      (∀ x' y' z' : Int, 0 ≤ x' → x' < maxX → 0 ≤ y' → y' < maxY → 0 ≤ z' → z' < maxZ →
        flatten3 x' y' z' maxX maxY = .ok i → x' = x ∧ y' = y ∧ z' = z) := by
  have key : ∀ x y z : Int, 0 ≤ x → x < maxX → 0 ≤ y → y < maxY → 0 ≤ z → z < maxZ →
      flatten3 x y z maxX maxY = .ok ((x + y * maxX) + z * (maxX * maxY)) ∧
      0 ≤ x + y * maxX ∧ x + y * maxX < maxX * maxY ∧ (x + y * maxX) + z * (maxX * maxY) < maxX * maxY * maxZ := by
    intro x y z hx0 hx hy0 hy hz0 hz
    have h1 : x + y * maxX < maxX * maxY := by nlinarith
    have h0 : 0 ≤ y * maxX := mul_nonneg hy0 (by omega)
    have hp : 0 < maxX * maxY := by nlinarith
    have h2 : (x + y * maxX) + z * (maxX * maxY) < maxX * maxY * maxZ := by nlinarith
    have hz1 : 0 ≤ z * (maxX * maxY) := mul_nonneg hz0 hp.le
    have hz2 : z * maxY ≤ z * (maxX * maxY) := by
      apply mul_le_mul_of_nonneg_left _ hz0; nlinarith
    have hz3 : 0 ≤ z * maxY := mul_nonneg hz0 (by omega)
    have e : z * maxY * maxX = z * (maxX * maxY) := by ring
    refine ⟨?_, by omega, h1, h2⟩
    unfold flatten3 mulI addI
    rw [ckInt_ok (by omega) (by omega)]
    simp only [Res.ok_bind]
    rw [e, ckInt_ok (by omega) (by omega)]
    simp only [Res.ok_bind]
    rw [ckInt_ok (by omega) (by omega)]
    simp only [Res.ok_bind]
    rw [ckInt_ok (by omega) (by omega)]
    simp only [Res.ok_bind]
    rw [ckInt_ok (by omega) (by omega)]
    congr 1; ring
  obtain ⟨hf, h0, h1, h2⟩ := key x y z hx0 hx hy0 hy hz0 hz
  have hp : 0 < maxX * maxY := by nlinarith
  have hz1 : 0 ≤ z * (maxX * maxY) := mul_nonneg hz0 hp.le
  have hle : maxX * maxY ≤ maxX * maxY * maxZ := by nlinarith
  have hmod : ((x + y * maxX) + z * (maxX * maxY)).tmod (maxX * maxY) = x + y * maxX := by
    rw [Int.tmod_eq_emod_of_nonneg (by omega), Int.add_mul_emod_self_right, Int.emod_eq_of_lt h0 h1]
  have hmx : maxX ≠ 0 := by omega
  have hxle : maxX ≤ maxX * maxY := by nlinarith
  have hyle : maxY ≤ maxX * maxY := by nlinarith
  refine ⟨_, hf, by omega, h2, ?_, ?_, ?_, ?_⟩
  · unfold roughenX3 modI mulI
    rw [ckInt_ok (by omega) (by omega)]
    simp only [Res.ok_bind]
    rw [if_neg hp.ne', hmod, ckInt_ok (by omega) (by omega)]
    simp only [Res.ok_bind]
    rw [if_neg hmx, Int.tmod_eq_emod_of_nonneg (by omega), Int.add_mul_emod_self_right, Int.emod_eq_of_lt hx0 hx,
      ckInt_ok (by omega) (by omega)]
  · unfold roughenY3 modI divI mulI
    rw [ckInt_ok (by omega) (by omega)]
    simp only [Res.ok_bind]
    rw [if_neg hp.ne', hmod, ckInt_ok (by omega) (by omega)]
    simp only [Res.ok_bind]
    rw [if_neg hmx, Int.tdiv_eq_ediv_of_nonneg (by omega), Int.add_mul_ediv_right _ _ hmx, Int.ediv_eq_zero_of_lt hx0 hx, zero_add,
      ckInt_ok (by omega) (by omega)]
  · unfold roughenZ3 modI mulI
    rw [ckInt_ok (by omega) (by omega)]
    simp only [Res.ok_bind]
    rw [if_neg hp.ne', hmod, ckInt_ok (by omega) (by omega)]
  · intro x' y' z' hx0' hx' hy0' hy' hz0' hz' he
    obtain ⟨hf', h0', h1', h2'⟩ := key x' y' z' hx0' hx' hy0' hy' hz0' hz'
    rw [hf'] at he
    simp only [Res.ok.injEq] at he
    have a1 : ((x' + y' * maxX) + z' * (maxX * maxY)) / (maxX * maxY) = z' := by
      rw [Int.add_mul_ediv_right _ _ hp.ne', Int.ediv_eq_zero_of_lt h0' h1', zero_add]
    have a2 : ((x + y * maxX) + z * (maxX * maxY)) / (maxX * maxY) = z := by
      rw [Int.add_mul_ediv_right _ _ hp.ne', Int.ediv_eq_zero_of_lt h0 h1, zero_add]
    have hzz : z' = z := by rw [← a1, he, a2]
    subst hzz
    have he2 : x' + y' * maxX = x + y * maxX := by omega
    have b1 : (x' + y' * maxX) / maxX = y' := by
      rw [Int.add_mul_ediv_right _ _ hmx, Int.ediv_eq_zero_of_lt hx0' hx', zero_add]
    have b2 : (x + y * maxX) / maxX = y := by
      rw [Int.add_mul_ediv_right _ _ hmx, Int.ediv_eq_zero_of_lt hx0 hx, zero_add]
    have hyy : y' = y := by rw [← b1, he2, b2]
    subst hyy
    exact ⟨by omega, rfl, rfl⟩

/-- Non-vacuity of C52. -/
example : flatten3 2 1 3 4 2 = .ok 30 ∧ roughenX3 30 4 2 = .ok 2 ∧ roughenY3 30 4 2 = .ok 1 := by decide +kernel

/-- **C52, refutation of the full property.** `roughenZ` does not recover `z`: for the cell (0,0,1) of a 2×2×2 box it gives 0. -/
theorem C52_roughenZ_refuted : ∃ i, flatten3 0 0 1 2 2 = .ok i ∧ roughenZ3 i 2 2 = .ok 0 := ⟨4, by decide +kernel, by decide +kernel⟩

/-! ### C53 -/

section
variable {F : Type} [Field F] [LinearOrder F]

/-- **C53, extrema, proved part.** For vectors of at least two elements, `getMinValue`/`getMaxValue` return an element of the
vector that bounds all others. Missing: vectors of one element, see `C53_singleton_refuted`. -/
theorem C53_extrema_partial (v : List F) (h : 2 ≤ v.length) :
    (∃ m, getMinValue v = .ok m ∧ m ∈ v ∧ ∀ x ∈ v, m ≤ x) ∧ (∃ m, getMaxValue v = .ok m ∧ m ∈ v ∧ ∀ x ∈ v, x ≤ m) := by
  cases v with
  | nil => simp at h
  | cons x xs =>
    unfold getMinValue getMaxValue
    rw [if_pos (by omega), if_pos (by omega)]
    have hmin : ∀ (xs : List F) (m : F), let r := xs.foldl (fun m y => if flt y m then y else m) m
        (r = m ∨ r ∈ xs) ∧ r ≤ m ∧ ∀ y ∈ xs, r ≤ y := by
      intro xs
      induction xs with
      | nil => intro m; simp
      | cons y ys ih =>
        intro m
        simp only [List.foldl_cons]
        by_cases c : y < m
        · rw [if_pos ((flt_iff y m).2 c)]
          obtain ⟨a, b, d⟩ := ih y
          refine ⟨?_, le_trans b c.le, ?_⟩
          · rcases a with a | a
            · right; rw [a]; exact List.mem_cons_self
            · right; exact List.mem_cons_of_mem _ a
          · intro z hz
            rcases List.mem_cons.1 hz with rfl | hz
            · exact b
            · exact d z hz
        · rw [if_neg (fun hh => c ((flt_iff y m).1 hh))]
          obtain ⟨a, b, d⟩ := ih m
          refine ⟨?_, b, ?_⟩
          · rcases a with a | a
            · left; exact a
            · right; exact List.mem_cons_of_mem _ a
          · intro z hz
            rcases List.mem_cons.1 hz with rfl | hz
            · exact le_trans b (not_lt.1 c)
            · exact d z hz
    have hmax : ∀ (xs : List F) (m : F), let r := xs.foldl (fun m y => if flt m y then y else m) m
        (r = m ∨ r ∈ xs) ∧ m ≤ r ∧ ∀ y ∈ xs, y ≤ r := by
      intro xs
      induction xs with
      | nil => intro m; simp
      | cons y ys ih =>
        intro m
        simp only [List.foldl_cons]
        by_cases c : m < y
        · rw [if_pos ((flt_iff m y).2 c)]
          obtain ⟨a, b, d⟩ := ih y
          refine ⟨?_, le_trans c.le b, ?_⟩
          · rcases a with a | a
            · right; rw [a]; exact List.mem_cons_self
            · right; exact List.mem_cons_of_mem _ a
          · intro z hz
            rcases List.mem_cons.1 hz with rfl | hz
            · exact b
            · exact d z hz
        · rw [if_neg (fun hh => c ((flt_iff m y).1 hh))]
          obtain ⟨a, b, d⟩ := ih m
          refine ⟨?_, b, ?_⟩
          · rcases a with a | a
            · left; exact a
            · right; exact List.mem_cons_of_mem _ a
          · intro z hz
            rcases List.mem_cons.1 hz with rfl | hz
            · exact le_trans (not_lt.1 c) b
            · exact d z hz
    obtain ⟨a, b, c⟩ := hmin xs x
    obtain ⟨a', b', c'⟩ := hmax xs x
    refine ⟨⟨_, rfl, by simpa using a, ?_⟩, ⟨_, rfl, by simpa using a', ?_⟩⟩
    · intro y hy
      rcases List.mem_cons.1 hy with rfl | hy
      · exact b
      · exact c y hy
    · intro y hy
      rcases List.mem_cons.1 hy with rfl | hy
      · exact b'
      · exact c' y hy

end

/-- **C53, refutation.** `getMinValue`/`getMaxValue` throw "Vector is empty" for every vector of one element. -/
theorem C53_singleton_refuted {F : Type} [Flt F] (x : F) :
    getMinValue [x] = .throw "Vector is empty" ∧ getMaxValue [x] = .throw "Vector is empty" := ⟨rfl, rfl⟩

/-- **C53.** `flatten` of a vector of vectors is their concatenation. -/
theorem C53_flatten {α : Type} (v : List (List α)) : flattenVec v = v.flatten := by
  unfold flattenVec
  suffices H : ∀ acc, v.foldl (fun acc r => acc ++ r) acc = acc ++ v.flatten by simpa using H []
  induction v with
  | nil => intro acc; simp
  | cons r v ih => intro acc; simp [ih]

theorem padLoop_spec (length : Nat) : ∀ (fuel : Nat) (s : List Char), length ≤ s.length + fuel →
    padLoop length fuel s = List.replicate (length - s.length) ' ' ++ s := by
  intro fuel
  induction fuel with
  | zero => intro s h; have : length - s.length = 0 := by omega
            simp [padLoop, this]
  | succ fuel ih =>
    intro s h
    unfold padLoop
    by_cases c : s.length < length
    · rw [if_pos c, ih (' ' :: s) (by simp; omega)]
      have : length - s.length = (length - (' ' :: s).length) + 1 := by simp; omega
      rw [this, List.replicate_succ']
      simp
    · rw [if_neg c]
      have : length - s.length = 0 := by omega
      simp [this]

/-- **C53.** `toConstSizeString` pads the number on the left with spaces, to exactly the requested length when the number fits. -/
theorem C53_const_size (value : Int) (length : Nat) :
    toConstSizeString value length = List.replicate (length - (toString value).toList.length) ' ' ++ (toString value).toList ∧
    (toConstSizeString value length).length = max length (toString value).toList.length := by
  unfold toConstSizeString
  rw [padLoop_spec length length _ (by omega)]
  refine ⟨rfl, ?_⟩
  simp
  omega

/-- **C53, random integers, proved part.** `randomBetween(min, max)` is in `[min, max)` for every draw, when `max > 0`.
Missing: `max ≤ 0`, see `C53_random_refuted`. -/
theorem C53_random_partial (min max : Int) (u : ℚ) (h1 : (min : ℚ) ≤ u) (h2 : u < max) (hpos : 0 < max) :
    min ≤ randomBetween u ∧ randomBetween u < max := by
  unfold randomBetween truncI
  by_cases c : u < 0
  · rw [if_pos c]
    have hc : ⌈u⌉ ≤ 0 := Int.ceil_le.2 (by simpa using c.le)
    refine ⟨?_, by omega⟩
    have := Int.le_ceil u
    have h3 : (min : ℚ) ≤ (⌈u⌉ : ℚ) := le_trans h1 this
    exact_mod_cast h3
  · rw [if_neg c]
    exact ⟨Int.le_floor.2 h1, Int.floor_lt.2 h2⟩

/-- **C53, refutation.** `randomBetween(-2, 0)` returns 0, outside of `[-2, 0)`, for the draw -1/2. -/
theorem C53_random_refuted : ∃ u : ℚ, ((-2 : Int) : ℚ) ≤ u ∧ u < ((0 : Int) : ℚ) ∧ randomBetween u = 0 :=
  ⟨-1/2, by norm_num, by norm_num, by decide +kernel⟩

/-- **C53.** `randomVector` has the requested size, and every element is one of the draws. -/
theorem C53_random_vector {F : Type} (draw : Nat → F) (size : Nat) :
    (randomVector draw size).length = size ∧ ∀ i < size, (randomVector draw size)[i]? = some (draw i) := by
  refine ⟨by simp [randomVector], ?_⟩
  intro i hi
  simp [randomVector, hi]

/-- Non-vacuity of C53. -/
example : getMinValue [3, 1, (2 : ℚ)] = .ok 1 ∧ getMaxValue [3, 1, (2 : ℚ)] = .ok 3 ∧ toConstSizeString 42 5 = [' ', ' ', ' ', '4', '2'] ∧
    randomBetween (7/2) = 3 := by decide +kernel

end Snn.Tools
