import Verif.Basic.Round32
import Verif.Proofs.DataBatchProofs

/-! C08 on IEEE binary32. -/

set_option linter.all false

namespace Snn.FloatProps

open B32

/-- The zero of binary32 (only to fill rows that are too short, which there are none of). -/
local instance : Zero B32 := ⟨num 0⟩

theorem bounds_num (x : ℚ) (xs : List ℚ) :
    columnBounds (num x) (xs.map num) = (num (columnBounds x xs).1, num (columnBounds x xs).2) := by
  unfold columnBounds
  suffices H : ∀ (xs : List ℚ) (a b : ℚ),
      (xs.map num).foldl (fun (mm : B32 × B32) x => if flt x mm.1 then (x, mm.2) else if flt mm.2 x then (mm.1, x) else mm) (num a, num b) =
      (num (xs.foldl (fun (mm : ℚ × ℚ) x => if flt x mm.1 then (x, mm.2) else if flt mm.2 x then (mm.1, x) else mm) (a, b)).1,
       num (xs.foldl (fun (mm : ℚ × ℚ) x => if flt x mm.1 then (x, mm.2) else if flt mm.2 x then (mm.1, x) else mm) (a, b)).2) from H xs x x
  intro xs
  induction xs with
  | nil => intro a b; rfl
  | cons z xs ih =>
    intro a b
    rw [List.map_cons, List.foldl_cons, List.foldl_cons]
    have e : ∀ u v : ℚ, flt (num u) (num v) = flt u v := fun u v => rfl
    simp only [e]
    split
    · exact ih z b
    · split
      · exact ih a z
      · exact ih a b

/-- Two different binary32 values differ by at least the least positive one. -/
theorem rep_gap {a b : ℚ} (ha : Rep a) (hb : Rep b) (h : a < b) : (2 : ℚ) ^ (-149 : ℤ) ≤ b - a := by
  have mul : ∀ {x : ℚ}, Rep x → ∃ z : ℤ, x = z * (2 : ℚ) ^ (-149 : ℤ) := by
    rintro x ⟨k, e, _, he, rfl⟩
    refine ⟨k * 2 ^ (e + 149).toNat, ?_⟩
    push_cast
    rw [mul_assoc, ← zpow_natCast, ← zpow_add₀ (by norm_num)]
    congr 2
    omega
  obtain ⟨x, rfl⟩ := mul ha
  obtain ⟨y, rfl⟩ := mul hb
  have hp : (0 : ℚ) < 2 ^ (-149 : ℤ) := zpow_pos (by norm_num) _
  have hxy : x < y := by exact_mod_cast lt_of_mul_lt_mul_right h hp.le
  have : (1 : ℚ) ≤ y - x := by
    have : (x : ℚ) + 1 ≤ y := by exact_mod_cast hxy
    linarith
  nlinarith

/-- The new value of a number between the bounds of its component. -/
def image (mn mx lo hi x : ℚ) : ℚ := rnd (rnd (rnd (rnd (x - mn) / rnd (mx - mn)) * (hi - lo)) + lo)

theorem rep_top {k : ℕ} : Rep ((2 : ℚ) ^ k) := ⟨1, k, by norm_num, by omega, by simp⟩

/-- Numbers that are not so great that a difference overflows. -/
def Small (x : ℚ) : Prop := Rep x ∧ |x| ≤ 2 ^ 126

theorem value_num {mn mx lo hi x : ℚ} (hmn : Small mn) (hmx : Small mx) (hx : Small x) (hlo : Small lo) (hhi : Small hi) (hd : Rep (hi - lo))
    (hlt : mn < mx) (h1 : mn ≤ x) (h2 : x ≤ mx) (hle : lo ≤ hi) :
    normalizeValue (num mn) (num mx) (num lo) (num hi) (num x) = num (image mn mx lo hi x) ∧
      lo ≤ image mn mx lo hi x ∧ image mn mx lo hi x ≤ hi := by
  have sub : ∀ {a b : ℚ}, Small a → Small b → (num a - num b : B32) = num (rnd (a - b)) := by
    intro a b ha hb
    show ofRat (a + -b) = _
    rw [← sub_eq_add_neg]
    refine ofRat_num (y := 2 ^ 127) ?_ rep_top (by norm_num)
    have a1 := abs_le.1 ha.2
    have b1 := abs_le.1 hb.2
    rw [abs_le]
    constructor <;> norm_num at * <;> linarith
  have hD : 0 < rnd (mx - mn) :=
    lt_of_lt_of_le (zpow_pos (by norm_num) _) (le_rnd (rep_gap hmn.1 hmx.1 hlt) ⟨1, -149, by norm_num, by norm_num, by simp⟩)
  have n0 : 0 ≤ rnd (x - mn) := rnd_nonneg (by linarith)
  have n1 : rnd (x - mn) ≤ rnd (mx - mn) := rnd_mono (by linarith)
  have q0 : 0 ≤ rnd (x - mn) / rnd (mx - mn) := div_nonneg n0 hD.le
  have q1 : rnd (x - mn) / rnd (mx - mn) ≤ 1 := by rw [div_le_one hD]; exact n1
  have t0 : 0 ≤ rnd (rnd (x - mn) / rnd (mx - mn)) := rnd_nonneg q0
  have t1 : rnd (rnd (x - mn) / rnd (mx - mn)) ≤ 1 := rnd_le q1 rep_one
  have H0 : 0 ≤ hi - lo := by linarith
  have hHs : hi - lo < 2 ^ 128 := by
    have a1 := (abs_le.1 hhi.2).2
    have b1 := (abs_le.1 hlo.2).1
    norm_num at *; linarith
  have m1 : rnd (rnd (x - mn) / rnd (mx - mn)) * (hi - lo) ≤ hi - lo := by nlinarith
  have m0 : 0 ≤ rnd (rnd (x - mn) / rnd (mx - mn)) * (hi - lo) := mul_nonneg t0 H0
  have p0 : 0 ≤ rnd (rnd (rnd (x - mn) / rnd (mx - mn)) * (hi - lo)) := rnd_nonneg m0
  have p1 : rnd (rnd (rnd (x - mn) / rnd (mx - mn)) * (hi - lo)) ≤ hi - lo := rnd_le m1 hd
  refine ⟨?_, le_rnd (by linarith) hlo.1, rnd_le (by linarith) hhi.1⟩
  unfold normalizeValue
  simp only [sub hmx hmn, sub hx hmn, sub hhi hlo]
  have hf : feq (num (rnd (mx - mn))) (lit 0 : B32) = false := by
    have : (lit 0 : B32) = num 0 := by show ofRat 0 = _; simp [ofRat]
    rw [this]
    have hne : rnd (mx - mn) ≠ 0 := hD.ne'
    simp [feq, hne]
  rw [hf]
  simp only [Bool.not_false, if_true]
  have e1 : (num (rnd (x - mn)) / num (rnd (mx - mn)) : B32) = num (rnd (rnd (x - mn) / rnd (mx - mn))) := by
    show (if rnd (mx - mn) = 0 then _ else ofRat _) = _
    rw [if_neg hD.ne']
    exact ofRat_num (y := 1) (by rw [abs_of_nonneg q0]; exact q1) rep_one (by norm_num)
  rw [e1, rnd_rep hd]
  have e2 : (num (rnd (rnd (x - mn) / rnd (mx - mn))) * num (hi - lo) : B32) = num (rnd (rnd (rnd (x - mn) / rnd (mx - mn)) * (hi - lo))) := by
    show ofRat _ = _
    exact ofRat_num (y := hi - lo) (by rw [abs_of_nonneg m0]; exact m1) hd hHs
  rw [e2, num_add]
  refine ofRat_num (y := 2 ^ 126) ?_ rep_top (by norm_num)
  have a1 := abs_le.1 hhi.2
  have b1 := abs_le.1 hlo.2
  rw [abs_le]
  constructor <;> linarith

theorem image_mono {mn mx lo hi x y : ℚ} (hlt : mn ≤ mx) (hle : lo ≤ hi) (h : x ≤ y) : image mn mx lo hi x ≤ image mn mx lo hi y := by
  unfold image
  apply rnd_mono
  have hD : 0 ≤ rnd (mx - mn) := rnd_nonneg (by linarith)
  have : rnd (rnd (x - mn) / rnd (mx - mn)) ≤ rnd (rnd (y - mn) / rnd (mx - mn)) :=
    rnd_mono (div_le_div_of_nonneg_right (rnd_mono (by linarith)) hD)
  have : rnd (rnd (rnd (x - mn) / rnd (mx - mn)) * (hi - lo)) ≤ rnd (rnd (rnd (y - mn) / rnd (mx - mn)) * (hi - lo)) :=
    rnd_mono (mul_le_mul_of_nonneg_right this (by linarith))
  linarith

theorem image_ends {mn mx lo hi : ℚ} (hmn : Small mn) (hmx : Small mx) (hlt : mn < mx) (hlo : Rep lo) (hhi : Rep hi) (hd : Rep (hi - lo)) :
    image mn mx lo hi mn = lo ∧ image mn mx lo hi mx = hi := by
  have hD : 0 < rnd (mx - mn) :=
    lt_of_lt_of_le (zpow_pos (by norm_num) _) (le_rnd (rep_gap hmn.1 hmx.1 hlt) ⟨1, -149, by norm_num, by norm_num, by simp⟩)
  unfold image
  constructor
  · rw [sub_self, rnd_zero, zero_div, rnd_zero, zero_mul, rnd_zero, zero_add, rnd_rep hlo]
  · rw [div_self hD.ne', rnd_rep rep_one, one_mul, rnd_rep hd, sub_add_cancel, rnd_rep hhi]

/-- **C08, on IEEE binary32.** The training inputs are numbers (below 2^126 in magnitude), each component takes at least two values, and
the bounds and their difference are binary32 values (as for [0, 1] or [-1, 1]). Then `normalize` returns; every training component is a
number in [lo, hi], both ends are reached exactly, and the order of the values of a component is kept. Missing: bounds whose difference
is rounded (`C08_float_refuted`), constant components (`C08_constant_refuted`). -/
theorem C08_float_partial (d : Data B32) (q : List (List ℚ)) (w : Nat) (lo hi : ℚ) (hq : d.training.inputs = q.map (List.map num))
    (hlo : Small lo) (hhi : Small hi) (hd : Rep (hi - lo)) (hle : lo ≤ hi) (hne : q ≠ []) (hw : d.sizeOfData = w)
    (h1 : ∀ r ∈ q, r.length = w) (h2 : ∀ r ∈ d.testing.inputs, r.length = w) (hs : ∀ r ∈ q, ∀ x ∈ r, Small x)
    (hvar : ∀ j < w, ∃ a ∈ q, ∃ b ∈ q, a.getD j 0 ≠ b.getD j 0) :
    ∃ (d' : Data B32) (q' : List (List ℚ)), d.normalize (num lo) (num hi) = .ok d' ∧ d'.training.inputs = q'.map (List.map num) ∧ q'.length = q.length ∧
      (∀ r ∈ q', r.length = w ∧ ∀ x ∈ r, lo ≤ x ∧ x ≤ hi) ∧
      (∀ j < w, (∃ r ∈ q', r[j]? = some lo) ∧ ∃ r ∈ q', r[j]? = some hi) ∧
      (∀ j < w, ∀ (a b : Nat) r s r' s' x y x' y', q[a]? = some r → q[b]? = some s → q'[a]? = some r' → q'[b]? = some s' →
        r[j]? = some x → s[j]? = some y → r'[j]? = some x' → s'[j]? = some y' → x ≤ y → x' ≤ y') := by
  -- the bounds of each component
  have hb : ∀ j < w, ∃ mn mx : ℚ, colBounds (q.map (List.map num)) j = (num mn, num mx) ∧ mn < mx ∧ Small mn ∧ Small mx ∧
      (∀ r ∈ q, mn ≤ r.getD j 0 ∧ r.getD j 0 ≤ mx) ∧ (∃ r ∈ q, r.getD j 0 = mn) ∧ ∃ r ∈ q, r.getD j 0 = mx := by
    intro j hj
    have hcol : col (q.map (List.map num)) j = (q.map fun r => r.getD j 0).map num := by
      unfold col
      rw [List.map_map, List.map_map]
      apply List.map_congr_left
      intro r hr
      have hjr : j < r.length := by rw [h1 r hr]; exact hj
      simp [List.getD_eq_getElem?_getD, List.getElem?_map, List.getElem?_eq_getElem hjr]
    have hsm : ∀ r ∈ q, Small (r.getD j 0) := by
      intro r hr
      have hjr : j < r.length := by rw [h1 r hr]; exact hj
      rw [List.getD_eq_getElem?_getD, List.getElem?_eq_getElem hjr, Option.getD_some]
      exact hs r hr _ (List.getElem_mem _)
    obtain ⟨r0, qs, rfl⟩ : ∃ r0 qs, q = r0 :: qs := by cases q with | nil => exact absurd rfl hne | cons a b => exact ⟨a, b, rfl⟩
    obtain ⟨c1, c2, c3⟩ := columnBounds_spec (r0.getD j 0) (qs.map fun r => r.getD j 0)
    have hmap : r0.getD j 0 :: qs.map (fun r => r.getD j 0) = (r0 :: qs).map fun r => r.getD j 0 := rfl
    rw [hmap] at c1 c2 c3
    obtain ⟨r1, hr1, e1⟩ := List.mem_map.1 c1
    obtain ⟨r2, hr2, e2⟩ := List.mem_map.1 c2
    refine ⟨_, _, ?_, ?_, ?_, ?_, ?_, ⟨r1, hr1, e1⟩, ⟨r2, hr2, e2⟩⟩
    · unfold colBounds
      rw [hcol]
      exact bounds_num _ _
    · obtain ⟨a, ha, b, hb, hab⟩ := hvar j hj
      have x := c3 _ (List.mem_map_of_mem (f := fun r : List ℚ => r.getD j 0) ha)
      have y := c3 _ (List.mem_map_of_mem (f := fun r : List ℚ => r.getD j 0) hb)
      by_contra hc
      push Not at hc
      exact hab (le_antisymm (by linarith [x.2, y.1]) (by linarith [x.1, y.2]))
    · rw [← e1]; exact hsm r1 hr1
    · rw [← e2]; exact hsm r2 hr2
    · intro r hr; exact c3 _ (List.mem_map_of_mem (f := fun r : List ℚ => r.getD j 0) hr)
  choose! mn mx hbd hlt smn smx hin hmin hmax using hb
  have hval : ∀ r ∈ q, ∀ j x, r[j]? = some x →
      normVal (q.map (List.map num)) (num lo) (num hi) j (num x) = num (image (mn j) (mx j) lo hi x) ∧
      lo ≤ image (mn j) (mx j) lo hi x ∧ image (mn j) (mx j) lo hi x ≤ hi := by
    intro r hr j x hx
    have hjr : j < r.length := by by_contra hc; rw [List.getElem?_eq_none (by omega)] at hx; cases hx
    have hj : j < w := by rw [← h1 r hr]; exact hjr
    have hxm : x ∈ r := List.mem_of_getElem? hx
    have := hin j hj r hr
    rw [List.getD_eq_getElem?_getD, hx, Option.getD_some] at this
    unfold normVal
    rw [hbd j hj]
    exact value_num (smn j hj) (smx j hj) (hs r hr x hxm) hlo hhi hd (hlt j hj) this.1 this.2 hle
  let g : List ℚ → List ℚ := fun r => r.mapIdx fun j x => image (mn j) (mx j) lo hi x
  have gget : ∀ (r : List ℚ) (j : Nat), (g r)[j]? = (r[j]?).map (image (mn j) (mx j) lo hi) := by
    intro r j; simp only [g, List.getElem?_mapIdx]
  have hrun := normalizeLoop_ok (num lo) (num hi) w w 0 d.training.inputs d.testing.inputs (by omega) (by rw [hq]; simpa using hne)
    (by rw [hq]; intro r hr; obtain ⟨r', hr', rfl⟩ := List.mem_map.1 hr; simpa using h1 r' hr') h2
  rw [Nat.zero_add] at hrun
  have htr : d.training.inputs.map (mapRange (normVal d.training.inputs (num lo) (num hi)) 0 w) = (q.map g).map (List.map num) := by
    rw [hq, List.map_map, List.map_map]
    apply List.map_congr_left
    intro r hr
    simp only [Function.comp]
    unfold mapRange
    apply List.ext_getElem?
    intro i
    rw [List.getElem?_mapIdx, List.getElem?_map, List.getElem?_map, gget]
    cases hx : r[i]? with
    | none => rfl
    | some x =>
      have hi' : i < w := by
        rw [← h1 r hr]; by_contra hc; rw [List.getElem?_eq_none (by omega)] at hx; cases hx
      simp only [Option.map_some]
      rw [if_pos ⟨by omega, hi'⟩, (hval r hr i x hx).1]
  refine ⟨_, q.map g, by unfold Data.normalize; rw [hw, hrun, Res.ok_bind]; rfl, htr, by simp, ?_, ?_, ?_⟩
  · intro r hr
    obtain ⟨r0, hr0, rfl⟩ := List.mem_map.1 hr
    refine ⟨by simp [g, h1 r0 hr0], ?_⟩
    intro x hx
    obtain ⟨j, hj, rfl⟩ := List.getElem_of_mem hx
    have e := gget r0 j
    rw [List.getElem?_eq_getElem hj] at e
    cases hy : r0[j]? with
    | none => rw [hy] at e; cases e
    | some y =>
      rw [hy] at e
      injection e with e
      rw [e]
      exact (hval r0 hr0 j y hy).2
  · intro j hj
    have ends := image_ends (smn j hj) (smx j hj) (hlt j hj) hlo.1 hhi.1 hd
    have get : ∀ r ∈ q, r[j]? = some (r.getD j 0) := by
      intro r hr
      have hjr : j < r.length := by rw [h1 r hr]; exact hj
      rw [List.getD_eq_getElem?_getD, List.getElem?_eq_getElem hjr, Option.getD_some]
    constructor
    · obtain ⟨r, hr, e⟩ := hmin j hj
      refine ⟨g r, List.mem_map_of_mem hr, ?_⟩
      rw [gget, get r hr, Option.map_some, e, ends.1]
    · obtain ⟨r, hr, e⟩ := hmax j hj
      refine ⟨g r, List.mem_map_of_mem hr, ?_⟩
      rw [gget, get r hr, Option.map_some, e, ends.2]
  · intro j hj a b r s r' s' x y x' y' ha hb' ha' hb'' hx hy hx' hy' hxy
    rw [List.getElem?_map, ha] at ha'
    rw [List.getElem?_map, hb'] at hb''
    cases ha'
    cases hb''
    rw [gget, hx] at hx'
    rw [gget, hy] at hy'
    cases hx'
    cases hy'
    exact image_mono (hlt j hj).le hle hxy

/-- The data 0, 1/2, 1 for the refutation and the witness. -/
def threeRows : Data B32 :=
  (Data.make1 .regression [[lit 0], [lit (1/2)], [lit 1]] [[lit 0], [lit 0], [lit 0]] .nonTemporal 0 : Res (Data B32)).get (by decide +kernel)

/-- **C08 is false on IEEE binary32 for some bounds**: `normalize(-1, 0.1f)` on the inputs 0, 1/2 and 1 sends 1 to a number greater than
0.1f, because 0.1f + 1 is rounded. -/
theorem C08_float_refuted : ∃ d' hi v, threeRows.normalize (lit (-1)) (lit (1/10)) = .ok d' ∧ (lit (1/10) : B32) = num hi ∧
    (d'.training.inputs.map fun r => r[0]?)[2]? = some (some (num v)) ∧ hi < v := by
  refine ⟨_, 13421773 / 134217728, 838861 / 8388608, Res.eq_get _ (by decide +kernel), by decide +kernel, by decide +kernel, by norm_num⟩

/-- The hypotheses of `C08_float_partial` are met by these data and the bounds -1 and 1. -/
example : ∃ (d' : Data B32) (q' : List (List ℚ)), threeRows.normalize (num (-1)) (num 1) = .ok d' ∧ d'.training.inputs = q'.map (List.map num) ∧
    ∀ r ∈ q', r.length = 1 ∧ ∀ x ∈ r, (-1 : ℚ) ≤ x ∧ x ≤ 1 := by
  have s : ∀ k e : ℤ, |k| ≤ 2 → (-149 ≤ e) → e ≤ 0 → Small (k * 2 ^ e) := by
    intro k e hk he he'
    refine ⟨⟨k, e, by omega, he, rfl⟩, ?_⟩
    rw [abs_mul, abs_of_pos (zpow_pos (by norm_num) e : (0 : ℚ) < 2 ^ e)]
    have h1 : (2 : ℚ) ^ e ≤ 1 := by
      calc (2 : ℚ) ^ e ≤ 2 ^ (0 : ℤ) := zpow_le_zpow_right₀ (by norm_num) he'
        _ = 1 := by norm_num
    have h2 : |(k : ℚ)| ≤ 2 := by exact_mod_cast hk
    calc |(k : ℚ)| * 2 ^ e ≤ 2 * 1 := mul_le_mul h2 h1 (zpow_pos (by norm_num) e).le (by norm_num)
      _ ≤ 2 ^ 126 := by norm_num
  have s0 : Small 0 := by simpa using s 0 0 (by norm_num) (by norm_num) (by norm_num)
  have s1 : Small 1 := by simpa using s 1 0 (by norm_num) (by norm_num) (by norm_num)
  have sm : Small (-1) := by simpa using s (-1) 0 (by norm_num) (by norm_num) (by norm_num)
  have sh : Small (1/2) := by
    have := s 1 (-1) (by norm_num) (by norm_num) (by norm_num)
    norm_num at this
    norm_num
    exact this
  obtain ⟨d', q', h1, h2, _, h3, _⟩ := C08_float_partial threeRows [[0], [1/2], [1]] 1 (-1) 1 (by decide +kernel) sm s1
    (by have := rep_nat (k := 2) (by norm_num); norm_num at this ⊢; exact this) (by norm_num) (by simp) (by decide +kernel) (by simp)
    (by decide +kernel)
    (by
      intro r hr x hx
      simp only [List.mem_cons, List.not_mem_nil, or_false] at hr
      rcases hr with rfl | rfl | rfl <;> simp only [List.mem_cons, List.not_mem_nil, or_false] at hx <;> subst hx <;> assumption)
    (by
      intro j hj
      refine ⟨[0], by simp, [1], by simp, ?_⟩
      have : j = 0 := by omega
      subst this
      simp)
  exact ⟨d', q', h1, h2, h3⟩

end Snn.FloatProps
