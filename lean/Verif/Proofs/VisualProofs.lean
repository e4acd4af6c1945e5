import Verif.Spec.VisualSpec
import Mathlib.Tactic.Linarith
import Mathlib.Tactic.Ring

/-! Loops that draw. -/

set_option linter.all false

namespace Snn.Visual

open Spec

section
variable {F : Type} [Flt F] [FTrans F] [Add F] [Sub F] [Mul F] [Div F] [Neg F]

theorem foldlM_steps {S : Type} (f : S → Nat → Res S) (st : Nat → S) (n : Nat) (h : ∀ k < n, f (st k) k = .ok (st (k + 1))) :
    (List.range n).foldlM f (st 0) = .ok (st n) := by
  induction n with
  | zero => rfl
  | succ n ih =>
    rw [List.range_succ, List.foldlM_append, ih (fun k hk => h k (by omega))]
    show (List.foldlM f (st n) [n]) = _
    rw [List.foldlM_cons, h n (by omega)]
    rfl

theorem forI_steps {S : Type} (f : Int → S → Res S) (st : Nat → S) (n : Nat) (h : ∀ k : Nat, k < n → f k (st k) = .ok (st (k + 1))) :
    forI n f (st 0) = .ok (st n) := by
  unfold forI
  exact foldlM_steps _ st _ h

/-- A loop whose body fails at step k, after steps that return. -/
theorem forI_fails {S : Type} (f : Int → S → Res S) (I : Nat → S → Prop) (n k : Nat) (hk : k < n) (s : S) (h0 : I 0 s)
    (h : ∀ i : Nat, i < k → ∀ s, I i s → ∃ s', f i s = .ok s' ∧ I (i + 1) s') (hf : ∀ s, I k s → ∃ m, f k s = .ub m) : ∃ m, forI n f s = .ub m := by
  have hpre : ∃ s', (List.range k).foldlM (fun s (i : Nat) => f (i : Int) s) s = .ok s' ∧ I k s' := by
    clear hk hf
    induction k with
    | zero => exact ⟨s, rfl, h0⟩
    | succ k ih =>
      obtain ⟨s1, h1, h2⟩ := ih (fun i hi => h i (by omega))
      obtain ⟨s2, h3, h4⟩ := h k (by omega) s1 h2
      refine ⟨s2, ?_, h4⟩
      rw [List.range_succ, List.foldlM_append, h1]
      show List.foldlM (fun s (i : Nat) => f (i : Int) s) s1 [k] = _
      rw [List.foldlM_cons, h3]; rfl
  obtain ⟨s', h1, h2⟩ := hpre
  obtain ⟨m, hm⟩ := hf s' h2
  refine ⟨m, ?_⟩
  unfold forI
  have e : List.range n = List.range k ++ (k :: (List.range (n - k - 1)).map (k + 1 + ·)) := by
    have : n = k + (1 + (n - k - 1)) := by omega
    conv_lhs => rw [this]
    rw [List.range_add, List.range_add]
    simp [Nat.add_assoc]
  simp only [Int.toNat_natCast, e, List.foldlM_append, h1]
  show List.foldlM (fun s (i : Nat) => f (i : Int) s) s' _ = _
  rw [List.foldlM_cons, hm]; rfl

/-- The function appends these pixels, on an image of this size, and moves the index. -/
def Appends (f : Image F × Int → Res (Image F × Int)) (W H : Int) (i i' : Int) (ws : List ((Int × Int) × List F)) : Prop :=
  ∀ img : Image F, img.width = W → img.height = H → f (img, i) = .ok ({ img with writes := img.writes ++ ws }, i')

theorem forI_appends (f : Int → Image F × Int → Res (Image F × Int)) (W H : Int) (n : Nat) (idx : Nat → Int)
    (g : Nat → List ((Int × Int) × List F)) (h : ∀ k : Nat, k < n → Appends (f k) W H (idx k) (idx (k + 1)) (g k)) :
    Appends (forI n f) W H (idx 0) (idx n) ((List.range n).flatMap g) := by
  intro img hw hh
  have := forI_steps f (fun k => ({ img with writes := img.writes ++ (List.range k).flatMap g }, idx k)) n (by
    intro k hk
    have := h k hk { img with writes := img.writes ++ (List.range k).flatMap g } hw hh
    simp only at this ⊢
    rw [this]
    simp [List.range_succ])
  simpa using this

/-- The same without index. -/
def Adds (f : Image F → Res (Image F)) (W H : Int) (ws : List ((Int × Int) × List F)) : Prop :=
  ∀ img : Image F, img.width = W → img.height = H → f img = .ok { img with writes := img.writes ++ ws }

theorem forI_adds (f : Int → Image F → Res (Image F)) (W H : Int) (n : Nat)
    (g : Nat → List ((Int × Int) × List F)) (h : ∀ k : Nat, k < n → Adds (f k) W H (g k)) :
    Adds (forI n f) W H ((List.range n).flatMap g) := by
  intro img hw hh
  have := forI_steps f (fun k => { img with writes := img.writes ++ (List.range k).flatMap g }) n (by
    intro k hk
    have := h k hk { img with writes := img.writes ++ (List.range k).flatMap g } hw hh
    simp only at this ⊢
    rw [this]
    simp [List.range_succ])
  simpa using this

theorem at_some {img : Image F} {p : Int × Int} {v : List F} (h : (p, v) ∈ img.writes) (hu : ∀ w ∈ img.writes, w.1 = p → w.2 = v) :
    img.at p = some v := by
  unfold Image.at
  have : (img.writes.reverse.find? fun w => w.1 == p).isSome := by
    rw [List.find?_isSome]
    exact ⟨(p, v), by simpa using h, by simp⟩
  obtain ⟨w, hw⟩ := Option.isSome_iff_exists.1 this
  rw [hw]
  have h1 := List.find?_some hw
  have h2 := List.mem_of_find?_eq_some hw
  simp only [Option.map_some, Option.some.injEq]
  exact hu w (by simpa using h2) (by simpa using h1)

theorem at_none {img : Image F} {p : Int × Int} (h : ∀ w ∈ img.writes, w.1 ≠ p) : img.at p = none := by
  unfold Image.at
  rw [Option.map_eq_none_iff, List.find?_eq_none]
  intro w hw
  simpa using h w (by simpa using hw)

theorem tiles_spec {N : Nat} (hN : 0 < N) : ∃ a b : Nat, tiles N = ((a : Int), (b : Int)) ∧ 0 < a ∧ 0 < b ∧ N ≤ a * b := by
  unfold tiles ceilSqrt
  simp only [Int.toNat_natCast, Nat.cast_inj]
  have h1 := Nat.sqrt_le N
  have h2 := Nat.lt_succ_sqrt N
  have h3 : 0 < Nat.sqrt N := Nat.sqrt_pos.2 hN
  generalize Nat.sqrt N = r at *
  simp only [Nat.succ_eq_add_one] at h2
  by_cases h : r * r = N
  · rw [if_pos h]
    refine ⟨r, r, ?_, h3, h3, by omega⟩
    rw [if_neg]
    rw [← h]; push_cast; omega
  · rw [if_neg h]
    by_cases h4 : (N : Int) ≤ ((r : Int) + 1) * ((r : Int) + 1) - ((r : Int) + 1)
    · refine ⟨r + 1, r, ?_, by omega, h3, ?_⟩
      · rw [if_pos h4]; push_cast; congr 1; ring
      · have : (N : Int) ≤ ((r + 1) * r : Nat) := by push_cast; linarith
        exact_mod_cast this
    · refine ⟨r + 1, r + 1, ?_, by omega, by omega, ?_⟩
      · rw [if_neg h4]; push_cast; rfl
      · exact Nat.le_of_lt h2

theorem tiles_le {N a b : Nat} (h : tiles N = ((a : Int), (b : Int))) : a ≤ Nat.sqrt N + 1 ∧ b ≤ Nat.sqrt N + 1 := by
  unfold tiles ceilSqrt at h
  simp only [Int.toNat_natCast] at h
  split at h <;> split at h <;> simp only [Prod.mk.injEq] at h <;> omega

theorem div_lt_rows {N a b f : Nat} (ha : 0 < a) (h : N ≤ a * b) (hf : f < N) : f / a < b :=
  (Nat.div_lt_iff_lt_mul ha).2 (by rw [Nat.mul_comm]; omega)

theorem offset_lt {c X q i : Nat} (hq : q < c) (hi : i < X) : q * (X + 1) + i + 1 < (X + 1) * c := by
  have : (q + 1) * (X + 1) ≤ c * (X + 1) := Nat.mul_le_mul_right _ (by omega)
  rw [Nat.mul_comm (X + 1) c]
  have e : (q + 1) * (X + 1) = q * (X + 1) + (X + 1) := by ring
  omega

theorem offset_inj {X q q' i i' : Nat} (hi : i < X) (hi' : i' < X) (h : q * (X + 1) + i = q' * (X + 1) + i') : q = q' ∧ i = i' := by
  have h1 : (q * (X + 1) + i) / (X + 1) = q := by
    rw [Nat.mul_comm, Nat.mul_add_div (by omega)]; rw [Nat.div_eq_of_lt (by omega)]; rfl
  have h2 : (q' * (X + 1) + i') / (X + 1) = q' := by
    rw [Nat.mul_comm, Nat.mul_add_div (by omega)]; rw [Nat.div_eq_of_lt (by omega)]; rfl
  have : q = q' := by rw [← h1, ← h2, h]
  subst this
  exact ⟨rfl, by omega⟩

theorem gridPixel_inj {a X Y f i j f' i' j' : Nat} (ha : 0 < a) (hi : i < X) (hi' : i' < X) (hj : j < Y) (hj' : j' < Y)
    (h : gridPixel a X Y f i j = gridPixel a X Y f' i' j') : f = f' ∧ i = i' ∧ j = j' := by
  unfold gridPixel at h
  rw [Prod.mk.injEq] at h
  obtain ⟨h1, h2⟩ := h
  obtain ⟨e1, e2⟩ := offset_inj hi hi' (by exact_mod_cast h1)
  obtain ⟨e3, e4⟩ := offset_inj hj hj' (by exact_mod_cast h2)
  refine ⟨?_, e2, e4⟩
  rw [← Nat.mod_add_div f a, ← Nat.mod_add_div f' a, e1, e3]

theorem gridPixel_in {N a b X Y f i j : Nat} (ha : 0 < a) (hN : N ≤ a * b) (hf : f < N) (hi : i < X) (hj : j < Y) :
    0 ≤ (gridPixel a X Y f i j).1 ∧ (gridPixel a X Y f i j).1 < (((X + 1) * a : Nat) : Int) - 1 ∧
    0 ≤ (gridPixel a X Y f i j).2 ∧ (gridPixel a X Y f i j).2 < (((Y + 1) * b : Nat) : Int) - 1 := by
  have h1 := offset_lt (Nat.mod_lt f ha) hi
  have h2 := offset_lt (div_lt_rows ha hN hf) hj
  unfold gridPixel
  simp only
  refine ⟨by positivity, ?_, by positivity, ?_⟩ <;> omega

/-- An image whose writes are those of the pictures shows them. -/
theorem shows_of {img : Image F} {N X Y a b : Nat} {v : Nat → Nat → Nat → List F} (ha : 0 < a) (hb : 0 < b) (hN : N ≤ a * b) (hsq : a ≤ Nat.sqrt N + 1 ∧ b ≤ Nat.sqrt N + 1)
    (hw : img.width = (((X + 1) * a : Nat) : Int) - 1) (hh : img.height = (((Y + 1) * b : Nat) : Int) - 1)
    (hm : ∀ w, w ∈ img.writes ↔ ∃ f i j, f < N ∧ i < X ∧ j < Y ∧ w = (gridPixel a X Y f i j, v f i j)) : Shows img N X Y v := by
  refine ⟨a, b, ha, hb, hN, hsq.1, hsq.2, hw, hh, ?_, ?_, ?_, ?_, fun w hw' => (hm w).1 hw'⟩
  · intro f hf i hi j hj
    apply at_some ((hm _).2 ⟨f, i, j, hf, hi, hj, rfl⟩)
    intro w hw' he
    obtain ⟨f', i', j', _, hi', hj', rfl⟩ := (hm w).1 hw'
    obtain ⟨rfl, rfl, rfl⟩ := gridPixel_inj ha hi' hi hj' hj he
    rfl
  · intro f hf i hi j hj
    rw [hw, hh]
    exact gridPixel_in ha hN hf hi hj
  · intro f _ i hi j hj f' _ i' hi' j' hj' h
    exact gridPixel_inj ha hi hi' hj hj' h
  · intro p hp
    apply at_none
    intro w hw' he
    obtain ⟨f, i, j, hf, hi, hj, rfl⟩ := (hm w).1 hw'
    exact hp f hf i hi j hj he.symm

theorem setPixel_ok {img : Image F} {x y : Int} {v : List F} (h : 0 ≤ x ∧ x < img.width ∧ 0 ≤ y ∧ y < img.height) :
    img.setPixel x y v = .ok { img with writes := img.writes ++ [((x, y), v)] } := by
  unfold Image.setPixel; rw [if_pos h]

theorem vecAt_ok {A : Type} {v : List A} {i : Int} {k : Nat} (hi : i = k) (h : k < v.length) : vecAt v i = .ok (v[k]'h) := by
  subst hi
  unfold vecAt
  rw [if_neg (by omega)]
  simp [h]

theorem vecAt_ub {A : Type} {v : List A} {i : Int} (h : (v.length : Int) ≤ i) : ∃ m, vecAt v i = .ub m := by
  unfold vecAt
  split
  · exact ⟨_, rfl⟩
  · rw [List.getElem?_eq_none (by omega)]; exact ⟨_, rfl⟩

/-! ### The bitmap of the outputs -/

/-- The inner two loops of the bitmap of the outputs, for the pixel (i, j) of every picture. -/
theorem outputs_pixel {outputs : List F} {N X Y a b i j : Nat} (ha : 0 < a) (hN : N ≤ a * b) (hi : i < X) (hj : j < Y)
    (hlen : outputs.length = N * X * Y) (v : Nat → F) (hv : ∀ k (h : k < outputs.length), v k = outputs[k]) :
    Appends (fun s => forI (b : Int) (fun y s => forI (a : Int) (fun x s =>
        if y * (a : Int) + x < (N : Int) then do
          let v ← vecAt outputs s.2
          let img ← s.1.setPixel (x * ((X : Int) + 1) + (i : Int)) (y * ((Y : Int) + 1) + (j : Int)) [v]
          return (img, s.2 + 1)
        else .ok s) s) s) ((((X + 1) * a : Nat) : Int) - 1) ((((Y + 1) * b : Nat) : Int) - 1) (((j * X + i) * N : Nat) : Int) (((j * X + i) * N + N : Nat) : Int)
      ((List.range b).flatMap fun y => (List.range a).flatMap fun x =>
        if y * a + x < N then [(gridPixel a X Y (y * a + x) i j, [v ((j * X + i) * N + (y * a + x))])] else []) := by
  have hbase : (j * X + i) * N + N ≤ N * X * Y := by
    have h1 : j * X + i + 1 ≤ X * Y := by
      have : (j + 1) * X ≤ Y * X := Nat.mul_le_mul_right _ (by omega)
      have e : (j + 1) * X = j * X + X := by ring
      rw [Nat.mul_comm X Y]; omega
    have := Nat.mul_le_mul_right N h1
    have e1 : (j * X + i + 1) * N = (j * X + i) * N + N := by ring
    have e2 : X * Y * N = N * X * Y := by ring
    omega
  have key := forI_appends (F := F) (fun y s => forI (a : Int) (fun x s =>
        if y * (a : Int) + x < (N : Int) then do
          let v ← vecAt outputs s.2
          let img ← s.1.setPixel (x * ((X : Int) + 1) + (i : Int)) (y * ((Y : Int) + 1) + (j : Int)) [v]
          return (img, s.2 + 1)
        else .ok s) s) ((((X + 1) * a : Nat) : Int) - 1) ((((Y + 1) * b : Nat) : Int) - 1) b
      (fun y => (((j * X + i) * N + min (y * a) N : Nat) : Int))
      (fun y => (List.range a).flatMap fun x =>
        if y * a + x < N then [(gridPixel a X Y (y * a + x) i j, [v ((j * X + i) * N + (y * a + x))])] else []) (by
    intro y hy
    have inner := forI_appends (F := F) (fun x s =>
        if ((y : Nat) : Int) * (a : Int) + x < (N : Int) then do
          let v ← vecAt outputs s.2
          let img ← s.1.setPixel (x * ((X : Int) + 1) + (i : Int)) (((y : Nat) : Int) * ((Y : Int) + 1) + (j : Int)) [v]
          return (img, s.2 + 1)
        else .ok s) ((((X + 1) * a : Nat) : Int) - 1) ((((Y + 1) * b : Nat) : Int) - 1) a
      (fun x => (((j * X + i) * N + min (y * a + x) N : Nat) : Int))
      (fun x => if y * a + x < N then [(gridPixel a X Y (y * a + x) i j, [v ((j * X + i) * N + (y * a + x))])] else []) (by
        intro x hx img hw hh
        by_cases hlt : y * a + x < N
        · have hlt' : ((y : Nat) : Int) * (a : Int) + ((x : Nat) : Int) < (N : Int) := by exact_mod_cast hlt
          have hmod : (y * a + x) % a = x := by rw [Nat.mul_comm, Nat.mul_add_mod, Nat.mod_eq_of_lt hx]
          have hdiv : (y * a + x) / a = y := by rw [Nat.mul_comm, Nat.mul_add_div ha, Nat.div_eq_of_lt hx]; rfl
          have hin := gridPixel_in (X := X) (Y := Y) (i := i) (j := j) ha hN hlt hi hj
          have hpix : gridPixel a X Y (y * a + x) i j = (((x : Nat) : Int) * ((X : Int) + 1) + (i : Int), ((y : Nat) : Int) * ((Y : Int) + 1) + (j : Int)) := by
            unfold gridPixel; rw [hmod, hdiv]; push_cast; rfl
          rw [hpix] at hin
          simp only [if_pos hlt, if_pos hlt', hpix]
          rw [vecAt_ok (k := (j * X + i) * N + (y * a + x)) (by rw [min_eq_left (by omega)]) (by omega)]
          show (do
            let img ← img.setPixel _ _ [_]
            return (img, _)) = _
          rw [setPixel_ok (by rw [hw, hh]; exact hin)]
          show Res.ok _ = _
          rw [hv _ (by omega), min_eq_left (by omega), min_eq_left (by omega)]
          congr 2
        · have hlt' : ¬ ((y : Nat) : Int) * (a : Int) + ((x : Nat) : Int) < (N : Int) := by
            intro h; apply hlt; exact_mod_cast h
          simp only [if_neg hlt, if_neg hlt', List.append_nil]
          rw [min_eq_right (by omega), min_eq_right (by omega)])
    simp only [Nat.add_zero] at inner
    have e : (y + 1) * a = y * a + a := by ring
    rw [e]
    exact inner)
  simp only [Nat.zero_mul, Nat.zero_min, Nat.min_zero, Nat.zero_le, min_eq_left, Nat.add_zero] at key
  have e : min (b * a) N = N := min_eq_right (by rw [Nat.mul_comm]; exact hN)
  rw [e] at key
  exact key

theorem outputs_image {outputs : List F} {N X Y : Nat} (hN : 0 < N) (hlen : outputs.length = N * X * Y) (v : Nat → F)
    (hv : ∀ k (h : k < outputs.length), v k = outputs[k]) {l : Layer F} {info : FilterInfo}
    (hs : info.shapeOfOutput = [(N : Int), (X : Int), (Y : Int)])
    (hb : (∃ k ns, l.body = .filter k ns info) ∨ ∃ t n m, l.body = .pool t info n m) :
    ∃ img, l.outputsBitmap outputs = .ok (some img) ∧ Shows img N X Y fun f i j => [v ((j * X + i) * N + f)] := by
  obtain ⟨a, b, ht, ha, hb', hab⟩ := tiles_spec hN
  have key := forI_appends (F := F) (fun j s => forI (X : Int) (fun i s => forI (b : Int) (fun y s => forI (a : Int) (fun x s =>
        if y * (a : Int) + x < (N : Int) then do
          let v ← vecAt outputs s.2
          let img ← s.1.setPixel (x * ((X : Int) + 1) + i) (y * ((Y : Int) + 1) + j) [v]
          return (img, s.2 + 1)
        else .ok s) s) s) s) ((((X + 1) * a : Nat) : Int) - 1) ((((Y + 1) * b : Nat) : Int) - 1) Y
      (fun j => ((j * X * N : Nat) : Int))
      (fun j => (List.range X).flatMap fun i => (List.range b).flatMap fun y => (List.range a).flatMap fun x =>
        if y * a + x < N then [(gridPixel a X Y (y * a + x) i j, [v ((j * X + i) * N + (y * a + x))])] else []) (by
    intro j hj
    have inner := forI_appends (F := F) (fun i s => forI (b : Int) (fun y s => forI (a : Int) (fun x s =>
        if y * (a : Int) + x < (N : Int) then do
          let v ← vecAt outputs s.2
          let img ← s.1.setPixel (x * ((X : Int) + 1) + i) (y * ((Y : Int) + 1) + (j : Int)) [v]
          return (img, s.2 + 1)
        else .ok s) s) s) ((((X + 1) * a : Nat) : Int) - 1) ((((Y + 1) * b : Nat) : Int) - 1) X
      (fun i => (((j * X + i) * N : Nat) : Int))
      (fun i => (List.range b).flatMap fun y => (List.range a).flatMap fun x =>
        if y * a + x < N then [(gridPixel a X Y (y * a + x) i j, [v ((j * X + i) * N + (y * a + x))])] else []) (by
      intro i hi
      have := outputs_pixel (i := i) (j := j) ha hab hi hj hlen v hv
      have e : (j * X + (i + 1)) * N = (j * X + i) * N + N := by ring
      rw [e]
      exact this)
    simp only [Nat.add_zero] at inner
    have e : (j + 1) * X * N = (j * X + X) * N := by ring
    rw [e]
    exact inner)
  simp only [Nat.zero_mul] at key
  have hk := key { width := (((X + 1) * a : Nat) : Int) - 1, height := (((Y + 1) * b : Nat) : Int) - 1, writes := [] } rfl rfl
  refine ⟨{ width := (((X + 1) * a : Nat) : Int) - 1, height := (((Y + 1) * b : Nat) : Int) - 1, writes := ?_ }, ?_,
    shows_of (v := fun f i j => [v ((j * X + i) * N + f)]) ha hb' hab (tiles_le ht) rfl rfl ?_⟩
  · exact [] ++ ((List.range Y).flatMap fun j => (List.range X).flatMap fun i => (List.range b).flatMap fun y => (List.range a).flatMap fun x =>
        if y * a + x < N then [(gridPixel a X Y (y * a + x) i j, [v ((j * X + i) * N + (y * a + x))])] else [])
  · have e1 : ((X : Int) + 1) * (a : Int) - 1 = (((X + 1) * a : Nat) : Int) - 1 := by push_cast; rfl
    have e2 : ((Y : Int) + 1) * (b : Int) - 1 = (((Y + 1) * b : Nat) : Int) - 1 := by push_cast; rfl
    unfold Layer.outputsBitmap
    rcases hb with ⟨k, ns, hb⟩ | ⟨t, n, m, hb⟩
    · simp only [hb, hs, ht, e1, e2]
      exact Res.bind_eq_ok.2 ⟨_, hk, rfl⟩
    · simp only [hb, hs, ht, e1, e2]
      exact Res.bind_eq_ok.2 ⟨_, hk, rfl⟩
  · intro w
    simp only [List.nil_append, List.mem_flatMap, List.mem_range]
    constructor
    · rintro ⟨j, hj, i, hi, y, hy, x, hx, hw⟩
      split at hw
      · rename_i hlt
        rw [List.mem_singleton] at hw
        exact ⟨y * a + x, i, j, hlt, hi, hj, hw⟩
      · simp at hw
    · rintro ⟨f, i, j, hf, hi, hj, rfl⟩
      refine ⟨j, hj, i, hi, f / a, div_lt_rows ha hab hf, f % a, Nat.mod_lt _ ha, ?_⟩
      have e : f / a * a + f % a = f := by rw [Nat.mul_comm]; exact Nat.div_add_mod f a
      rw [e, if_pos hf]
      simp

/-! ### The bitmap of the weights -/

theorem weights_image {N X Y : Nat} (hN : 0 < N) {l : Layer F} {ns : List (Neuron F)} {info : FilterInfo} {k : FKind} {C : Int} {rest : List Int}
    (hs : info.shapeOfInput = [C, (X : Int), (Y : Int)]) (ho : info.shapeOfOutput = (N : Int) :: rest) (hb : l.body = .filter k ns info)
    (pic : Nat → List F) (hp : ∀ f < N, pictureOf ns info l.numberOfInputs (f : Int) = .ok (pic f)) (hl : ∀ f < N, X * Y ≤ (pic f).length)
    (v : Nat → Nat → F) (hv : ∀ f i (h : i < (pic f).length), v f i = (pic f)[i]) :
    ∃ img, l.weightsBitmap = .ok (some img) ∧ Shows img N X Y fun f i j => [v f (j * X + i)] := by
  obtain ⟨a, b, ht, ha, hb', hab⟩ := tiles_spec hN
  have key := forI_adds (F := F) (fun x img => forI (b : Int) (fun y img =>
          if y * (a : Int) + x < (N : Int) then do
            let weights ← pictureOf ns info l.numberOfInputs ((a : Int) * y + x)
            forI (X : Int) (fun i img => forI (Y : Int) (fun j img => do
              let w ← vecAt weights (j * (X : Int) + i)
              img.setPixel (x * ((X : Int) + 1) + i) (y * ((Y : Int) + 1) + j) [w]) img) img
          else .ok img) img) ((((X + 1) * a : Nat) : Int) - 1) ((((Y + 1) * b : Nat) : Int) - 1) a
      (fun x => (List.range b).flatMap fun y => if y * a + x < N then (List.range X).flatMap fun i => (List.range Y).flatMap fun j =>
        [(gridPixel a X Y (y * a + x) i j, [v (y * a + x) (j * X + i)])] else []) (by
    intro x hx
    apply forI_adds
    intro y hy
    by_cases hlt : y * a + x < N
    · have hlt' : ((y : Nat) : Int) * (a : Int) + ((x : Nat) : Int) < (N : Int) := by exact_mod_cast hlt
      have hmod : (y * a + x) % a = x := by rw [Nat.mul_comm, Nat.mul_add_mod, Nat.mod_eq_of_lt hx]
      have hdiv : (y * a + x) / a = y := by rw [Nat.mul_comm, Nat.mul_add_div ha, Nat.div_eq_of_lt hx]; rfl
      have hf : (a : Int) * ((y : Nat) : Int) + ((x : Nat) : Int) = ((y * a + x : Nat) : Int) := by push_cast; ring
      have hpic := hp _ hlt
      intro img hw hh
      simp only [if_pos hlt, if_pos hlt', hf, hpic]
      have := forI_adds (F := F) (fun i img => forI (Y : Int) (fun j img => do
              let w ← vecAt (pic (y * a + x)) (j * (X : Int) + i)
              img.setPixel (((x : Nat) : Int) * ((X : Int) + 1) + i) (((y : Nat) : Int) * ((Y : Int) + 1) + j) [w]) img)
        ((((X + 1) * a : Nat) : Int) - 1) ((((Y + 1) * b : Nat) : Int) - 1) X
        (fun i => (List.range Y).flatMap fun j => [(gridPixel a X Y (y * a + x) i j, [v (y * a + x) (j * X + i)])]) (by
          intro i hi
          apply forI_adds
          intro j hj img hw hh
          have hin := gridPixel_in (X := X) (Y := Y) (i := i) (j := j) ha hab hlt hi hj
          have hpix : gridPixel a X Y (y * a + x) i j = (((x : Nat) : Int) * ((X : Int) + 1) + (i : Int), ((y : Nat) : Int) * ((Y : Int) + 1) + (j : Int)) := by
            unfold gridPixel; rw [hmod, hdiv]; push_cast; rfl
          rw [hpix] at hin
          have hidx : j * X + i < (pic (y * a + x)).length := by
            have h1 := hl _ hlt
            have : (j + 1) * X ≤ Y * X := Nat.mul_le_mul_right _ (by omega)
            have e : (j + 1) * X = j * X + X := by ring
            have e2 : Y * X = X * Y := by ring
            omega
          rw [vecAt_ok (k := j * X + i) (by push_cast; rfl) hidx]
          show img.setPixel _ _ [_] = _
          rw [setPixel_ok (by rw [hw, hh]; exact hin), hpix, hv _ _ hidx])
      exact this img hw hh
    · have hlt' : ¬ ((y : Nat) : Int) * (a : Int) + ((x : Nat) : Int) < (N : Int) := by
        intro h; apply hlt; exact_mod_cast h
      intro img hw hh
      simp only [if_neg hlt, if_neg hlt', List.append_nil])
  have hk := key { width := (((X + 1) * a : Nat) : Int) - 1, height := (((Y + 1) * b : Nat) : Int) - 1, writes := [] } rfl rfl
  refine ⟨{ width := (((X + 1) * a : Nat) : Int) - 1, height := (((Y + 1) * b : Nat) : Int) - 1, writes := ?_ }, ?_,
    shows_of (v := fun f i j => [v f (j * X + i)]) ha hb' hab (tiles_le ht) rfl rfl ?_⟩
  · exact [] ++ ((List.range a).flatMap fun x => (List.range b).flatMap fun y => if y * a + x < N then (List.range X).flatMap fun i => (List.range Y).flatMap fun j =>
        [(gridPixel a X Y (y * a + x) i j, [v (y * a + x) (j * X + i)])] else [])
  · have e1 : ((X : Int) + 1) * (a : Int) - 1 = (((X + 1) * a : Nat) : Int) - 1 := by push_cast; rfl
    have e2 : ((Y : Int) + 1) * (b : Int) - 1 = (((Y + 1) * b : Nat) : Int) - 1 := by push_cast; rfl
    unfold Layer.weightsBitmap
    simp only [hb, hs, ho, ht, e1, e2]
    exact Res.bind_eq_ok.2 ⟨_, hk, rfl⟩
  · intro w
    simp only [List.nil_append, List.mem_flatMap, List.mem_range]
    constructor
    · rintro ⟨x, hx, y, hy, hw⟩
      split at hw
      · rename_i hlt
        simp only [List.mem_flatMap, List.mem_range, List.mem_singleton] at hw
        obtain ⟨i, hi, j, hj, hw⟩ := hw
        exact ⟨y * a + x, i, j, hlt, hi, hj, hw⟩
      · simp at hw
    · rintro ⟨f, i, j, hf, hi, hj, rfl⟩
      refine ⟨f % a, Nat.mod_lt _ ha, f / a, div_lt_rows ha hab hf, ?_⟩
      have e : f / a * a + f % a = f := by rw [Nat.mul_comm]; exact Nat.div_add_mod f a
      rw [e, if_pos hf]
      simp only [List.mem_flatMap, List.mem_range, List.mem_singleton]
      exact ⟨i, hi, j, hj, rfl⟩

end
end Snn.Visual
