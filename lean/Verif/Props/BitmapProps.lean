import Verif.Proofs.BitmapProofs
import Verif.Props.VisualProps
import Verif.Props.StructProps
import Verif.Props.ArchProps
import Verif.Basic.RealFlt
import Mathlib.Algebra.Order.Floor.Ring
import Mathlib.Analysis.SpecialFunctions.Artanh
import Mathlib.Algebra.Order.Floor.Semiring

/-! C101: the bitmap files. -/

set_option linter.all false

namespace Snn.BitmapProps

open Spec BitmapProofs
open VisualProps (NoThrow C64_outputs_bitmap C64_input_bitmap C54_locally_partial)
open LayerProps

/-! ### From pictures to files -/

section
variable {F : Type} [Flt F] [FTrans F] [Add F] [Sub F] [Mul F] [Div F] [Neg F]

theorem size_ok {W H : Nat} (hw : 3 * (W + 1) < 65536) (hh : H + 1 < 65536) : 3 * (H * W) < 2 ^ 32 ∧ 54 + stride W * H < 2 ^ 32 := by
  have hs : stride W ≤ 3 * W + 3 := by rw [stride_eq]; omega
  have h1 : stride W * H ≤ 65535 * 65534 := Nat.mul_le_mul (by omega) (by omega)
  have h2 : H * W ≤ 65534 * 21845 := Nat.mul_le_mul (by omega) (by omega)
  constructor <;> omega

/-- A picture whose writes are inside and whose values have colours becomes a bitmap file. -/
theorem render_ok {colour : F → Res Nat} (hc : ∀ v k, colour v = .ok k → k < 256) {img : Image F} {W H : Nat} (hW : img.width = W) (hH : img.height = H)
    (h0 : 0 < H) (hw : 3 * (W + 1) < 65536) (hh : H + 1 < 65536) (hin : ∀ w ∈ img.writes, 0 ≤ w.1.1 ∧ w.1.1 < W ∧ 0 ≤ w.1.2 ∧ w.1.2 < H)
    (hcol : ∀ w ∈ img.writes, ∃ c, pixelColours colour w.2 = .ok c) :
    ∃ b px, img.render colour = .ok b ∧ IsBitmap b.bytes W H px ∧ ∀ x < W, ∀ y < H, (img.at ((x : Int), (y : Int)) = none → px x y = (0, 0, 0)) ∧
      ∀ v c, img.at ((x : Int), (y : Int)) = some v → pixelColours colour v = .ok c → px x y = c := by
  obtain ⟨s1, s2⟩ := size_ok hw hh
  have hs := create_sound (w := W) (h := H) s1 h0
  obtain ⟨b, hb, hsb, bw, bh, hpx⟩ := writes_ok hc img.writes hs hin hcol
  have ew : b.width = W := bw
  have eh : b.height = H := bh
  refine ⟨b, bufPixel b, ?_, ?_, ?_⟩
  · unfold Image.render
    rw [hW, hH, Int.toNat_natCast, Int.toNat_natCast]
    exact hb
  · have := bytes_isBitmap hsb (by rw [ew]; omega) (by rw [eh]; omega) (by rw [ew, eh]; exact s2)
    rw [ew, eh] at this
    exact this
  · intro x hx y hy
    obtain ⟨p1, p2⟩ := hpx x hx y hy
    exact ⟨fun h => (p1 h).trans (create_pixel W H x y), p2⟩

theorem render_shows {colour : F → Res Nat} (hc : ∀ v k, colour v = .ok k → k < 256) {img : Image F} {N X Y : Nat} {v : Nat → Nat → Nat → List F}
    (hs : Shows img N X Y v) (hX : 0 < X) (hY : 0 < Y) (hf : FitsBitmap N X Y) (c : Nat → Nat → Nat → Nat × Nat × Nat)
    (hcol : ∀ f < N, ∀ i < X, ∀ j < Y, pixelColours colour (v f i j) = .ok (c f i j)) :
    ∃ b, img.render colour = .ok b ∧ FileShows b.bytes N X Y c := by
  obtain ⟨a, b, ha, hb, hN, la, lb, hw, hh, hat, hin, hinj, hnone, hwr⟩ := hs.grid
  have hXa : X + 1 ≤ (X + 1) * a := Nat.le_mul_of_pos_right _ ha
  have hYb : Y + 1 ≤ (Y + 1) * b := Nat.le_mul_of_pos_right _ hb
  have l1 : (X + 1) * a ≤ (X + 1) * (Nat.sqrt N + 1) := Nat.mul_le_mul_left _ la
  have l2 : (Y + 1) * b ≤ (Y + 1) * (Nat.sqrt N + 1) := Nat.mul_le_mul_left _ lb
  obtain ⟨f1, f2⟩ := hf
  have ew : img.width = (((X + 1) * a - 1 : Nat) : Int) := by rw [hw]; omega
  have eh : img.height = (((Y + 1) * b - 1 : Nat) : Int) := by rw [hh]; omega
  obtain ⟨bm, px, h1, h2, h3⟩ := render_ok hc (W := (X + 1) * a - 1) (H := (Y + 1) * b - 1) ew eh (by omega) (by omega) (by omega) (by
      intro w hw'
      obtain ⟨f, i, j, hf, hi, hj, rfl⟩ := hwr w hw'
      have := hin f hf i hi j hj
      rw [ew, eh] at this
      exact this) (by
      intro w hw'
      obtain ⟨f, i, j, hf, hi, hj, rfl⟩ := hwr w hw'
      exact ⟨_, hcol f hf i hi j hj⟩)
  refine ⟨bm, h1, a, b, ha, hN, la, lb, px, h2, ?_, ?_⟩
  · intro f hf i hi j hj
    obtain ⟨_, p1, _, p2⟩ := hin f hf i hi j hj
    rw [ew] at p1
    rw [eh] at p2
    unfold gridPixel at p1 p2
    simp only at p1 p2
    have q1 : (f % a) * (X + 1) + i < (X + 1) * a - 1 := by exact_mod_cast p1
    have q2 : (f / a) * (Y + 1) + j < (Y + 1) * b - 1 := by exact_mod_cast p2
    refine ⟨q1, q2, ?_⟩
    exact (h3 _ q1 _ q2).2 _ _ (hat f hf i hi j hj) (hcol f hf i hi j hj)
  · intro x hx y hy hne
    apply (h3 x hx y hy).1
    apply hnone
    intro f hf i hi j hj he
    apply hne f hf i hi j hj
    unfold gridPixel at he
    simp only [Prod.mk.injEq, Nat.cast_inj] at he
    exact Prod.ext he.1 he.2

/-! ### Values without a colour -/

theorem pixel_ub {colour : F → Res Nat} (hn : ∀ v, NoThrow (colour v)) {l : List F} (h : ∃ v ∈ l, ∃ m, colour v = .ub m) : ∃ m, pixelColours colour l = .ub m := by
  have nt : NoThrow (pixelColours colour l) := by
    unfold pixelColours
    split
    · exact (hn _).bind fun _ _ => NoThrow.ok _
    · exact (hn _).bind fun _ _ => (hn _).bind fun _ _ => (hn _).bind fun _ _ => NoThrow.ok _
    · exact NoThrow.ub _
  cases hr : pixelColours colour l with
  | throw m => exact (nt m hr).elim
  | ub m => exact ⟨m, rfl⟩
  | ok c =>
    exfalso
    obtain ⟨v, hv, m, hm⟩ := h
    unfold pixelColours at hr
    split at hr
    · rw [List.mem_singleton] at hv
      subst hv
      rw [hm] at hr; cases hr
    · obtain ⟨c1, k1, hr⟩ := Res.bind_eq_ok.1 hr
      obtain ⟨c2, k2, hr⟩ := Res.bind_eq_ok.1 hr
      obtain ⟨c3, k3, hr⟩ := Res.bind_eq_ok.1 hr
      simp only [List.mem_cons, List.not_mem_nil, or_false] at hv
      rcases hv with rfl | rfl | rfl
      · rw [hm] at k1; cases k1
      · rw [hm] at k2; cases k2
      · rw [hm] at k3; cases k3
    · cases hr

theorem pixel_noThrow {colour : F → Res Nat} (hn : ∀ v, NoThrow (colour v)) (l : List F) : NoThrow (pixelColours colour l) := by
  unfold pixelColours
  split
  · exact (hn _).bind fun _ _ => NoThrow.ok _
  · exact (hn _).bind fun _ _ => (hn _).bind fun _ _ => (hn _).bind fun _ _ => NoThrow.ok _
  · exact NoThrow.ub _

theorem wr_noThrow {A : Type} (l : List A) (i : Int) (a : A) : NoThrow (wr l i a) := by
  intro m h
  unfold wr at h
  split at h <;> cases h

theorem writes_ub {colour : F → Res Nat} (hn : ∀ v, NoThrow (colour v)) : ∀ (ws : List ((Int × Int) × List F)) (b : Bitmap),
    (∃ w ∈ ws, ∃ m, pixelColours colour w.2 = .ub m) → ∃ m, ws.foldlM (fun b w => do
        let (r, g, bl) ← pixelColours colour w.2
        b.setPixel w.1.1.toNat w.1.2.toNat r g bl) b = .ub m
  | [], b, h => by obtain ⟨w, hw, _⟩ := h; cases hw
  | w :: ws, b, h => by
    rw [List.foldlM_cons]
    cases hr : pixelColours colour w.2 with
    | throw m => exact (pixel_noThrow hn _ m hr).elim
    | ub m => exact ⟨m, rfl⟩
    | ok c =>
      obtain ⟨r, g, bl⟩ := c
      rw [Res.ok_bind]
      simp only
      have nt : NoThrow (b.setPixel w.1.1.toNat w.1.2.toNat r g bl) := by
        unfold Bitmap.setPixel
        exact (wr_noThrow _ _ _).bind fun _ _ => (wr_noThrow _ _ _).bind fun _ _ => (wr_noThrow _ _ _).bind fun _ _ => NoThrow.ok _
      cases hs : b.setPixel w.1.1.toNat w.1.2.toNat r g bl with
      | throw m => exact (nt m hs).elim
      | ub m => exact ⟨m, rfl⟩
      | ok b1 =>
        rw [Res.ok_bind]
        apply writes_ub hn ws b1
        obtain ⟨w1, hw1, m, hm⟩ := h
        rcases List.mem_cons.1 hw1 with rfl | hw1
        · rw [hr] at hm; cases hm
        · exact ⟨w1, hw1, m, hm⟩

end

/-! ### Colours in exact arithmetic -/


section
variable {K : Type} [Field K] [LinearOrder K] [IsStrictOrderedRing K] [FloorSemiring K] [FTrans K]

theorem countP_floor (u : K) : ∀ n : Nat, (List.range n).countP (fun k : Nat => decide (((k + 1 : Nat) : K) ≤ u)) = min n ⌊u⌋₊
  | 0 => by simp
  | n + 1 => by
    rw [List.range_succ, List.countP_append, countP_floor u n]
    simp only [List.countP_cons, List.countP_nil, Nat.zero_add]
    have h := Nat.le_floor_iff' (a := u) (n := n + 1) (by omega)
    by_cases hk : ((n + 1 : Nat) : K) ≤ u
    · have := h.2 hk
      simp only [hk, decide_true, if_true]
      omega
    · have : ¬ n + 1 ≤ ⌊u⌋₊ := fun h' => hk (h.1 h')
      simp only [hk, decide_false]
      simp
      omega

theorem floor_lt {u : K} (h : u < 256) : ⌊u⌋₊ ≤ 255 := by
  have : ⌊u⌋₊ < 256 := by
    rw [Nat.floor_lt' (by norm_num)]
    exact_mod_cast h
  omega

theorem toByte_real {v : K} (h0 : -1 < v) (h1 : v < 256) : toByte v = .ok ⌊v⌋₊ := by
  unfold toByte
  have e : (flt (lit (-1)) v && flt v (lit 256)) = true := by
    rw [Bool.and_eq_true, flt_iff, flt_iff, lit_eq, lit_eq]
    push_cast
    exact ⟨h0, h1⟩
  rw [if_pos e]
  have e2 : (fun k : Nat => fle (lit ((k + 1 : Nat) : Rat)) v) = fun k : Nat => decide (((k + 1 : Nat) : K) ≤ v) := by
    funext k
    show decide _ = _
    rw [lit_eq]
    push_cast
    rfl
  rw [e2, countP_floor]
  congr 1
  have := floor_lt h1
  omega

theorem toByte_ub {v : K} (h : v ≤ -1 ∨ 256 ≤ v) : ∃ m, toByte v = .ub m := by
  unfold toByte
  rw [if_neg]
  · exact ⟨_, rfl⟩
  · rw [Bool.and_eq_true, flt_iff, flt_iff, lit_eq, lit_eq]
    push_cast
    rintro ⟨h1, h2⟩
    rcases h with h | h <;> linarith

theorem roundByte_real {v : K} (h0 : -1 / 2 < v) (h1 : v < 511 / 2) : roundByte v = .ok ⌊v + 1 / 2⌋₊ := by
  unfold roundByte
  have e : (flt (lit (-1 / 2)) v && flt v (lit (511 / 2))) = true := by
    rw [Bool.and_eq_true, flt_iff, flt_iff, lit_eq, lit_eq]
    push_cast
    exact ⟨h0, h1⟩
  rw [if_pos e]
  have e2 : (fun k : Nat => fle (lit (((k + 1 : Nat) : Rat) - 1 / 2)) v) = fun k : Nat => decide (((k + 1 : Nat) : K) ≤ v + 1 / 2) := by
    funext k
    show decide _ = _
    rw [lit_eq]
    push_cast
    apply decide_eq_decide.2
    constructor <;> intro h <;> linarith
  rw [e2, countP_floor]
  congr 1
  have := floor_lt (u := v + 1 / 2) (by linarith)
  omega

theorem toByte_lt {F : Type} [Flt F] (v : F) (k : Nat) (h : toByte v = .ok k) : k < 256 := by
  unfold toByte at h
  split at h
  · cases h
    have := List.countP_le_length (p := fun k : Nat => fle (lit ((k + 1 : Nat) : Rat)) v) (l := List.range 255)
    rw [List.length_range] at this
    omega
  · cases h

theorem roundByte_lt {F : Type} [Flt F] (v : F) (k : Nat) (h : roundByte v = .ok k) : k < 256 := by
  unfold roundByte at h
  split at h
  · cases h
    have := List.countP_le_length (p := fun k : Nat => fle (lit (((k + 1 : Nat) : Rat) - 1 / 2)) v) (l := List.range 255)
    rw [List.length_range] at this
    omega
  · cases h

theorem toByte_noThrow {F : Type} [Flt F] (v : F) : NoThrow (toByte v) := by
  unfold toByte
  split
  · exact .ok _
  · exact .ub _

/-- The colour of a value: its 255 levels between 0 and 1, rounded down. -/
theorem valueColour_real {v : K} (h0 : 0 ≤ v) (h1 : v ≤ 1) : valueColour v = .ok ⌊255 * v⌋₊ := by
  unfold valueColour
  have e : v * (lit 255 : K) = 255 * v := by rw [lit_eq]; push_cast; ring
  rw [e]
  exact toByte_real (by linarith) (by linarith)

end

/-- The colour of a weight: the 255 levels of (tanh(w/2) + 1)/2, rounded to the nearest. It is always defined. -/
theorem weightColour_real (w : ℝ) : weightColour w = .ok ⌊255 * ((Real.tanh (w / 2) + 1) / 2) + 1 / 2⌋₊ := by
  unfold weightColour
  have e : (ftanh (w / lit 2) + lit 1) * (lit (255 / 2) : ℝ) = 255 * ((Real.tanh (w / 2) + 1) / 2) := by
    simp only [lit_eq, ftanh_real]; push_cast; ring
  rw [e]
  have h1 := Real.neg_one_lt_tanh (w / 2)
  have h2 := Real.tanh_lt_one (w / 2)
  exact roundByte_real (by linarith) (by linarith)

/-! ### The calls that write files -/

section
variable {F : Type} [Flt F] [FTrans F] [Add F] [Sub F] [Mul F] [Div F] [Neg F]

theorem layerFiles_ok {path : String} {colour : F → Res Nat} {f : Layer F → Nat → Res (Option (Image F))} :
    ∀ (ls : List (Layer F)) (k0 : Nat) (g : Nat → List (String × List Nat)),
    (∀ k (h : k < ls.length), ∃ img, f ls[k] (k0 + k) = .ok img ∧ fileOf (path ++ "_layer_" ++ toString (k0 + k) ++ ".bmp") colour img = .ok (g k)) →
    layerFiles path colour f ls k0 = .ok ((List.range ls.length).flatMap g)
  | [], k0, g, _ => rfl
  | l :: ls, k0, g, h => by
    obtain ⟨img, h1, h2⟩ := h 0 (by simp)
    have ih := layerFiles_ok (path := path) (colour := colour) (f := f) ls (k0 + 1) (fun k => g (k + 1)) (by
      intro k hk
      obtain ⟨img, a, b⟩ := h (k + 1) (by simpa using hk)
      refine ⟨img, ?_, ?_⟩
      · rw [show k0 + 1 + k = k0 + (k + 1) by omega]; simpa using a
      · rw [show k0 + 1 + k = k0 + (k + 1) by omega]; exact b)
    unfold layerFiles
    simp only [List.getElem_cons_zero, Nat.add_zero] at h1 h2
    rw [h1, Res.ok_bind, h2, Res.ok_bind, ih, Res.ok_bind, Res.pure_eq]
    simp only [List.length_cons, List.range_succ_eq_map, List.flatMap_cons, List.flatMap_map]

/-- The name of the file of layer number k. -/
def layerName (path : String) (k : Nat) : String := path ++ "_layer_" ++ toString k ++ ".bmp"

end

section
variable {K : Type} [Field K] [LinearOrder K] [IsStrictOrderedRing K] [FloorSemiring K] [FTrans K]

theorem shape_filter {l : Layer K} {N X Y : Nat} (h : l.getShapeOfOutput = [(N : Int), (X : Int), (Y : Int)]) :
    ∃ info : FilterInfo, info.shapeOfOutput = [(N : Int), (X : Int), (Y : Int)] ∧ ((∃ k ns, l.body = .filter k ns info) ∨ ∃ t n m, l.body = .pool t info n m) := by
  unfold Layer.getShapeOfOutput at h
  split at h
  · rename_i k ns info hb; exact ⟨info, h, Or.inl ⟨k, ns, hb⟩⟩
  · rename_i t info n m hb; exact ⟨info, h, Or.inr ⟨t, n, m, hb⟩⟩
  · simp at h

theorem shape_none {l : Layer K} (h : l.getShapeOfOutput.length ≠ 3) (ys : List K) : l.outputsBitmap ys = .ok none := by
  unfold Layer.getShapeOfOutput at h
  unfold Layer.outputsBitmap
  split at h
  · rename_i k ns info hb
    simp only [hb]
    split
    · rename_i e; simp [e] at h
    · rfl
  · rename_i t info n m hb
    simp only [hb]
    split
    · rename_i e; simp [e] at h
    · rfl
  · rename_i hb1 hb2
    split
    · rename_i hb; exact absurd hb (hb1 _ _ _)
    · rename_i hb; exact absurd hb (hb2 _ _ _ _)
    · rfl

/-- The file of the outputs of a layer. -/
theorem outputs_file {l : Layer K} {N X Y : Nat} (hs : l.getShapeOfOutput = [(N : Int), (X : Int), (Y : Int)]) (hN : 0 < N) (hX : 0 < X) (hY : 0 < Y)
    (hf : FitsBitmap N X Y) {ys : List K} (hl : ys.length = N * X * Y) (hr : ∀ v ∈ ys, 0 ≤ v ∧ v ≤ 1) (path : String) :
    ∃ img file, l.outputsBitmap ys = .ok img ∧ fileOf path valueColour img = .ok [(path, file)] ∧
      FileShows file N X Y fun f i j => grey ⌊255 * ys.getD ((j * X + i) * N + f) 0⌋₊ := by
  obtain ⟨info, h1, h2⟩ := shape_filter hs
  obtain ⟨img, h3, h4⟩ := C64_outputs_bitmap hN l info h1 h2 ys hl
  have hval : ∀ k, 0 ≤ ys.getD k 0 ∧ ys.getD k 0 ≤ 1 := by
    intro k
    by_cases hk : k < ys.length
    · rw [List.getD_eq_getElem _ _ hk]; exact hr _ (List.getElem_mem _)
    · rw [List.getD_eq_default _ _ (by omega)]; exact ⟨le_refl _, zero_le_one⟩
  obtain ⟨b, h5, h6⟩ := render_shows (colour := valueColour) (fun v k h => toByte_lt _ k h) h4 hX hY hf
    (fun f i j => grey ⌊255 * ys.getD ((j * X + i) * N + f) 0⌋₊) (by
      intro f hf i hi j hj
      have e0 : (lit 0 : K) = 0 := by rw [lit_eq]; push_cast; rfl
      rw [e0]
      obtain ⟨v0, v1⟩ := hval ((j * X + i) * N + f)
      unfold pixelColours
      simp only
      rw [valueColour_real v0 v1]
      rfl)
  refine ⟨some img, b.bytes, h3, ?_, h6⟩
  unfold fileOf
  simp only
  rw [h5]
  rfl

/-- **C101**, `saveFilterLayersAsBitmap`: for an idle network, if the outputs of its layers for the data are between 0 and 1 and the
pictures are not too large, the call returns; it writes one file for each layer with an output in two dimensions, a valid 24-bit bitmap
where output number `(j*X + i)*N + f` is the pixel (i, j) of picture f, a grey of level ⌊255 v⌋, and the rest is black; and no other file.
Missing: outputs out of [0, 1] (`C101_range_refuted`) and wide pictures (`C101_wide_refuted`). -/
theorem C101_outputs_partial (s : Snn K) (path : String) (data : Data K) (i : Int) (x : List K) (outs : List (List K)) (net : Net K)
    (hidle : s.isIdle = true) (hx : data.getTestingData i = .ok x) (ho : s.net.getLayerOutputs x = .ok (outs, net))
    (hlen : outs.length = net.layers.length)
    (h : ∀ k l, net.layers[k]? = some l → l.getShapeOfOutput.length ≠ 3 ∨ ∃ N X Y : Nat, l.getShapeOfOutput = [(N : Int), (X : Int), (Y : Int)] ∧
      0 < N ∧ 0 < X ∧ 0 < Y ∧ FitsBitmap N X Y ∧ (outs.getD k []).length = N * X * Y ∧ ∀ v ∈ outs.getD k [], 0 ≤ v ∧ v ≤ 1) :
    ∃ files, s.saveFilterLayersAsBitmap path data i = .ok (files, { s with net := net }) ∧
      (∀ k l (N X Y : Nat), net.layers[k]? = some l → l.getShapeOfOutput = [(N : Int), (X : Int), (Y : Int)] →
        ∃ file, (layerName path k, file) ∈ files ∧ FileShows file N X Y fun f i j => grey ⌊255 * (outs.getD k []).getD ((j * X + i) * N + f) 0⌋₊) ∧
      files.map Prod.fst = ((List.range net.layers.length).filter fun k =>
        ((net.layers[k]?.map fun l => l.getShapeOfOutput.length) = some 3 : Bool)).map (layerName path) := by
  classical
  have key : ∀ k (hk : k < net.layers.length), ∃ img fs, (do
        let y ← rd outs (k : Int)
        (net.layers[k]).outputsBitmap y) = .ok img ∧ fileOf (layerName path k) valueColour img = .ok fs ∧
        (net.layers[k].getShapeOfOutput.length ≠ 3 ∧ fs = [] ∨ ∃ (N X Y : Nat) (file : List Nat), net.layers[k].getShapeOfOutput = [(N : Int), (X : Int), (Y : Int)] ∧
          fs = [(layerName path k, file)] ∧ FileShows file N X Y fun f i j => grey ⌊255 * (outs.getD k []).getD ((j * X + i) * N + f) 0⌋₊) := by
    intro k hk
    have hk2 : k < outs.length := by omega
    have hrd : rd outs (k : Int) = .ok (outs.getD k []) := by
      rw [rd_nat outs k hk2, List.getD_eq_getElem _ _ hk2]
    rcases h k _ (List.getElem?_eq_getElem hk) with h3 | ⟨N, X, Y, hs, hN, hX, hY, hf, hl, hr⟩
    · exact ⟨none, [], by rw [hrd, Res.ok_bind, shape_none h3], rfl, Or.inl ⟨h3, rfl⟩⟩
    · obtain ⟨img, file, a, b, c⟩ := outputs_file hs hN hX hY hf hl hr (layerName path k)
      exact ⟨img, _, by rw [hrd, Res.ok_bind, a], b, Or.inr ⟨N, X, Y, file, hs, rfl, c⟩⟩
  choose! img fs q1 q2 q3 using key
  have hfiles := layerFiles_ok (path := path) (colour := valueColour) (f := fun l k => do
      let y ← rd outs (k : Int)
      l.outputsBitmap y) net.layers 0 fs (by
    intro k hk
    refine ⟨img k, ?_, ?_⟩
    · rw [Nat.zero_add]; exact q1 k hk
    · rw [Nat.zero_add]; exact q2 k hk)
  refine ⟨(List.range net.layers.length).flatMap fs, ?_, ?_, ?_⟩
  · unfold Snn.saveFilterLayersAsBitmap
    rw [hidle]
    simp only [Bool.not_true, Bool.false_eq_true, if_false]
    rw [hx, Res.ok_bind, ho, Res.ok_bind]
    simp only
    rw [hfiles, Res.ok_bind, Res.pure_eq]
  · intro k l N X Y hl hs
    obtain ⟨hk, rfl⟩ := List.getElem?_eq_some_iff.1 hl
    rcases q3 k hk with ⟨h3, _⟩ | ⟨N', X', Y', file, hs', hfs, hshow⟩
    · rw [hs] at h3; simp at h3
    · rw [hs] at hs'
      simp only [List.cons.injEq, Nat.cast_inj, and_true] at hs'
      obtain ⟨rfl, rfl, rfl⟩ := hs'
      refine ⟨file, ?_, hshow⟩
      rw [List.mem_flatMap]
      exact ⟨k, List.mem_range.2 hk, by rw [hfs]; simp⟩
  · have : ∀ n, n ≤ net.layers.length → ((List.range n).flatMap fs).map Prod.fst = ((List.range n).filter fun k =>
        ((net.layers[k]?.map fun l => l.getShapeOfOutput.length) = some 3 : Bool)).map (layerName path) := by
      intro n
      induction n with
      | zero => intro _; rfl
      | succ n ih =>
        intro hn
        have hk : n < net.layers.length := by omega
        rw [List.range_succ, List.flatMap_append, List.map_append, ih (by omega), List.filter_append, List.map_append]
        congr 1
        rcases q3 n hk with ⟨h3, hfs⟩ | ⟨N', X', Y', file, hs', hfs, hshow⟩
        · simp [hfs, List.getElem?_eq_getElem hk, h3]
        · simp [hfs, List.getElem?_eq_getElem hk, hs']
    exact this _ (le_refl _)

/-- The colours of a pixel of an input. -/
def inputColour (x : List K) (C X i j : Nat) : Nat × Nat × Nat :=
  if C = 1 then grey ⌊255 * x.getD (j * X + i) 0⌋₊
  else (⌊255 * x.getD ((j * X + i) * 3) 0⌋₊, ⌊255 * x.getD ((j * X + i) * 3 + 1) 0⌋₊, ⌊255 * x.getD ((j * X + i) * 3 + 2) 0⌋₊)

/-- **C101**, `saveData2DAsBitmap`: for every network whose first layer has an input of X × Y pixels with one or three channels, not too
large, and every data with values between 0 and 1, the call writes a valid 24-bit bitmap of X × Y pixels: value v is the level ⌊255 v⌋ of
its channel (red, green, blue in this order, or grey). -/
theorem C101_input_partial (s : Snn K) (path : String) (data : Data K) (i : Int) (x : List K) {C X Y : Nat} {l : Layer K} (hC : C = 1 ∨ C = 3)
    (hl : s.net.layers[0]? = some l) (hs : l.getShapeOfInput = [(C : Int), (X : Int), (Y : Int)]) (hY : 0 < Y) (hw : 3 * (X + 1) < 65536) (hh : Y + 1 < 65536)
    (hx : data.getTestingData i = .ok x) (hlen : x.length = C * X * Y) (hr : ∀ v ∈ x, 0 ≤ v ∧ v ≤ 1) :
    ∃ file px, s.saveData2DAsBitmap path data i = .ok [(path ++ "_input" ++ toString i ++ ".bmp", file)] ∧ IsBitmap file X Y px ∧
      ∀ i < X, ∀ j < Y, px i j = inputColour x C X i j := by
  have hval : ∀ k, 0 ≤ x.getD k 0 ∧ x.getD k 0 ≤ 1 := by
    intro k
    by_cases hk : k < x.length
    · rw [List.getD_eq_getElem _ _ hk]; exact hr _ (List.getElem_mem _)
    · rw [List.getD_eq_default _ _ (by omega)]; exact ⟨le_refl _, zero_le_one⟩
  have hv : ∀ k, valueColour (x.getD k 0) = .ok ⌊255 * x.getD k 0⌋₊ := fun k => valueColour_real (hval k).1 (hval k).2
  obtain ⟨img, h1, h2, h3, h4, h5⟩ := C64_input_bitmap hC x hlen
  have hpc : ∀ i j, pixelColours valueColour ((List.range C).map fun c => x.getD ((j * X + i) * C + c) 0) = .ok (inputColour x C X i j) := by
    intro i j
    unfold inputColour
    rcases hC with rfl | rfl
    · simp only [List.range_one, List.map_cons, List.map_nil, pixelColours, hv, Nat.mul_one, Nat.add_zero]
      rfl
    · simp only [show List.range 3 = [0, 1, 2] from rfl, List.map_cons, List.map_nil, pixelColours, hv]
      rfl
  obtain ⟨b, px, q1, q2, q3⟩ := render_ok (colour := valueColour) (fun v k h => toByte_lt _ k h) h2 h3 hY hw hh (by
      intro w hw'
      obtain ⟨i, j, hi, hj, rfl⟩ := h5 w hw'
      simp only
      omega) (by
      intro w hw'
      obtain ⟨i, j, hi, hj, rfl⟩ := h5 w hw'
      exact ⟨_, hpc i j⟩)
  refine ⟨b.bytes, px, ?_, q2, fun i hi j hj => (q3 i hi j hj).2 _ _ (h4 i hi j hj) (hpc i j)⟩
  obtain ⟨hl0, rfl⟩ := List.getElem?_eq_some_iff.1 hl
  unfold Snn.saveData2DAsBitmap
  rw [hx, Res.ok_bind]
  have : rd s.net.layers 0 = .ok s.net.layers[0] := rd_nat s.net.layers 0 hl0
  rw [this, Res.ok_bind, hs, h1, Res.ok_bind]
  unfold fileOf
  simp only
  rw [q1]
  rfl

/-- **C101 is false for values out of the range**: one input v with 255 v ≤ -1 or 255 v ≥ 256 is enough for the conversion to
`unsigned char` to be undefined, for example -1 after `normalize(-1, 1)`. -/
theorem C101_range_refuted (s : Snn K) (path : String) (data : Data K) (i : Int) (x : List K) {C X Y : Nat} {l : Layer K} (hC : C = 1 ∨ C = 3)
    (hl : s.net.layers[0]? = some l) (hs : l.getShapeOfInput = [(C : Int), (X : Int), (Y : Int)])
    (hx : data.getTestingData i = .ok x) (hlen : x.length = C * X * Y) (hbad : ∃ v ∈ x, 255 * v ≤ -1 ∨ 256 ≤ 255 * v) :
    ∃ m, s.saveData2DAsBitmap path data i = .ub m := by
  obtain ⟨img, h1, h2, h3, h4, h5⟩ := C64_input_bitmap hC x hlen
  obtain ⟨v, hv, hb⟩ := hbad
  obtain ⟨k, hk, rfl⟩ := List.getElem_of_mem hv
  have hCpos : 0 < C := by omega
  have hXY : C * X * Y = X * Y * C := by ring
  have hq : k / C < X * Y := (Nat.div_lt_iff_lt_mul hCpos).2 (by omega)
  have hX : 0 < X := by
    rcases Nat.eq_zero_or_pos X with rfl | h
    · simp at hq
    · exact h
  have hi : k / C % X < X := Nat.mod_lt _ hX
  have hj : k / C / X < Y := (Nat.div_lt_iff_lt_mul hX).2 (by rw [Nat.mul_comm]; exact hq)
  have e1 : k / C / X * X + k / C % X = k / C := by rw [Nat.mul_comm]; exact Nat.div_add_mod _ _
  have hat := h4 _ hi _ hj
  rw [e1] at hat
  unfold Image.at at hat
  rw [Option.map_eq_some_iff] at hat
  obtain ⟨w, hw, hw2⟩ := hat
  have hmem : w ∈ img.writes := by
    have := List.mem_of_find?_eq_some hw
    simpa using this
  have hub : ∃ m, pixelColours valueColour w.2 = .ub m := by
    apply pixel_ub (fun v => toByte_noThrow _)
    rw [hw2]
    refine ⟨x[k], ?_, ?_⟩
    · rw [List.mem_map]
      refine ⟨k % C, List.mem_range.2 (Nat.mod_lt _ hCpos), ?_⟩
      have : k / C * C + k % C = k := by rw [Nat.mul_comm]; exact Nat.div_add_mod _ _
      rw [this, List.getD_eq_getElem _ _ hk]
    · apply toByte_ub
      have e : x[k] * (lit 255 : K) = 255 * x[k] := by rw [lit_eq]; push_cast; ring
      rw [e]
      exact hb
  obtain ⟨m, hm⟩ := writes_ub (fun v : K => toByte_noThrow (v * lit 255)) img.writes (Bitmap.create img.width.toNat img.height.toNat) ⟨w, hmem, hub⟩
  refine ⟨m, ?_⟩
  obtain ⟨hl0, rfl⟩ := List.getElem?_eq_some_iff.1 hl
  unfold Snn.saveData2DAsBitmap
  rw [hx, Res.ok_bind]
  have : rd s.net.layers 0 = .ok s.net.layers[0] := rd_nat s.net.layers 0 hl0
  rw [this, Res.ok_bind, hs, h1, Res.ok_bind]
  unfold fileOf Image.render
  simp only
  have hm' : _ = Res.ub m := hm
  rw [show (List.foldlM (fun b w => do
      let x ← pixelColours valueColour w.2
      match x with
      | (r, g, bl) => b.setPixel w.1.1.toNat w.1.2.toNat r g bl) (Bitmap.create img.width.toNat img.height.toNat) img.writes : Res Bitmap) = Res.ub m from hm]
  rfl

end

/-! ### Wide pictures -/

section
variable {K : Type} [Field K] [LinearOrder K] [IsStrictOrderedRing K] [FloorSemiring K] [FTrans K]

theorem wide_size {b : Bitmap} (h : Sound b) (hh : 0 < b.height) (hw : 65536 ≤ 3 * b.width + 3) (hw2 : b.width ≤ 1000000) (hs : 54 + stride b.width * b.height < 2 ^ 32) :
    dword b.bytes 2 < b.bytes.length := by
  have hlen : b.bytes.length = 54 + stride b.width * b.height := by
    rw [bytes_eq, List.length_append, header_length, body_length h]
  have e1 : (b.width * 3 % 2 ^ 32 + 3) % 2 ^ 32 = 3 * b.width + 3 := by clear hs; omega
  have hlt : (3 * b.width + 3) / 4 % 16384 * 4 < stride b.width := by
    unfold stride
    clear hs e1
    omega
  have hmul : (3 * b.width + 3) / 4 % 16384 * 4 * b.height < stride b.width * b.height := Nat.mul_lt_mul_of_pos_right hlt hh
  have hsz : b.sizeImage = (3 * b.width + 3) / 4 % 16384 * 4 * b.height := by
    unfold Bitmap.sizeImage
    rw [e1, mask_eq, Nat.mod_eq_of_lt]
    omega
  rw [← hsz] at hmul
  have hd : dword b.bytes 2 = (14 + 40 + b.sizeImage) % 2 ^ 32 := by
    rw [dword_header b (by omega)]
    have := dword_of ((14 + 40 + b.sizeImage) % 2 ^ 32) (Nat.mod_lt _ (by norm_num))
    simp only [header, Bitmap.fileHeader, Bitmap.infoHeader, bytes4, bytes2]
    simpa using this
  rw [hd, hlen, Nat.mod_eq_of_lt (by omega)]
  omega

/-- **C101 is false for wide pictures**: for every input of X × Y pixels with X ≥ 21845, the size of the file announced in the file is
not the size of the file. (The library accepts up to 1000000 inputs.) -/
theorem C101_wide_refuted (s : Snn K) (path : String) (data : Data K) (i : Int) (x : List K) {C X Y : Nat} {l : Layer K} (hC : C = 1 ∨ C = 3)
    (hl : s.net.layers[0]? = some l) (hs : l.getShapeOfInput = [(C : Int), (X : Int), (Y : Int)]) (hY : 0 < Y) (hX : 21845 ≤ X) (hin : C * X * Y ≤ 1000000)
    (hx : data.getTestingData i = .ok x) (hlen : x.length = C * X * Y) (hr : ∀ v ∈ x, 0 ≤ v ∧ v ≤ 1) :
    ∃ file, s.saveData2DAsBitmap path data i = .ok [(path ++ "_input" ++ toString i ++ ".bmp", file)] ∧ dword file 2 < file.length := by
  have hval : ∀ k, 0 ≤ x.getD k 0 ∧ x.getD k 0 ≤ 1 := by
    intro k
    by_cases hk : k < x.length
    · rw [List.getD_eq_getElem _ _ hk]; exact hr _ (List.getElem_mem _)
    · rw [List.getD_eq_default _ _ (by omega)]; exact ⟨le_refl _, zero_le_one⟩
  have hv : ∀ k, valueColour (x.getD k 0) = .ok ⌊255 * x.getD k 0⌋₊ := fun k => valueColour_real (hval k).1 (hval k).2
  have hXY : X * Y ≤ 1000000 := by
    have : X * Y ≤ C * (X * Y) := Nat.le_mul_of_pos_left _ (by omega)
    have e : C * (X * Y) = C * X * Y := by ring
    omega
  have hXle : X ≤ X * Y := Nat.le_mul_of_pos_right _ hY
  have hYle : Y ≤ 45 := by
    have : 21845 * Y ≤ X * Y := Nat.mul_le_mul_right _ hX
    omega
  have hsmall : 3 * (Y * X) < 2 ^ 32 := by rw [Nat.mul_comm Y X]; omega
  have hstr : stride X ≤ 3 * X + 3 := by rw [stride_eq]; omega
  have hst : stride X * Y ≤ (3 * X + 3) * Y := Nat.mul_le_mul_right _ hstr
  have hst2 : (3 * X + 3) * Y = 3 * (X * Y) + 3 * Y := by ring
  obtain ⟨img, h1, h2, h3, h4, h5⟩ := C64_input_bitmap hC x hlen
  have hpc : ∀ i j, ∃ c, pixelColours valueColour ((List.range C).map fun c => x.getD ((j * X + i) * C + c) 0) = .ok c := by
    intro i j
    rcases hC with rfl | rfl
    · simp only [List.range_one, List.map_cons, List.map_nil, pixelColours, hv]
      exact ⟨_, rfl⟩
    · simp only [show List.range 3 = [0, 1, 2] from rfl, List.map_cons, List.map_nil, pixelColours, hv]
      exact ⟨_, rfl⟩
  obtain ⟨b, hb, hsb, bw, bh, _⟩ := writes_ok (colour := valueColour) (fun v k h => toByte_lt _ k h) img.writes (create_sound (w := X) (h := Y) hsmall hY) (by
      intro w hw'
      obtain ⟨i, j, hi, hj, rfl⟩ := h5 w hw'
      show 0 ≤ (i : Int) ∧ (i : Int) < (X : Int) ∧ 0 ≤ (j : Int) ∧ (j : Int) < (Y : Int)
      omega) (by
      intro w hw'
      obtain ⟨i, j, hi, hj, rfl⟩ := h5 w hw'
      exact hpc i j)
  have ew : b.width = X := bw
  have eh : b.height = Y := bh
  have hrender : img.render valueColour = .ok b := by
    unfold Image.render
    rw [h2, h3, Int.toNat_natCast, Int.toNat_natCast]
    exact hb
  refine ⟨b.bytes, ?_, ?_⟩
  · obtain ⟨hl0, rfl⟩ := List.getElem?_eq_some_iff.1 hl
    unfold Snn.saveData2DAsBitmap
    rw [hx, Res.ok_bind]
    have : rd s.net.layers 0 = .ok s.net.layers[0] := rd_nat s.net.layers 0 hl0
    rw [this, Res.ok_bind, hs, h1, Res.ok_bind]
    unfold fileOf
    simp only
    rw [hrender]
    rfl
  · apply wide_size hsb
    · rw [eh]; exact hY
    · rw [ew]; omega
    · rw [ew]; omega
    · rw [ew, eh]; omega

end

/-! ### Weights -/

theorem tanh_mono {x y : ℝ} (h : x ≤ y) : Real.tanh x ≤ Real.tanh y := by
  have hx : Real.tanh x ∈ Set.Ioo (-1 : ℝ) 1 := ⟨Real.neg_one_lt_tanh x, Real.tanh_lt_one x⟩
  have hy : Real.tanh y ∈ Set.Ioo (-1 : ℝ) 1 := ⟨Real.neg_one_lt_tanh y, Real.tanh_lt_one y⟩
  rw [← Real.artanh_le_artanh_iff hx hy, Real.artanh_tanh, Real.artanh_tanh]
  exact h

/-- The grey level of a weight: white for large weights, black for large negative weights, 128 for 0. -/
noncomputable def weightLevel (w : ℝ) : Nat := ⌊255 * ((Real.tanh (w / 2) + 1) / 2) + 1 / 2⌋₊

/-- **C101**, the colours of the weights: they are defined for every weight, at most 255, never decrease when the weight increases, 128
for the weight 0, and those of opposite weights are symmetric up to one level. -/
theorem C101_weight_colours (w w' : ℝ) : weightColour w = .ok (weightLevel w) ∧ weightLevel w ≤ 255 ∧ (w ≤ w' → weightLevel w ≤ weightLevel w') ∧
    weightLevel 0 = 128 ∧ (weightLevel w + weightLevel (-w) = 255 ∨ weightLevel w + weightLevel (-w) = 256) := by
  have h1 := Real.neg_one_lt_tanh (w / 2)
  have h2 := Real.tanh_lt_one (w / 2)
  refine ⟨weightColour_real w, floor_lt (by linarith), ?_, ?_, ?_⟩
  · intro h
    apply Nat.floor_mono
    have := tanh_mono (show w / 2 ≤ w' / 2 by linarith)
    linarith
  · unfold weightLevel
    rw [zero_div, Real.tanh_zero]
    norm_num
  · unfold weightLevel
    rw [neg_div, Real.tanh_neg]
    generalize Real.tanh (w / 2) = t at h1 h2
    have f1 := Nat.floor_le (show 0 ≤ 255 * ((t + 1) / 2) + 1 / 2 by linarith)
    have f2 := Nat.lt_floor_add_one (255 * ((t + 1) / 2) + 1 / 2)
    have f3 := Nat.floor_le (show 0 ≤ 255 * ((-t + 1) / 2) + 1 / 2 by linarith)
    have f4 := Nat.lt_floor_add_one (255 * ((-t + 1) / 2) + 1 / 2)
    generalize ⌊255 * ((t + 1) / 2) + 1 / 2⌋₊ = n at *
    generalize ⌊255 * ((-t + 1) / 2) + 1 / 2⌋₊ = m at *
    have g1 : ((n + m : Nat) : ℝ) < 257 := by push_cast; linarith
    have g2 : (254 : ℝ) < ((n + m : Nat) : ℝ) := by push_cast; linarith
    have g3 : n + m < 257 := by exact_mod_cast g1
    have g4 : 254 < n + m := by exact_mod_cast g2
    omega

theorem locally_shape {opt : Sgd ℝ} {C X Y K N : Nat} {act : Act} {opts : List (LayerOptModel ℝ)} {d d' : Draws ℝ} {l0 l : Layer ℝ} (hN : 0 < N)
    (hb : buildLayer opt (.locallyConnected (N : Int) (K : Int) act opts) [(C : Int), (X : Int), (Y : Int)] d = .ok (l0, d'))
    (hu : Used (C * X * Y) (ceil X K * ceil Y K * N) l0 l) :
    l.getShapeOfInput = [(C : Int), (X : Int), (Y : Int)] ∧ l.getShapeOfOutput = [(N : Int), (ceil X K : Int), (ceil Y K : Int)] := by
  unfold buildLayer at hb
  obtain ⟨n, h1, hb⟩ := Res.bind_eq_ok.1 hb
  have hn : n = ((C * X * Y : Nat) : Int) := by rw [computeNumberOfInputs_inv h1]; simp; ring
  rw [hn] at hb
  split at hb
  · cases hb
  split at hb
  · cases hb
  simp only at hb
  obtain ⟨hKX, hKY, hK, ns, info, h⟩ := buildLocally2D_inv hN hb
  obtain ⟨hw, hk⟩ := used_wf hu (buildLocally2D_wf hN hb)
  rw [h.body] at hk
  unfold Layer.getShapeOfInput Layer.getShapeOfOutput
  cases hbody : l.body with
  | filter k ns' info' =>
    rw [hbody] at hk
    obtain ⟨rfl, hk, rfl⟩ := hk
    exact ⟨h.shapeIn, h.shapeOut⟩
  | fullyConnected ns => rw [hbody] at hk; exact hk.elim
  | recurrence ns => rw [hbody] at hk; exact hk.elim
  | gru ns => rw [hbody] at hk; exact hk.elim
  | pool a b c d => rw [hbody] at hk; exact hk.elim

/-- **C101**, `saveFeatureMapsAsBitmap`: for an idle network whose layers with an input in two dimensions are locally connected, new or
used, not too large: the call returns and writes one file for each of them, a valid bitmap with one picture for each filter, where the
sum of weights `drawn` (C54: not always the weights of this filter) has the level `weightLevel`. -/
theorem C101_weights_partial (s : Snn ℝ) (path : String) (hidle : s.isIdle = true)
    (h : ∀ (k : Nat) l, s.net.layers[k]? = some l → l.getShapeOfInput.length ≠ 3 ∨ ∃ (opt : Sgd ℝ) (C X Y K N : Nat) (act : Act) (opts : List (LayerOptModel ℝ))
      (d d' : Draws ℝ) (l0 : Layer ℝ), 0 < N ∧ 0 < C ∧ 0 < X ∧ 0 < Y ∧ FitsBitmap N X Y ∧
      buildLayer opt (.locallyConnected (N : Int) (K : Int) act opts) [(C : Int), (X : Int), (Y : Int)] d = .ok (l0, d') ∧
      Used (C * X * Y) (ceil X K * ceil Y K * N) l0 l) :
    ∃ files, s.saveFeatureMapsAsBitmap path = .ok files ∧
      (∀ (k : Nat) l, s.net.layers[k]? = some l → l.getShapeOfInput.length = 3 → ∃ (C N X Y K : Nat) (file : List Nat),
        l.getShapeOfInput = [(C : Int), (X : Int), (Y : Int)] ∧ l.getShapeOfOutput = [(N : Int), (ceil X K : Int), (ceil Y K : Int)] ∧ (layerName path k, file) ∈ files ∧
        FileShows file N X Y fun f i j => grey (weightLevel (drawn l.body.weights (ceil X K) (ceil Y K) K f i j))) := by
  classical
  have none_of : ∀ l : Layer ℝ, l.getShapeOfInput.length ≠ 3 → l.weightsBitmap = .ok none := by
    intro l h
    unfold Layer.getShapeOfInput at h
    unfold Layer.weightsBitmap
    split at h
    · rename_i k ns info hb
      simp only [hb]
      split
      · rename_i e; simp [e] at h
      · rfl
    · rename_i t info n m hb
      simp only [hb]
      split
      · rename_i e; simp [e] at h
      · rfl
    · rename_i hb1 hb2
      split
      · rename_i hb; exact absurd hb (hb1 _ _ _)
      · rename_i hb; exact absurd hb (hb2 _ _ _ _)
      · rfl
  have key : ∀ k (hk : k < s.net.layers.length), ∃ img fs, (s.net.layers[k]).weightsBitmap = .ok img ∧ fileOf (layerName path k) weightColour img = .ok fs ∧
        ((s.net.layers[k]).getShapeOfInput.length ≠ 3 ∨ ∃ (C N X Y K : Nat) (file : List Nat), (s.net.layers[k]).getShapeOfInput = [(C : Int), (X : Int), (Y : Int)] ∧
          (s.net.layers[k]).getShapeOfOutput = [(N : Int), (ceil X K : Int), (ceil Y K : Int)] ∧ fs = [(layerName path k, file)] ∧
          FileShows file N X Y fun f i j => grey (weightLevel (drawn (s.net.layers[k]).body.weights (ceil X K) (ceil Y K) K f i j))) := by
    intro k hk
    rcases h k _ (List.getElem?_eq_getElem hk) with h3 | ⟨opt, C, X, Y, K, N, act, opts, d, d', l0, hN, hC, hX, hY, hf, hb, hu⟩
    · exact ⟨none, [], none_of _ h3, rfl, Or.inl h3⟩
    · obtain ⟨img, i1, i2⟩ := C54_locally_partial hN hC hb hu
      obtain ⟨b, r1, r2⟩ := render_shows (colour := weightColour) (fun v k h => roundByte_lt _ k h) i2 hX hY hf
        (fun f i j => grey (weightLevel (drawn (s.net.layers[k]).body.weights (ceil X K) (ceil Y K) K f i j))) (by
          intro f hf i hi j hj
          unfold pixelColours
          simp only
          rw [weightColour_real]
          rfl)
      refine ⟨some img, _, i1, ?_, Or.inr ⟨C, N, X, Y, K, b.bytes, (locally_shape hN hb hu).1, (locally_shape hN hb hu).2, rfl, r2⟩⟩
      unfold fileOf
      simp only
      rw [r1]
      rfl
  choose! img fs q1 q2 q3 using key
  have hfiles := layerFiles_ok (path := path) (colour := weightColour) (f := fun l _ => l.weightsBitmap) s.net.layers 0 fs (by
    intro k hk
    refine ⟨img k, q1 k hk, ?_⟩
    rw [Nat.zero_add]; exact q2 k hk)
  refine ⟨(List.range s.net.layers.length).flatMap fs, ?_, ?_⟩
  · unfold Snn.saveFeatureMapsAsBitmap
    rw [hidle]
    simp only [Bool.not_true, Bool.false_eq_true, if_false]
    exact hfiles
  · intro k l hl h3
    obtain ⟨hk, rfl⟩ := List.getElem?_eq_some_iff.1 hl
    rcases q3 k hk with h | ⟨C, N, X, Y, K, file, e1, e2, hfs, hshow⟩
    · exact absurd h3 h
    · refine ⟨C, N, X, Y, K, file, e1, e2, ?_, hshow⟩
      rw [List.mem_flatMap]
      exact ⟨k, List.mem_range.2 hk, by rw [hfs]; simp⟩

/-- C101, during a training the two calls that read the layers are refused. -/
theorem C101_training {F : Type} [Flt F] [FTrans F] [Add F] [Sub F] [Mul F] [Div F] [Neg F] (s : Snn F) (path : String) (data : Data F) (i : Int)
    (h : s.isIdle = false) : (∃ m, s.saveFeatureMapsAsBitmap path = .throw m) ∧ ∃ m, s.saveFilterLayersAsBitmap path data i = .throw m := by
  unfold Snn.saveFeatureMapsAsBitmap Snn.saveFilterLayersAsBitmap
  rw [h]
  exact ⟨⟨_, rfl⟩, ⟨_, rfl⟩⟩

/-! ### Witnesses -/

/-- A max pooling of kernel 2 on 4 × 3 pixels with 3 channels, then a dense layer. -/
def poolNet : Snn ℚ := (Snn.make [.input [3, 4, 3], .maxPooling 2, .fullyConnected 1 .identity []] Demo.sgd Demo.draws |>.get (by decide +kernel)).1
/-- A picture with values between 0 and 1. -/
def poolData : Data ℚ := (Data.make1 .regression [(List.range 36).map fun k => ((k : Nat) : ℚ) / 40] [[1]] .nonTemporal 0).get (by decide +kernel)
/-- The outputs of its layers, and the network afterwards. -/
def poolOuts : List (List ℚ) × Net ℚ := (poolNet.net.getLayerOutputs ((List.range 36).map fun k => ((k : Nat) : ℚ) / 40)).get (by decide +kernel)

/-- The outputs of a max pooling: 3 pictures of 2 × 2 pixels. -/
example : ∃ files, poolNet.saveFilterLayersAsBitmap "x" poolData 0 = .ok (files, { poolNet with net := poolOuts.2 }) ∧
    files.map Prod.fst = ["x_layer_0.bmp"] ∧ ∃ file, ("x_layer_0.bmp", file) ∈ files ∧
    FileShows file 3 2 2 fun f i j => grey ⌊255 * (poolOuts.1.getD 0 []).getD ((j * 2 + i) * 3 + f) 0⌋₊ := by
  have hnl : poolOuts.2.layers.length = 2 := by decide +kernel
  have hs0 : (poolOuts.2.layers.map Layer.getShapeOfOutput) = [[((3 : Nat) : Int), ((2 : Nat) : Int), ((2 : Nat) : Int)], [1]] := by decide +kernel
  have hv : ∀ v ∈ poolOuts.1.getD 0 [], 0 ≤ v ∧ v ≤ 1 := by decide +kernel
  obtain ⟨files, h1, h2, h3⟩ := C101_outputs_partial poolNet "x" poolData 0 ((List.range 36).map fun k => ((k : Nat) : ℚ) / 40) poolOuts.1 poolOuts.2
    (by decide +kernel) (by decide +kernel) (Res.eq_get _ _) (by decide +kernel) (by
      intro k l hl
      have hk : (poolOuts.2.layers.map Layer.getShapeOfOutput)[k]? = some l.getShapeOfOutput := by simp [hl]
      rw [hs0] at hk
      match k, hk with
      | 0, hk =>
        right
        refine ⟨3, 2, 2, (Option.some.inj hk).symm, by norm_num, by norm_num, by norm_num, ?_, by decide +kernel, hv⟩
        constructor <;> decide +kernel
      | 1, hk => left; rw [← Option.some.inj hk]; decide
      | k + 2, hk => simp at hk)
  refine ⟨files, h1, ?_, ?_⟩
  · rw [h3, hnl]
    decide +kernel
  · have hl : ∃ l, poolOuts.2.layers[0]? = some l ∧ l.getShapeOfOutput = [((3 : Nat) : Int), ((2 : Nat) : Int), ((2 : Nat) : Int)] := by
      refine ⟨poolOuts.2.layers[0]'(by omega), List.getElem?_eq_getElem _, ?_⟩
      have hk : (poolOuts.2.layers.map Layer.getShapeOfOutput)[0]? = some (poolOuts.2.layers[0]'(by omega)).getShapeOfOutput := by
        rw [List.getElem?_map, List.getElem?_eq_getElem]; rfl
      rw [hs0] at hk
      exact (Option.some.inj hk).symm
    obtain ⟨l, hl, hsh⟩ := hl
    exact h2 0 l 3 2 2 hl hsh

/-- The input: 4 × 3 pixels with 3 channels. -/
example : ∃ file px, poolNet.saveData2DAsBitmap "x" poolData 0 = .ok [("x_input0.bmp", file)] ∧ IsBitmap file 4 3 px := by
  obtain ⟨file, px, a, b, _⟩ := C101_input_partial poolNet "x" poolData 0 ((List.range 36).map fun k => ((k : Nat) : ℚ) / 40) (C := 3) (X := 4) (Y := 3)
    (l := poolNet.net.layers[0]'(by decide +kernel)) (Or.inr rfl) (List.getElem?_eq_getElem _) (by decide +kernel) (by norm_num) (by norm_num) (by norm_num)
    (by decide +kernel) (by decide +kernel) (by decide +kernel)
  exact ⟨file, px, a, b⟩

/-- After a normalization to [-1, 1], an input of -1 has no colour. -/
def negData : Data ℚ := (Data.make1 .regression [(List.range 36).map fun k => ((k : Nat) : ℚ) / 36 - 1] [[1]] .nonTemporal 0).get (by decide +kernel)

example : ∃ m, poolNet.saveData2DAsBitmap "x" negData 0 = .ub m :=
  C101_range_refuted poolNet "x" negData 0 ((List.range 36).map fun k => ((k : Nat) : ℚ) / 36 - 1) (C := 3) (X := 4) (Y := 3)
    (l := poolNet.net.layers[0]'(by decide +kernel)) (Or.inr rfl) (List.getElem?_eq_getElem _) (by decide +kernel)
    (by decide +kernel) (by decide +kernel) ⟨-1, by decide +kernel, by norm_num⟩

/-- A network with an input of 21845 × 1 pixels exists, and its bitmaps announce a wrong size. -/
example : ∃ (s : Snn ℝ) (data : Data ℝ) (file : List Nat), s.saveData2DAsBitmap "x" data 0 = .ok [("x" ++ "_input" ++ toString (0 : Int) ++ ".bmp", file)] ∧
    dword file 2 < file.length := by
  have g1 : GoodShape [1, 21845, 1] := ⟨by simp, by simp, by norm_num⟩
  have g2 : GoodShape [1, 21845 - 1 + 1, 1 - 1 + 1] := ⟨by simp, by simp, by norm_num⟩
  have g3 : GoodShape [1] := ⟨by simp, by simp, by norm_num⟩
  have hw : WellFormed (F := ℝ) [.input [1, 21845, 1], .convolution 1 1 .identity [], .fullyConnected 1 .identity []] [1, 21845, 1] [1] :=
    ⟨⟨_, _, rfl, .cons g1 (Fits.convolution2D (f := 1) (k := 1) (c := 1) (x := 21845) (y := 1) (by omega) (by omega) (by omega) (by omega))
      (.cons g2 (Fits.fullyConnected (n := 1) (by omega)) (.nil g3))⟩, by simp⟩
  obtain ⟨s, d', hm⟩ := ArchProps.C49_accepted_if hw (opt := { learningRate := 1 / 2, momentum := 0 }) (d := fun _ => 0)
    (by norm_num) (by norm_num) (by norm_num) (by norm_num) (fun _ => ⟨le_refl _, zero_le_one⟩)
  have hst : ∃ l, s.net.layers[0]? = some l ∧ l.getShapeOfInput = [((1 : Nat) : Int), ((21845 : Nat) : Int), ((1 : Nat) : Int)] := by
    unfold Snn.make at hm
    obtain ⟨⟨net, d1⟩, h1, hm⟩ := Res.bind_eq_ok.1 hm
    obtain ⟨err, _, hm⟩ := Res.bind_eq_ok.1 hm
    split at hm
    · cases hm
    · have e := (Prod.mk.inj (Res.ok.inj hm)).1
      have hn := (Net.make_is hw h1).2
      rw [← e]
      simp only [List.tail_cons] at hn
      cases hln : net.layers with
      | nil => rw [hln] at hn; cases hn
      | cons l ls =>
        rw [hln] at hn
        cases hn with
        | cons _ hl _ _ =>
          refine ⟨l, rfl, ?_⟩
          obtain ⟨_, _, kind, ns, info, hb, _, _, _, hin, _⟩ := hl
          unfold Layer.getShapeOfInput
          rw [hb]
          exact hin
  obtain ⟨l, hl, hs⟩ := hst
  obtain ⟨data, hd⟩ : ∃ data : Data ℝ, data.getTestingData 0 = .ok (List.replicate 21845 0) :=
    ⟨{ Data.blank .regression .nonTemporal 0 with testing := { (Data.blank (F := ℝ) .regression .nonTemporal 0).testing with inputs := [List.replicate 21845 0] } }, rfl⟩
  obtain ⟨file, h1, h2⟩ := C101_wide_refuted s "x" data 0 (List.replicate 21845 0) (C := 1) (X := 21845) (Y := 1) (Or.inl rfl) hl hs (by norm_num) (by norm_num)
    (by norm_num) hd (List.length_replicate) (by intro v hv; rw [List.eq_of_mem_replicate hv]; exact ⟨le_refl _, zero_le_one⟩)
  exact ⟨s, data, file, h1, h2⟩

/-- The weights of a locally connected layer with two filters on 2 × 2 pixels. -/
example : ∃ (s : Snn ℝ) (files : List (String × List Nat)) (K N : Nat) (file : List Nat), s.saveFeatureMapsAsBitmap "x" = .ok files ∧ (layerName "x" 0, file) ∈ files ∧
    ∃ c, FileShows file N 2 2 c := by
  have g1 : GoodShape [1, 2, 2] := ⟨by simp, by simp, by norm_num⟩
  have g2 : GoodShape [2, Spec.ceil 2 1, Spec.ceil 2 1] := ⟨by simp, by simp [Spec.ceil], by norm_num [Spec.ceil]⟩
  obtain ⟨l, d', hl⟩ := buildLayer_ok (F := ℝ) { learningRate := 1 / 2, momentum := 0 }
    (Fits.locally2D (f := 2) (k := 1) (c := 1) (x := 2) (y := 2) (act := .identity) (opts := []) (by omega) (by omega) (by omega) (by omega) (by omega)) g1 g2 (fun _ => 0)
  obtain ⟨s, hs1, hs2⟩ : ∃ s : Snn ℝ, s.isIdle = true ∧ s.net.layers = [l] := by
    have g3 : GoodShape [2] := ⟨by simp, by simp, by norm_num⟩
    have hw : WellFormed (F := ℝ) [.input [2], .fullyConnected 2 .identity []] [2] [2] := ⟨⟨_, _, rfl, .cons g3 (Fits.fullyConnected (n := 2) (by omega)) (.nil g3)⟩, by simp⟩
    obtain ⟨s, d', hm⟩ := ArchProps.C49_accepted_if hw (opt := { learningRate := 1 / 2, momentum := 0 }) (d := fun _ => 0)
      (by norm_num) (by norm_num) (by norm_num) (by norm_num) (fun _ => ⟨le_refl _, zero_le_one⟩)
    exact ⟨{ s with isIdle := true, net := { s.net with layers := [l] } }, rfl, rfl⟩
  obtain ⟨files, h1, h2⟩ := C101_weights_partial s "x" hs1 (by
    intro k l' hk
    rw [hs2] at hk
    match k, hk with
    | 0, hk =>
      cases hk
      refine Or.inr ⟨_, 1, 2, 2, 1, 2, _, _, _, _, _, by norm_num, by norm_num, by norm_num, by norm_num, ?_, hl.1, .new⟩
      constructor <;> decide +kernel
    | k + 1, hk => simp at hk)
  have hsh := locally_shape (C := 1) (X := 2) (Y := 2) (K := 1) (N := 2) (by norm_num) hl.1 .new
  obtain ⟨C, N, X, Y, K, file, e1, e2, e3, e4⟩ := h2 0 l (by rw [hs2]; rfl) (by rw [hsh.1]; rfl)
  rw [hsh.1] at e1
  simp only [List.cons.injEq, Nat.cast_inj, and_true] at e1
  obtain ⟨_, rfl, rfl⟩ := e1
  exact ⟨s, files, K, N, file, h1, e3, _, e4⟩

end Snn.BitmapProps
