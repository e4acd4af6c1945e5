import Verif.Spec.BitmapSpec
import Verif.Proofs.VisualProofs
import Mathlib.Data.List.GetD

/-! Proofs about the bitmap files. -/

set_option linter.all false

namespace Snn.BitmapProofs

open Snn.Spec

/-! ### The file -/

/-- The three bytes of a pixel in the buffer. -/
def bufPixel (b : Bitmap) (x y : Nat) : Nat × Nat × Nat :=
  let o := 3 * (y * b.width + x)
  (b.data.getD (o + 2) 0, b.data.getD (o + 1) 0, b.data.getD o 0)

/-- A buffer of the right size. -/
structure Sound (b : Bitmap) : Prop where
  small : 3 * (b.height * b.width) < 2 ^ 32
  length : b.data.length = 3 * (b.height * b.width)
  bytes : ∀ v ∈ b.data, v < 256

theorem getD_lt {l : List Nat} (h : ∀ v ∈ l, v < 256) (i : Nat) : l.getD i 0 < 256 := by
  by_cases hi : i < l.length
  · rw [List.getD_eq_getElem _ _ hi]; exact h _ (List.getElem_mem _)
  · rw [List.getD_eq_default _ _ (by omega)]; omega

theorem flatMap_length {f : Nat → List Nat} {s : Nat} : ∀ {n : Nat}, (∀ k < n, (f k).length = s) → ((List.range n).flatMap f).length = s * n
  | 0, _ => by simp
  | n + 1, h => by
    rw [List.range_succ, List.flatMap_append, List.length_append, flatMap_length (fun k hk => h k (by omega))]
    simp [h n (by omega)]
    ring

/-- Blocks of the same size. -/
theorem flatMap_getD {f : Nat → List Nat} {s : Nat} : ∀ {n k j : Nat}, (∀ k < n, (f k).length = s) → k < n → j < s →
    ((List.range n).flatMap f).getD (s * k + j) 0 = (f k).getD j 0
  | 0, k, j, _, hk, _ => by omega
  | n + 1, k, j, h, hk, hj => by
    have hl := flatMap_length (f := f) (n := n) (fun k hk => h k (by omega))
    rw [List.range_succ, List.flatMap_append]
    by_cases hkn : k < n
    · rw [List.getD_append _ _ _ _ (by
        rw [hl]
        have : s * (k + 1) ≤ s * n := Nat.mul_le_mul_left s hkn
        rw [Nat.mul_add] at this; omega)]
      exact flatMap_getD (fun k hk => h k (by omega)) hkn hj
    · have : k = n := by omega
      subst this
      rw [List.getD_append_right _ _ _ _ (by rw [hl]; omega), hl]
      simp

theorem stride_eq (w : Nat) : stride w = 3 * w + (4 - 3 * w % 4) % 4 := by
  unfold stride; omega

theorem mask_eq (n : Nat) : n &&& 0xFFFC = n / 4 % 16384 * 4 := by
  have e1 : n / 4 % 16384 * 4 = ((n >>> 2) % 2 ^ 14) <<< 2 := by
    rw [Nat.shiftRight_eq_div_pow, Nat.shiftLeft_eq]
    norm_num
  have e2 : (0xFFFC : Nat) = (2 ^ 14 - 1) <<< 2 := by decide
  rw [e1, e2]
  apply Nat.eq_of_testBit_eq
  intro i
  simp only [Nat.testBit_and, Nat.testBit_shiftLeft, Nat.testBit_two_pow_sub_one, Nat.testBit_mod_two_pow, Nat.testBit_shiftRight]
  by_cases hi : 2 ≤ i
  · have : 2 + (i - 2) = i := by omega
    simp [hi, this, Bool.and_comm]
  · simp [hi]

theorem bytes4_lt (v : Nat) : ∀ b ∈ bytes4 v, b < 256 := by
  intro b hb
  simp only [bytes4, List.mem_cons, List.not_mem_nil, or_false] at hb
  omega

theorem bytes2_lt (v : Nat) : ∀ b ∈ bytes2 v, b < 256 := by
  intro b hb
  simp only [bytes2, List.mem_cons, List.not_mem_nil, or_false] at hb
  omega

/-- The 54 bytes of the two headers. -/
def header (b : Bitmap) : List Nat := b.fileHeader ++ b.infoHeader

theorem header_length (b : Bitmap) : (header b).length = 54 := by
  simp [header, Bitmap.fileHeader, Bitmap.infoHeader, bytes4, bytes2]

theorem header_lt (b : Bitmap) : ∀ v ∈ header b, v < 256 := by
  intro v hv
  simp only [header, Bitmap.fileHeader, Bitmap.infoHeader, List.mem_append] at hv
  rcases hv with h | h
  · rcases h with (((h | h) | h) | h) | h
    all_goals first | exact bytes4_lt _ _ h | exact bytes2_lt _ _ h
  · rcases h with (((((((((h | h) | h) | h) | h) | h) | h) | h) | h) | h) | h
    all_goals first | exact bytes4_lt _ _ h | exact bytes2_lt _ _ h

/-- The pixels of the file. -/
def body (b : Bitmap) : List Nat := (List.range b.height).flatMap fun i =>
    ((b.data.drop (b.row * (b.height - i - 1) % 2 ^ 32)).take (3 * b.width)) ++ List.replicate b.padding 0

theorem bytes_eq (b : Bitmap) : b.bytes = header b ++ body b := rfl

theorem row_eq {b : Bitmap} (h : Sound b) (hh : 0 < b.height) : b.row = 3 * b.width := by
  have : 3 * b.width ≤ 3 * (b.height * b.width) := Nat.mul_le_mul_left 3 (Nat.le_mul_of_pos_left _ hh)
  have h2 := h.small
  unfold Bitmap.row
  rw [Nat.mod_eq_of_lt] <;> omega

theorem padding_eq {b : Bitmap} (hw : 3 * b.width < 2 ^ 32) : b.padding = (4 - 3 * b.width % 4) % 4 := by
  unfold Bitmap.padding
  rw [Nat.mod_eq_of_lt hw]

theorem block_start {b : Bitmap} (h : Sound b) {i : Nat} (hi : i < b.height) :
    b.row * (b.height - i - 1) % 2 ^ 32 = 3 * ((b.height - 1 - i) * b.width) ∧ 3 * ((b.height - 1 - i) * b.width) + 3 * b.width ≤ b.data.length := by
  have e : b.height - i - 1 = b.height - 1 - i := by omega
  have h1 : (b.height - 1 - i + 1) * b.width ≤ b.height * b.width := Nat.mul_le_mul_right _ (by omega)
  have h2 : (b.height - 1 - i + 1) * b.width = (b.height - 1 - i) * b.width + b.width := by ring
  have h3 := h.small
  have h4 := h.length
  constructor
  · rw [row_eq h (by omega), e]
    have : 3 * b.width * (b.height - 1 - i) = 3 * ((b.height - 1 - i) * b.width) := by ring
    rw [this, Nat.mod_eq_of_lt]
    omega
  · omega

theorem block_length {b : Bitmap} (h : Sound b) : ∀ i < b.height,
    (((b.data.drop (b.row * (b.height - i - 1) % 2 ^ 32)).take (3 * b.width)) ++ List.replicate b.padding 0).length = stride b.width := by
  intro i hi
  obtain ⟨h1, h2⟩ := block_start h hi
  have hw : 3 * b.width < 2 ^ 32 := by
    have := h.small; have := h.length; omega
  rw [h1, List.length_append, List.length_take, List.length_drop, List.length_replicate, padding_eq hw, stride_eq]
  omega

theorem body_length {b : Bitmap} (h : Sound b) : (body b).length = stride b.width * b.height := flatMap_length (block_length h)

theorem body_getD {b : Bitmap} (h : Sound b) {x y c : Nat} (hx : x < b.width) (hy : y < b.height) (hc : c < 3) :
    (body b).getD ((b.height - 1 - y) * stride b.width + 3 * x + c) 0 = b.data.getD (3 * (y * b.width + x) + c) 0 := by
  have hs := stride_eq b.width
  have e1 : (b.height - 1 - y) * stride b.width + 3 * x + c = stride b.width * (b.height - 1 - y) + (3 * x + c) := by ring
  rw [e1]
  unfold body
  rw [flatMap_getD (block_length h) (by omega) (by omega)]
  obtain ⟨h1, h2⟩ := block_start h (i := b.height - 1 - y) (by omega)
  have e2 : b.height - 1 - (b.height - 1 - y) = y := by omega
  rw [e2] at h1 h2
  rw [h1, List.getD_append _ _ _ _ (by rw [List.length_take, List.length_drop]; omega)]
  have e3 : 3 * (y * b.width + x) + c = 3 * (y * b.width) + (3 * x + c) := by ring
  rw [e3]
  simp only [List.getD_eq_getElem?_getD, List.getElem?_take, List.getElem?_drop]
  rw [if_pos (by omega)]

theorem byteAt_header (b : Bitmap) {i : Nat} (hi : i < 54) : byteAt b.bytes i = (header b).getD i 0 := by
  unfold byteAt
  rw [bytes_eq, List.getD_append _ _ _ _ (by rw [header_length]; exact hi)]

theorem byteAt_body (b : Bitmap) (i : Nat) : byteAt b.bytes (54 + i) = (body b).getD i 0 := by
  unfold byteAt
  rw [bytes_eq, List.getD_append_right _ _ _ _ (by rw [header_length]; omega), header_length]
  congr 1
  omega

theorem word_header (b : Bitmap) {i : Nat} (hi : i + 1 < 54) : word b.bytes i = (header b).getD i 0 + 256 * (header b).getD (i + 1) 0 := by
  unfold word
  rw [byteAt_header b (by omega), byteAt_header b (by omega)]

theorem dword_header (b : Bitmap) {i : Nat} (hi : i + 3 < 54) : dword b.bytes i =
    (header b).getD i 0 + 256 * (header b).getD (i + 1) 0 + 65536 * ((header b).getD (i + 2) 0 + 256 * (header b).getD (i + 3) 0) := by
  unfold dword
  rw [word_header b (by omega), word_header b (by omega)]

theorem dword_of (v : Nat) (h : v < 2 ^ 32) : v % 256 + 256 * (v / 256 % 256) + 65536 * (v / 65536 % 256 + 256 * (v / 16777216 % 256)) = v := by
  omega

theorem sizeImage_eq {b : Bitmap} (hw : 3 * b.width + 3 < 65536) (hs : stride b.width * b.height < 2 ^ 32) : b.sizeImage = stride b.width * b.height := by
  unfold Bitmap.sizeImage
  have e : (b.width * 3 % 2 ^ 32 + 3) % 2 ^ 32 &&& 0xFFFC = stride b.width := by
    have e1 : (b.width * 3 % 2 ^ 32 + 3) % 2 ^ 32 = 3 * b.width + 3 := by omega
    rw [e1, mask_eq, Nat.mod_eq_of_lt (show (3 * b.width + 3) / 4 < 16384 by omega)]
    unfold stride
    congr 1
    clear hs e1
    omega
  rw [e, Nat.mod_eq_of_lt hs]

/-- The file of a sound buffer is the bitmap of its pixels. -/
theorem bytes_isBitmap {b : Bitmap} (h : Sound b) (hw : 3 * b.width + 3 < 65536) (hh : b.height < 2 ^ 32) (hs : 54 + stride b.width * b.height < 2 ^ 32) :
    IsBitmap b.bytes b.width b.height (bufPixel b) := by
  have hsz := sizeImage_eq hw (by omega)
  have hlen : b.bytes.length = 54 + stride b.width * b.height := by
    rw [bytes_eq, List.length_append, header_length, body_length h]
  have hstart : dword b.bytes 10 = 54 := by
    rw [dword_header b (by omega)]
    simp [header, Bitmap.fileHeader, Bitmap.infoHeader, bytes4, bytes2]
  refine ⟨⟨?_, ?_, ?_, hstart, ?_, ?_, ?_, ?_, ?_, ?_, ?_, hlen, ?_, ?_, ?_⟩, ?_⟩
  · intro v hv
    rw [bytes_eq] at hv
    rcases List.mem_append.1 hv with hv | hv
    · exact header_lt b v hv
    · simp only [body, List.mem_flatMap, List.mem_append] at hv
      obtain ⟨i, _, hv | hv⟩ := hv
      · exact h.bytes v (List.mem_of_mem_drop (List.mem_of_mem_take hv))
      · rw [List.eq_of_mem_replicate hv]; omega
  · rw [byteAt_header b (by omega), byteAt_header b (by omega)]
    simp [header, Bitmap.fileHeader, Bitmap.infoHeader, bytes4, bytes2]
  · rw [dword_header b (by omega), hlen]
    have : (14 + 40 + b.sizeImage) % 2 ^ 32 = 54 + stride b.width * b.height := by rw [hsz, Nat.mod_eq_of_lt] <;> omega
    rw [← this]
    have := dword_of ((14 + 40 + b.sizeImage) % 2 ^ 32) (by omega)
    simp only [header, Bitmap.fileHeader, Bitmap.infoHeader, bytes4, bytes2]
    simpa using this
  · rw [dword_header b (by omega)]
    simp [header, Bitmap.fileHeader, Bitmap.infoHeader, bytes4, bytes2]
  · rw [dword_header b (by omega)]
    have := dword_of b.width (by omega)
    simp only [header, Bitmap.fileHeader, Bitmap.infoHeader, bytes4, bytes2]
    simpa using this
  · rw [dword_header b (by omega)]
    have := dword_of b.height hh
    simp only [header, Bitmap.fileHeader, Bitmap.infoHeader, bytes4, bytes2]
    simpa using this
  · rw [word_header b (by omega)]
    simp [header, Bitmap.fileHeader, Bitmap.infoHeader, bytes4, bytes2]
  · rw [word_header b (by omega)]
    simp [header, Bitmap.fileHeader, Bitmap.infoHeader, bytes4, bytes2]
  · rw [dword_header b (by omega)]
    simp [header, Bitmap.fileHeader, Bitmap.infoHeader, bytes4, bytes2]
  · rw [dword_header b (by omega), ← hsz]
    have := dword_of b.sizeImage (by rw [hsz]; omega)
    simp only [header, Bitmap.fileHeader, Bitmap.infoHeader, bytes4, bytes2]
    simpa using this
  · rw [dword_header b (by omega), dword_header b (by omega)]
    simp [header, Bitmap.fileHeader, Bitmap.infoHeader, bytes4, bytes2]
  · rw [dword_header b (by omega)]
    simp [header, Bitmap.fileHeader, Bitmap.infoHeader, bytes4, bytes2]
  · rw [dword_header b (by omega), dword_header b (by omega)]
    simp [header, Bitmap.fileHeader, Bitmap.infoHeader, bytes4, bytes2]
  · intro x hx y hy
    have key : ∀ c < 3, byteAt b.bytes (54 + (b.height - 1 - y) * stride b.width + 3 * x + c) = b.data.getD (3 * (y * b.width + x) + c) 0 := by
      intro c hc
      rw [← body_getD h hx hy hc, ← byteAt_body]
      congr 1
      omega
    unfold pixelAt bufPixel
    simp only [hstart]
    rw [key 2 (by omega), key 1 (by omega)]
    have := key 0 (by omega)
    rw [Nat.add_zero, Nat.add_zero] at this
    rw [this]

/-! ### The buffer -/

theorem create_sound {w h : Nat} (hs : 3 * (h * w) < 2 ^ 32) (hh : 0 < h) : Sound (Bitmap.create w h) := by
  have hw : 3 * w ≤ 3 * (h * w) := Nat.mul_le_mul_left 3 (Nat.le_mul_of_pos_left _ hh)
  refine ⟨hs, ?_, ?_⟩
  · unfold Bitmap.create
    simp only [List.length_replicate]
    rw [Nat.mod_eq_of_lt (show w * 3 < 2 ^ 32 by omega)]
    have : h * (w * 3) = 3 * (h * w) := by ring
    rw [this, Nat.mod_eq_of_lt hs]
  · intro v hv
    rw [List.eq_of_mem_replicate hv]; omega

theorem pixel_inj {w x y x' y' : Nat} (hx : x < w) (hx' : x' < w) (h : y * w + x = y' * w + x') : x = x' ∧ y = y' := by
  have h1 : (y * w + x) / w = y := by rw [Nat.mul_comm, Nat.mul_add_div (by omega), Nat.div_eq_of_lt hx, Nat.add_zero]
  have h2 : (y' * w + x') / w = y' := by rw [Nat.mul_comm, Nat.mul_add_div (by omega), Nat.div_eq_of_lt hx', Nat.add_zero]
  have : y = y' := by rw [← h1, ← h2, h]
  subst this
  exact ⟨by omega, rfl⟩

theorem setPixel_ok {b : Bitmap} (h : Sound b) {x y r g bl : Nat} (hx : x < b.width) (hy : y < b.height) (hr : r < 256) (hg : g < 256) (hbl : bl < 256) :
    ∃ b', b.setPixel x y r g bl = .ok b' ∧ Sound b' ∧ b'.width = b.width ∧ b'.height = b.height ∧ bufPixel b' x y = (r, g, bl) ∧
      ∀ x' < b.width, ∀ y', (x', y') ≠ (x, y) → bufPixel b' x' y' = bufPixel b x' y' := by
  have hroom : y * b.width + x < b.height * b.width := by
    have : (y + 1) * b.width ≤ b.height * b.width := Nat.mul_le_mul_right _ hy
    rw [Nat.add_mul] at this; omega
  have hs := h.small
  have hl := h.length
  have ho : (y * b.row % 2 ^ 32 + x * 3 % 2 ^ 32) % 2 ^ 32 = 3 * (y * b.width + x) := by
    rw [row_eq h (by omega), ← Nat.add_mod]
    have : y * (3 * b.width) + x * 3 = 3 * (y * b.width + x) := by ring
    rw [this, Nat.mod_eq_of_lt]; omega
  unfold Bitmap.setPixel
  simp only [ho]
  rw [Nat.mod_eq_of_lt (show 3 * (y * b.width + x) + 0 < 2 ^ 32 by omega), Nat.mod_eq_of_lt (show 3 * (y * b.width + x) + 1 < 2 ^ 32 by omega),
    Nat.mod_eq_of_lt (show 3 * (y * b.width + x) + 2 < 2 ^ 32 by omega)]
  generalize ho' : 3 * (y * b.width + x) = o at *
  have w0 : wr b.data ((o + 0 : Nat) : Int) bl = .ok (b.data.set o bl) := by
    unfold wr; rw [if_pos (by constructor <;> [omega; (rw [Int.toNat_natCast]; omega)])]; rfl
  have w1 : wr (b.data.set o bl) ((o + 1 : Nat) : Int) g = .ok ((b.data.set o bl).set (o + 1) g) := by
    unfold wr; rw [if_pos (by constructor <;> [omega; (rw [Int.toNat_natCast, List.length_set]; omega)])]; rfl
  have w2 : wr ((b.data.set o bl).set (o + 1) g) ((o + 2 : Nat) : Int) r = .ok (((b.data.set o bl).set (o + 1) g).set (o + 2) r) := by
    unfold wr; rw [if_pos (by constructor <;> [omega; (rw [Int.toNat_natCast, List.length_set, List.length_set]; omega)])]; rfl
  rw [w0, Res.ok_bind, w1, Res.ok_bind, w2, Res.ok_bind]
  refine ⟨_, rfl, ⟨hs, by simp only [List.length_set]; exact hl, ?_⟩, rfl, rfl, ?_, ?_⟩
  · intro v hv
    simp only at hv
    rcases List.mem_or_eq_of_mem_set hv with hv | rfl
    · rcases List.mem_or_eq_of_mem_set hv with hv | rfl
      · rcases List.mem_or_eq_of_mem_set hv with hv | rfl
        · exact h.bytes v hv
        · exact hbl
      · exact hg
    · exact hr
  · unfold bufPixel
    simp only [ho', List.getD_eq_getElem?_getD, List.getElem?_set, List.length_set]
    have n1 : ¬ o + 2 = o + 1 := by omega
    have n2 : ¬ o + 2 = o := by omega
    have n3 : ¬ o + 1 = o := by omega
    have n4 : o < b.data.length := by omega
    have n5 : o + 1 < b.data.length := by omega
    have n6 : o + 2 < b.data.length := by omega
    simp [n1, n2, n3, n4, n5, n6]
  · intro x' hx' y' hne
    have hne' : y' * b.width + x' ≠ y * b.width + x := by
      intro e
      obtain ⟨e1, e2⟩ := pixel_inj hx' hx e
      exact hne (by rw [e1, e2])
    have far : 3 * (y' * b.width + x') + 2 < o ∨ o + 2 < 3 * (y' * b.width + x') := by omega
    unfold bufPixel
    simp only [List.getD_eq_getElem?_getD, List.getElem?_set]
    generalize 3 * (y' * b.width + x') = p at far
    rw [if_neg (by omega), if_neg (by omega), if_neg (by omega), if_neg (by omega), if_neg (by omega), if_neg (by omega), if_neg (by omega),
      if_neg (by omega), if_neg (by omega)]

section
variable {F : Type} [Flt F] [FTrans F] [Add F] [Sub F] [Mul F] [Div F] [Neg F]

/-- The last write to a pixel. -/
def lastWrite (ws : List ((Int × Int) × List F)) (p : Int × Int) : Option (List F) := (ws.reverse.find? fun w => w.1 == p).map Prod.snd

theorem lastWrite_cons (w : (Int × Int) × List F) (ws : List ((Int × Int) × List F)) (p : Int × Int) :
    lastWrite (w :: ws) p = (lastWrite ws p).or (if w.1 = p then some w.2 else none) := by
  unfold lastWrite
  rw [List.reverse_cons, List.find?_append]
  cases List.find? (fun w => w.1 == p) ws.reverse with
  | some a => simp
  | none => by_cases h : w.1 = p <;> simp [h]

theorem pixelColours_lt {colour : F → Res Nat} (hc : ∀ v k, colour v = .ok k → k < 256) {v : List F} {r g bl : Nat}
    (h : pixelColours colour v = .ok (r, g, bl)) : r < 256 ∧ g < 256 ∧ bl < 256 := by
  unfold pixelColours at h
  split at h
  · obtain ⟨c, h1, h⟩ := Res.bind_eq_ok.1 h
    cases h
    have := hc _ _ h1
    exact ⟨this, this, this⟩
  · obtain ⟨c1, h1, h⟩ := Res.bind_eq_ok.1 h
    obtain ⟨c2, h2, h⟩ := Res.bind_eq_ok.1 h
    obtain ⟨c3, h3, h⟩ := Res.bind_eq_ok.1 h
    cases h
    exact ⟨hc _ _ h1, hc _ _ h2, hc _ _ h3⟩
  · cases h

theorem writes_ok {colour : F → Res Nat} (hc : ∀ v k, colour v = .ok k → k < 256) : ∀ (ws : List ((Int × Int) × List F)) {b : Bitmap}, Sound b →
    (∀ w ∈ ws, 0 ≤ w.1.1 ∧ w.1.1 < b.width ∧ 0 ≤ w.1.2 ∧ w.1.2 < b.height) → (∀ w ∈ ws, ∃ c, pixelColours colour w.2 = .ok c) →
    ∃ b', ws.foldlM (fun b w => do
        let (r, g, bl) ← pixelColours colour w.2
        b.setPixel w.1.1.toNat w.1.2.toNat r g bl) b = .ok b' ∧ Sound b' ∧ b'.width = b.width ∧ b'.height = b.height ∧
      ∀ x < b.width, ∀ y < b.height, (lastWrite ws ((x : Int), (y : Int)) = none → bufPixel b' x y = bufPixel b x y) ∧
        ∀ v c, lastWrite ws ((x : Int), (y : Int)) = some v → pixelColours colour v = .ok c → bufPixel b' x y = c
  | [], b, hb, _, _ => ⟨b, rfl, hb, rfl, rfl, fun x _ y _ => ⟨fun _ => rfl, fun v c h _ => by cases h⟩⟩
  | w :: ws, b, hb, hin, hcol => by
    obtain ⟨c1, c2, c3, c4⟩ := hin w (by simp)
    obtain ⟨⟨r, g, bl⟩, hcw⟩ := hcol w (by simp)
    obtain ⟨hr, hg, hbl⟩ := pixelColours_lt hc hcw
    obtain ⟨b1, s1, s2, s3, s4, s5, s6⟩ := setPixel_ok hb (x := w.1.1.toNat) (y := w.1.2.toNat) (by omega) (by omega) hr hg hbl
    obtain ⟨b2, t1, t2, t3, t4, t5⟩ := writes_ok hc ws s2 (fun w' hw' => by rw [s3, s4]; exact hin w' (by simp [hw'])) (fun w' hw' => hcol w' (by simp [hw']))
    refine ⟨b2, ?_, t2, t3.trans s3, t4.trans s4, ?_⟩
    · rw [List.foldlM_cons, hcw, Res.ok_bind]
      simp only
      rw [s1, Res.ok_bind]
      exact t1
    · intro x hx y hy
      obtain ⟨u1, u2⟩ := t5 x (by rw [s3]; exact hx) y (by rw [s4]; exact hy)
      rw [lastWrite_cons]
      cases hlw : lastWrite ws ((x : Int), (y : Int)) with
      | some v' =>
        refine ⟨fun h => by simp at h, fun v c h1 h2 => ?_⟩
        simp at h1
        subst h1
        exact u2 _ _ hlw h2
      | none =>
        have k := u1 hlw
        by_cases hp : w.1 = ((x : Int), (y : Int))
        · refine ⟨fun h => by simp [hp] at h, fun v c h1 h2 => ?_⟩
          simp [hp] at h1
          subst h1
          rw [hcw] at h2
          rw [k, ← Res.ok.inj h2]
          have : x = w.1.1.toNat ∧ y = w.1.2.toNat := by rw [hp]; simp
          rw [this.1, this.2]; exact s5
        · refine ⟨fun _ => ?_, fun v c h1 h2 => by simp [hp] at h1⟩
          rw [k]
          refine s6 x hx y ?_
          intro e
          apply hp
          have e1 := (Prod.mk.inj e).1
          have e2 := (Prod.mk.inj e).2
          apply Prod.ext
          · simp only; omega
          · simp only; omega

theorem create_pixel (w h x y : Nat) : bufPixel (Bitmap.create w h) x y = (0, 0, 0) := by
  unfold bufPixel Bitmap.create
  have : ∀ n i : Nat, (List.replicate n 0).getD i 0 = 0 := by
    intro n i
    simp [List.getD_eq_getElem?_getD, List.getElem?_replicate]
    split <;> rfl
  simp only [this]

end

end Snn.BitmapProofs
