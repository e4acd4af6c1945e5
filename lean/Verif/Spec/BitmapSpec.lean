import Verif.Model.Bitmap

/-!
# Specification: the BMP file format

Uncompressed 24-bit bitmaps, as any viewer reads them: a header of 54 bytes with the size of the file, the position of the pixels, the
width, the height, the size of the pixels; rows from the bottom to the top, each padded to a multiple of 4 bytes; pixels as blue, green,
red. This file does not use the functions that write.
-/

namespace Snn.Spec

/-- A byte of a file. -/
def byteAt (file : List Nat) (i : Nat) : Nat := file.getD i 0

/-- Two bytes, the lowest first. -/
def word (file : List Nat) (i : Nat) : Nat := byteAt file i + 256 * byteAt file (i + 1)

/-- Four bytes, the lowest first. -/
def dword (file : List Nat) (i : Nat) : Nat := word file i + 65536 * word file (i + 2)

/-- The bytes of a row of `w` pixels: a multiple of 4. -/
def stride (w : Nat) : Nat := (24 * w + 31) / 32 * 4

/-- The pixel in column x and row y (from the top) of a picture of size w × h: red, green, blue. -/
def pixelAt (file : List Nat) (w h x y : Nat) : Nat × Nat × Nat :=
  let p := dword file 10 + (h - 1 - y) * stride w + 3 * x
  (byteAt file (p + 2), byteAt file (p + 1), byteAt file p)

/-- The headers announce an uncompressed picture of w × h pixels of 24 bits, and the sizes in them are those of the file. -/
structure BmpHeader (file : List Nat) (w h : Nat) : Prop where
  bytes : ∀ b ∈ file, b < 256
  magic : byteAt file 0 = 'B'.toNat ∧ byteAt file 1 = 'M'.toNat
  size : dword file 2 = file.length
  start : dword file 10 = 54
  info : dword file 14 = 40
  width : dword file 18 = w
  height : dword file 22 = h
  planes : word file 26 = 1
  bits : word file 28 = 24
  compression : dword file 30 = 0
  image : dword file 34 = stride w * h
  length : file.length = 54 + stride w * h
  palette : dword file 46 = 0 ∧ dword file 50 = 0
  reserved : dword file 6 = 0
  resolution : dword file 38 = 0 ∧ dword file 42 = 0

/-- The file is a bitmap of size w × h with these pixels. -/
def IsBitmap (file : List Nat) (w h : Nat) (px : Nat → Nat → Nat × Nat × Nat) : Prop :=
  BmpHeader file w h ∧ ∀ x < w, ∀ y < h, pixelAt file w h x y = px x y

/-- Grey. -/
def grey (c : Nat) : Nat × Nat × Nat := (c, c, c)

/-- The file is a bitmap with N pictures of X × Y pixels in a nearly square grid, one black line between the pictures: the pixel (i, j)
of picture f, which is in column `f % a` and row `f / a` of the grid, has the colour `c f i j`; every other pixel is black. -/
def FileShows (file : List Nat) (N X Y : Nat) (c : Nat → Nat → Nat → Nat × Nat × Nat) : Prop :=
  ∃ a b : Nat, 0 < a ∧ N ≤ a * b ∧ a ≤ Nat.sqrt N + 1 ∧ b ≤ Nat.sqrt N + 1 ∧ ∃ px, IsBitmap file ((X + 1) * a - 1) ((Y + 1) * b - 1) px ∧
    (∀ f < N, ∀ i < X, ∀ j < Y, (f % a) * (X + 1) + i < (X + 1) * a - 1 ∧ (f / a) * (Y + 1) + j < (Y + 1) * b - 1 ∧
      px ((f % a) * (X + 1) + i) ((f / a) * (Y + 1) + j) = c f i j) ∧
    ∀ x < (X + 1) * a - 1, ∀ y < (Y + 1) * b - 1,
      (∀ f < N, ∀ i < X, ∀ j < Y, (x, y) ≠ ((f % a) * (X + 1) + i, (f / a) * (Y + 1) + j)) → px x y = (0, 0, 0)

/-- The picture fits: the width is less than 21845 pixels and the height less than 65535 (in a grid of N pictures of X × Y pixels). -/
def FitsBitmap (N X Y : Nat) : Prop := 3 * ((X + 1) * (Nat.sqrt N + 1)) < 65536 ∧ (Y + 1) * (Nat.sqrt N + 1) < 65536

end Snn.Spec
