import Verif.Model.Visual
import Verif.Model.Training

/-!
# Model of the bitmap files

The conversions of values to colours of `src/neural_network/NeuralNetworkVisualization.cpp`, the buffer and the file format of
`src/external_library/bitmap/BitmapImage.hpp`, and the three public calls that write bitmaps
(`src/neural_network/StraightforwardNeuralNetwork.cpp:255-284`). A byte is a `Nat` below 256, `unsigned int` arithmetic is modulo 2^32.
Simplification: the colours are computed after the loops of `Model/Visual.lean` instead of inside of them (same values, same calls of
`set_pixel`, in the same order).
-/

namespace Snn

/-- `static_cast<unsigned char>(v)` for a float: the part after the point is dropped; undefined when the result does not fit
(also for NaN). The number of k in 1 … 255 with k ≤ v is the result, on every carrier. -/
def toByte {F : Type} [Flt F] (v : F) : Res Nat :=
  if flt (lit (-1)) v && flt v (lit 256) then .ok ((List.range 255).countP fun k => fle (lit ((k + 1 : Nat) : Rat)) v)
  else .ub "conversion of a float out of the range of unsigned char"

/-- `static_cast<unsigned char>(round(v))`: to the nearest, halves away from zero. -/
def roundByte {F : Type} [Flt F] (v : F) : Res Nat :=
  if flt (lit (-1 / 2)) v && flt v (lit (511 / 2)) then .ok ((List.range 255).countP fun k => fle (lit (((k + 1 : Nat) : Rat) - 1 / 2)) v)
  else .ub "conversion of a float out of the range of unsigned char"

section
variable {F : Type} [Flt F] [FTrans F] [Add F] [Sub F] [Mul F] [Div F] [Neg F]

/-- NeuralNetworkVisualization.cpp:102, 125, 130-132 the colour of an output or of an input. -/
def valueColour (v : F) : Res Nat := toByte (v * lit 255)

/-- NeuralNetworkVisualization.cpp:39 the colour of a weight. -/
def weightColour (w : F) : Res Nat := roundByte ((ftanh (w / lit 2) + lit 1) * lit (255 / 2))

end

/-- BitmapImage.hpp:1503-1507 the members of a `bitmap_image` (`row_increment_` is `3 width` modulo 2^32). -/
structure Bitmap where
  width : Nat
  height : Nat
  data : List Nat
  deriving DecidableEq, Repr

/-- BitmapImage.hpp:1505 `row_increment_`. -/
def Bitmap.row (b : Bitmap) : Nat := b.width * 3 % 2 ^ 32

/-- BitmapImage.hpp:79-88, 1503-1507 the constructor, with NeuralNetworkVisualization.cpp:25 `set_all_channels(0, 0, 0)`
(BitmapImage.hpp:533-543). -/
def Bitmap.create (width height : Nat) : Bitmap :=
  { width := width, height := height, data := List.replicate (height * (width * 3 % 2 ^ 32) % 2 ^ 32) 0 }

/-- BitmapImage.hpp:194-206 `set_pixel`; `data_[…]` out of the buffer is undefined. -/
def Bitmap.setPixel (b : Bitmap) (x y red green blue : Nat) : Res Bitmap := do
  let offset := (y * b.row % 2 ^ 32 + x * 3 % 2 ^ 32) % 2 ^ 32
  let d ← wr b.data (((offset + 0) % 2 ^ 32 : Nat) : Int) blue
  let d ← wr d (((offset + 1) % 2 ^ 32 : Nat) : Int) green
  let d ← wr d (((offset + 2) % 2 ^ 32 : Nat) : Int) red
  return { b with data := d }

/-- BitmapImage.hpp:1389-1393 `write_to_stream` of an `unsigned short`, on a little-endian or (with `flip`, :1368-1371) big-endian
machine. -/
def bytes2 (v : Nat) : List Nat := [v % 256, v / 256 % 256]

/-- BitmapImage.hpp:1389-1393 `write_to_stream` of an `unsigned int`. -/
def bytes4 (v : Nat) : List Nat := [v % 256, v / 256 % 256, v / 65536 % 256, v / 16777216 % 256]

/-- BitmapImage.hpp:454 `size_image`: `((width * 3 + 3) & 0x0000FFFC) * height`. -/
def Bitmap.sizeImage (b : Bitmap) : Nat := ((b.width * 3 % 2 ^ 32 + 3) % 2 ^ 32 &&& 0x0000FFFC) * b.height % 2 ^ 32

/-- BitmapImage.hpp:456-464, 1413-1431 the file header: type, size, reserved1, reserved2, off_bits. -/
def Bitmap.fileHeader (b : Bitmap) : List Nat :=
  bytes2 19778 ++ bytes4 ((14 + 40 + b.sizeImage) % 2 ^ 32) ++ bytes2 0 ++ bytes2 0 ++ bytes4 (40 + 14)

/-- BitmapImage.hpp:442-454, 1463-1493 the information header. -/
def Bitmap.infoHeader (b : Bitmap) : List Nat :=
  bytes4 40 ++ bytes4 b.width ++ bytes4 b.height ++ bytes2 1 ++ bytes2 24 ++ bytes4 0 ++ bytes4 b.sizeImage ++ bytes4 0 ++ bytes4 0 ++ bytes4 0 ++
    bytes4 0

/-- BitmapImage.hpp:467 `padding`. -/
def Bitmap.padding (b : Bitmap) : Nat := (4 - (3 * b.width % 2 ^ 32) % 4) % 4

/-- BitmapImage.hpp:431-479 `save_image`: the bytes of the file; a row is read from `&data_[row_increment_ * (height_ - i - 1)]`. -/
def Bitmap.bytes (b : Bitmap) : List Nat :=
  b.fileHeader ++ b.infoHeader ++ (List.range b.height).flatMap fun i =>
    ((b.data.drop (b.row * (b.height - i - 1) % 2 ^ 32)).take (3 * b.width)) ++ List.replicate b.padding 0

section
variable {F : Type} [Flt F] [FTrans F] [Add F] [Sub F] [Mul F] [Div F] [Neg F]

/-- The three colours of a pixel: NeuralNetworkVisualization.cpp:39-40, 102-103, 125-126 (grey) and 130-133 (three values). -/
def pixelColours (colour : F → Res Nat) : List F → Res (Nat × Nat × Nat)
  | [v] => do
    let c ← colour v
    return (c, c, c)
  | [v1, v2, v3] => do
    let c1 ← colour v1
    let c2 ← colour v2
    let c3 ← colour v3
    return (c1, c2, c3)
  | _ => .ub "not a pixel"

/-- The calls of `set_pixel` of a picture, in order. -/
def Image.render (colour : F → Res Nat) (img : Image F) : Res Bitmap :=
  img.writes.foldlM (fun b w => do
    let (r, g, bl) ← pixelColours colour w.2
    b.setPixel w.1.1.toNat w.1.2.toNat r g bl) (Bitmap.create img.width.toNat img.height.toNat)

/-- The file written, if any, by one of the three `NeuralNetworkVisualization::saveAsBitmap`. -/
def fileOf (path : String) (colour : F → Res Nat) : Option (Image F) → Res (List (String × List Nat))
  | none => .ok []
  | some img => do
    let b ← img.render colour
    return [(path, b.bytes)]

/-- The loop over the layers of StraightforwardNeuralNetwork.cpp:259-263 and 278-283; `f l` is the picture of a layer. -/
def layerFiles (path : String) (colour : F → Res Nat) (f : Layer F → Nat → Res (Option (Image F))) : List (Layer F) → Nat → Res (List (String × List Nat))
  | [], _ => .ok []
  | l :: ls, k => do
    let img ← f l k
    let file ← fileOf (path ++ "_layer_" ++ toString k ++ ".bmp") colour img
    let rest ← layerFiles path colour f ls (k + 1)
    return file ++ rest

/-- StraightforwardNeuralNetwork.cpp:255-264 `saveFeatureMapsAsBitmap(path)`: the files written, in order. -/
def Snn.saveFeatureMapsAsBitmap (s : Snn F) (path : String) : Res (List (String × List Nat)) :=
  if !s.isIdle then .throw "Filter layers cannot be saved during training, stop training before saving"
  else layerFiles path weightColour (fun l _ => l.weightsBitmap) s.net.layers 0

/-- StraightforwardNeuralNetwork.cpp:266-269 `saveData2DAsBitmap(path, data, i)`. -/
def Snn.saveData2DAsBitmap (s : Snn F) (path : String) (data : Data F) (i : Int) : Res (List (String × List Nat)) := do
  let x ← data.getTestingData i
  let l ← rd s.net.layers 0
  let img ← inputBitmap x l.getShapeOfInput
  fileOf (path ++ "_input" ++ toString i ++ ".bmp") valueColour img

/-- StraightforwardNeuralNetwork.cpp:271-284 `saveFilterLayersAsBitmap(path, data, i)`: the files and the network afterwards. -/
def Snn.saveFilterLayersAsBitmap (s : Snn F) (path : String) (data : Data F) (i : Int) : Res (List (String × List Nat) × Snn F) :=
  if !s.isIdle then .throw "Filter layers cannot be saved during training, stop training before saving"
  else do
    let x ← data.getTestingData i
    let (outputs, net) ← s.net.getLayerOutputs x
    let files ← layerFiles path valueColour (fun l k => do
      let y ← rd outputs (k : Int)
      l.outputsBitmap y) net.layers 0
    return (files, { s with net := net })

end
end Snn
