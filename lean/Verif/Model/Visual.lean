import Verif.Model.Network

/-!
# Model of `src/neural_network/NeuralNetworkVisualization.cpp`

A bitmap is its size and the sequence of `set_pixel` calls; a pixel that was never set is black (`set_all_channels(0, 0, 0)`). The
conversion of a value to a colour (lines 39, 102, 125, 130-132) is in `Model/Bitmap.lean`: here a pixel carries the values that are converted. `int`
arithmetic is unbounded here (layers have at most 1000000 inputs). Writing the file is in `Model/Bitmap.lean`.
-/

namespace Snn

/-- BitmapImage.hpp:79-88 `bitmap_image(width, height)` and the pixels set so far. -/
structure Image (F : Type) where
  width : Int
  height : Int
  writes : List ((Int × Int) × List F)

section
variable {F : Type} [Flt F] [FTrans F] [Add F] [Sub F] [Mul F] [Div F] [Neg F]

/-- BitmapImage.hpp:194-206 `set_pixel`, without bounds check in the code: outside of the image is undefined here (the code writes
another pixel, or outside of the buffer). -/
def Image.setPixel (img : Image F) (x y : Int) (v : List F) : Res (Image F) :=
  if 0 ≤ x ∧ x < img.width ∧ 0 ≤ y ∧ y < img.height then .ok { img with writes := img.writes ++ [((x, y), v)] }
  else .ub "set_pixel out of the image"

/-- What is seen at a pixel at the end: the last value set, or nothing (black). -/
def Image.at (img : Image F) (p : Int × Int) : Option (List F) := (img.writes.reverse.find? fun w => w.1 == p).map Prod.snd

/-- `for (int i = 0; i < n; ++i)`. -/
def forI {S : Type} (n : Int) (f : Int → S → Res S) (s : S) : Res S := (List.range n.toNat).foldlM (fun s (i : Nat) => f (i : Int) s) s

/-- NeuralNetworkVisualization.cpp:17-19 `(int)ceil(sqrt((float)n))`, computed exactly (the float result is the same for n < 2^24). -/
def ceilSqrt (n : Int) : Int := if (Nat.sqrt n.toNat * Nat.sqrt n.toNat : Nat) = n then (Nat.sqrt n.toNat : Int) else (Nat.sqrt n.toNat : Int) + 1

/-- NeuralNetworkVisualization.cpp:17-22 and 82-87: `filterX` and `filterY`. -/
def tiles (n : Int) : Int × Int :=
  let filterX := ceilSqrt n
  if n ≤ filterX * filterX - filterX then (filterX, filterX - 1) else (filterX, filterX)

/-- `v[i]` of a vector. -/
def vecAt {A : Type} (v : List A) (i : Int) : Res A :=
  if i < 0 then .ub "index out of range" else match v[i.toNat]? with
    | some a => .ok a
    | none => .ub "index out of range"

/-- NeuralNetworkVisualization.cpp:49-73 `getWeights(filterLayer, filterNumber)`. -/
def pictureOf (ns : List (Neuron F)) (info : FilterInfo) (numberOfInputs filterNumber : Int) : Res (List F) :=
  match info.shapeOfInput, info.shapeOfOutput with
  | _ :: inX :: _, [_, outX, outY] =>
    forI (outX * outY) (fun n acc => do
      let neuron ← vecAt ns (n * (filterNumber + 1))
      if outX = 0 ∨ outY = 0 then .ub "remainder by zero" else
      let px := Int.tmod (Int.tmod n (outX * outY)) outX
      let py := Int.tdiv (Int.tmod n (outX * outY)) outX
      forI info.kernelSize (fun y acc => forI info.kernelSize (fun x acc => do
        let i := (py + y) * inX + (px + x)
        let j := y * info.kernelSize + x
        let old ← vecAt acc i
        let w ← vecAt neuron.weights j
        return acc.set i.toNat (old + w)) acc) acc) (List.replicate numberOfInputs.toNat (lit 0))
  | _, _ => .ub "shape[X]"

/-- NeuralNetworkVisualization.cpp:9-47 `saveAsBitmap(filterLayer, path)`, without the file; `none` when it returns at once. -/
def Layer.weightsBitmap (l : Layer F) : Res (Option (Image F)) :=
  let draw (ns : List (Neuron F)) (info : FilterInfo) : Res (Option (Image F)) :=
    match info.shapeOfInput with
    | [_, sx, sy] =>
      match info.shapeOfOutput with
      | [] => .ub "shape[C]"
      | numberOfFilters :: _ => do
        let (filterX, filterY) := tiles numberOfFilters
        let img : Image F := { width := (sx + 1) * filterX - 1, height := (sy + 1) * filterY - 1, writes := [] }
        let img ← forI filterX (fun x img => forI filterY (fun y img =>
          if y * filterX + x < numberOfFilters then do
            let weights ← pictureOf ns info l.numberOfInputs (filterX * y + x)
            forI sx (fun i img => forI sy (fun j img => do
              let w ← vecAt weights (j * sx + i)
              img.setPixel (x * (sx + 1) + i) (y * (sy + 1) + j) [w]) img) img
          else .ok img) img) img
        return some img
    | _ => .ok none
  match l.body with
  | .filter _ ns info => draw ns info
  | .pool _ info _ _ => draw [] info
  | _ => .ok none

/-- NeuralNetworkVisualization.cpp:75-110 `saveAsBitmap(filterLayer, outputs, path)`, without the file. -/
def Layer.outputsBitmap (l : Layer F) (outputs : List F) : Res (Option (Image F)) :=
  let draw (info : FilterInfo) : Res (Option (Image F)) :=
    match info.shapeOfOutput with
    | [sc, sx, sy] => do
      let (filterX, filterY) := tiles sc
      let img : Image F := { width := (sx + 1) * filterX - 1, height := (sy + 1) * filterY - 1, writes := [] }
      let (img, _) ← forI sy (fun j s => forI sx (fun i s => forI filterY (fun y s => forI filterX (fun x s =>
        if y * filterX + x < sc then do
          let v ← vecAt outputs s.2
          let img ← s.1.setPixel (x * (sx + 1) + i) (y * (sy + 1) + j) [v]
          return (img, s.2 + 1)
        else .ok s) s) s) s) (img, (0 : Int))
      return some img
    | _ => .ok none
  match l.body with
  | .filter _ _ info => draw info
  | .pool _ info _ _ => draw info
  | _ => .ok none

/-- NeuralNetworkVisualization.cpp:112-138 `saveAsBitmap(inputs, shapeOfInput, path)`, without the file. The three values of a pixel
are in the order red, green, blue of `set_pixel` (the names of the local variables in the code are swapped, not the values). -/
def inputBitmap (inputs : List F) (shapeOfInput : List Int) : Res (Option (Image F)) :=
  match shapeOfInput with
  | [sc, sx, sy] => do
    let img : Image F := { width := sx, height := sy, writes := [] }
    let (img, _) ← forI sy (fun y s => forI sx (fun x s =>
      if sc = 1 then do
        let v ← vecAt inputs s.2
        let img ← s.1.setPixel x y [v]
        return (img, s.2 + 1)
      else do
        let r ← vecAt inputs s.2
        let g ← vecAt inputs (s.2 + 1)
        let b ← vecAt inputs (s.2 + 2)
        let img ← s.1.setPixel x y [r, g, b]
        return (img, s.2 + 3)) s) (img, (0 : Int))
    return some img
  | _ => .ok none

end
end Snn
