import Verif.Basic.CInt
import Verif.Basic.Flt
import Mathlib.Algebra.Order.Floor.Ring
import Mathlib.Data.Rat.Floor

/-!
# Model of `include/snn/tools/Tools.hpp` and `src/tools/Tools.cpp`
-/

namespace Snn.Tools

/-- Tools.hpp:166-169 `flatten(x, y, maxX)`. -/
def flatten2 (x y maxX : Int) : Res Int := do
  let a ← mulI y maxX
  addI a x

/-- Tools.hpp:171-174 `flatten(x, y, z, maxX, maxY)`. -/
def flatten3 (x y z maxX maxY : Int) : Res Int := do
  let a ← mulI z maxY
  let a ← mulI a maxX
  let b ← mulI y maxX
  let c ← addI a b
  addI c x

/-- Tools.hpp:176-179 `roughenX(index, maxX)`. -/
def roughenX2 (index maxX : Int) : Res Int := modI index maxX

/-- Tools.hpp:181-184 `roughenX(index, maxX, maxY)`. -/
def roughenX3 (index maxX maxY : Int) : Res Int := do
  let m ← mulI maxX maxY
  let a ← modI index m
  modI a maxX

/-- Tools.hpp:186-189 `roughenY(index, maxX)`. -/
def roughenY2 (index maxX : Int) : Res Int := divI index maxX

/-- Tools.hpp:191-194 `roughenY(index, maxX, maxY)`. -/
def roughenY3 (index maxX maxY : Int) : Res Int := do
  let m ← mulI maxX maxY
  let a ← modI index m
  divI a maxX

/-- Tools.hpp:196-199 `roughenZ(index, maxX, maxY)`: a remainder, not a quotient. -/
def roughenZ3 (index maxX maxY : Int) : Res Int := do
  let m ← mulI maxX maxY
  modI index m

section
variable {F : Type} [Flt F]

/-- Tools.hpp:68-84 `getMinValue`. -/
def getMinValue (v : List F) : Res F :=
  if v.length > 1 then
    match v with
    | [] => .ub "unreachable"
    | x :: xs => .ok (xs.foldl (fun m y => if flt y m then y else m) x)
  else .throw "Vector is empty"

/-- Tools.hpp:87-103 `getMaxValue`. -/
def getMaxValue (v : List F) : Res F :=
  if v.length > 1 then
    match v with
    | [] => .ub "unreachable"
    | x :: xs => .ok (xs.foldl (fun m y => if flt m y then y else m) x)
  else .throw "Vector is empty"

end

/-- Tools.hpp:126-132 (and 148-150): `while (str.length() < length) str = " " + str;` with `fuel` iterations at most
(`length` are always enough, see `padLoop_spec`). -/
def padLoop (length : Nat) : Nat → List Char → List Char
  | 0, s => s
  | fuel + 1, s => if s.length < length then padLoop length fuel (' ' :: s) else s

/-- Tools.hpp:126-132 `toConstSizeString(int, length)`; `toString` renders like `std::to_string`. -/
def toConstSizeString (value : Int) (length : Nat) : List Char := padLoop length length (toString value).toList

/-- Tools.hpp:153-163 `flatten(vector2D)`: the loop of insertions. -/
def flattenVec {α : Type} (v : List (List α)) : List α := v.foldl (fun acc r => acc ++ r) []

/-- `static_cast<int>(u)` for a real number: truncation toward zero. -/
def truncI (u : ℚ) : Int := if u < 0 then ⌈u⌉ else ⌊u⌋

/-- Tools.cpp:6-10 `randomBetween(int, int)` when the generator draws `u`; the standard guarantees `min ≤ u < max`
(rounding of the draw to a double is not modelled). -/
def randomBetween (u : ℚ) : Int := truncI u

/-- Tools.cpp:18-24 `randomVector`: one draw per element. -/
def randomVector {F : Type} (draw : Nat → F) (size : Nat) : List F := (List.range size).map draw

end Snn.Tools
