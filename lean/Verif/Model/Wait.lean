import Verif.Basic.Res
import Verif.Basic.Flt

/-!
# Model of `include/snn/neural_network/Wait.hpp` and `src/neural_network/Wait.cpp`
-/

namespace Snn

/-- Wait.hpp:6-11 `enum class waitOperator`. -/
inductive WaitOp where
  | noneOp | andOp | orOp
  deriving DecidableEq, Repr

/-- Wait.hpp:13-31 `struct Wait`. The three `time_point` fields are omitted here: `isOver` takes
the elapsed milliseconds since `start` as an argument (see `Wait.isOver`). -/
structure Wait (F : Type) where
  epochs : Int
  accuracy : F
  mae : F
  duration : Int
  op : WaitOp
  deriving DecidableEq, Repr

section
variable {F : Type} [Flt F]

/-- Wait.hpp:15-22 default member initialisers: everything unset (`-1`), `noneOp`. -/
def Wait.default : Wait F :=
  { epochs := -1, accuracy := lit (-1), mae := lit (-1), duration := -1, op := .noneOp }

/-- `std::max(a,b)` on floats: `(a < b) ? b : a`. -/
def stdMax (a b : F) : F := if flt a b then b else a
/-- `std::min(a,b)` on floats: `(b < a) ? b : a`. -/
def stdMin (a b : F) : F := if flt b a then b else a

/-- Wait.cpp:10-35 `Wait& Wait::operator||(const Wait&)`: the returned value is the new value of
the (mutated) left operand. -/
def Wait.or (w v : Wait F) : Res (Wait F) :=
  if w.op = .andOp then .throw "Cannot mix || and && operator for waitFor."
  else .ok
    { op := .orOp
      epochs := if w.epochs > 0 ∧ v.epochs > 0 then min w.epochs v.epochs else max w.epochs v.epochs
      accuracy :=
        if flt (lit 0) w.accuracy && flt (lit 0) v.accuracy then stdMin w.accuracy v.accuracy
        else stdMax w.accuracy v.accuracy
      mae := stdMax w.mae v.mae
      duration := if w.duration > 0 ∧ v.duration > 0 then min w.duration v.duration
                  else max w.duration v.duration }

/-- Wait.cpp:37-56 `Wait& Wait::operator&&(const Wait&)`. The condition on `wait.duration` and the
second assignment to `mae` are as in the code. -/
def Wait.and (w v : Wait F) : Res (Wait F) :=
  if w.op = .orOp then .throw "Cannot mix || and && operator for waitFor."
  else
    let mae1 := if flt (lit 0) w.mae && decide (v.duration > 0) then stdMin w.mae v.mae
                else stdMax w.mae v.mae
    .ok
      { op := .andOp
        epochs := max w.epochs v.epochs
        accuracy := stdMax w.accuracy v.accuracy
        mae := stdMin mae1 v.mae
        duration := max w.duration v.duration }

/-- Wait.cpp:65-88 `Wait::isOver`. `elapsed` is `currentDuration`: the milliseconds since
`startClock`, converted to `int`. -/
def Wait.isOver (w : Wait F) (elapsed : Int) (currentEpochs : Int) (currentAccuracy currentMae : F) :
    Bool :=
  let isValidEpochs := decide (currentEpochs > w.epochs) && decide (currentEpochs > 0)
  let isValidAccuracy := fle w.accuracy currentAccuracy && flt (lit 0) currentAccuracy
  let isValidMae := fle currentMae w.mae && flt (lit 0) currentMae
  let isValidDuration := decide (elapsed ≥ w.duration)
  if w.op = .andOp then
    (isValidEpochs || decide (w.epochs < 0))
      && (isValidAccuracy || flt w.accuracy (lit 0))
      && (isValidMae || flt w.mae (lit 0))
      && (isValidDuration || decide (w.duration < 0))
  else
    (isValidEpochs && decide (w.epochs ≥ 0))
      || (isValidAccuracy && fle (lit 0) w.accuracy)
      || (isValidMae && fle (lit 0) w.mae)
      || (isValidDuration && decide (w.duration ≥ 0))

/-- `(int)value` for an `unsigned long long` (C++20: reduction modulo 2^32 into the `int` range). -/
def toInt32 (v : Nat) : Int := Int.bmod (v : Int) (2 ^ 32)

/-- `a * b` on `int`: overflow is undefined behaviour. -/
def mulInt32 (a b : Int) : Res Int :=
  if -(2 ^ 31) ≤ a * b ∧ a * b < 2 ^ 31 then .ok (a * b) else .ub "signed integer overflow"

/-- Wait.cpp:114-119 `operator""_ep`. -/
def litEp (v : Nat) : Wait F := { (Wait.default : Wait F) with epochs := toInt32 v }
/-- Wait.cpp:121-126 `operator""_acc` (the value after conversion to `float`). -/
def litAcc (v : F) : Wait F := { (Wait.default : Wait F) with accuracy := v }
/-- Wait.cpp:128-133 `operator""_mae` (the value after conversion to `float`). -/
def litMae (v : F) : Wait F := { (Wait.default : Wait F) with mae := v }
/-- Wait.cpp:135-140 `operator""_ms`. -/
def litMs (v : Nat) : Wait F := { (Wait.default : Wait F) with duration := toInt32 v }
/-- Wait.cpp:142-147 `operator""_s`: `(int)value * 1000`. -/
def litS (v : Nat) : Res (Wait F) := do
  let d ← mulInt32 (toInt32 v) 1000
  return { (Wait.default : Wait F) with duration := d }
/-- Wait.cpp:149-154 `operator""_min`: `(int)value * 1000 * 60`. -/
def litMin (v : Nat) : Res (Wait F) := do
  let d ← mulInt32 (toInt32 v) 1000
  let d ← mulInt32 d 60
  return { (Wait.default : Wait F) with duration := d }

end

end Snn
