import Verif.Basic.Res

/-!
# C++ `int`

Not a model of a particular file: 32-bit `int` arithmetic; a result outside of the range of `int` is
undefined behaviour, `/` and `%` truncate toward zero and are undefined for a zero divisor.
-/

namespace Snn

/-- The result of an `int` computation. -/
def ckInt (x : Int) : Res Int :=
  if -2147483648 ≤ x ∧ x ≤ 2147483647 then .ok x else .ub "signed integer overflow"

/-- `a * b` -/
def mulI (a b : Int) : Res Int := ckInt (a * b)
/-- `a + b` -/
def addI (a b : Int) : Res Int := ckInt (a + b)
/-- `a / b` -/
def divI (a b : Int) : Res Int := if b = 0 then .ub "division by zero" else ckInt (a.tdiv b)
/-- `a % b` -/
def modI (a b : Int) : Res Int := if b = 0 then .ub "division by zero" else ckInt (a.tmod b)

theorem ckInt_ok {x : Int} (h1 : -2147483648 ≤ x) (h2 : x ≤ 2147483647) : ckInt x = .ok x := by
  simp [ckInt, h1, h2]

end Snn
