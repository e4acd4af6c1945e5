import Verif.Model.Wait

/-!
# Specification of waiting criteria

What a user means by a `waitFor` expression, independently of how `Wait` represents it.
-/

namespace Snn.WaitSpec

/-- One criterion, as written by the user: `5_ep`, `0.9_acc`, `0.1_mae`, `250_ms`. -/
inductive Crit (F : Type) where
  | ep (n : Nat)
  | acc (a : F)
  | mae (e : F)
  | ms (n : Nat)
  deriving DecidableEq, Repr

/-- What is observed when the criterion is checked: the number of the epoch about to start
(1 at the start, so `epoch - 1` epochs are done), the last measured accuracy and mean absolute
error, and the milliseconds since the call. -/
structure Moment (F : Type) where
  epoch : Int
  accuracy : F
  mae : F
  elapsed : Int

/-- An expression over criteria. -/
inductive Expr (F : Type) where
  | crit (c : Crit F)
  | or (a b : Expr F)
  | and (a b : Expr F)

variable {F : Type}

/-- Evaluation by the library: each operator node calls the modelled C++ operator. -/
def Crit.wait [Flt F] : Crit F → Wait F
  | .ep n => litEp n
  | .acc a => litAcc a
  | .mae e => litMae e
  | .ms n => litMs n

/-- Evaluation of the whole expression by the library's operators (left operand first). -/
def Expr.eval [Flt F] : Expr F → Res (Wait F)
  | .crit c => .ok c.wait
  | .or a b => do let x ← a.eval; let y ← b.eval; x.or y
  | .and a b => do let x ← a.eval; let y ← b.eval; x.and y

/-- The criteria occurring in an expression. -/
def Expr.crits : Expr F → List (Crit F)
  | .crit c => [c]
  | .or a b => a.crits ++ b.crits
  | .and a b => a.crits ++ b.crits

/-- Only `||` occurs. -/
def Expr.onlyOr : Expr F → Prop
  | .crit _ => True
  | .or a b => a.onlyOr ∧ b.onlyOr
  | .and _ _ => False

/-- Only `&&` occurs. -/
def Expr.onlyAnd : Expr F → Prop
  | .crit _ => True
  | .and a b => a.onlyAnd ∧ b.onlyAnd
  | .or _ _ => False

section
variable [Field F] [LinearOrder F]
/-- A criterion is met: all requested epochs are done; the accuracy is reached; the error is small
enough; the time has passed. Accuracy and error must have been measured and positive, as in the code
(`-1` = never measured). -/
def Crit.met (m : Moment F) : Crit F → Prop
  | .ep n => (n : Int) < m.epoch
  | .acc a => a ≤ m.accuracy ∧ 0 < m.accuracy
  | .mae e => m.mae ≤ e ∧ 0 < m.mae
  | .ms n => (n : Int) ≤ m.elapsed

/-- A literal the user can write: non-negative, and small enough to be an `int`. -/
def Crit.writable : Crit F → Prop
  | .ep n => n < 2 ^ 31
  | .acc a => 0 ≤ a
  | .mae e => 0 ≤ e
  | .ms n => n < 2 ^ 31

/-- The literal is not zero (the case in which `||` picks the wrong bound). -/
def Crit.positive : Crit F → Prop
  | .ep n => 0 < n
  | .acc a => 0 < a
  | .mae _ => True
  | .ms n => 0 < n

/-- The criterion is not about the mean absolute error. -/
def Crit.notMae : Crit F → Prop
  | .mae _ => False
  | _ => True
end

/-- The expression mixes the two operators. -/
def Expr.mixed (e : Expr F) : Prop := ¬ e.onlyOr ∧ ¬ e.onlyAnd

/-- Somewhere in the expression an operator has, as its *left* operand, an expression whose own
outermost operator is the other one: `(a && b) || c` or `(a || b) && c`. -/
def Expr.leftMix : Expr F → Prop
  | .crit _ => False
  | .or (.and _ _) _ => True
  | .or a b => a.leftMix ∨ b.leftMix
  | .and (.or _ _) _ => True
  | .and a b => a.leftMix ∨ b.leftMix

end Snn.WaitSpec
