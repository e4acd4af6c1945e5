import Mathlib.Tactic.Tauto

/-!
# Outcomes of C++ calls

Not a model of a particular file: the semantic domain in which all of `/repo` is modelled.
A call either returns (`ok`), throws a C++ exception (`throw`), or runs into undefined
behaviour (`ub`), which is a distinct outcome so that a theorem can never assume it away.
-/

namespace Snn

/-- Outcome of a C++ call. -/
inductive Res (α : Type) where
  | ok (a : α)
  | throw (msg : String)
  | ub (why : String)
  deriving Repr, DecidableEq

namespace Res

/-- Sequencing: an exception or undefined behaviour ends the call. -/
@[inline] def bind {α β : Type} (x : Res α) (f : α → Res β) : Res β :=
  match x with
  | ok a => f a
  | throw m => throw m
  | ub w => ub w

instance : Monad Res where
  pure := ok
  bind := bind

@[simp] theorem pure_eq {α : Type} (a : α) : (pure a : Res α) = ok a := rfl
@[simp] theorem ok_bind {α β : Type} (a : α) (f : α → Res β) : (ok a >>= f) = f a := rfl
@[simp] theorem throw_bind {α β : Type} (m : String) (f : α → Res β) :
    ((throw m : Res α) >>= f) = throw m := rfl
@[simp] theorem ub_bind {α β : Type} (m : String) (f : α → Res β) :
    ((ub m : Res α) >>= f) = ub m := rfl
@[simp] theorem map_ok {α β : Type} (f : α → β) (a : α) : f <$> (ok a : Res α) = ok (f a) := rfl
@[simp] theorem map_throw {α β : Type} (f : α → β) (m : String) :
    f <$> (throw m : Res α) = throw m := rfl
@[simp] theorem map_ub {α β : Type} (f : α → β) (m : String) :
    f <$> (ub m : Res α) = ub m := rfl

instance : LawfulMonad Res := LawfulMonad.mk' Res
  (id_map := fun x => by cases x <;> rfl)
  (pure_bind := fun _ _ => rfl)
  (bind_assoc := fun x _ _ => by cases x <;> rfl)

/-- The call returned normally. -/
def isOk {α : Type} : Res α → Bool
  | ok _ => true
  | _ => false

/-- The call threw a C++ exception. -/
def isThrow {α : Type} : Res α → Bool
  | throw _ => true
  | _ => false

/-- The call ran into undefined behaviour. -/
def isUb {α : Type} : Res α → Bool
  | ub _ => true
  | _ => false

/-- The value returned by a call that returned. -/
def get {α : Type} (x : Res α) (h : x.isOk = true) : α :=
  match x, h with
  | ok a, _ => a

theorem eq_get {α : Type} (x : Res α) (h : x.isOk = true) : x = ok (x.get h) := by
  cases x <;> first | rfl | cases h

theorem bind_eq_ok {α β : Type} {x : Res α} {f : α → Res β} {b : β} :
    (x >>= f) = ok b ↔ ∃ a, x = ok a ∧ f a = ok b := by
  cases x with
  | ok a => simp
  | throw m => simp
  | ub m => simp

end Res

/-- `v[i]` for a `std::vector`: out of range (or negative) is undefined behaviour. -/
def rd {α : Type} (l : List α) (i : Int) : Res α :=
  if 0 ≤ i then
    match l[i.toNat]? with
    | some a => .ok a
    | none => .ub "vector index out of range"
  else .ub "negative vector index"

/-- `v[i] = a` for a `std::vector`: out of range (or negative) is undefined behaviour. -/
def wr {α : Type} (l : List α) (i : Int) (a : α) : Res (List α) :=
  if 0 ≤ i ∧ i.toNat < l.length then .ok (l.set i.toNat a)
  else .ub "vector index out of range"

/-- `v.back()`: undefined on an empty vector. -/
def backOf {α : Type} (l : List α) : Res α :=
  match l.getLast? with
  | some a => .ok a
  | none => .ub "back() of an empty vector"

theorem rd_nat {α : Type} (l : List α) (i : Nat) (h : i < l.length) : rd l (i : Int) = .ok l[i] := by
  simp [rd, List.getElem?_eq_getElem h]

theorem rd_eq_ok {α : Type} {l : List α} {i : Int} {a : α} :
    rd l i = .ok a ↔ 0 ≤ i ∧ l[i.toNat]? = some a := by
  unfold rd
  by_cases h : 0 ≤ i
  · cases h2 : l[i.toNat]? <;> simp [h]
  · simp [h]

theorem rd_ne_throw {α : Type} (l : List α) (i : Int) (m : String) : rd l i ≠ .throw m := by
  unfold rd
  split
  · split <;> simp
  · simp

theorem wr_nat {α : Type} (l : List α) (i : Nat) (a : α) (h : i < l.length) :
    wr l (i : Int) a = .ok (l.set i a) := by
  simp [wr, h]

theorem wr_eq_ok {α : Type} {l l' : List α} {i : Int} {a : α} :
    wr l i a = .ok l' ↔ (0 ≤ i ∧ i.toNat < l.length) ∧ l.set i.toNat a = l' := by
  unfold wr
  by_cases h : 0 ≤ i ∧ i.toNat < l.length
  · rw [if_pos h]; simp only [Res.ok.injEq]; tauto
  · rw [if_neg h]; simp only [reduceCtorEq, false_iff]; tauto

end Snn
