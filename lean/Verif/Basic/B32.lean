import Verif.Basic.Flt
import Mathlib.Algebra.Order.Field.Rat
import Mathlib.Data.Int.Log
import Mathlib.Data.Rat.Floor
import Mathlib.Tactic.Linarith
import Mathlib.Tactic.NormNum
import Mathlib.Tactic.FieldSimp
import Mathlib.Tactic.Ring

/-!
# IEEE 754 binary32 values

The finite values of C++ `float` as rational numbers, the two infinities and NaN. Every operation is the exact one followed by the
rounding to nearest, ties to even, with 24 bits of precision, gradual underflow and overflow to infinity. The sign of zero is not
represented (1/0 is +infinity for both zeros).
-/

namespace Snn

/-- binary32, without the sign of zero. -/
inductive B32 where
  | nan
  | inf (negative : Bool)
  | num (q : ℚ)
  deriving DecidableEq

namespace B32

/-- Round to the nearest integer, ties to even. -/
def nearest (m : ℚ) : ℤ :=
  if m - ⌊m⌋ < 1/2 then ⌊m⌋ else if 1/2 < m - ⌊m⌋ then ⌊m⌋ + 1 else if ⌊m⌋ % 2 = 0 then ⌊m⌋ else ⌊m⌋ + 1

/-- The distance between two neighbouring binary32 values at the magnitude of q (not zero): 24 bits of precision, the least
exponent of a subnormal is -149. -/
def ulp (q : ℚ) : ℚ := (2 : ℚ) ^ max (Int.log 2 |q| - 23) (-149)

/-- The binary32 value nearest to q. -/
def ofRat (q : ℚ) : B32 :=
  if q = 0 then num 0 else
    let r := nearest (q / ulp q) * ulp q
    if (2 : ℚ) ^ 128 ≤ |r| then inf (decide (r < 0)) else num r

instance : Neg B32 where
  neg
    | nan => nan
    | inf s => inf (!s)
    | num q => num (-q)

instance : Add B32 where
  add
    | nan, _ => nan
    | _, nan => nan
    | inf s, inf t => if s = t then inf s else nan
    | inf s, num _ => inf s
    | num _, inf t => inf t
    | num a, num b => ofRat (a + b)

instance : Sub B32 where
  sub a b := a + -b

instance : Mul B32 where
  mul
    | nan, _ => nan
    | _, nan => nan
    | inf s, inf t => inf (s != t)
    | inf s, num q => if q = 0 then nan else inf (s != decide (q < 0))
    | num q, inf s => if q = 0 then nan else inf (s != decide (q < 0))
    | num a, num b => ofRat (a * b)

instance : Div B32 where
  div
    | nan, _ => nan
    | _, nan => nan
    | inf _, inf _ => nan
    | inf s, num q => inf (s != decide (q < 0))
    | num _, inf _ => num 0
    | num a, num b => if b = 0 then (if a = 0 then nan else inf (decide (a < 0))) else ofRat (a / b)

/-- The order of the values that are not NaN. -/
def less : B32 → B32 → Bool
  | nan, _ => false
  | _, nan => false
  | inf s, inf t => s && !t
  | inf s, num _ => s
  | num _, inf t => !t
  | num a, num b => decide (a < b)

instance : Flt B32 where
  flt := less
  fle a b := less a b || (decide (a = b) && decide (a ≠ nan))
  feq a b := decide (a = b) && decide (a ≠ nan)
  fabs
    | nan => nan
    | inf _ => inf false
    | num q => num |q|
  lit := ofRat
  isNormalOrZero
    | nan => false
    | inf _ => false
    | num q => decide (q = 0 ∨ (2 : ℚ) ^ (-126 : ℤ) ≤ |q|)

theorem nearest_int (z : ℤ) : nearest (z : ℚ) = z := by
  unfold nearest; simp

/-- Every value with at most 24 bits is represented exactly: `k * 2^e` with k a natural number below 2^24 and e between -149 and 103. -/
theorem ofRat_nat {k : Nat} (h : k ≤ 2 ^ 24) : ofRat (k : ℚ) = num k := by
  unfold ofRat
  split
  · rename_i h0; rw [h0]
  rename_i h0
  have hk0 : k ≠ 0 := by intro h; subst h; simp at h0
  have habs : |(k : ℚ)| = k := abs_of_nonneg (by positivity)
  have hlog : Int.log 2 |(k : ℚ)| = (Nat.log 2 k : ℤ) := by rw [habs]; exact Int.log_natCast (R := ℚ) 2 k
  have key : ∃ z : ℤ, (k : ℚ) / ulp k = z := by
    unfold ulp
    rw [hlog]
    by_cases hlt : k < 2 ^ 24
    · have hL : Nat.log 2 k < 24 := Nat.log_lt_of_lt_pow hk0 hlt
      have hm : max ((Nat.log 2 k : ℤ) - 23) (-149) = -((23 - Nat.log 2 k : ℕ) : ℤ) := by omega
      rw [hm]
      refine ⟨((k * 2 ^ (23 - Nat.log 2 k) : ℕ) : ℤ), ?_⟩
      rw [zpow_neg, zpow_natCast]
      push_cast
      field_simp
    · have : k = 2 ^ 24 := by omega
      have hL : Nat.log 2 k = 24 := by rw [this]; exact Nat.log_pow (by norm_num) 24
      rw [hL]
      refine ⟨2 ^ 23, ?_⟩
      rw [this]
      norm_num
  obtain ⟨z, hz⟩ := key
  have hu : ulp (k : ℚ) ≠ 0 := by unfold ulp; exact zpow_ne_zero _ (by norm_num)
  have hr : ((nearest ((k : ℚ) / ulp k) : ℤ) : ℚ) * ulp k = k := by
    rw [hz, nearest_int, ← hz]; field_simp
  simp only [hr]
  rw [if_neg]
  rw [habs, not_le]
  have : (k : ℚ) ≤ 2 ^ 24 := by exact_mod_cast h
  calc (k : ℚ) ≤ 2 ^ 24 := this
    _ < 2 ^ 128 := by norm_num

/-- 2^24 + 1 is not a binary32 value: it is rounded to 2^24. -/
theorem ofRat_limit : ofRat (2 ^ 24 + 1) = num (2 ^ 24) := by
  have hq : (2 ^ 24 + 1 : ℚ) = ((2 ^ 24 + 1 : ℕ) : ℚ) := by norm_num
  have hlog : Int.log 2 |(2 ^ 24 + 1 : ℚ)| = 24 := by
    rw [abs_of_nonneg (by norm_num), hq]
    have := Int.log_natCast (R := ℚ) 2 (2 ^ 24 + 1)
    rw [this]
    have : Nat.log 2 (2 ^ 24 + 1) = 24 := by
      rw [Nat.log_eq_iff (by norm_num)]; norm_num
    rw [this]; rfl
  have hu : ulp (2 ^ 24 + 1) = 2 := by unfold ulp; rw [hlog]; norm_num
  unfold ofRat
  rw [if_neg (by norm_num), hu]
  have hf : ⌊((2 ^ 24 + 1 : ℚ)) / 2⌋ = 2 ^ 23 := by
    rw [Int.floor_eq_iff]; norm_num
  have hn : nearest ((2 ^ 24 + 1) / 2) = 2 ^ 23 := by
    unfold nearest
    rw [hf]
    norm_num
  simp only [hn]
  norm_num

theorem num_add (a b : ℚ) : (num a + num b : B32) = ofRat (a + b) := rfl

/-- Adding one to a counter: exact below 2^24, then without effect. -/
theorem count_up (k : Nat) : (num ((min k (2 ^ 24) : ℕ) : ℚ) + lit 1 : B32) = num ((min (k + 1) (2 ^ 24) : ℕ) : ℚ) := by
  have h1 : (lit 1 : B32) = num 1 := by
    show ofRat 1 = _
    have := ofRat_nat (k := 1) (by norm_num)
    simpa using this
  rw [h1, num_add]
  by_cases h : k < 2 ^ 24
  · rw [min_eq_left (by omega), min_eq_left (by omega)]
    have := ofRat_nat (k := k + 1) (by omega)
    push_cast at this ⊢
    exact this
  · rw [min_eq_right (by omega), min_eq_right (by omega)]
    have := ofRat_limit
    push_cast
    exact this

end B32
end Snn
