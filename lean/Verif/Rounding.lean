import Mathlib.Algebra.Order.Field.Rat
import Mathlib.Algebra.Order.Archimedean.Basic
import Mathlib.Data.Rat.Floor
import Mathlib.Algebra.Order.Field.Power
import Mathlib.Tactic.FieldSimp
import Mathlib.Tactic.Linarith
import Mathlib.Tactic.Ring
import Mathlib.Tactic.NormNum
import Mathlib.Tactic.Positivity
import Verif.Basic

/-!
# Python's `float` arithmetic

Everywhere else in this development a `float` is an exact number.  Here is the arithmetic of the machine: the numbers are the multiples of powers of two that fit in 53 bits,
and every operation gives the one nearest to the exact result, the even one of two that are equally near (IEEE 754 binary64, as used by
`/repo/auxi/modelling/process/materials/chem.py:232,301,331,390,510-511,523,580`).  Gradual underflow is modelled.  Simplification: there is no overflow, so no infinities
(numbers beyond `1.8e308` are kept).
-/
namespace Auxi.Rounding

/-- `2 ** e`. -/
def pow2 : ℤ → ℚ
  | .ofNat n => ((2 ^ n : ℕ) : ℚ)
  | .negSucc n => 1 / ((2 ^ (n + 1) : ℕ) : ℚ)

/-- The exponent of the leading bit of `x ≠ 0`: `2 ** e ≤ |x| < 2 ** (e + 1)`. -/
def log2 (x : ℚ) : ℤ :=
  if pow2 ((x.num.natAbs.log2 : ℤ) - (x.den.log2 : ℤ)) ≤ |x| then (x.num.natAbs.log2 : ℤ) - (x.den.log2 : ℤ)
  else (x.num.natAbs.log2 : ℤ) - (x.den.log2 : ℤ) - 1

/-- The nearest integer, the even one of two. -/
def roundEven (q : ℚ) : ℤ :=
  if q - ⌊q⌋ < 1 / 2 then ⌊q⌋
  else if 1 / 2 < q - ⌊q⌋ then ⌊q⌋ + 1
  else if ⌊q⌋ % 2 = 0 then ⌊q⌋ else ⌊q⌋ + 1

/-- The exponent of the last bit of the 53 that a number near `x` has; below `2 ** -1022` the last bit is that of `2 ** -1074`. -/
def expo (x : ℚ) : ℤ := max (log2 x - 52) (-1074)

/-- The `float` nearest to `x`. -/
def rnd64 (x : ℚ) : ℚ := if x = 0 then 0 else (roundEven (x / pow2 (expo x)) : ℚ) * pow2 (expo x)

/-- What the theorems use of rounding: `u` bounds the relative error and `η` the error of results that are nearly zero. -/
structure IEEE (rnd : ℚ → ℚ) (u η : ℚ) : Prop where
  u0 : 0 ≤ u
  u1 : u < 1
  η0 : 0 ≤ η
  /-- rounding keeps the order -/
  mono : ∀ {x y}, x ≤ y → rnd x ≤ rnd y
  /-- zero is a float -/
  zero : rnd 0 = 0
  /-- one is a float -/
  one : rnd 1 = 1
  /-- symmetry -/
  neg : ∀ x, rnd (-x) = -rnd x
  /-- rounding gives floats -/
  idem : ∀ x, rnd (rnd x) = rnd x
  /-- the error of any operation -/
  err : ∀ x, |rnd x - x| ≤ u * |x| + η
  /-- the error of an addition -/
  add : ∀ {x y}, rnd x = x → rnd y = y → |rnd (x + y) - (x + y)| ≤ u * |x + y|

end Auxi.Rounding
