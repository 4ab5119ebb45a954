import Verif.Spec.Stoich
import Verif.Rounding

/-! # Specification: stoichiometry in floating point -/
namespace Auxi.StoichFloat.Spec
open Auxi Auxi.Rounding

/-- `y` is a non-negative number and so is `x`, and each is at least the other less `k` times a relative error of `v`: `k` roundings. -/
def Within (v : ℚ) (k : ℕ) (x y : ℚ) : Prop := 0 ≤ x ∧ x * (1 - v) ^ k ≤ y ∧ y * (1 - v) ^ k ≤ x

/-- What is used of the floats: a rounding with the relative error `v` from the smallest ordinary number `t` on, exact for the whole numbers up to `N`. For the doubles of the machine
`v` is 2^-52, `t` 2^-1022 and `N` 2^53 (`arith64`). -/
structure Arith (rnd : ℚ → ℚ) (u η v t N : ℚ) : Prop where
  /-- the rules of rounding -/
  ieee : IEEE rnd u η
  /-- a slightly larger relative error -/
  uv : u ≤ v
  /-- a small one -/
  v1 : v ≤ 1 / 256
  /-- the smallest ordinary number … -/
  t0 : 0 < t
  /-- … is a float … -/
  tf : rnd t = t
  /-- … above which `v` bounds the whole error -/
  tη : η ≤ (v - u) * t
  /-- whole numbers up to `N` are floats -/
  whole : ∀ n : ℕ, (n : ℚ) ≤ N → rnd n = n
  /-- there is one -/
  N1 : 1 ≤ N
  /-- the range of the floats is large -/
  room : t * (2 ^ 17 * N) ≤ 1

/-- No coefficient of the formula is above `N`. -/
def Small (N : ℚ) (s : Str) : Prop := ∀ e k, Stoich.coefficient s e = .ok k → k ≤ N

/-- The number of different elements in a formula. -/
def kinds (s : Str) : ℕ := match Stoich.elements [Stoich.strip s] with
  | .ok E => E.length
  | .error _ => 0

/-- A mass (or an amount) a caller may give: zero, or a float not nearly as small as the smallest ordinary one (`2 ** -952` for the doubles). -/
def Given (rnd : ℚ → ℚ) (t N m : ℚ) : Prop := rnd m = m ∧ (m = 0 ∨ t * (2 ^ 17 * N) ≤ m)

/-- Several of them, none of which (unless zero) is vanishingly small beside the total. -/
def GivenAll (rnd : ℚ → ℚ) (t N : ℚ) (d : Stoich.CDict) : Prop :=
  ∀ e ∈ d, Given rnd t N e.2 ∧ (e.2 = 0 ∨ t * (2 ^ 19 * N) * (d.map (·.2)).sum ≤ e.2)

end Auxi.StoichFloat.Spec
