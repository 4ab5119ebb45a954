import Verif.PsdFloat
import Verif.Spec.Psd
import Verif.Spec.ChemFloat
import Verif.Spec.Plant

/-! # Specification: psd and slurry packages in floating point -/
namespace Auxi.PsdFloat.Spec
open Auxi Auxi.Psd

/-- `a` is a result of adding up the numbers of a list with rounded additions, in any order and with any bracketing. -/
inductive Adds (rnd : ℚ → ℚ) : List ℚ → ℚ → Prop
  /-- nothing -/
  | none : Adds rnd [] 0
  /-- one number -/
  | one (x : ℚ) : Adds rnd [x] x
  /-- two parts -/
  | both {l m : List ℚ} {a b : ℚ} : Adds rnd l a → Adds rnd m b → Adds rnd (l ++ m) (rnd (a + b))
  /-- in another order -/
  | order {l m : List ℚ} {a : ℚ} : l.Perm m → Adds rnd l a → Adds rnd m a

/-- A machine number that is not negative. -/
def Good (rnd : ℚ → ℚ) (x : F64) : Prop := ∃ q, x = .fin q ∧ rnd q = q ∧ 0 ≤ q

/-- A package as programs have them: masses are machine numbers and none is negative. -/
def Sound (rnd : ℚ → ℚ) (p : Package) : Prop := ∀ x ∈ p.masses, Good rnd x

/-- The argument of `extract` is a machine number and not negative; a mass is not taken of an empty package (see C56). -/
def ArgOk (rnd : ℚ → ℚ) (mass : F64) : Arg Package → Prop
  | .num _ x => Good rnd x ∧ mass ≠ .fin 0
  | .tup _ _ x => Good rnd x
  | _ => True

end Auxi.PsdFloat.Spec

namespace Auxi.Plant

/-- As `Run`, with the number of extractions and additions. -/
inductive RunN {P : Type} (part mix : P → P → P → Prop) (ps : List P) : ℕ → List P → Prop
  /-- nothing has been done -/
  | start : RunN part mix ps 0 ps
  /-- `r = p.extract(…)` -/
  | split {n : ℕ} {qs rest : List P} {p p' r : P} : RunN part mix ps n qs → qs.Perm (p :: rest) → part p p' r → RunN part mix ps (n + 1) (p' :: r :: rest)
  /-- `r = p + q` -/
  | join {n : ℕ} {qs rest : List P} {p q r : P} : RunN part mix ps n qs → qs.Perm (p :: q :: rest) → mix p q r → RunN part mix ps (n + 1) (r :: rest)

/-- If each step changes the total by at most a part `w` of what is split or joined and `e`, then `n` steps change it by at most `((1 + w) ^ n - 1)` of what there was and `n e (1 + w) ^ n`. -/
theorem RunN.drift {P : Type} {part mix : P → P → P → Prop} {I : P → Prop} {μ : P → ℚ} {w e : ℚ} (w0 : 0 ≤ w) (e0 : 0 ≤ e) (μ0 : ∀ p, I p → 0 ≤ μ p)
    (h1 : ∀ p p' r, I p → part p p' r → I p' ∧ I r ∧ |μ p' + μ r - μ p| ≤ w * μ p + e) (h2 : ∀ p q r, I p → I q → mix p q r → I r ∧ |μ r - (μ p + μ q)| ≤ w * (μ p + μ q) + e)
    {ps qs : List P} {n : ℕ} (hp : ∀ p ∈ ps, I p) (h : RunN part mix ps n qs) :
    (∀ q ∈ qs, I q) ∧ |(qs.map μ).sum - (ps.map μ).sum| ≤ ((1 + w) ^ n - 1) * (ps.map μ).sum + n * e * (1 + w) ^ n := by
  have nn : ∀ l : List P, (∀ p ∈ l, I p) → 0 ≤ (l.map μ).sum := fun l hl => List.sum_nonneg (fun x hx => by obtain ⟨p, hp, rfl⟩ := List.mem_map.1 hx; exact μ0 p (hl p hp))
  have T0 := nn ps hp
  -- one step
  have step : ∀ {n : ℕ} {a b : ℚ}, 0 ≤ a → |a - (ps.map μ).sum| ≤ ((1 + w) ^ n - 1) * (ps.map μ).sum + n * e * (1 + w) ^ n → |b - a| ≤ w * a + e →
      |b - (ps.map μ).sum| ≤ ((1 + w) ^ (n + 1) - 1) * (ps.map μ).sum + (n + 1 : ℕ) * e * (1 + w) ^ (n + 1) := by
    intro n a b a0 ha hb
    generalize (ps.map μ).sum = T at *
    have p1 : 1 ≤ (1 + w) ^ (n + 1) := one_le_pow₀ (by linarith)
    have ua : a ≤ T + (((1 + w) ^ n - 1) * T + n * e * (1 + w) ^ n) := by have := (abs_le.1 ha).2; linarith
    have t : |b - T| ≤ |b - a| + |a - T| := abs_sub_le b a T
    have wa := mul_le_mul_of_nonneg_left ua w0
    have ep : e ≤ e * (1 + w) ^ (n + 1) := le_mul_of_one_le_right e0 p1
    have id : w * (T + (((1 + w) ^ n - 1) * T + n * e * (1 + w) ^ n)) + (((1 + w) ^ n - 1) * T + n * e * (1 + w) ^ n) = ((1 + w) ^ (n + 1) - 1) * T + n * e * (1 + w) ^ (n + 1) := by ring
    have cast : ((n + 1 : ℕ) : ℚ) * e * (1 + w) ^ (n + 1) = n * e * (1 + w) ^ (n + 1) + e * (1 + w) ^ (n + 1) := by push_cast; ring
    linarith
  induction h with
  | start => exact ⟨hp, by simp⟩
  | @split n qs rest p p' r _ hperm hs ih =>
    obtain ⟨i1, i2⟩ := ih
    have i3 : ∀ x ∈ p :: rest, I x := fun x hx => i1 x (hperm.mem_iff.2 hx)
    obtain ⟨a, b, c⟩ := h1 p p' r (i3 p List.mem_cons_self) hs
    refine ⟨?_, step (nn qs i1) i2 ?_⟩
    · intro x hx
      simp only [List.mem_cons] at hx
      rcases hx with rfl | rfl | hx
      · exact a
      · exact b
      · exact i3 x (List.mem_cons_of_mem _ hx)
    · have r0 := nn rest (fun x hx => i3 x (List.mem_cons_of_mem _ hx))
      rw [(hperm.map μ).sum_eq]
      simp only [List.map_cons, List.sum_cons]
      rw [show μ p' + (μ r + (rest.map μ).sum) - (μ p + (rest.map μ).sum) = μ p' + μ r - μ p by ring]
      nlinarith
  | @join n qs rest p q r _ hperm hs ih =>
    obtain ⟨i1, i2⟩ := ih
    have i3 : ∀ x ∈ p :: q :: rest, I x := fun x hx => i1 x (hperm.mem_iff.2 hx)
    obtain ⟨a, c⟩ := h2 p q r (i3 p List.mem_cons_self) (i3 q (List.mem_cons_of_mem _ List.mem_cons_self)) hs
    refine ⟨?_, step (nn qs i1) i2 ?_⟩
    · intro x hx
      rcases List.mem_cons.1 hx with rfl | hx
      · exact a
      · exact i3 x (List.mem_cons_of_mem _ (List.mem_cons_of_mem _ hx))
    · have r0 := nn rest (fun x hx => i3 x (List.mem_cons_of_mem _ (List.mem_cons_of_mem _ hx)))
      rw [(hperm.map μ).sum_eq]
      simp only [List.map_cons, List.sum_cons]
      rw [show μ r + (rest.map μ).sum - (μ p + (μ q + (rest.map μ).sum)) = μ r - (μ p + μ q) by ring]
      nlinarith

end Auxi.Plant

namespace Auxi.SlurryFloat.Spec
open Auxi.Slurry
open Auxi.Psd (F64 Arg)
open Auxi.PsdFloat.Spec (Good)

/-- A slurry package as programs have them: the masses, also that of the water, are machine numbers and none is negative. -/
def Sound (rnd : ℚ → ℚ) (p : Package) : Prop := (∀ x ∈ p.masses, Good rnd x) ∧ Good rnd p.water

/-- The argument of `extract` is a machine number and not negative; a mass is not taken of an empty package (see C57). -/
def ArgOk (rnd : ℚ → ℚ) (mass : F64) : Arg Package → Prop
  | .num _ x => Good rnd x ∧ mass ≠ .fin 0
  | .tup _ _ x => Good rnd x
  | .strTup _ _ x => Good rnd x
  | _ => True

end Auxi.SlurryFloat.Spec
