import Mathlib.Algebra.BigOperators.Group.List.Basic
import Mathlib.Data.List.Perm.Basic

/-!
# A plant: a number of packages, and a program that splits and joins them

This is a specification of how the packages are used, not of code in `/repo`: `part p rest r` says that `r = p.extract(…)` succeeds and leaves `rest` in `p`, and
`mix p q r` that `r = p + q` succeeds.
-/
namespace Auxi.Plant

/-- The plants a program reaches from `ps` by extracting from packages and by replacing two packages by their sum, any number of times and in any order. -/
inductive Run {P : Type} (part mix : P → P → P → Prop) (ps : List P) : List P → Prop
  /-- nothing has been done -/
  | start : Run part mix ps ps
  /-- `r = p.extract(…)`: the plant now has what is left in `p`, and `r` -/
  | split {qs rest : List P} {p p' r : P} : Run part mix ps qs → qs.Perm (p :: rest) → part p p' r → Run part mix ps (p' :: r :: rest)
  /-- `r = p + q`: the plant now has `r` in place of `p` and `q` -/
  | join {qs rest : List P} {p q r : P} : Run part mix ps qs → qs.Perm (p :: q :: rest) → mix p q r → Run part mix ps (r :: rest)

/-- What holds of all packages and is kept by splitting and joining holds throughout; what is split and joined additively has a constant total. -/
theorem Run.conserves {P M : Type} [AddCommMonoid M] {part mix : P → P → P → Prop} {I : P → Prop} {μ : P → M}
    (h1 : ∀ p p' r, I p → part p p' r → I p' ∧ I r ∧ μ p = μ p' + μ r) (h2 : ∀ p q r, I p → I q → mix p q r → I r ∧ μ r = μ p + μ q)
    {ps qs : List P} (hp : ∀ p ∈ ps, I p) (h : Run part mix ps qs) : (∀ q ∈ qs, I q) ∧ (qs.map μ).sum = (ps.map μ).sum := by
  induction h with
  | start => exact ⟨hp, rfl⟩
  | @split qs rest p p' r _ hperm hs ih =>
    obtain ⟨i1, i2⟩ := ih
    have i3 : ∀ x ∈ p :: rest, I x := fun x hx => i1 x (hperm.mem_iff.2 hx)
    obtain ⟨a, b, c⟩ := h1 p p' r (i3 p List.mem_cons_self) hs
    refine ⟨?_, ?_⟩
    · intro x hx
      simp only [List.mem_cons] at hx
      rcases hx with rfl | rfl | hx
      · exact a
      · exact b
      · exact i3 x (List.mem_cons_of_mem _ hx)
    · rw [← i2, (hperm.map μ).sum_eq, List.map_cons, List.map_cons, List.map_cons, List.sum_cons, List.sum_cons, List.sum_cons, c, add_assoc]
  | @join qs rest p q r _ hperm hs ih =>
    obtain ⟨i1, i2⟩ := ih
    have i3 : ∀ x ∈ p :: q :: rest, I x := fun x hx => i1 x (hperm.mem_iff.2 hx)
    obtain ⟨a, c⟩ := h2 p q r (i3 p List.mem_cons_self) (i3 q (List.mem_cons_of_mem _ List.mem_cons_self)) hs
    refine ⟨?_, ?_⟩
    · intro x hx
      rcases List.mem_cons.1 hx with rfl | hx
      · exact a
      · exact i3 x (List.mem_cons_of_mem _ (List.mem_cons_of_mem _ hx))
    · rw [← i2, (hperm.map μ).sum_eq, List.map_cons, List.map_cons, List.map_cons, List.sum_cons, List.sum_cons, List.sum_cons, c, add_assoc]

end Auxi.Plant
