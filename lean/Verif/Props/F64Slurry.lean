import Verif.Props.F64

/-! # C138: numbers that are not finite in slurry packages -/
namespace Auxi.Slurry.Props
open Psd (F64 Arg)
open Slurry.Spec
open Psd.Spec (IsFin)
open Psd.Props (add_isFin sub_isFin mul_isFin sum_isFin fin_isFin)

/-- **C138 (slurry, total).** The mass of a slurry package is finite exactly when the mass of the water and of every size class is. -/
theorem C138_slurry_total (p : Package) : IsFin p.mass ↔ ¬ Spoilt p := by
  unfold Package.mass Spoilt
  rw [add_isFin, sum_isFin]
  simp [not_or]

/-- **C138 (slurry, splitting).** -/
theorem C138_slurry_extract (p p' r : Package) (a : Arg Package) (h : p.extract a = (.ok r, p')) (hp : Spoilt p) : Spoilt p' ∨ Spoilt r := by
  unfold Package.extract at h
  split at h
  · split at h
    · split at h
      · cases h
      · cases h
        refine .inl (hp.imp ?_ ?_)
        · rintro ⟨x, hx, hn⟩
          exact ⟨_, List.mem_map.2 ⟨x, hx, rfl⟩, fun h => hn (mul_isFin.1 h).1⟩
        · exact fun hn h => hn (mul_isFin.1 h).1
    · cases h
  · split at h
    · split at h
      · cases h
      · cases h
        exact .inl (hp.imp id (fun hn h => hn (sub_isFin.1 h).1))
    · cases h
  · split at h
    · cases h
    · rename_i s hs
      cases h
      rcases hp with hp | hp
      · exact (Psd.Props.C138_extract _ _ _ _ hs hp).imp .inl .inl
      · exact .inl (.inr hp)
  · split at h
    · cases h
    · rename_i s hs
      cases h
      rcases hp with hp | hp
      · exact (Psd.Props.C138_extract _ _ _ _ hs hp).imp .inl .inl
      · exact .inl (.inr hp)
  · cases h

/-- **C138 (slurry, joining).** -/
theorem C138_slurry_join (p q r : Package) (hm : p.mat.psd.ident = q.mat.psd.ident → p.mat.psd = q.mat.psd) (sp : Psd.Spec.Shape p.solids) (sq : Psd.Spec.Shape q.solids)
    (hd : Psd.Spec.Distinct q.mat.psd) (h : p.add (.pkg q) = .ok r) (hs : Spoilt p ∨ Spoilt q) : Spoilt r := by
  unfold Package.add at h
  dsimp only at h
  split at h
  · cases h
  · rename_i s hr
    cases h
    rcases hs with (h | h) | h | h
    · exact .inl (Psd.Props.C138_join _ _ s hm sp sq hd hr (.inl h))
    · exact .inr (fun h' => h (add_isFin.1 h').1)
    · exact .inl (Psd.Props.C138_join _ _ s hm sp sq hd hr (.inr h))
    · exact .inr (fun h' => h (add_isFin.1 h').2)

/-- **C138 (slurry, clearing) is false of the code for solids that are not finite**: a package is empty after `clear` exactly when all solid masses were finite. -/
theorem C138_slurry_clear (p : Package) : p.clear.water = .fin 0 ∧ ((∀ x ∈ p.clear.masses, x = .fin 0) ↔ ∀ x ∈ p.masses, IsFin x) := ⟨rfl, Psd.Props.C138_clear p.solids⟩

open Auxi.Plant in
/-- **C138 (slurry, plant).** However often the slurry packages of a plant are split and joined, a mass that is not finite never disappears. -/
theorem C138_slurry_plant (mats : List Material) (hid : ∀ m ∈ mats, ∀ m' ∈ mats, m.psd.ident = m'.psd.ident → m.psd = m'.psd) (ps qs : List Package)
    (hp : ∀ p ∈ ps, p.mat ∈ mats ∧ Psd.Spec.Shape p.solids ∧ Psd.Spec.Distinct p.mat.psd)
    (h : Run (fun p p' r => ∃ a, p.extract a = (.ok r, p')) (fun p q r => p.add (.pkg q) = .ok r) ps qs) (hs : ∃ p ∈ ps, Spoilt p) : ∃ q ∈ qs, Spoilt q := by
  suffices H : (∀ q ∈ qs, q.mat ∈ mats ∧ Psd.Spec.Shape q.solids ∧ Psd.Spec.Distinct q.mat.psd) ∧ ∃ q ∈ qs, Spoilt q from H.2
  have ext : ∀ {p p' r : Package} {a : Arg Package}, p.extract a = (.ok r, p') →
      p'.mat = p.mat ∧ r.mat = p.mat ∧ p'.masses.length = p.masses.length ∧ r.masses.length = p.masses.length := by
    intro p p' r a h
    unfold Package.extract at h
    split at h
    · split at h
      · split at h
        · cases h
        · cases h; simp
      · cases h
    · split at h
      · split at h
        · cases h
        · cases h; simp
      · cases h
    · split at h
      · cases h
      · rename_i s hs
        cases h
        obtain ⟨-, -, h3, h4⟩ := Psd.Props.extract_shape hs
        exact ⟨rfl, rfl, h3, h4⟩
    · split at h
      · cases h
      · rename_i s hs
        cases h
        obtain ⟨-, -, h3, h4⟩ := Psd.Props.extract_shape hs
        exact ⟨rfl, rfl, h3, h4⟩
    · cases h
  have join : ∀ {p q r : Package}, (p.mat.psd.ident = q.mat.psd.ident → p.mat.psd = q.mat.psd) → Psd.Spec.Shape p.solids → Psd.Spec.Shape q.solids → p.add (.pkg q) = .ok r →
      r.mat = p.mat ∧ Psd.Spec.Shape r.solids := by
    intro p q r hm sp sq h
    unfold Package.add at h
    dsimp only at h
    split at h
    · cases h
    · rename_i s hr
      cases h
      obtain ⟨h1, h2⟩ := Psd.Props.add_shape hm sp sq hr
      refine ⟨rfl, ?_⟩
      unfold Psd.Spec.Shape at h2 ⊢
      rw [h1] at h2
      exact h2
  induction h with
  | start => exact ⟨hp, hs⟩
  | @split qs rest p p' r _ hperm he ih =>
    obtain ⟨i1, x, hx, hn⟩ := ih
    obtain ⟨a, ha⟩ := he
    have i3 : ∀ x ∈ p :: rest, _ := fun x hx => i1 x (hperm.mem_iff.2 hx)
    obtain ⟨e1, e2, e3, e4⟩ := ext ha
    obtain ⟨c1, c2, c3⟩ := i3 p List.mem_cons_self
    refine ⟨?_, ?_⟩
    · intro y hy
      simp only [List.mem_cons] at hy
      rcases hy with rfl | rfl | hy
      · exact ⟨e1 ▸ c1, by unfold Psd.Spec.Shape Package.solids at c2 ⊢; dsimp only at c2 ⊢; rw [e3, e1]; exact c2, e1 ▸ c3⟩
      · exact ⟨e2 ▸ c1, by unfold Psd.Spec.Shape Package.solids at c2 ⊢; dsimp only at c2 ⊢; rw [e4, e2]; exact c2, e2 ▸ c3⟩
      · exact i3 y (List.mem_cons_of_mem _ hy)
    · rcases List.mem_cons.1 (hperm.mem_iff.1 hx) with rfl | hx
      · rcases C138_slurry_extract _ _ _ a ha hn with h | h
        · exact ⟨_, List.mem_cons_self, h⟩
        · exact ⟨_, List.mem_cons_of_mem _ List.mem_cons_self, h⟩
      · exact ⟨x, List.mem_cons_of_mem _ (List.mem_cons_of_mem _ hx), hn⟩
  | @join qs rest p q r _ hperm he ih =>
    obtain ⟨i1, x, hx, hn⟩ := ih
    have i3 : ∀ x ∈ p :: q :: rest, _ := fun x hx => i1 x (hperm.mem_iff.2 hx)
    have cp := i3 p List.mem_cons_self
    have cq := i3 q (List.mem_cons_of_mem _ List.mem_cons_self)
    have hm : p.mat.psd.ident = q.mat.psd.ident → p.mat.psd = q.mat.psd := hid _ cp.1 _ cq.1
    obtain ⟨a1, a2⟩ := join hm cp.2.1 cq.2.1 he
    refine ⟨?_, ?_⟩
    · intro y hy
      rcases List.mem_cons.1 hy with rfl | hy
      · exact ⟨a1 ▸ cp.1, a2, a1 ▸ cp.2.2⟩
      · exact i3 y (List.mem_cons_of_mem _ (List.mem_cons_of_mem _ hy))
    · have := hperm.mem_iff.1 hx
      simp only [List.mem_cons] at this
      rcases this with rfl | rfl | hx
      · exact ⟨r, List.mem_cons_self, C138_slurry_join _ _ r hm cp.2.1 cq.2.1 cq.2.2 he (.inl hn)⟩
      · exact ⟨r, List.mem_cons_self, C138_slurry_join _ _ r hm cp.2.1 cq.2.1 cq.2.2 he (.inr hn)⟩
      · exact ⟨x, List.mem_cons_of_mem _ hx, hn⟩

/-- Packages that meet the hypotheses; taking `nan` of water, which is not refused, spoils what is left and what was taken. -/
example : (∀ p ∈ [pkgA, pkgA'], p.mat ∈ [matA] ∧ Psd.Spec.Shape p.solids ∧ Psd.Spec.Distinct p.mat.psd) ∧
    pkgA.extract (.strTup "H2O".toList true .nan) = (.ok ⟨matA, .fin 2, .nan, [.fin 0, .fin 0, .fin 0]⟩, ⟨matA, .fin 2, .nan, [.fin 4, .fin 2, .fin 1]⟩) := by
  refine ⟨?_, by decide +kernel⟩
  intro p hp
  have d : Psd.Spec.Distinct matA.psd := by unfold Psd.Spec.Distinct; decide +kernel
  simp only [List.mem_cons, List.not_mem_nil, or_false] at hp
  rcases hp with rfl | rfl
  · exact ⟨List.mem_cons_self, rfl, d⟩
  · exact ⟨List.mem_cons_self, rfl, d⟩

end Auxi.Slurry.Props
