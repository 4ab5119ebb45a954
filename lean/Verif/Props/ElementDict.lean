import Verif.ElementDict
import Verif.Props.Chem
import Verif.Props.ThermoMore
import Verif.Props.ThermoStream

/-! # C126: element mass dictionaries -/
namespace Auxi.ElementDict.Props
open Auxi Auxi.ElementDict

variable {α : Type}

theorem put_new {k : Str} {v : α} : ∀ {d : List (Str × α)}, k ∉ d.map (·.1) → put k v d = d ++ [(k, v)]
  | [], _ => rfl
  | (k', w) :: d, h => by
    simp only [List.map_cons, List.mem_cons, not_or] at h
    rw [put, if_neg (fun e => h.1 e.symm), put_new h.2]; rfl

/-- With distinct keys, and as many values, the dictionary has just these entries. -/
theorem zipInto_eq : ∀ (ks : List Str) (vs : List α) (d : List (Str × α)), vs.length = ks.length → ks.Nodup → (∀ k ∈ ks, k ∉ d.map (·.1)) → zipInto d ks vs = d ++ ks.zip vs
  | [], [], d, _, _, _ => by simp [zipInto]
  | [], _ :: _, _, h, _, _ => by cases h
  | _ :: _, [], _, h, _, _ => by cases h
  | k :: ks, v :: vs, d, hl, hn, hd => by
    rw [zipInto, put_new (hd k (by simp)), zipInto_eq ks vs _ (by simpa using hl) (List.nodup_cons.1 hn).2]
    · simp
    · intro x hx
      have hne : x ≠ k := fun e => (List.nodup_cons.1 hn).1 (e ▸ hx)
      simp only [List.map_append, List.mem_append, not_or]
      exact ⟨hd x (by simp [hx]), by simpa using hne⟩

theorem map_zip_val {β : Type} (f : Str → β) (g : α → β) : ∀ (ks : List Str) (vs : List α), vs.map g = ks.map f → ∀ x ∈ ks.zip vs, g x.2 = f x.1
  | [], _, _ => by simp
  | _ :: _, [], _ => by simp
  | k :: ks, v :: vs, h => by
    simp only [List.map_cons, List.cons.injEq] at h
    intro x hx
    simp only [List.zip_cons_cons, List.mem_cons] at hx
    rcases hx with rfl | hx
    · exact h.1
    · exact map_zip_val f g ks vs h.2 x hx

/-- **C126 (chem packages).** The dictionary has one entry for each element of the material, in their order; the value is what `get_element_mass` returns for that element; and together the
values are the mass of the package. -/
theorem C126_chem (p : Chem.Package) (hm : Chem.Spec.MatOK p.mat) (hp : Chem.Spec.PkgOK p) :
    ∃ d, chem p = .ok d ∧ d.map (·.1) = p.mat.elements ∧ (d.map (·.1)).Nodup ∧
      (∀ x ∈ d, x.2.val = Chem.Spec.elementContent p x.1 ∧ ∃ y, p.elementMass x.1 = .ok y ∧ y.val = x.2.val) ∧
      ((∀ c ∈ p.mat.compounds, Stoich.molarMass c ≠ .ok 0) → (d.map (fun x => x.2.val)).sum = p.mass.val) := by
  obtain ⟨l, hl, hv⟩ := Chem.Props.C53_element_masses p hm hp
  obtain ⟨E, hE, hperm⟩ := hm.elements
  obtain ⟨n1, _⟩ := Stoich.Props.C45_elements _ _ hE
  have hnd : p.mat.elements.Nodup := hperm.nodup_iff.1 n1
  have hlen : l.length = p.mat.elements.length := by have := congrArg List.length hv; simpa using this
  have hz : zipInto [] p.mat.elements l = p.mat.elements.zip l := by
    rw [zipInto_eq _ _ _ hlen hnd (by simp)]; rfl
  have hk : (p.mat.elements.zip l).map (·.1) = p.mat.elements := by
    rw [List.map_fst_zip (by omega)]
  refine ⟨p.mat.elements.zip l, by unfold chem; rw [hl]; dsimp only; rw [hz], hk, by rw [hk]; exact hnd, ?_, ?_⟩
  · intro x hx
    have h1 := map_zip_val (Chem.Spec.elementContent p) Chem.Num.val _ _ hv x hx
    obtain ⟨y, y1, y2⟩ := Chem.Props.C53_element_mass p x.1 hm hp
    exact ⟨h1, y, y1, by rw [y2, h1]⟩
  · intro h0
    rw [← Chem.Props.C53_total p hm hp h0, ← hv]
    have : (p.mat.elements.zip l).map (fun x => x.2.val) = l.map Chem.Num.val := by
      rw [show (fun x : Str × Chem.Num => x.2.val) = Chem.Num.val ∘ Prod.snd from rfl, ← List.map_map, List.map_snd_zip (by omega)]
    rw [this]

/-- **C126 (thermo packages).** The same for packages of the thermo module. -/
theorem C126_thermo (p : Thermo.Package) (hp : Thermo.Spec.Sound p) (he : Thermo.Spec.ElementsOK p.mat) :
    ∃ d, thermo p = .ok d ∧ d.map (·.1) = p.mat.elements ∧ (d.map (·.1)).Nodup ∧
      (∀ x ∈ d, x.2 = some (Thermo.Spec.elementContent p x.1) ∧ p.elementMass x.1 = .ok x.2) ∧
      ((∀ c ∈ p.mat.compounds, Stoich.molarMass c ≠ .ok 0) → p.mass = some (d.map (fun x => x.2.getD 0)).sum) := by
  have hl := Thermo.Props.C49_element_masses p hp he none
  obtain ⟨E, hE, hperm⟩ := id he
  obtain ⟨n1, _⟩ := Stoich.Props.C45_elements _ _ hE
  have hnd : p.mat.elements.Nodup := hperm.nodup_iff.1 n1
  simp only [Option.getD_none] at hl
  set l := p.mat.elements.map (fun e => some (Thermo.Spec.elementContent p e)) with hld
  have hlen : l.length = p.mat.elements.length := by simp [hld]
  have hz : zipInto [] p.mat.elements l = p.mat.elements.zip l := by
    rw [zipInto_eq _ _ _ hlen hnd (by simp)]; rfl
  have hk : (p.mat.elements.zip l).map (·.1) = p.mat.elements := by
    rw [List.map_fst_zip (by omega)]
  refine ⟨p.mat.elements.zip l, by unfold thermo; rw [hl]; dsimp only; rw [hz], hk, by rw [hk]; exact hnd, ?_, ?_⟩
  · intro x hx
    have h1 := map_zip_val (fun e => some (Thermo.Spec.elementContent p e)) id _ l (by rw [hld]; simp) x hx
    simp only [id] at h1
    exact ⟨h1, by rw [h1]; exact Thermo.Props.C49_element_mass p hp he x.1⟩
  · intro h0
    rw [Thermo.Props.C49_total p hp he h0]
    have : (p.mat.elements.zip l).map (fun x => x.2.getD 0) = p.mat.elements.map (Thermo.Spec.elementContent p) := by
      rw [show (fun x : Str × Thermo.V => x.2.getD 0) = (fun v : Thermo.V => v.getD 0) ∘ Prod.snd from rfl, ← List.map_map, List.map_snd_zip (by omega), hld, List.map_map]
      rfl
    rw [this]

/-- **C126 (violated: streams).** For a stream of at least one compound `get_element_mfr_dictionary` always raises. -/
theorem C126_stream_violated (s : Thermo.Stream) (h : s.mat.compounds ≠ []) : ∃ e, stream s = .error e := by
  unfold stream Thermo.Stream.elementMfrs
  cases hc : s.mat.compounds with
  | nil => exact absurd hc h
  | cons c cs =>
    dsimp only
    cases s.compoundMfr c with
    | error e => exact ⟨e, rfl⟩
    | ok x =>
      dsimp only
      cases Stoich.elementMassFractions c ((none : Option (List Str)).getD s.mat.elements) with
      | error e => exact ⟨e, rfl⟩
      | ok l => exact ⟨_, rfl⟩

/-- **C126 (streams without compounds).** The dictionary of a stream of a material without compounds has the elements of
the material, with zeros. -/
theorem C126_stream_empty (s : Thermo.Stream) (h : s.mat.compounds = []) (hn : s.mat.elements.Nodup) :
    stream s = .ok (s.mat.elements.map (fun e => (e, some 0))) := by
  unfold stream Thermo.Stream.elementMfrs
  rw [h]
  dsimp only [Option.getD_none]
  rw [zipInto_eq _ _ _ (by simp) hn (by simp), List.nil_append]
  congr 1
  generalize s.mat.elements = l
  induction l with
  | nil => rfl
  | cons e l ih => simpa [List.replicate_succ] using ih

/-! ## Examples -/

example : Chem.Spec.MatOK Chem.Props.pkgA.mat ∧ Chem.Spec.PkgOK Chem.Props.pkgA ∧ Chem.Props.pkgA.mat.elements.length = 4 ∧ (∀ c ∈ Chem.Props.pkgA.mat.compounds, Stoich.molarMass c ≠ .ok 0) :=
  ⟨Chem.Props.matA_ok, rfl, by decide +kernel, by decide +kernel⟩

example : Thermo.Spec.Sound Thermo.Props.pFe ∧ Thermo.Spec.ElementsOK Thermo.Props.pFe.mat :=
  ⟨⟨by simp [Thermo.Props.pFe, Thermo.Props.mFe], by simp only [Thermo.Props.pFe, Thermo.Props.mFe]; decide +kernel, ⟨[2, 3], rfl, rfl⟩, ⟨25, rfl⟩, rfl⟩,
    ⟨["Fe".toList, "O".toList], by simp only [Thermo.Props.pFe, Thermo.Props.mFe]; decide +kernel, List.Perm.refl _⟩⟩

example : (⟨Thermo.Props.mFe, [some 2, some 3], some 1, some 25, some 0, false, none, none⟩ : Thermo.Stream).mat.compounds ≠ [] := by simp [Thermo.Props.mFe]

end Auxi.ElementDict.Props
