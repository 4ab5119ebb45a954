import Verif.Spec.Plant
import Verif.Props.Chem
import Verif.Props.Slurry
import Verif.Props.ThermoMix
import Verif.Props.ThermoStream

/-!
# C136: whatever is done with a number of packages, nothing is lost
-/
namespace Auxi.Plant.Props
open Auxi Auxi.Plant

/-! ## Chemical packages -/

section Chem
open Auxi.Chem Auxi.Chem.Spec Auxi.Chem.Props

/-- Any extraction that succeeds. -/
def chemPart (p p' r : Chem.Package) : Prop := ∃ a, p.extract a = (.ok r, p')

/-- A sum of packages of different materials that succeeds (for packages of one material see `C136_chem_violated`). -/
def chemMix (p q r : Chem.Package) : Prop := p.mat.ident ≠ q.mat.ident ∧ p.add (.pkg q) = .ok r

/-- A package with one mass for each of the compounds of its material, which are distinct. -/
def ChemOK (p : Chem.Package) : Prop := PkgOK p ∧ p.mat.compounds.Nodup

theorem chem_part {p p' r : Chem.Package} (h : ChemOK p) (hs : chemPart p p' r) : ChemOK p' ∧ ChemOK r ∧ ∀ c, content p c = content p' c + content r c := by
  obtain ⟨a, ha⟩ := hs
  obtain ⟨h1, h2, h3, h4, h5⟩ := C52_conserves p p' r a ha
  unfold ChemOK PkgOK at *
  rw [h1, h2, h3, h4]
  exact ⟨h, h, h5⟩

theorem chem_mix {p q r : Chem.Package} (hp : ChemOK p) (hq : ChemOK q) (hs : chemMix p q r) : ChemOK r ∧ ∀ c, content r c = content p c + content q c := by
  obtain ⟨h1, h2, h3, h4⟩ := C51_other_material_partial p q r hs.1 hp.1 hq.1 hp.2 hq.2 hs.2
  exact ⟨⟨h2, h1 ▸ hp.2⟩, h3⟩

/-- **C136 (chem).** Whatever is extracted from the packages of a plant, and whichever packages of different materials are added, the mass of every compound in the plant, and its
whole mass, stay the same. -/
theorem C136_chem (ps qs : List Chem.Package) (hp : ∀ p ∈ ps, ChemOK p) (h : Run chemPart chemMix ps qs) :
    (∀ c, (qs.map (fun p => content p c)).sum = (ps.map (fun p => content p c)).sum) ∧ (qs.map (fun p => p.mass.val)).sum = (ps.map (fun p => p.mass.val)).sum := by
  refine ⟨fun c => ?_, ?_⟩
  · exact (Run.conserves (I := ChemOK) (μ := fun p => content p c) (fun p p' r hi hs => by obtain ⟨a, b, d⟩ := chem_part hi hs; exact ⟨a, b, d c⟩)
      (fun p q r hi hj hs => by obtain ⟨a, d⟩ := chem_mix hi hj hs; exact ⟨a, d c⟩) hp h).2
  · refine (Run.conserves (I := ChemOK) (μ := fun p => p.mass.val) (fun p p' r hi hs => ?_) (fun p q r hi hj hs => ?_) hp h).2
    · obtain ⟨a, b, d⟩ := chem_part hi hs
      refine ⟨a, b, ?_⟩
      obtain ⟨x, hx⟩ := hs
      obtain ⟨h1, h2, -⟩ := C52_conserves p p' r x hx
      have key : ∀ x : Chem.Package, ChemOK x → x.mass.val = (x.mat.compounds.map (content x)).sum := fun x hx => Chem.mass_eq hx.2 hx.1
      rw [key p hi, key p' a, key r b, h1, h2, ← List.sum_map_add]
      exact congrArg List.sum (List.map_congr_left (fun c _ => d c))
    · exact ⟨(chem_mix hi hj hs).1, (C51_other_material_partial p q r hs.1 hi.1 hj.1 hi.2 hj.2 hs.2).2.2.2⟩

/-- **C136 (chem, elements).** So does the mass of every element. -/
theorem C136_chem_elements (ps qs : List Chem.Package) (hp : ∀ p ∈ ps, ChemOK p) (h : Run chemPart chemMix ps qs) (e : Str) :
    (qs.map (fun p => elementContent p e)).sum = (ps.map (fun p => elementContent p e)).sum := by
  refine (Run.conserves (I := ChemOK) (μ := fun p => elementContent p e) (fun p p' r hi hs => ?_) (fun p q r hi hj hs => ?_) hp h).2
  · obtain ⟨a, b, -⟩ := chem_part hi hs
    obtain ⟨x, hx⟩ := hs
    exact ⟨a, b, C53_extract p p' r x e hx⟩
  · exact ⟨(chem_mix hi hj hs).1, C53_add_other_partial p q r e hs.1 hi.1 hj.1 hi.2 hj.2 hs.2⟩

/-- A plant of one package: two kilograms are taken out, and added to a package of another material. -/
example : ∃ qs, Run chemPart chemMix [pkgA, pkgB] qs ∧ qs.length = 3 ∧ (∀ p ∈ [pkgA, pkgB], ChemOK p) ∧ ([pkgA, pkgB].map (fun p => content p "FeO".toList)).sum = 19 := by
  cases hx : (pkgB.extract (.num (fl 2))).1 with
  | error e => exact absurd hx (by have : ((pkgB.extract (.num (fl 2))).1).isOk = true := by decide +kernel
                                   rw [hx] at this; cases this)
  | ok r =>
    refine ⟨_, .split .start (p := pkgB) (p' := (pkgB.extract (.num (fl 2))).2) (r := r) (rest := [pkgA]) (List.Perm.swap _ _ _) ⟨.num (fl 2), Prod.ext hx rfl⟩, rfl, ?_, by decide +kernel⟩
    intro p hp
    simp only [List.mem_cons, List.not_mem_nil, or_false] at hp
    rcases hp with rfl | rfl
    · exact ⟨rfl, by decide⟩
    · exact ⟨rfl, by decide⟩

/-- **C136 (chem, violated).** When packages of one material may be added as well, a plant can lose material: a package added to one like it. -/
theorem C136_chem_violated : ¬ ∀ ps qs : List Chem.Package, (∀ p ∈ ps, ChemOK p) → Run chemPart (fun p q r => p.add (.pkg q) = .ok r) ps qs →
    ∀ c, (qs.map (fun p => content p c)).sum = (ps.map (fun p => content p c)).sum := by
  intro h
  have hok : ChemOK pkgA := ⟨rfl, by decide⟩
  have := h [pkgA, pkgA] [⟨matA, pkgA.masses ++ pkgA.masses⟩] (by intro p hp; simp only [List.mem_cons, List.not_mem_nil, or_false, or_self] at hp; exact hp ▸ hok)
    (.join .start (p := pkgA) (q := pkgA) (rest := []) (List.Perm.refl _) (by decide +kernel)) "FeO".toList
  revert this
  decide +kernel

end Chem

/-! ## Psd packages -/

section Psd
open Auxi.Psd Auxi.Psd.Spec

/-- An extraction of a finite mass that succeeds; a mass is only asked of a package that has some (C48). -/
def psdPart (p p' r : Psd.Package) : Prop :=
  ∃ a : Arg Psd.Package, p.extract a = (.ok r, p') ∧ (∀ b x, a = .num b x → (∃ q, x = .fin q) ∧ p.mass ≠ .fin 0) ∧ ∀ c b x, a = .tup c b x → ∃ q, x = .fin q

/-- A sum that succeeds, of packages of one material or of materials that are not the same object. -/
def psdMix (p q r : Psd.Package) : Prop := (p.mat = q.mat ∨ p.mat.ident ≠ q.mat.ident) ∧ p.add (.pkg q) = .ok r

/-- One finite mass for each of the size classes of the material, which are distinct. -/
def PsdOK (p : Psd.Package) : Prop := Finite p ∧ Shape p ∧ Distinct p.mat

theorem psd_part {p p' r : Psd.Package} (h : PsdOK p) (hs : psdPart p p' r) :
    PsdOK p' ∧ PsdOK r ∧ (∀ c, content p c = content p' c + content r c) ∧ total p = total p' + total r := by
  obtain ⟨a, ha, g1, g2⟩ := hs
  obtain ⟨h1, h2, h3, h4, h5, h6, h7⟩ := Psd.Props.C56_extract p p' r a h.1 ha (fun b x => ⟨g1 b x, fun c => g2 c b x⟩)
  have s1 : Shape p' := by have := h.2.1; unfold Shape at *; rw [h1, h3]; exact this
  have s2 : Shape r := by have := h.2.1; unfold Shape at *; rw [h2, h4]; exact this
  refine ⟨⟨h5, s1, h1 ▸ h.2.2⟩, ⟨h6, s2, h2 ▸ h.2.2⟩, h7, ?_⟩
  unfold total
  rw [h1, h2, ← List.sum_map_add]
  exact congrArg List.sum (List.map_congr_left (fun c _ => h7 c))

theorem psd_mix {p q r : Psd.Package} (hp : PsdOK p) (hq : PsdOK q) (hs : psdMix p q r) :
    PsdOK r ∧ (∀ c, content r c = content p c + content q c) ∧ total r = total p + total q := by
  obtain ⟨hm, hr⟩ := hs
  have key : r.mat = p.mat ∧ Finite r ∧ Shape r ∧ (∀ c, content r c = content p c + content q c) ∧ r.mass = .fin (total p + total q) := by
    rcases hm with hm | hm
    · obtain ⟨r', h0, h⟩ := Psd.Props.C56_add_same p q hm hp.1 hq.1 hp.2.1 hq.2.1 hp.2.2
      rw [hr] at h0
      cases h0
      exact h
    · exact Psd.Props.C56_add_other p q r hm hp.1 hq.1 hp.2.1 hq.2.1 hp.2.2 hq.2.2 hr
  obtain ⟨h1, h2, h3, h4, h5⟩ := key
  refine ⟨⟨h2, h3, h1 ▸ hp.2.2⟩, h4, ?_⟩
  rw [Psd.Props.C56_mass r h2 h3 (h1 ▸ hp.2.2)] at h5
  exact F64.fin.inj h5

/-- **C136 (psd).** Whatever is extracted from the packages of a plant and whichever packages are added, the mass of every size class in the plant and its whole mass stay the same, and
all masses stay finite. -/
theorem C136_psd (ps qs : List Psd.Package) (hp : ∀ p ∈ ps, PsdOK p) (h : Run psdPart psdMix ps qs) :
    (∀ q ∈ qs, PsdOK q ∧ q.mass = .fin (total q)) ∧ (∀ c, (qs.map (fun p => content p c)).sum = (ps.map (fun p => content p c)).sum) ∧ (qs.map total).sum = (ps.map total).sum := by
  have H := Run.conserves (I := PsdOK) (μ := total) (fun p p' r hi hs => by obtain ⟨a, b, -, d⟩ := psd_part hi hs; exact ⟨a, b, d⟩)
      (fun p q r hi hj hs => by obtain ⟨a, -, d⟩ := psd_mix hi hj hs; exact ⟨a, d⟩) hp h
  refine ⟨fun q hq => ⟨H.1 q hq, Psd.Props.C56_mass q (H.1 q hq).1 (H.1 q hq).2.1 (H.1 q hq).2.2⟩, fun c => ?_, H.2⟩
  exact (Run.conserves (I := PsdOK) (μ := fun p => content p c) (fun p p' r hi hs => by obtain ⟨a, b, d, -⟩ := psd_part hi hs; exact ⟨a, b, d c⟩)
      (fun p q r hi hj hs => by obtain ⟨a, d, -⟩ := psd_mix hi hj hs; exact ⟨a, d c⟩) hp h).2

/-- A plant: two kilograms are taken from a package and added to another one. -/
example : ∃ qs, Run psdPart psdMix [Psd.Props.pkgA, Psd.Props.pkgA] qs ∧ qs.length = 2 ∧ (∀ p ∈ [Psd.Props.pkgA, Psd.Props.pkgA], PsdOK p) ∧
    qs ≠ [Psd.Props.pkgA, Psd.Props.pkgA] := by
  have e1 : Psd.Props.pkgA.extract (.str (some (3/10))) = (.ok ⟨Psd.Props.matA, lift [4, 0, 0]⟩, ⟨Psd.Props.matA, lift [0, 2, 1]⟩) := by decide +kernel
  have e2 : Psd.Props.pkgA.add (.pkg ⟨Psd.Props.matA, lift [4, 0, 0]⟩) = .ok ⟨Psd.Props.matA, lift [8, 2, 1]⟩ := by decide +kernel
  have r1 : Run psdPart psdMix [Psd.Props.pkgA, Psd.Props.pkgA] _ := .split .start (List.Perm.refl _) ⟨_, e1, (fun b x h => by cases h), (fun c b x h => by cases h)⟩
  refine ⟨_, .join r1 (p := Psd.Props.pkgA) (q := ⟨Psd.Props.matA, lift [4, 0, 0]⟩) (rest := [⟨Psd.Props.matA, lift [0, 2, 1]⟩]) ?_ ⟨.inl rfl, e2⟩, rfl, ?_, by decide +kernel⟩
  · exact (List.Perm.swap _ _ _).trans (((List.Perm.swap _ _ _).cons _).trans (List.Perm.swap _ _ _))
  · intro p hp
    simp only [List.mem_cons, List.not_mem_nil, or_false, or_self] at hp
    exact hp ▸ Psd.Props.pkgA_ok

end Psd

/-! ## Slurry packages -/

section Slurry
open Auxi.Slurry Auxi.Slurry.Spec
open Auxi.Psd (F64 Arg)

/-- An extraction of a finite mass that succeeds; a mass is only asked of a package that has some (C48). -/
def slurryPart (p p' r : Slurry.Package) : Prop :=
  ∃ a : Arg Slurry.Package, p.extract a = (.ok r, p') ∧ (∀ b x, a = .num b x → (∃ q, x = .fin q) ∧ p.mass ≠ .fin 0) ∧ (∀ c b x, a = .tup c b x → ∃ q, x = .fin q) ∧
    ∀ s b x, a = .strTup s b x → ∃ q, x = .fin q

/-- A sum that succeeds, of packages with solids (C57), of one material or of materials that are not the same object. -/
def slurryMix (p q r : Slurry.Package) : Prop :=
  (p.mat.psd.ident = q.mat.psd.ident → p.mat = q.mat) ∧ 0 ≤ solid p ∧ 0 ≤ solid q ∧ 0 < solid p + solid q ∧ p.add (.pkg q) = .ok r

/-- **C136 (slurry).** Whatever is extracted from the packages of a plant and whichever packages are added, every size class, the water and the volume in the plant stay the same. -/
theorem C136_slurry (ps qs : List Slurry.Package) (hp : ∀ p ∈ ps, OK p) (h : Run slurryPart slurryMix ps qs) :
    (∀ q ∈ qs, OK q ∧ q.volume = .fin (volume q)) ∧ (∀ c, (qs.map (fun p => content p c)).sum = (ps.map (fun p => content p c)).sum) ∧ (qs.map water).sum = (ps.map water).sum ∧
      (qs.map volume).sum = (ps.map volume).sum := by
  have part : ∀ p p' r, OK p → slurryPart p p' r → OK p' ∧ OK r ∧ (∀ c, content p c = content p' c + content r c) ∧ water p = water p' + water r ∧ volume p = volume p' + volume r := by
    rintro p p' r hi ⟨a, h0, h1, h2, h3⟩
    obtain ⟨-, -, a1, a2, -, -, a3, a4, a5⟩ := Slurry.Props.C57_extract p p' r a hi h0 h1 h2 h3
    exact ⟨a1, a2, a3, a4, a5⟩
  have mix : ∀ p q r, OK p → OK q → slurryMix p q r → OK r ∧ (∀ c, content r c = content p c + content q c) ∧ water r = water p + water q ∧ volume r = volume p + volume q := by
    rintro p q r hi hj ⟨h0, h1, h2, h3, h4⟩
    obtain ⟨-, a1, a2, a3, -, a4, -⟩ := Slurry.Props.C57_mix p q r hi hj h0 h1 h2 h3 h4
    exact ⟨a1, a2, a3, a4⟩
  have H := Run.conserves (I := OK) (μ := volume) (fun p p' r hi hs => by obtain ⟨a, b, -, -, d⟩ := part p p' r hi hs; exact ⟨a, b, d⟩)
      (fun p q r hi hj hs => by obtain ⟨a, -, -, d⟩ := mix p q r hi hj hs; exact ⟨a, d⟩) hp h
  refine ⟨fun q hq => ⟨H.1 q hq, (Slurry.Props.C57_volume q (H.1 q hq)).1⟩, fun c => ?_, ?_, H.2⟩
  · exact (Run.conserves (I := OK) (μ := fun p => content p c) (fun p p' r hi hs => by obtain ⟨a, b, d, -⟩ := part p p' r hi hs; exact ⟨a, b, d c⟩)
      (fun p q r hi hj hs => by obtain ⟨a, d, -⟩ := mix p q r hi hj hs; exact ⟨a, d c⟩) hp h).2
  · exact (Run.conserves (I := OK) (μ := water) (fun p p' r hi hs => by obtain ⟨a, b, -, d, -⟩ := part p p' r hi hs; exact ⟨a, b, d⟩)
      (fun p q r hi hj hs => by obtain ⟨a, -, d, -⟩ := mix p q r hi hj hs; exact ⟨a, d⟩) hp h).2

/-- A plant: half of a package's water is taken out, and the rest is mixed with another package. -/
example : ∃ qs, Run slurryPart slurryMix [Slurry.Props.pkgA, Slurry.Props.pkgA'] qs ∧ qs.length = 2 ∧ (∀ p ∈ [Slurry.Props.pkgA, Slurry.Props.pkgA'], OK p) := by
  have e1 : Slurry.Props.pkgA.extract (.strTup "H2O".toList true (.fin 1)) =
    (.ok ⟨Slurry.Props.matA, .fin 2, .fin 1, Psd.lift [0, 0, 0]⟩, ⟨Slurry.Props.matA, .fin 2, .fin 2, Psd.lift [4, 2, 1]⟩) := by decide +kernel
  have r1 : Run slurryPart slurryMix [Slurry.Props.pkgA, Slurry.Props.pkgA'] _ := .split .start (List.Perm.refl _)
    ⟨_, e1, (fun b x h => by cases h), (fun c b x h => by cases h), (fun s b x h => by cases h; exact ⟨_, rfl⟩)⟩
  cases hx : (⟨Slurry.Props.matA, .fin 2, .fin 2, Psd.lift [4, 2, 1]⟩ : Slurry.Package).add (.pkg Slurry.Props.pkgA') with
  | error e =>
    have : ((⟨Slurry.Props.matA, .fin 2, .fin 2, Psd.lift [4, 2, 1]⟩ : Slurry.Package).add (.pkg Slurry.Props.pkgA')).isOk = true := by decide +kernel
    rw [hx] at this; cases this
  | ok r =>
    refine ⟨_, .join r1 ((List.Perm.swap _ _ _).cons _) ⟨fun _ => rfl, by decide +kernel, by decide +kernel, by decide +kernel, hx⟩, rfl, ?_⟩
    intro p hp
    simp only [List.mem_cons, List.not_mem_nil, or_false] at hp
    rcases hp with rfl | rfl
    · exact Slurry.Props.pkgA_ok
    · exact Slurry.Props.pkgA'_ok

end Slurry

/-! ## Thermochemical packages -/

section Thermo
open Auxi.Thermo Auxi.Thermo.Spec Auxi.Thermo.Props

/-- An extraction that succeeds, of a mass (from a package that has some), of a compound, or of a mass of a compound; no negative masses. -/
def thermoPart (db : Db) (p p' r : Thermo.Package) : Prop :=
  (∃ x : ℝ, 0 ≤ x ∧ 0 < totalMass p ∧ p.extract db (.num true (some x)) = (.ok r, p')) ∨ (∃ c, p.extract db (.str c) = (.ok r, p')) ∨
    ∃ c, ∃ x : ℝ, 0 ≤ x ∧ p.extract db (.tup c true (some x)) = (.ok r, p')

/-- A sum that succeeds, of packages of one material or of materials that are not the same object, and for which the solver finds the temperature that has the enthalpy
(for materials of constant heat capacity it does: `C62_mix`). -/
def thermoMix (db : Db) (p q r : Thermo.Package) : Prop := (q.mat = p.mat ∨ p.mat.ident ≠ q.mat.ident) ∧ p.add db (.pkg q) = .ok r ∧ Consistent db r

theorem mix_good {db : Db} {p q r : Thermo.Package} (gp : Good db p) (gq : Good db q) (h : thermoMix db p q r) : Good db r ∧ Mixed p q r := by
  obtain ⟨hm, hr, hc⟩ := h
  have hsub : ∀ c ∈ q.mat.compounds, c ∈ p.mat.compounds := by
    rcases hm with hm | hm
    · rw [hm]; exact fun _ h => h
    · intro c hc
      by_contra hn
      rw [C60_foreign db p q gp.sound gq.sound hm gp.known c hc hn] at hr
      cases hr
  have mixed : Mixed p q r := by
    rcases hm with hm | hm
    · obtain ⟨r', h1, h2⟩ := C60_same db p q gp.sound gq.sound hm gp.known
      rw [hr] at h1; cases h1; exact h2
    · obtain ⟨r', h1, h2⟩ := C60_other db p q gp.sound gq.sound hm gp.known hsub
      rw [hr] at h1; cases h1; exact h2
  obtain ⟨t, ht, hH⟩ := hc
  refine ⟨⟨?_, ?_, ⟨t, ht, hH⟩, mixed.1 ▸ gp.known⟩, mixed⟩
  · rcases hm with hm | hi
    · have hq' : Rep p.mat q.masses (content q) := hm ▸ gq.sound.rep
      obtain ⟨s, hs, hs'⟩ := gp.sound.rep.add hq'
      unfold Package.add at hr
      dsimp only at hr
      rw [if_pos (by rw [hm]), hs] at hr
      dsimp only at hr
      rw [newPackage_rep gp.known hs'] at hr
      dsimp only at hr
      obtain ⟨t', _, ht'⟩ := setH_defined (p := ⟨p.mat, s, some 1, some 25, some (if 0 < (p.mat.compounds.map (fun c => content p c + content q c)).sum then hOf db p.mat (fun c => content p c + content q c) 25 else 0), false, none⟩) gp.known gp.sound.some_compound rfl hs' (vadd p.H q.H)
      rw [ht'] at hr
      have hr : (⟨p.mat, s, p.P, t', vadd p.H q.H, false, none⟩ : Package) = r := Except.ok.inj hr
      subst hr
      exact hs'.sound (p := ⟨p.mat, s, p.P, t', vadd p.H q.H, false, none⟩) gp.sound.some_compound gp.sound.distinct ⟨t, ht⟩ rfl
    · obtain ⟨t0, ht0⟩ := gp.sound.temperature
      obtain ⟨b, r1, r2, r3, r4, r5, k, r6, r7⟩ := addLoop_rep (db := db) gq.sound.rep q.mat.compounds gq.sound.distinct (fun _ h => h) p gp.known gp.sound.distinct hsub gp.sound.rep ht0
      have r6' : Rep b.mat b.masses k := r2 ▸ r6
      obtain ⟨t', _, ht'⟩ := setH_defined (p := b) (r2 ▸ gp.known) (r2 ▸ gp.sound.some_compound) (r5.trans gp.sound.not_coal) r6' (vadd p.H q.H)
      unfold Package.add at hr
      dsimp only at hr
      rw [if_neg hi, r1] at hr
      dsimp only at hr
      rw [ht'] at hr
      have hr : ({ b with H := vadd p.H q.H, T := t' } : Package) = r := Except.ok.inj hr
      subst hr
      exact r6'.sound (p := { b with H := vadd p.H q.H, T := t' }) (r2 ▸ gp.sound.some_compound) (r2 ▸ gp.sound.distinct) ⟨t, ht⟩ (r5.trans gp.sound.not_coal)
  · intro c
    rw [mixed.2.1]
    exact add_nonneg (gp.nonneg c) (gq.nonneg c)

/-- The enthalpy a package reports; 0 if it is not finite. -/
noncomputable def reportedH (p : Thermo.Package) : ℝ := p.H.getD 0

/-- Contents and enthalpies add up. -/
def Adds (p p' r : Thermo.Package) : Prop := (∀ c, content p c = content p' c + content r c) ∧ ∀ h, p.H = some h → h = reportedH p' + reportedH r

theorem adds_of_split {p p' r : Thermo.Package} (s : Split p p' r) : Adds p p' r := by
  refine ⟨fun c => (s.2.1 c).symm, fun h hh => ?_⟩
  obtain ⟨a, b, e1, e2, e3⟩ := s.2.2.2.2.2 h hh
  unfold reportedH
  rw [e1, e2, ← e3]; rfl

theorem adds_empty (p : Thermo.Package) (P : V) (t : ℝ) : Adds p p ⟨p.mat, p.mat.emptyAssay, P, some t, some 0, false, none⟩ := by
  refine ⟨fun c => ?_, fun h hh => ?_⟩
  · have : content ⟨p.mat, p.mat.emptyAssay, P, some t, some 0, false, none⟩ c = 0 := by
      by_cases hc : c ∈ p.mat.compounds
      · exact Rep.content (p := ⟨p.mat, p.mat.emptyAssay, P, some t, some 0, false, none⟩) (g := fun _ => 0) (Rep.empty p.mat) hc
      · exact content_absent hc
    rw [this, add_zero]
  · unfold reportedH
    rw [hh]; simp

theorem part_good {db : Db} {p p' r : Thermo.Package} (gp : Good db p) (h : thermoPart db p p' r) : Good db p' ∧ Good db r ∧ Adds p p' r := by
  rcases h with ⟨x, h1, h2, h3⟩ | ⟨c, h3⟩ | ⟨c, x, h1, h3⟩
  · have g := extractMass_good gp h2 h1 h3
    refine ⟨g.2, g.1, ?_⟩
    by_cases hle : x ≤ totalMass p
    · obtain ⟨a, b, e, s, -⟩ := C61_mass db p gp.sound gp.nonneg gp.consistent gp.known x h1 hle h2
      rw [h3] at e; cases e; exact adds_of_split s
    · rw [C61_too_much db p gp.sound x (not_le.1 hle)] at h3; cases h3
  · have g := extractCompound_good gp h3
    refine ⟨g.2, g.1, ?_⟩
    by_cases hin : c ∈ p.mat.compounds
    · obtain ⟨a, b, e, s, -⟩ := C61_compound db p gp.sound gp.consistent gp.known c hin
      rw [h3] at e; cases e; exact adds_of_split s
    · unfold Package.extract Package.extractCompound at h3
      dsimp only at h3
      rw [createEmpty gp.known] at h3
      dsimp only at h3
      rw [if_pos hin] at h3
      cases h3
      exact adds_empty _ _ _
  · have g := extractCompoundMass_good gp h1 h3
    refine ⟨g.2, g.1, ?_⟩
    by_cases hin : c ∈ p.mat.compounds
    · by_cases hle : x ≤ content p c
      · obtain ⟨a, b, e, s, -⟩ := C61_compound_mass db p gp.sound gp.consistent gp.known c hin x hle
        rw [h3] at e; cases e; exact adds_of_split s
      · rw [C61_compound_too_much db p gp.sound c hin x (not_le.1 hle)] at h3; cases h3
    · unfold Package.extract Package.extractCompoundMass at h3
      dsimp only at h3
      rw [if_pos rfl, if_pos hin, createEmpty gp.known] at h3
      cases h3
      exact adds_empty _ _ _

/-- **C136 (thermo).** Whatever is extracted from the packages of a plant and whichever packages are added, the mass of every compound and the enthalpy in the plant stay the same, and each
package reports a finite enthalpy, that of its contents at its temperature. -/
theorem C136_thermo (db : Db) (ps qs : List Thermo.Package) (hp : ∀ p ∈ ps, Good db p) (h : Run (thermoPart db) (thermoMix db) ps qs) :
    (∀ q ∈ qs, Good db q ∧ q.H = some (reportedH q)) ∧ (∀ c, (qs.map (fun p => content p c)).sum = (ps.map (fun p => content p c)).sum) ∧
      (qs.map reportedH).sum = (ps.map reportedH).sum := by
  have fin : ∀ q, Good db q → q.H = some (reportedH q) := by
    intro q g
    obtain ⟨t, -, hH⟩ := g.consistent
    unfold reportedH
    rw [hH]; rfl
  have H := Run.conserves (I := Good db) (μ := reportedH) (part := thermoPart db) (mix := thermoMix db) (fun p p' r gp hs => ?_) (fun p q r gp gq hs => ?_) hp h
  · refine ⟨fun q hq => ⟨H.1 q hq, fin q (H.1 q hq)⟩, fun c => ?_, H.2⟩
    refine (Run.conserves (I := Good db) (μ := fun p => content p c) (part := thermoPart db) (mix := thermoMix db) (fun p p' r gp hs => ?_) (fun p q r gp gq hs => ?_) hp h).2
    · obtain ⟨g1, g2, s⟩ := part_good gp hs
      exact ⟨g1, g2, s.1 c⟩
    · obtain ⟨g, s⟩ := mix_good gp gq hs
      exact ⟨g, s.2.1 c⟩
  · obtain ⟨g1, g2, s⟩ := part_good gp hs
    exact ⟨g1, g2, s.2 _ (fin p gp)⟩
  · obtain ⟨g, s⟩ := mix_good gp gq hs
    refine ⟨g, ?_⟩
    have := s.2.2.1 _ _ (fin p gp) (fin q gq)
    rw [fin r g] at this
    exact Option.some.inj this

/-- A plant: a hot and a cold package are mixed, and two kilograms of the mixture taken out. -/
example : ∃ qs, Run (thermoPart db1) (thermoMix db1) [pAB 100, pAB 20] qs ∧ qs.length = 2 ∧ (∀ p ∈ [pAB 100, pAB 20], Good db1 p) := by
  obtain ⟨r, h1, h2⟩ := C60_same db1 (pAB 100) (pAB 20) (pAB_sound _) (pAB_sound _) rfl known_mAB
  have g := (C62_mix db1 (pAB 100) (pAB 20) (pAB_good _) (pAB_good _) (.inl rfl) mAB_steady (by rw [pAB_mass, pAB_mass]; norm_num) r h1).1
  have r1 : Run (thermoPart db1) (thermoMix db1) [pAB 100, pAB 20] [r] := .join .start (List.Perm.refl _) ⟨.inl rfl, h1, g.consistent⟩
  have t : totalMass r = 10 := by
    have e : totalMass r = totalMass (pAB 100) + totalMass (pAB 20) := by
      unfold totalMass
      rw [h2.1, show (pAB 20).mat = (pAB 100).mat from rfl, ← List.sum_map_add]
      exact congrArg List.sum (List.map_congr_left (fun c _ => h2.2.1 c))
    rw [e, pAB_mass, pAB_mass]; norm_num
  obtain ⟨a, b, e, -⟩ := C61_mass db1 r g.sound g.nonneg g.consistent g.known 2 (by norm_num) (by rw [t]; norm_num) (by rw [t]; norm_num)
  refine ⟨_, .split r1 (List.Perm.refl _) (.inl ⟨2, by norm_num, by rw [t]; norm_num, e⟩), rfl, ?_⟩
  intro p hp
  simp only [List.mem_cons, List.not_mem_nil, or_false] at hp
  rcases hp with rfl | rfl
  · exact pAB_good _
  · exact pAB_good _

/-! ## Streams -/

/-- A split of a stream that succeeds, by a mass flow rate (of a stream that has some), by a compound, or by the mass flow rate of a compound; nothing negative. -/
def streamPart (db : Db) (p p' r : Stream) : Prop :=
  (∃ x : ℝ, 0 ≤ x ∧ 0 < totalFlow p ∧ p.extract db (.num true (some x)) = (.ok r, p')) ∨ (∃ c, p.extract db (.str c) = (.ok r, p')) ∨
    ∃ c, ∃ x : ℝ, 0 ≤ x ∧ p.extract db (.tup c true (some x)) = (.ok r, p')

/-- A sum of streams that succeeds, of one material or of materials that are not the same object, and for which the solver finds the temperature. -/
def streamMix (db : Db) (p q r : Stream) : Prop := (q.mat = p.mat ∨ p.mat.ident ≠ q.mat.ident) ∧ p.add db (.pkg q) = .ok r ∧ ConsistentStream db r

/-- An ordinary stream, not of coal, without negative flow rates, with the enthalpy flow rate of its contents at its temperature, of a material whose data are loaded. -/
def StreamOK (db : Db) (s : Stream) : Prop := SoundStream s ∧ NonNegStream s ∧ ConsistentStream db s ∧ Known db s.mat

theorem ok_good {db : Db} {s : Stream} (h : StreamOK db s) : Good db (toPkg s) := ⟨sound_pkg h.1, h.2.1, h.2.2.1, h.2.2.2⟩
theorem good_ok {db : Db} {s : Stream} (hc : s.isCoal = false) (h : Good db (toPkg s)) : StreamOK db s := ⟨sound_of_pkg h.sound hc, h.nonneg, h.consistent, h.known⟩

theorem stream_extract {db : Db} {p p' r : Stream} (hc : p.isCoal = false) {a : Arg Stream} (h : p.extract db a = (.ok r, p')) :
    (toPkg p).extract db (argPkg a) = (.ok (toPkg r), toPkg p') ∧ r.isCoal = false ∧ p'.isCoal = false := by
  have k := extract_like (db := db) hc a
  rw [h] at k
  obtain ⟨k1, k2, k3⟩ := k
  cases hx : (toPkg p).extract db (argPkg a) with
  | mk u v =>
    rw [hx] at k1 k3
    cases u with
    | error e => exact k1.elim
    | ok q =>
      obtain ⟨j1, j2⟩ := k1
      dsimp only at j2 k3
      rw [j2, k3]
      exact ⟨rfl, j1, k2⟩

theorem stream_part {db : Db} {p p' r : Stream} (hp : StreamOK db p) (h : streamPart db p p' r) :
    StreamOK db p' ∧ StreamOK db r ∧ Adds (toPkg p) (toPkg p') (toPkg r) := by
  have hc := hp.1.not_coal
  have key : thermoPart db (toPkg p) (toPkg p') (toPkg r) ∧ r.isCoal = false ∧ p'.isCoal = false := by
    rcases h with ⟨x, h1, h2, h3⟩ | ⟨c, h3⟩ | ⟨c, x, h1, h3⟩
    · obtain ⟨k, k2⟩ := stream_extract hc h3
      exact ⟨.inl ⟨x, h1, h2, k⟩, k2⟩
    · obtain ⟨k, k2⟩ := stream_extract hc h3
      exact ⟨.inr (.inl ⟨c, k⟩), k2⟩
    · obtain ⟨k, k2⟩ := stream_extract hc h3
      exact ⟨.inr (.inr ⟨c, x, h1, k⟩), k2⟩
  obtain ⟨g1, g2, g3⟩ := part_good (ok_good hp) key.1
  exact ⟨good_ok key.2.2 g1, good_ok key.2.1 g2, g3⟩

theorem stream_mix {db : Db} {p q r : Stream} (hp : StreamOK db p) (hq : StreamOK db q) (h : streamMix db p q r) : StreamOK db r ∧ Mixed (toPkg p) (toPkg q) (toPkg r) := by
  obtain ⟨h1, h2, h3⟩ := h
  have k := add_like (db := db) hp.1.not_coal (.pkg q) hq.1.not_coal
  rw [h2] at k
  change LikeR _ ((toPkg p).add db (.pkg (toPkg q))) at k
  cases hx : (toPkg p).add db (.pkg (toPkg q)) with
  | error e => rw [hx] at k; exact k.elim
  | ok x =>
    rw [hx] at k
    obtain ⟨k1, rfl⟩ := k
    obtain ⟨g1, g2⟩ := mix_good (r := toPkg r) (ok_good hp) (ok_good hq) ⟨h1, hx, h3⟩
    exact ⟨good_ok k1 g1, g2⟩

/-- The enthalpy flow rate a stream reports; 0 if it is not finite. -/
noncomputable def reportedHfr (s : Stream) : ℝ := s.Hfr.getD 0

/-- **C136 (streams).** However the streams of a plant are split and joined, the flow rate of every compound and the enthalpy flow rate of the plant stay the same. -/
theorem C136_streams (db : Db) (ps qs : List Stream) (hp : ∀ p ∈ ps, StreamOK db p) (h : Run (streamPart db) (streamMix db) ps qs) :
    (∀ q ∈ qs, StreamOK db q ∧ q.Hfr = some (reportedHfr q)) ∧ (∀ c, (qs.map (fun p => flow p c)).sum = (ps.map (fun p => flow p c)).sum) ∧
      (qs.map reportedHfr).sum = (ps.map reportedHfr).sum := by
  have fin : ∀ q, StreamOK db q → q.Hfr = some (reportedHfr q) := by
    intro q g
    obtain ⟨t, -, hH⟩ := g.2.2.1
    unfold reportedHfr
    rw [hH]; rfl
  have H := Run.conserves (I := StreamOK db) (μ := reportedHfr) (part := streamPart db) (mix := streamMix db) (fun p p' r gp hs => ?_) (fun p q r gp gq hs => ?_) hp h
  · refine ⟨fun q hq => ⟨H.1 q hq, fin q (H.1 q hq)⟩, fun c => ?_, H.2⟩
    refine (Run.conserves (I := StreamOK db) (μ := fun p => flow p c) (part := streamPart db) (mix := streamMix db) (fun p p' r gp hs => ?_) (fun p q r gp gq hs => ?_) hp h).2
    · obtain ⟨g1, g2, s⟩ := stream_part gp hs
      exact ⟨g1, g2, s.1 c⟩
    · obtain ⟨g, s⟩ := stream_mix gp gq hs
      exact ⟨g, s.2.1 c⟩
  · obtain ⟨g1, g2, s⟩ := stream_part gp hs
    exact ⟨g1, g2, s.2 _ (fin p gp)⟩
  · obtain ⟨g, s⟩ := stream_mix gp gq hs
    refine ⟨g, ?_⟩
    have := s.2.2.1 _ _ (fin p gp) (fin q gq)
    rw [show (toPkg r).H = r.Hfr from rfl, fin r g] at this
    exact Option.some.inj this

/-- A plant: a hot and a cold stream are joined, and a stream of 4 kg/h is taken from the sum. -/
example : ∃ qs, Run (streamPart db1) (streamMix db1) [sAB 100, sAB 20] qs ∧ qs.length = 2 ∧ ∀ p ∈ [sAB 100, sAB 20], StreamOK db1 p := by
  have ok : ∀ t, StreamOK db1 (sAB t) := fun t => good_ok rfl (pAB_good t)
  obtain ⟨r, h1, h2, h3⟩ := C64_same db1 (sAB 100) (sAB 20) (sAB_sound _) (sAB_sound _) rfl known_mAB
  have k : (pAB 100).add db1 (.pkg (pAB 20)) = .ok (toPkg r) := by
    have k := add_like (db := db1) (ok 100).1.not_coal (.pkg (sAB 20)) (ok 20).1.not_coal
    rw [h1] at k
    change LikeR _ ((pAB 100).add db1 (.pkg (pAB 20))) at k
    cases hx : (pAB 100).add db1 (.pkg (pAB 20)) with
    | error e => rw [hx] at k; exact k.elim
    | ok x => rw [hx] at k; obtain ⟨-, rfl⟩ := k; rfl
  obtain ⟨x, k1, k2⟩ := C60_same db1 (pAB 100) (pAB 20) (pAB_sound _) (pAB_sound _) rfl known_mAB
  rw [k] at k1
  cases k1
  have g := (C62_mix db1 (pAB 100) (pAB 20) (pAB_good _) (pAB_good _) (.inl rfl) mAB_steady (by rw [pAB_mass, pAB_mass]; norm_num) (toPkg r) k).1
  have gr : StreamOK db1 r := good_ok h3 g
  have r1 : Run (streamPart db1) (streamMix db1) [sAB 100, sAB 20] [r] := .join .start (List.Perm.refl _) ⟨.inl rfl, h1, gr.2.2.1⟩
  have t : totalFlow r = 10 := by
    have e : totalMass (toPkg r) = totalMass (pAB 100) + totalMass (pAB 20) := by
      unfold totalMass
      rw [k2.1, show (pAB 20).mat = (pAB 100).mat from rfl, ← List.sum_map_add]
      exact congrArg List.sum (List.map_congr_left (fun c _ => k2.2.1 c))
    rw [pAB_mass, pAB_mass] at e
    exact e.trans (by norm_num)
  obtain ⟨a, b, e, -⟩ := C64_extract db1 r gr.1 gr.2.1 gr.2.2.1 gr.2.2.2 4 (by norm_num) (by rw [t]; norm_num) (by rw [t]; norm_num)
  refine ⟨_, .split r1 (List.Perm.refl _) (.inl ⟨4, by norm_num, by rw [t]; norm_num, e⟩), rfl, ?_⟩
  intro p hp
  simp only [List.mem_cons, List.not_mem_nil, or_false] at hp
  rcases hp with rfl | rfl
  · exact ok _
  · exact ok _

end Thermo

end Auxi.Plant.Props
