import Verif.Proofs.Chem

/-!
# Properties C50–C55, C59: chem materials and packages
-/
namespace Auxi.Chem.Props
open Auxi.Chem Auxi.Chem.Spec

/-! ## Samples -/

/-- A material with three compounds and one assay. -/
def matA : Material :=
  { ident := 1, compounds := ["FeO".toList, "SiO2".toList, "H2O[L]".toList],
    assays := [("A".toList, [fl (1/2), fl (1/4), fl (1/8)]), ("Zero".toList, [fl 0, fl 0, fl 0])],
    elements := ["Fe".toList, "H".toList, "O".toList, "Si".toList] }
/-- A material with two of the compounds. -/
def matB : Material :=
  { ident := 2, compounds := ["SiO2".toList, "FeO".toList], assays := [("B".toList, [fl 1, fl 3])], elements := ["Fe".toList, "O".toList, "Si".toList] }
/-- A package of the first material. -/
def pkgA : Package := ⟨matA, [fl 4, fl 2, fl 1]⟩
/-- A package of the second material. -/
def pkgB : Package := ⟨matB, [fl 5, fl 15]⟩

theorem matA_ok : MatOK matA := ⟨by decide, ["Fe".toList, "O".toList, "Si".toList, "H".toList], by decide +kernel, by decide⟩
theorem matB_ok : MatOK matB := ⟨by decide, ["Si".toList, "O".toList, "Fe".toList], by decide +kernel, by decide⟩

/-! ## C50: creation -/

/-- **C50.** A package created with normalisation from an assay with a nonzero total has exactly the requested mass, in the proportions of the
assay. -/
theorem C50_create (m : Material) (name : Str) (l : List Num) (mass : Num) (h : m.assays.lookup name = some l) (h0 : (l.map Num.val).sum ≠ 0) :
    ∃ p, m.createPackage (some name) mass true = .ok p ∧ p.mat = m ∧ p.mass.val = mass.val ∧
      p.masses.map Num.val = l.map (fun x => mass.val * (x.val / (l.map Num.val).sum)) := by
  have hm : mapRes (fun x => (mass.mul x).div (pySum l)) l = .ok (l.map (fun x => ⟨true, mass.val * x.val / (l.map Num.val).sum⟩)) := by
    apply mapRes_of
    intro a _
    simp [Num.div, pySum_val, h0, Num.mul]
  refine ⟨⟨m, l.map (fun x => ⟨true, mass.val * x.val / (l.map Num.val).sum⟩)⟩, ?_, rfl, ?_, ?_⟩
  · simp [Material.createPackage, Material.assayTotal, Material.assay, h, Except.map, hm]
  · simp only [Package.mass, pySum_val, List.map_map, Function.comp_def]
    have : (l.map (fun x => mass.val * x.val / (l.map Num.val).sum)).sum = mass.val * (l.map Num.val).sum / (l.map Num.val).sum := by
      have : ∀ t : ℚ, (l.map (fun x => mass.val * x.val / t)).sum = mass.val * (l.map Num.val).sum / t := by
        intro t
        induction l with
        | nil => simp
        | cons a l ih => 
          simp only [List.map_cons, List.sum_cons]
          have : (l.map (fun x => mass.val * x.val / t)).sum = mass.val * (l.map Num.val).sum / t := by
            clear ih h h0 hm
            induction l with
            | nil => simp
            | cons a l ih => simp only [List.map_cons, List.sum_cons, ih]; ring
          rw [this]; ring
      exact this _
    rw [this]; field_simp
  · simp only [List.map_map, Function.comp_def, mul_div_assoc]

example : matA.assays.lookup "A".toList = some [fl (1/2), fl (1/4), fl (1/8)] ∧ ([fl (1/2), fl (1/4), fl (1/8)].map Num.val).sum ≠ 0 ∧
    (matA.createPackage (some "A".toList) (fl 7) true).map (fun p => p.masses.map Num.val) = .ok [4, 2, 1] := by decide +kernel

/-- **C50 (errors).** An unknown assay, and a non-empty assay with total zero, are errors. -/
theorem C50_errors (m : Material) (name : Str) (mass : Num) :
    (m.assays.lookup name = none → m.createPackage (some name) mass true = .error .keyError) ∧
    (∀ l, m.assays.lookup name = some l → l ≠ [] → (l.map Num.val).sum = 0 → m.createPackage (some name) mass true = .error .zeroDivisionError) := by
  constructor
  · intro h
    simp [Material.createPackage, Material.assayTotal, Material.assay, h, Except.map]
  · intro l h hne h0
    cases l with
    | nil => exact absurd rfl hne
    | cons a l =>
      have : (pySum (a :: l)).val = 0 := by rw [pySum_val]; exact h0
      simp [Material.createPackage, Material.assayTotal, Material.assay, h, Except.map, mapRes, Num.div, this]

example : matA.createPackage (some "Zero".toList) (fl 7) true = .error .zeroDivisionError ∧ matA.createPackage (some "X".toList) (fl 7) true = .error .keyError := by
  decide +kernel

/-- **C50 (no normalisation).** Without normalisation every compound gets the mass times its assay entry. -/
theorem C50_not_normalised (m : Material) (name : Str) (l : List Num) (mass : Num) (h : m.assays.lookup name = some l) :
    ∃ p, m.createPackage (some name) mass false = .ok p ∧ p.masses.map Num.val = l.map (fun x => mass.val * x.val) := by
  have hm : mapRes (fun x => (mass.mul x).div (fl 1)) l = .ok (l.map (fun x => ⟨true, mass.val * x.val⟩)) := by
    apply mapRes_of
    intro a _
    simp [Num.div, Num.mul, fl]
  refine ⟨⟨m, l.map (fun x => ⟨true, mass.val * x.val⟩)⟩, ?_, by simp [Function.comp_def]⟩
  simp [Material.createPackage, Material.assay, h, hm]

/-! ## C51: adding -/

/-- **C51 is false of the code for packages of the same material.** The result reports, for every compound, only the mass in the first
package, although its total mass is the sum. -/
theorem C51_same_material_loses (p q : Package) (h : p.mat.ident = q.mat.ident) (hp : PkgOK p) :
    ∃ r, p.add (.pkg q) = .ok r ∧ r.mass.val = p.mass.val + q.mass.val ∧ ∀ c, content r c = content p c := by
  refine ⟨⟨p.mat, p.masses ++ q.masses⟩, by simp [Package.add, h], ?_, fun c => ?_⟩
  · simp [Package.mass, pySum_val]
  · rw [content_eq, content_eq]
    cases hi : indexOf p.mat.compounds c with
    | none => rfl
    | some i =>
      have : i < p.masses.length := by
        rw [hp]; exact (List.getElem?_eq_some_iff.1 (indexOf_some hi)).1
      simp [List.getElem?_append_left this]

/-- **C51 counterexample.** Adding a package to itself does not double the mass of its compounds. -/
theorem C51_counterexample : ∃ p r : Package, MatOK p.mat ∧ PkgOK p ∧ p.add (.pkg p) = .ok r ∧
    content r "FeO".toList ≠ content p "FeO".toList + content p "FeO".toList :=
  ⟨pkgA, ⟨matA, pkgA.masses ++ pkgA.masses⟩, matA_ok, rfl, by decide +kernel, by decide +kernel⟩

/-- **C51 (what holds).** Adding a package of another material adds the mass of every compound, and so the total mass. -/
theorem C51_other_material_partial (p q r : Package) (h : p.mat.ident ≠ q.mat.ident) (hp : PkgOK p) (hq : PkgOK q)
    (hm : p.mat.compounds.Nodup) (hm' : q.mat.compounds.Nodup) (hr : p.add (.pkg q) = .ok r) :
    r.mat = p.mat ∧ PkgOK r ∧ (∀ c, content r c = content p c + content q c) ∧ r.mass.val = p.mass.val + q.mass.val := by
  simp only [Package.add, h, if_false] at hr
  split at hr
  · cases hr
  · rename_i u p' hl
    cases hr
    obtain ⟨a1, a2, pre, post, a3, a4, a5, a6⟩ := addLoop_spec q q.mat.compounds p (.ok u) r hm' hl
    have hpost : post = [] := a4.1 rfl
    subst hpost
    simp only [List.append_nil] at a3
    have hc : ∀ c, content r c = content p c + content q c := by
      intro c
      rw [a6, ← a3]
      by_cases hc : c ∈ q.mat.compounds
      · simp [hc]
      · simp [hc, content_not_mem hc]
    have hok : PkgOK r := by unfold PkgOK; rw [a2, a1]; exact hp
    refine ⟨a1, hok, hc, ?_⟩
    rw [mass_eq (by rw [a1]; exact hm) hok, mass_eq hm hp, mass_eq hm' hq, a1]
    have e : p.mat.compounds.map (content r) = p.mat.compounds.map (fun c => content p c + content q c) := List.map_congr_left (fun c _ => hc c)
    rw [e, List.sum_map_add]
    congr 1
    -- the compounds of the second material are compounds of the first
    have sub : ∀ c ∈ q.mat.compounds, c ∈ p.mat.compounds := by rw [a3]; exact a5
    exact sum_sub hm hm' sub (fun c hc => content_not_mem hc)
where
  sum_sub {E F : List Str} {f : Str → ℚ} (hE : E.Nodup) (hF : F.Nodup) (hs : ∀ c ∈ F, c ∈ E) (h0 : ∀ c, c ∉ F → f c = 0) :
      (E.map f).sum = (F.map f).sum := by
    have hp : (F ++ E.filter (fun c => decide (c ∉ F))).Perm E := by
      rw [List.perm_ext_iff_of_nodup _ hE]
      · intro c
        simp only [List.mem_append, List.mem_filter, decide_eq_true_eq]
        constructor
        · rintro (h | h)
          · exact hs c h
          · exact h.1
        · intro h
          by_cases hc : c ∈ F
          · exact .inl hc
          · exact .inr ⟨h, hc⟩
      · rw [List.nodup_append]
        refine ⟨hF, hE.filter _, ?_⟩
        intro x hx y hy e
        subst e
        simp only [List.mem_filter, decide_eq_true_eq] at hy
        exact hy.2 hx
    rw [← (hp.map f).sum_eq, List.map_append, List.sum_append]
    have : ((E.filter (fun c => decide (c ∉ F))).map f).sum = 0 := by
      apply List.sum_eq_zero
      intro x hx
      rw [List.mem_map] at hx
      obtain ⟨c, hc, rfl⟩ := hx
      simp only [List.mem_filter, decide_eq_true_eq] at hc
      exact h0 c hc.2
    rw [this, add_zero]

/-- **C51 (success).** Such an addition succeeds if all compounds of the other material are known and its masses are floats. -/
theorem C51_succeeds (p q : Package) (hp : PkgOK p) (hq : PkgOK q) (hs : ∀ c ∈ q.mat.compounds, c ∈ p.mat.compounds)
    (hf : ∀ x ∈ q.masses, x.isFloat = true) : ∃ r, p.add (.pkg q) = .ok r := by
  by_cases h : p.mat.ident = q.mat.ident
  · simp [Package.add, h]
  · obtain ⟨p', hp'⟩ := addLoop_succeeds q hq q.mat.compounds p hp (fun c hc => ⟨hs c hc, hc⟩) hf
    exact ⟨p', by simp [Package.add, h, hp']⟩

example : PkgOK pkgA ∧ PkgOK pkgB ∧ matA.ident ≠ matB.ident ∧ (∀ c ∈ matB.compounds, c ∈ matA.compounds) ∧
    (pkgA.add (.pkg pkgB)).map (fun r => r.masses.map Num.val) = .ok [19, 7, 1] := by
  refine ⟨rfl, rfl, by decide, by decide, by decide +kernel⟩

/-- **C51 (empty package).** A freshly created empty package of another material cannot be added: its masses are the `int` zero, which the
tuple check refuses. -/
theorem C51_empty_package_rejected (p : Package) (m : Material) (e : Package) (he : m.createPackage none (fl 0) true = .ok e)
    (h : p.mat.ident ≠ m.ident) (h1 : m.compounds ≠ []) (hs : ∀ c ∈ m.compounds, c ∈ p.mat.compounds) :
    p.add (.pkg e) = .error .typeError := by
  cases he
  simp only [Package.add, h, if_false]
  cases hc : m.compounds with
  | nil => exact absurd hc h1
  | cons c cs =>
    have hcm : c ∈ p.mat.compounds := hs c (by rw [hc]; simp)
    simp [Package.addLoop, hcm, Package.compoundMass, Material.index, indexOf, hc, Package.addTuple, int]

example : pkgA.add (.pkg ⟨matB, [int 0, int 0]⟩) = .error .typeError ∧ matB.createPackage none (fl 0) true = .ok ⟨matB, [int 0, int 0]⟩ := by decide +kernel

/-- **C51 (tuples).** Adding a float mass of a compound adds it to that compound alone. -/
theorem C51_tuple (p r : Package) (c : Str) (x : Num) (h : p.add (.tup c x) = .ok r) :
    r.mat = p.mat ∧ r.masses.length = p.masses.length ∧ ∀ c', content r c' = content p c' + if c' = c then x.val else 0 := by
  obtain ⟨_, _, h3, h4, h5⟩ := addTuple_ok h
  exact ⟨h3, h4, h5⟩

example : (pkgA.add (.tup "SiO2".toList (fl 10))).map (fun r => r.masses.map Num.val) = .ok [4, 12, 1] := by decide +kernel

/-! ## C59: failed `add_to` -/

/-- **C59 is false of the code.** A failed `add_to` may have changed the package. -/
theorem C59_counterexample : ∃ p q : Package, MatOK p.mat ∧ MatOK q.mat ∧ PkgOK p ∧ PkgOK q ∧
    (p.addTo (.pkg q)).1 = .error .exception ∧ content (p.addTo (.pkg q)).2 "FeO".toList ≠ content p "FeO".toList :=
  ⟨pkgB, pkgA, matB_ok, matA_ok, rfl, rfl, by decide +kernel, by decide +kernel⟩

/-- **C59 (what happens).** `add_to` a package of another material adds the compounds of an initial stretch of the other material's list: all of
them exactly if it succeeds. -/
theorem C59_addTo_partial (p q : Package) (h : p.mat.ident ≠ q.mat.ident) (hm' : q.mat.compounds.Nodup) :
    ∃ pre post, q.mat.compounds = pre ++ post ∧ ((p.addTo (.pkg q)).1 = .ok () ↔ post = []) ∧
      ∀ c, content (p.addTo (.pkg q)).2 c = content p c + if c ∈ pre then content q c else 0 := by
  simp only [Package.addTo, h, if_false]
  obtain ⟨_, _, pre, post, a3, a4, _, a6⟩ := addLoop_spec q q.mat.compounds p _ _ hm' (rfl : q.addLoop q.mat.compounds p = ((q.addLoop q.mat.compounds p).1, (q.addLoop q.mat.compounds p).2))
  exact ⟨pre, post, a3, a4, a6⟩

/-- **C59 (other arguments).** With any other argument a failed `add_to` changes nothing. -/
theorem C59_other_args_partial (p : Package) (a : Arg) (ha : ∀ q, a ≠ .pkg q) (h : (p.addTo a).1 ≠ .ok ()) : (p.addTo a).2 = p := by
  cases a with
  | pkg q => exact absurd rfl (ha q)
  | tup c x =>
    simp only [Package.addTo] at h ⊢
    cases hh : p.addTuple c x with
    | error e => rfl
    | ok p' => rw [hh] at h; exact absurd rfl h
  | num x => rfl
  | str c => rfl
  | other => rfl

/-- **C51 (`add_to`).** When it succeeds, `add_to` leaves the package as `+` returns it. -/
theorem C51_addTo_same (p : Package) (a : Arg) (h : (p.addTo a).1 = .ok ()) : p.add a = .ok (p.addTo a).2 := by
  cases a with
  | pkg q =>
    simp only [Package.addTo, Package.add] at h ⊢
    split
    · rfl
    · rename_i hi
      simp only [hi, if_false] at h
      cases hl : q.addLoop q.mat.compounds p with
      | mk a b => rw [hl] at h; simp only at h; rw [h]
  | tup c x =>
    simp only [Package.addTo, Package.add] at h ⊢
    cases hh : p.addTuple c x with
    | error e => rw [hh] at h; cases h
    | ok p' => rfl
  | num x => cases h
  | str c => cases h
  | other => cases h

example : (pkgA.addTo (.pkg pkgB)).1 = .ok () := by decide +kernel

/-! ## C52: extraction -/

/-- **C52.** Extraction splits the package: every compound's mass before is what remains plus what was extracted. -/
theorem C52_conserves (p p' r : Package) (a : Arg) (h : p.extract a = (.ok r, p')) :
    p'.mat = p.mat ∧ r.mat = p.mat ∧ p'.masses.length = p.masses.length ∧ r.masses.length = p.masses.length ∧
    ∀ c, content p c = content p' c + content r c := by
  cases a with
  | pkg q => cases h
  | other => cases h
  | num x =>
    simp only [Package.extract] at h
    split at h
    · split at h
      · cases h
      · split at h
        · cases h
        · rename_i f hf
          cases h
          refine ⟨rfl, rfl, by simp, by simp, fun c => ?_⟩
          rw [content_map (fun x => x.mul f) (fun v => v * f.val) (fun x => rfl) (by simp),
            content_map (fun x => x.mul ((fl 1).sub f)) (fun v => v * (1 - f.val)) (fun x => rfl) (by simp)]
          ring
    · cases h
  | tup c x =>
    simp only [Package.extract] at h
    split at h
    · unfold Material.index at h
      cases hi : indexOf p.mat.compounds c with
      | none => rw [hi] at h; cases h
      | some i =>
        rw [hi] at h
        dsimp only at h
        cases hy : p.masses[i]? with
        | none => rw [hy] at h; cases h
        | some y =>
          rw [hy] at h
          dsimp only at h
          split at h
          · cases h
          · cases h
            have hlt := (List.getElem?_eq_some_iff.1 hy).1
            refine ⟨rfl, rfl, by simp, by simp, fun c' => ?_⟩
            rw [content_set hi hlt, content_set (p := ⟨p.mat, List.replicate p.masses.length (fl 0)⟩) hi (by simpa using hlt)]
            by_cases hc : c' = c
            · subst hc
              simp only [if_true, Num.sub]
              rw [content_of_index hi, hy]
              simp
            · simp only [hc, if_false]
              have : content ⟨p.mat, List.replicate p.masses.length (fl 0)⟩ c' = 0 := by
                rw [content_eq]
                cases indexOf p.mat.compounds c' with
                | none => rfl
                | some j => simp only [Option.bind_some, List.getElem?_replicate]; split <;> simp [fl]
              rw [this, add_zero]
    · cases h
  | str c =>
    simp only [Package.extract] at h
    unfold Material.index at h
    cases hi : indexOf p.mat.compounds c with
    | none => rw [hi] at h; cases h
    | some i =>
      rw [hi] at h
      dsimp only at h
      cases hy : p.masses[i]? with
      | none => rw [hy] at h; cases h
      | some y =>
        rw [hy] at h
        cases h
        have hlt := (List.getElem?_eq_some_iff.1 hy).1
        refine ⟨rfl, rfl, by simp, by simp, fun c' => ?_⟩
        rw [content_set hi hlt, content_set (p := ⟨p.mat, p.masses.map (·.mul (fl 0))⟩) hi (by simpa using hlt)]
        by_cases hc : c' = c
        · subst hc
          simp only [if_true, fl, zero_add]
          rw [content_of_index hi, hy]; rfl
        · simp only [hc, if_false]
          rw [content_map (fun x => x.mul (fl 0)) (fun v => v * 0) (fun x => rfl) (by simp)]
          ring

/-- **C52 (on error).** A failed extraction leaves the package as it was. -/
theorem C52_error_unchanged (p p' : Package) (a : Arg) (e : PyErr) (h : p.extract a = (.error e, p')) : p' = p := by
  cases a with
  | pkg q => cases h; rfl
  | other => cases h; rfl
  | num x =>
    simp only [Package.extract] at h
    split at h
    · split at h
      · cases h; rfl
      · split at h
        · cases h; rfl
        · cases h
    · cases h; rfl
  | tup c x =>
    simp only [Package.extract] at h
    split at h
    · split at h
      · cases h; rfl
      · split at h
        · cases h; rfl
        · split at h
          · cases h; rfl
          · cases h
    · cases h; rfl
  | str c =>
    simp only [Package.extract] at h
    split at h
    · cases h; rfl
    · split at h
      · cases h; rfl
      · cases h

/-- **C52 (mass).** Extracting a mass takes exactly that mass, of the composition of the package; it works for every amount up to the mass of a
package that is not empty. -/
theorem C52_mass (p : Package) (x : ℚ) (hx : x ≤ p.mass.val) (h0 : p.mass.val ≠ 0) :
    ∃ r p', p.extract (.num (fl x)) = (.ok r, p') ∧ r.mass.val = x ∧ p'.mass.val = p.mass.val - x ∧
      ∀ c, content r c = content p c * (x / p.mass.val) := by
  have hd : (fl x).div p.mass = .ok ⟨true, x / p.mass.val⟩ := by simp [Num.div, h0, fl]
  refine ⟨⟨p.mat, p.masses.map (·.mul ⟨true, x / p.mass.val⟩)⟩, ⟨p.mat, p.masses.map (·.mul ((fl 1).sub ⟨true, x / p.mass.val⟩))⟩, ?_, ?_, ?_, ?_⟩
  · have : ¬ (fl x).val > p.mass.val := not_lt.2 hx
    simp only [Package.extract, this, if_false, hd]
    simp [fl]
  · have : (p.masses.map (·.mul ⟨true, x / p.mass.val⟩)).map Num.val = p.masses.map (fun y => y.val * (x / p.mass.val)) := by simp [Num.mul, Function.comp_def]
    rw [Package.mass, pySum_val, this, List.sum_map_mul_right, ← pySum_val]
    show p.mass.val * _ = _
    field_simp
  · have : (p.masses.map (·.mul ((fl 1).sub ⟨true, x / p.mass.val⟩))).map Num.val = p.masses.map (fun y => y.val * (1 - x / p.mass.val)) := by
      simp [Num.mul, Num.sub, fl, Function.comp_def]
    rw [Package.mass, pySum_val, this, List.sum_map_mul_right, ← pySum_val]
    show p.mass.val * _ = _
    field_simp
  · intro c
    exact content_map (p := p) (fun y => y.mul ⟨true, x / p.mass.val⟩) (fun v => v * (x / p.mass.val)) (fun y => rfl) (by simp)

/-- **C52 (too much).** Extracting more than the package's mass, or more of a compound than it contains, is an error. -/
theorem C52_too_much (p : Package) (x : ℚ) :
    (x > p.mass.val → (p.extract (.num (fl x))).1 = .error .exception) ∧
    (∀ c, PkgOK p → c ∈ p.mat.compounds → x > content p c → (p.extract (.tup c (fl x))).1 = .error .exception) := by
  constructor
  · intro h
    have : (fl x).val > p.mass.val := h
    simp [Package.extract, this, show (fl x).isFloat = true from rfl]
  · intro c hp hc h
    obtain ⟨i, hi, hlt⟩ := indexOf_mem hc
    have hlt' : i < p.masses.length := by rw [hp]; exact hlt
    have hv : content p c = (p.masses[i]).val := by rw [content_of_index hi, List.getElem?_eq_getElem hlt']; rfl
    have : (fl x).val > (p.masses[i]).val := by rw [← hv]; exact h
    simp [Package.extract, show (fl x).isFloat = true from rfl, Material.index, hi, List.getElem?_eq_getElem hlt', this]

/-- **C52 (compound).** Extracting a compound takes all of it and nothing else; extracting an amount of it takes that amount. -/
theorem C52_compound (p : Package) (c : Str) (hp : PkgOK p) (hc : c ∈ p.mat.compounds) :
    (∃ r p', p.extract (.str c) = (.ok r, p') ∧ content r c = content p c ∧ content p' c = 0 ∧ ∀ c', c' ≠ c → content r c' = 0) ∧
    (∀ x, x ≤ content p c → ∃ r p', p.extract (.tup c (fl x)) = (.ok r, p') ∧ content r c = x ∧ ∀ c', c' ≠ c → content r c' = 0) := by
  obtain ⟨i, hi, hlt⟩ := indexOf_mem hc
  have hlt' : i < p.masses.length := by rw [hp]; exact hlt
  have hv : content p c = (p.masses[i]).val := by rw [content_of_index hi, List.getElem?_eq_getElem hlt']; rfl
  constructor
  · refine ⟨⟨p.mat, (p.masses.map (·.mul (fl 0))).set i p.masses[i]⟩, { p with masses := p.masses.set i (fl 0) }, ?_, ?_, ?_, ?_⟩
    · simp [Package.extract, Material.index, hi, List.getElem?_eq_getElem hlt']
    · rw [content_set (p := ⟨p.mat, p.masses.map (·.mul (fl 0))⟩) hi (by simpa using hlt')]
      simp [hv]
    · rw [content_set hi hlt']; simp [fl]
    · intro c' hc'
      rw [content_set (p := ⟨p.mat, p.masses.map (·.mul (fl 0))⟩) hi (by simpa using hlt')]
      simp only [hc', if_false]
      rw [content_map (fun x => x.mul (fl 0)) (fun v => v * 0) (fun x => rfl) (by simp)]
      ring
  · intro x hx
    refine ⟨⟨p.mat, (List.replicate p.masses.length (fl 0)).set i (fl x)⟩, { p with masses := p.masses.set i ((p.masses[i]).sub (fl x)) }, ?_, ?_, ?_⟩
    · have : ¬ (fl x).val > (p.masses[i]).val := not_lt.2 (by rw [← hv]; exact hx)
      simp [Package.extract, show (fl x).isFloat = true from rfl, Material.index, hi, List.getElem?_eq_getElem hlt', this]
    · rw [content_set (p := ⟨p.mat, List.replicate p.masses.length (fl 0)⟩) hi (by simpa using hlt')]
      simp [fl]
    · intro c' hc'
      rw [content_set (p := ⟨p.mat, List.replicate p.masses.length (fl 0)⟩) hi (by simpa using hlt')]
      simp only [hc', if_false]
      rw [content_eq]
      cases indexOf p.mat.compounds c' with
      | none => rfl
      | some j => simp only [Option.bind_some, List.getElem?_replicate]; split <;> simp [fl]

/-- The amount asked for is not negative. -/
def argNonneg : Arg → Prop
  | .num x => 0 ≤ x.val
  | .tup _ x => 0 ≤ x.val
  | _ => True

/-- **C52 (no negative masses).** Extracting a non-negative amount from a package without negative masses leaves, and yields, no negative mass. -/
theorem C52_nonneg (p p' r : Package) (a : Arg) (hp : NonNeg p) (ha : argNonneg a) (h : p.extract a = (.ok r, p')) : NonNeg p' ∧ NonNeg r := by
  cases a with
  | pkg q => cases h
  | other => cases h
  | num x =>
    simp only [Package.extract] at h
    split at h
    · split at h
      · cases h
      · rename_i hle
        split at h
        · cases h
        · rename_i f hf
          cases h
          have hm : 0 ≤ p.mass.val := by
            rw [Package.mass, pySum_val]
            apply List.sum_nonneg
            intro y hy
            rw [List.mem_map] at hy
            obtain ⟨z, hz, rfl⟩ := hy
            exact hp z hz
          have hm0 : p.mass.val ≠ 0 := by
            intro e; simp [Num.div, e] at hf
          have hfv : f.val = x.val / p.mass.val := by
            simp only [Num.div, hm0, if_false] at hf
            cases hf; rfl
          have hpos : 0 < p.mass.val := lt_of_le_of_ne hm (Ne.symm hm0)
          have hf0 : 0 ≤ f.val := by rw [hfv]; exact div_nonneg ha hm
          have hf1 : f.val ≤ 1 := by rw [hfv, div_le_one hpos]; exact not_lt.1 hle
          constructor
          · intro y hy
            simp only [List.mem_map] at hy
            obtain ⟨z, hz, rfl⟩ := hy
            simp only [Num.mul, Num.sub, fl]
            exact mul_nonneg (hp z hz) (by linarith)
          · intro y hy
            simp only [List.mem_map] at hy
            obtain ⟨z, hz, rfl⟩ := hy
            exact mul_nonneg (hp z hz) hf0
    · cases h
  | tup c x =>
    simp only [Package.extract] at h
    split at h
    · split at h
      · cases h
      · rename_i i hi
        split at h
        · cases h
        · rename_i y hy
          split at h
          · cases h
          · rename_i hle
            cases h
            constructor
            · intro z hz
              rcases List.mem_or_eq_of_mem_set hz with hz | rfl
              · exact hp z hz
              · simp only [Num.sub]; linarith [not_lt.1 hle]
            · intro z hz
              rcases List.mem_or_eq_of_mem_set hz with hz | rfl
              · rw [List.mem_replicate] at hz; rw [hz.2]; exact le_refl _
              · exact ha
    · cases h
  | str c =>
    simp only [Package.extract] at h
    split at h
    · cases h
    · rename_i i hi
      split at h
      · cases h
      · rename_i y hy
        cases h
        constructor
        · intro z hz
          rcases List.mem_or_eq_of_mem_set hz with hz | rfl
          · exact hp z hz
          · exact le_refl _
        · intro z hz
          rcases List.mem_or_eq_of_mem_set hz with hz | rfl
          · simp only [List.mem_map] at hz
            obtain ⟨w, _, rfl⟩ := hz
            simp [Num.mul, fl]
          · exact hp z (List.mem_of_getElem? hy)

example : ((pkgA.extract (.num (fl (7/2)))).1.map (fun r => r.masses.map Num.val)) = .ok [2, 1, 1/2] ∧
    ((pkgA.extract (.str "SiO2".toList)).2.masses.map Num.val) = [4, 0, 1] ∧ NonNeg pkgA ∧ pkgA.mass.val = 7 := by
  refine ⟨by decide +kernel, by decide +kernel, by intro x hx; revert x; decide +kernel, by decide +kernel⟩

/-- **C52/C55 (empty).** Extracting a mass, even zero, from an empty package raises a division by zero. -/
theorem C52_empty_raises (p : Package) (x : ℚ) (h : p.mass.val = 0) (hx : x ≤ 0) : p.extract (.num (fl x)) = (.error .zeroDivisionError, p) := by
  have : ¬ (fl x).val > 0 := not_lt.2 hx
  simp only [Package.extract, h, this, if_false, Num.div]
  simp [fl]

/-! ## C53: elements -/

/-- **C53 (element masses).** For a well formed package the element masses are defined, one per element of the material, each the sum over
compounds of compound mass times element fraction. -/
theorem C53_element_masses (p : Package) (hm : MatOK p.mat) (hp : PkgOK p) :
    ∃ l, p.elementMasses = .ok l ∧ l.map Num.val = p.mat.elements.map (elementContent p) := by
  obtain ⟨E, hE, _⟩ := hm.elements
  have hf := (Stoich.Props.C45_succeeds_iff p.mat.compounds).1 ⟨E, hE⟩
  obtain ⟨l, hl⟩ := elementLoop_ok hp p.mat.elements p.mat.compounds (List.replicate p.mat.elements.length (int 0)) (fun c hc => ⟨hc, hf c hc⟩)
  exact ⟨l, hl, elementMasses_eq hl⟩

/-- **C53 (single element).** `get_element_mass` agrees. -/
theorem C53_element_mass (p : Package) (e : Str) (hm : MatOK p.mat) (hp : PkgOK p) : ∃ x, p.elementMass e = .ok x ∧ x.val = elementContent p e := by
  obtain ⟨E, hE, _⟩ := hm.elements
  have hf := (Stoich.Props.C45_succeeds_iff p.mat.compounds).1 ⟨E, hE⟩
  obtain ⟨l, hl⟩ := elementLoop_ok hp [e] p.mat.compounds [int 0] (fun c hc => ⟨hc, hf c hc⟩)
  have := elementLoop_spec p [e] p.mat.compounds [int 0] l rfl hl
  simp only [List.map_cons, List.map_nil, int, List.zipWith_cons_cons, zero_add, List.zipWith_nil_left] at this
  cases l with
  | nil => simp at this
  | cons a l =>
    simp only [List.map_cons, List.cons.injEq] at this
    exact ⟨a, by simp [Package.elementMass, hl], this.1⟩

/-- **C53 (splitting).** Extraction conserves the mass of every element. -/
theorem C53_extract (p p' r : Package) (a : Arg) (e : Str) (h : p.extract a = (.ok r, p')) :
    elementContent p e = elementContent p' e + elementContent r e := by
  obtain ⟨h1, h2, _, _, h5⟩ := C52_conserves p p' r a h
  simp only [elementContent, h1, h2]
  rw [← List.sum_map_add]
  congr 1
  apply List.map_congr_left
  intro c _
  rw [h5 c]; ring

/-- **C53 (mixing).** Adding a package of another material adds the mass of every element. -/
theorem C53_add_other_partial (p q r : Package) (e : Str) (h : p.mat.ident ≠ q.mat.ident) (hp : PkgOK p) (hq : PkgOK q)
    (hm : p.mat.compounds.Nodup) (hm' : q.mat.compounds.Nodup) (hr : p.add (.pkg q) = .ok r) :
    elementContent r e = elementContent p e + elementContent q e := by
  obtain ⟨h1, _, h3, _⟩ := C51_other_material_partial p q r h hp hq hm hm' hr
  have sub : ∀ c ∈ q.mat.compounds, c ∈ p.mat.compounds := by
    simp only [Package.add, h, if_false] at hr
    split at hr
    · cases hr
    · rename_i u p' hl
      cases hr
      obtain ⟨a1, a2, pre, post, a3, a4, a5, a6⟩ := addLoop_spec q q.mat.compounds p (.ok u) r hm' hl
      have hpost : post = [] := a4.1 rfl
      subst hpost
      rw [a3, List.append_nil]; exact a5
  simp only [elementContent, h1]
  have e1 : p.mat.compounds.map (fun c => content r c * share c e) = p.mat.compounds.map (fun c => content p c * share c e + content q c * share c e) :=
    List.map_congr_left (fun c _ => by rw [h3]; ring)
  rw [e1, List.sum_map_add]
  congr 1
  exact C51_other_material_partial.sum_sub hm hm' sub (fun c hc => by rw [content_not_mem hc, zero_mul])

/-- **C53 is false for packages of one material:** element masses of the sum are those of the first package. -/
theorem C53_same_material_loses (p q : Package) (h : p.mat.ident = q.mat.ident) (hp : PkgOK p) :
    ∃ r, p.add (.pkg q) = .ok r ∧ ∀ e, elementContent r e = elementContent p e := by
  obtain ⟨r, h1, _, h3⟩ := C51_same_material_loses p q h hp
  refine ⟨r, h1, fun e => ?_⟩
  have hm : r.mat = p.mat := by
    simp only [Package.add, h, if_true] at h1; cases h1; rfl
  simp only [elementContent, hm, h3]

/-- **C53 (total).** The element masses sum to the mass of the package, if every compound has a molar mass other than zero. -/
theorem C53_total (p : Package) (hm : MatOK p.mat) (hp : PkgOK p) (h0 : ∀ c ∈ p.mat.compounds, Stoich.molarMass c ≠ .ok 0) :
    (p.mat.elements.map (elementContent p)).sum = p.mass.val := by
  obtain ⟨E, hE, hperm⟩ := hm.elements
  obtain ⟨n1, n2⟩ := Stoich.Props.C45_elements _ _ hE
  have hf := (Stoich.Props.C45_succeeds_iff p.mat.compounds).1 ⟨E, hE⟩
  have hnd : p.mat.elements.Nodup := hperm.nodup_iff.1 n1
  rw [mass_eq hm.distinct hp]
  have key : ∀ c ∈ p.mat.compounds, (p.mat.elements.map (share c)).sum = 1 := by
    intro c hc
    obtain ⟨t, cp, _, _, _, hmm, _⟩ := emf_total (hf c hc)
    refine sum_share (hf c hc) hmm (fun e => h0 c hc (by rw [hmm, e])) _ hnd ?_
    intro t ht htt e he
    rw [← hperm.mem_iff, n2]
    exact ⟨c, hc, t, ht, htt, he⟩
  have swap : ∀ cs : List Str, (∀ c ∈ cs, (p.mat.elements.map (share c)).sum = 1) →
      (p.mat.elements.map (fun e => (cs.map (fun c => content p c * share c e)).sum)).sum = (cs.map (content p)).sum := by
    intro cs
    induction cs with
    | nil => intro _; simp
    | cons c cs ih =>
      intro hk
      simp only [List.map_cons, List.sum_cons]
      rw [List.sum_map_add, ih (fun x hx => hk x (by simp [hx])), List.sum_map_mul_left, hk c (by simp), mul_one]
  exact swap _ key

example : MatOK pkgA.mat ∧ PkgOK pkgA ∧ ∀ c ∈ pkgA.mat.compounds, Stoich.molarMass c ≠ .ok 0 :=
  ⟨matA_ok, rfl, by decide +kernel⟩

/-! ## C54: assays -/

/-- **C54.** `add_assay` registers the assay under a new name and leaves the others, or raises and leaves the material as it was. -/
theorem C54_add_assay (m m' : Material) (name : Str) (a : AssayArg) (r : Res Unit) (h : m.addAssay name a = (r, m')) :
    (r = .error .exception ∧ m' = m) ∨
    (r = .ok () ∧ ∃ l, a = .list l ∧ l.length = m.compounds.length ∧ m.assays.lookup name = none ∧ m'.assays.lookup name = some l ∧
      (∀ n, n ≠ name → m'.assays.lookup n = m.assays.lookup n) ∧ m'.compounds = m.compounds ∧ m'.elements = m.elements ∧ m'.ident = m.ident) := by
  cases a with
  | other => cases h; exact .inl ⟨rfl, rfl⟩
  | list l =>
    simp only [Material.addAssay] at h
    split at h
    · cases h; exact .inl ⟨rfl, rfl⟩
    · rename_i hl
      split at h
      · cases h; exact .inl ⟨rfl, rfl⟩
      · rename_i hn
        cases h
        right
        have none : m.assays.lookup name = none := by
          clear hl
          generalize m.assays = as at hn
          induction as with
          | nil => rfl
          | cons x as ih =>
            simp only [List.map_cons, List.mem_cons, not_or] at hn
            have hb : (name == x.1) = false := by simpa using hn.1
            rw [List.lookup_cons, hb]; exact ih hn.2
        have app : ∀ n, (m.assays ++ [(name, l)]).lookup n = (m.assays.lookup n).or ([(name, l)].lookup n) := by
          intro n
          generalize m.assays = as
          induction as with
          | nil => simp
          | cons x as ih =>
            rw [List.cons_append, List.lookup_cons, List.lookup_cons]
            cases (n == x.1) with
            | true => simp
            | false => exact ih
        refine ⟨rfl, l, rfl, not_not.1 hl, none, ?_, ?_, rfl, rfl, rfl⟩
        · rw [app, none]; simp
        · intro n hne
          have hb : (n == name) = false := by simpa using hne
          rw [app]; simp [List.lookup_cons, hb]

example : (matA.addAssay "New".toList (.list [fl 1, fl 2, fl 3])).1 = .ok () ∧ (matA.addAssay "A".toList (.list [fl 1, fl 2, fl 3])).1 = .error .exception ∧
    (matA.addAssay "New".toList (.list [fl 1])).1 = .error .exception := by decide +kernel

/-! ## C55: clear -/

/-- **C55 is false of the code for chem packages.** `clear` raises a `TypeError` and leaves the package as it was. -/
theorem C55_chem_clear_raises (p : Package) : p.clear = (.error .typeError, p) := rfl

/-! ## Multiplication -/

/-- **C51 (scaling).** Multiplying by a non-negative float multiplies every compound mass; a negative factor is refused. -/
theorem C51_mul (p : Package) (k : ℚ) :
    (0 ≤ k → ∃ r, p.mul (fl k) = .ok r ∧ r.mat = p.mat ∧ ∀ c, content r c = content p c * k) ∧ (k < 0 → p.mul (fl k) = .error .exception) := by
  constructor
  · intro hk
    refine ⟨⟨p.mat, p.masses.map (·.mul (fl k))⟩, ?_, rfl, fun c => ?_⟩
    · have : ¬ (fl k).val < 0 := not_lt.2 hk
      simp [Package.mul, show (fl k).isFloat = true from rfl, this]
    · exact content_map (p := p) (fun x => x.mul (fl k)) (fun v => v * k) (fun x => rfl) (by simp)
  · intro hk
    have : (fl k).val < 0 := hk
    simp [Package.mul, show (fl k).isFloat = true from rfl, this]

end Auxi.Chem.Props
