import Verif.Props.Chem
import Verif.Props.Psd
import Verif.Props.Slurry
import Verif.Props.ThermoMore
import Verif.Props.ThermoStream

/-!
# Property C131: the assay of a package, and packages made from it

Numbers are exact, as in the models of the packages.
-/
namespace Auxi.AssayTrip.Props

theorem sum_div (l : List ℚ) (t : ℚ) : (l.map (· / t)).sum = l.sum / t := by
  simp only [div_eq_mul_inv]
  rw [List.sum_map_mul_right, List.map_id']

theorem sum_div_real (l : List ℝ) (t : ℝ) : (l.map (· / t)).sum = l.sum / t := by
  simp only [div_eq_mul_inv]
  rw [List.sum_map_mul_right, List.map_id']

theorem lookup_new {α : Type} {l : List (Str × α)} {k : Str} {v : α} (h : k ∉ l.map (·.1)) : (l ++ [(k, v)]).lookup k = some v := by
  induction l with
  | nil => simp [List.lookup]
  | cons x l ih =>
    simp only [List.map_cons, List.mem_cons, not_or] at h
    rw [List.cons_append, List.lookup_cons, beq_eq_false_iff_ne.2 h.1]
    exact ih h.2

/-! ## Chemical packages -/

/-- **C131 (chemical packages).** The assay has, for each compound, its share of the mass; the shares add up to one; and a package of this assay with the mass of the package, with or without
normalisation, has the same masses. -/
theorem C131_chem (p : Chem.Package) (name : Str) (hl : p.masses.length = p.mat.compounds.length) (hn : name ∉ p.mat.assays.map (·.1)) (ht : p.mass.val ≠ 0) :
    ∃ a m', p.assay = .ok a ∧ a.length = p.mat.compounds.length ∧ (a.map Chem.Num.val).sum = 1 ∧ (∀ (i : Nat) (x y : Chem.Num), a[i]? = some x → p.masses[i]? = some y → x.val * p.mass.val = y.val) ∧
      p.mat.addAssay name (.list a) = (.ok (), m') ∧
      ∀ b, ∃ q, m'.createPackage (some name) p.mass b = .ok q ∧ q.mat = m' ∧ q.masses.map Chem.Num.val = p.masses.map Chem.Num.val := by
  have hv : p.mass.val = (p.masses.map Chem.Num.val).sum := Chem.pySum_val _
  have hs : (Chem.pySum p.masses).val ≠ 0 := ht
  have ha : p.assay = .ok (p.masses.map (fun x => ⟨true, x.val / p.mass.val⟩)) := by
    unfold Chem.Package.assay
    apply Chem.mapRes_of
    intro x _
    unfold Chem.Num.div
    rw [if_neg hs]
    rfl
  have hsum : ((p.masses.map (fun x => (⟨true, x.val / p.mass.val⟩ : Chem.Num))).map Chem.Num.val).sum = 1 := by
    rw [List.map_map]
    have : (Chem.Num.val ∘ fun x : Chem.Num => (⟨true, x.val / p.mass.val⟩ : Chem.Num)) = (· / p.mass.val) ∘ Chem.Num.val := rfl
    rw [this, ← List.map_map, sum_div, ← hv, div_self ht]
  refine ⟨_, { p.mat with assays := p.mat.assays ++ [(name, p.masses.map (fun x => ⟨true, x.val / p.mass.val⟩))] }, ha, by rw [List.length_map, hl], hsum, ?_, ?_, fun b => ?_⟩
  · intro i x y hx hy
    rw [List.getElem?_map, hy] at hx
    cases hx
    exact div_mul_cancel₀ _ ht
  · unfold Chem.Material.addAssay
    dsimp only
    rw [if_neg (by rw [List.length_map, hl]; simp), if_neg hn]
  · have hlook := lookup_new (v := p.masses.map (fun x => (⟨true, x.val / p.mass.val⟩ : Chem.Num))) hn
    cases b with
    | true =>
      obtain ⟨q, h1, h2, _, h4⟩ := Chem.Props.C50_create { p.mat with assays := p.mat.assays ++ [(name, p.masses.map (fun x => ⟨true, x.val / p.mass.val⟩))] } name _ p.mass hlook (by rw [hsum]; decide)
      refine ⟨q, h1, h2, h4.trans ?_⟩
      rw [hsum, List.map_map]
      refine List.map_congr_left (fun x _ => ?_)
      show p.mass.val * (x.val / p.mass.val / 1) = x.val
      field_simp
    | false =>
      obtain ⟨q, h1, h2⟩ := Chem.Props.C50_not_normalised { p.mat with assays := p.mat.assays ++ [(name, p.masses.map (fun x => ⟨true, x.val / p.mass.val⟩))] } name _ p.mass hlook
      refine ⟨q, h1, ?_, h2.trans ?_⟩
      · unfold Chem.Material.createPackage at h1
        dsimp only [Bool.false_eq_true, if_false] at h1
        split at h1
        · cases h1
        · split at h1
          · cases h1
          · split at h1
            · cases h1
            · cases h1; rfl
      · rw [List.map_map]
        refine List.map_congr_left (fun x _ => ?_)
        show p.mass.val * (x.val / p.mass.val) = x.val
        field_simp

/-- **C131 (chemical packages without mass).** They have no assay: asking for it raises. -/
theorem C131_chem_empty (p : Chem.Package) (hl : p.masses ≠ []) (ht : p.mass.val = 0) : p.assay = .error .zeroDivisionError := by
  unfold Chem.Package.assay
  cases h : p.masses with
  | nil => exact absurd h hl
  | cons x l =>
    have : (Chem.pySum (x :: l)).val = 0 := by rw [← h]; exact ht
    rw [Chem.mapRes, Chem.Num.div, if_pos this]

example : Chem.Props.pkgA.assay = .ok [Chem.fl (4/7), Chem.fl (2/7), Chem.fl (1/7)] := by decide +kernel
example : Chem.Props.pkgA.masses.length = Chem.Props.pkgA.mat.compounds.length ∧ "new".toList ∉ Chem.Props.pkgA.mat.assays.map (·.1) ∧ Chem.Props.pkgA.mass.val ≠ 0 := by decide +kernel

/-! ## Size distributions -/

open Psd (F64 lift)

/-- **C131 (size distributions).** The same for packages of particles. -/
theorem C131_psd (p : Psd.Package) (name : Str) (l : List ℚ) (hp : p.masses = l.map .fin) (hl : l.length = p.mat.classes.length) (hn : name ∉ p.mat.assays.map (·.1)) (ht : l.sum ≠ 0) :
    p.mass = .fin l.sum ∧ p.assay = l.map (fun x => .fin (x / l.sum)) ∧ (l.map (· / l.sum)).sum = 1 ∧ ∃ m', p.mat.addAssay name (.array p.assay) = (.ok (), m') ∧
      ∀ b, ∃ q, m'.createPackage (some name) p.mass b = .ok q ∧ q.mat = m' ∧ q.masses = p.masses := by
  have hm : p.mass = .fin l.sum := by unfold Psd.Package.mass; rw [hp]; exact Psd.sum_lift l
  have ha : p.assay = (l.map (· / l.sum)).map .fin := by
    unfold Psd.Package.assay
    rw [hp, show Psd.sum (l.map .fin) = .fin l.sum from Psd.sum_lift l, List.map_map, List.map_map]
    refine List.map_congr_left (fun x _ => ?_)
    show F64.div (.fin x) (.fin l.sum) = .fin (x / l.sum)
    rw [F64.div, if_neg ht]
  have hsum : (l.map (· / l.sum)).sum = 1 := by rw [sum_div, div_self ht]
  refine ⟨hm, by rw [ha, List.map_map]; rfl, hsum, { p.mat with assays := p.mat.assays ++ [(name, p.assay)] }, ?_, fun b => ?_⟩
  · unfold Psd.Material.addAssay
    dsimp only
    rw [if_neg (by rw [ha]; simp [hl]), if_neg hn]
  · have hlook := lookup_new (v := p.assay) hn
    rw [hm]
    cases b with
    | true =>
      obtain ⟨q, h1, h2, _, h4⟩ := Psd.Props.C46_create { p.mat with assays := p.mat.assays ++ [(name, p.assay)] } name _ l.sum (by dsimp only; rw [hlook, ha]) (by rw [hsum]; decide)
      refine ⟨q, h1, h2, h4.trans ?_⟩
      rw [hsum, List.map_map, hp]
      refine List.map_congr_left (fun x _ => congrArg F64.fin ?_)
      show l.sum * (x / l.sum / 1) = x
      field_simp
    | false =>
      have := Psd.Props.C46_not_normalised { p.mat with assays := p.mat.assays ++ [(name, p.assay)] } name _ l.sum (by dsimp only; rw [hlook, ha])
      refine ⟨_, this, rfl, ?_⟩
      dsimp only
      rw [List.map_map, hp]
      refine List.map_congr_left (fun x _ => congrArg F64.fin ?_)
      show l.sum * (x / l.sum) = x
      field_simp

/-- **C131 (no mass).** The assay of particles without mass is no assay: no exception, and no number in it is finite. -/
theorem C131_psd_empty (p : Psd.Package) (l : List ℚ) (hp : p.masses = l.map .fin) (ht : l.sum = 0) : p.assay.length = p.masses.length ∧ ∀ x ∈ p.assay, ∀ q, x ≠ .fin q := by
  unfold Psd.Package.assay
  rw [hp, show Psd.sum (l.map .fin) = .fin l.sum from Psd.sum_lift l, ht]
  refine ⟨by simp, fun x hx q => ?_⟩
  simp only [List.mem_map] at hx
  obtain ⟨_, ⟨y, _, rfl⟩, rfl⟩ := hx
  rw [F64.div, if_pos rfl]
  split
  · simp
  · split <;> simp

example : Psd.Props.pkgA.assay = [.fin (4/7), .fin (2/7), .fin (1/7)] := by decide +kernel
example : Psd.Props.pkgA.masses = ([4, 2, 1] : List ℚ).map .fin ∧ ([4, 2, 1] : List ℚ).length = Psd.Props.pkgA.mat.classes.length ∧ "new".toList ∉ Psd.Props.pkgA.mat.assays.map (·.1) ∧
    ([4, 2, 1] : List ℚ).sum ≠ 0 := by decide +kernel

/-! ## Slurries -/

/-- **C131 (slurries).** The assay is that of the solids.  With the package's solid density and the share of water in its mass, a package of the assay has the same solids, water and density. -/
theorem C131_slurry (p : Slurry.Package) (name : Str) (l : List ℚ) (w d : ℚ) (hp : p.masses = l.map .fin) (hw : p.water = .fin w) (hd : p.density = .fin d) (hl : l.length = p.mat.psd.classes.length)
    (hn : name ∉ p.mat.psd.assays.map (·.1)) (ht : l.sum ≠ 0) (hm0 : l.sum + w ≠ 0) :
    p.mass = .fin (l.sum + w) ∧ p.assay = l.map (fun x => .fin (x / l.sum)) ∧ (l.map (· / l.sum)).sum = 1 ∧
      ∃ m', p.mat.addAssay name (some d) (some (w / (l.sum + w))) (.array p.assay) = (.ok (), m') ∧
        ∃ q, m'.createPackage (some name) p.mass true = .ok q ∧ q.mat = m' ∧ q.masses = p.masses ∧ q.water = p.water ∧ q.density = p.density := by
  have hm : p.mass = .fin (l.sum + w) := by
    unfold Slurry.Package.mass; rw [hp, hw, show Psd.sum (l.map .fin) = .fin l.sum from Psd.sum_lift l]; rfl
  have ha : p.assay = (l.map (· / l.sum)).map .fin := by
    unfold Slurry.Package.assay
    rw [hp, show Psd.sum (l.map .fin) = .fin l.sum from Psd.sum_lift l, List.map_map, List.map_map]
    refine List.map_congr_left (fun x _ => ?_)
    show F64.div (.fin x) (.fin l.sum) = .fin (x / l.sum)
    rw [F64.div, if_neg ht]
  have hsum : (l.map (· / l.sum)).sum = 1 := by rw [sum_div, div_self ht]
  have hset : ∀ (v : ℚ) (L : List (Str × ℚ)), (Slurry.dictSet name v L).lookup name = some v := by
    intro v L
    induction L with
    | nil => simp [Slurry.dictSet, List.lookup]
    | cons e L ih =>
      rw [Slurry.dictSet]
      split
      · rename_i h; rw [List.lookup_cons, h, beq_self_eq_true]
      · rename_i h; rw [List.lookup_cons, beq_eq_false_iff_ne.2 (Ne.symm h)]; exact ih
  have hadd : p.mat.psd.addAssay name (.array p.assay) = (.ok (), { p.mat.psd with assays := p.mat.psd.assays ++ [(name, p.assay)] }) := by
    unfold Psd.Material.addAssay
    dsimp only
    rw [if_neg (by rw [ha]; simp [hl]), if_neg hn]
  refine ⟨hm, by rw [ha, List.map_map]; rfl, hsum, ⟨{ p.mat.psd with assays := p.mat.psd.assays ++ [(name, p.assay)] }, Slurry.dictSet name d p.mat.densities,
    Slurry.dictSet name (w / (l.sum + w)) p.mat.waters⟩, ?_, ?_⟩
  · unfold Slurry.Material.addAssay
    rw [hadd]
  · have hlook := lookup_new (v := p.assay) hn
    obtain ⟨q, h1, h2, h3, h4, _, h6⟩ := Slurry.Props.C47_create ⟨{ p.mat.psd with assays := p.mat.psd.assays ++ [(name, p.assay)] }, Slurry.dictSet name d p.mat.densities,
      Slurry.dictSet name (w / (l.sum + w)) p.mat.waters⟩ name (l.map (· / l.sum)) (w / (l.sum + w)) d (l.sum + w) (by dsimp only; rw [hlook, ha]) (hset _ _) (hset _ _) (by rw [hsum]; decide)
    have e : (l.sum + w) * (w / (l.sum + w)) = w := by field_simp
    rw [hm]
    refine ⟨q, h1, h2, h6.trans ?_, ?_, h3.trans hd.symm⟩
    · rw [hsum, List.map_map, hp, e]
      refine List.map_congr_left (fun x _ => congrArg F64.fin ?_)
      show (l.sum + w - w) * (x / l.sum / 1) = x
      rw [add_sub_cancel_right]
      field_simp
    · rw [h4, hw, e]

example : Slurry.Props.pkgA.assay = [.fin (4/7), .fin (2/7), .fin (1/7)] ∧ Slurry.Props.pkgA.water = .fin 3 := by decide +kernel
example : Slurry.Props.pkgA.masses = ([4, 2, 1] : List ℚ).map .fin ∧ ([4, 2, 1] : List ℚ).length = Slurry.Props.pkgA.mat.psd.classes.length ∧ "new".toList ∉ Slurry.Props.pkgA.mat.psd.assays.map (·.1) ∧
    ([4, 2, 1] : List ℚ).sum + 3 ≠ 0 := by decide +kernel

/-! ## Thermochemical packages and streams -/

open Thermo (V Db vdiv vsum vsum_map)

/-- **C131 (thermochemical packages).** The shares of the compounds, which add up to one. -/
theorem C131_thermo (p : Thermo.Package) (l : List ℝ) (hp : p.masses = l.map some) (ht : l.sum ≠ 0) :
    p.mass = some l.sum ∧ p.assay = l.map (fun x => some (x / l.sum)) ∧ (l.map (· / l.sum)).sum = 1 := by
  refine ⟨by unfold Thermo.Package.mass; rw [hp, vsum_map], ?_, by rw [sum_div_real, div_self ht]⟩
  unfold Thermo.Package.assay
  rw [hp, vsum_map, List.map_map]
  exact List.map_congr_left (fun x _ => if_neg ht)

/-- **C131 (streams).** The same. -/
theorem C131_stream (s : Thermo.Stream) (l : List ℝ) (hp : s.mfrs = l.map some) (ht : l.sum ≠ 0) :
    s.mfr = some l.sum ∧ s.assay = l.map (fun x => some (x / l.sum)) ∧ (l.map (· / l.sum)).sum = 1 := by
  refine ⟨by unfold Thermo.Stream.mfr; rw [hp, vsum_map], ?_, by rw [sum_div_real, div_self ht]⟩
  unfold Thermo.Stream.assay
  rw [hp, vsum_map, List.map_map]
  exact List.map_congr_left (fun x _ => if_neg ht)

/-- **C131 (thermochemical packages, from an assay).** A package made from an assay of the material's file has that assay, normalised. -/
theorem C131_thermo_created (db : Db) (m : Thermo.Material) (name : Str) (l : List ℝ) (d : List (Str × ℝ)) (x P t : ℝ) (hk : Thermo.Spec.Known db m) (hn : m.compounds.Nodup)
    (hl : m.assays.lookup name = some (l.map some)) (hlen : l.length = m.compounds.length) (hd : m.custom.lookup name = some d) (hcoal : "IsCoal".toList ∉ m.customNames)
    (hs : l.sum ≠ 0) (hx : x ≠ 0) : ∃ p, m.createPackage db (some name) (some x) (some P) (some t) true = .ok p ∧ p.assay = l.map (fun y => some (y / l.sum)) := by
  obtain ⟨p, h1, _, h3, h4, _⟩ := Thermo.Props.C65_file_assay_partial db m name l d x P t hk hn hl hlen hd hcoal hs
  refine ⟨p, h1, ?_⟩
  have hsum : (l.map (fun y => x * y / l.sum)).sum = x := by
    have : (fun y => x * y / l.sum) = (fun y => y * (x / l.sum)) := by funext y; ring
    rw [this, List.sum_map_mul_right, List.map_id']; field_simp
  have := (C131_thermo p (l.map (fun y => x * y / l.sum)) (by rw [h4, List.map_map]; rfl) (by rw [hsum]; exact hx)).2.1
  rw [this, hsum, List.map_map]
  refine List.map_congr_left (fun y _ => congrArg some ?_)
  show x * y / l.sum / x = y / l.sum
  field_simp

/-- **C131 is false of the code for thermochemical packages.** Of a material whose custom properties cover only the assays it has, no package can be made of a package's assay: `add_assay` accepts
it, `create_package` raises `KeyError`. -/
theorem C131_thermo_violated (db : Db) (p : Thermo.Package) (name : Str) (hcust : ∀ k ∈ p.mat.custom.map (·.1), k ∈ p.mat.assays.map (·.1)) (hl : p.masses.length = p.mat.compounds.length)
    (hn : name ∉ p.mat.assays.map (·.1)) : ∃ m', p.mat.addAssay name (.array p.assay) = (.ok (), m') ∧ ∀ b, m'.createPackage db (some name) p.mass p.P p.T b = .error .keyError := by
  have h : p.mat.addAssay name (.array p.assay) = (.ok (), { p.mat with assays := p.mat.assays ++ [(name, p.assay)] }) := by
    unfold Thermo.Material.addAssay
    dsimp only
    rw [if_neg (by unfold Thermo.Package.assay; simp [hl]), if_neg hn]
  exact ⟨_, h, fun b => Thermo.Props.C65_added_assay_unusable db _ _ _ _ hcust h _ _ _ _⟩

open Thermo.Props in
example : (pAB 30).masses = ([2, 3] : List ℝ).map some ∧ ([2, 3] : List ℝ).sum ≠ 0 ∧ (pAB 30).assay = [some (2 / 5), some (3 / 5)] := by
  have h : ([2, 3] : List ℝ).sum = 5 := by norm_num
  refine ⟨rfl, by rw [h]; norm_num, ?_⟩
  rw [(C131_thermo (pAB 30) [2, 3] rfl (by rw [h]; norm_num)).2.1, h]
  rfl
open Thermo.Props in
example : ∃ p, mF.createPackage db1 (some "one".toList) (some 10) (some 1) (some 25) true = .ok p ∧ p.assay = [1, 3].map (fun y => some (y / ([1, 3] : List ℝ).sum)) :=
  C131_thermo_created db1 mF "one".toList [1, 3] [] 10 1 25 known_mAB (by simp only [mF, mAB]; decide +kernel) (by simp [mF, List.lookup]) rfl (by simp [mF, List.lookup]) (by simp [mF, mAB]) (by norm_num)
    (by norm_num)
open Thermo.Props in
example : ∃ m', (pAB 30).mat.addAssay "new".toList (.array (pAB 30).assay) = (.ok (), m') ∧ ∀ b, m'.createPackage db1 (some "new".toList) (pAB 30).mass (pAB 30).P (pAB 30).T b = .error .keyError :=
  C131_thermo_violated db1 (pAB 30) _ (by simp [pAB, mAB]) rfl (by simp [pAB, mAB])

end Auxi.AssayTrip.Props
