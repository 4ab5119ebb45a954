import Verif.Proofs.Printout
import Verif.Props.FileFormat
import Verif.Props.CoalStream
import Verif.Props.ThermoAmounts

/-! # C122: a printout shows what is in it -/
namespace Auxi.Printout.Props
open Auxi Auxi.Printout Auxi.Printout.Spec Auxi.Printout.Proofs
open Auxi.FileFormat (strLe pyFloat readChem readPsd)
open Auxi.FileFormat.Spec (Item Row Layout Full Holds Column)
open Auxi.Chem (Num)
open Auxi.Psd (F64)
open Auxi.Thermo (V)

theorem plain_txt (s : String) (h : '\n' ∉ s.toList) : Plain (txt s) := h

/-! ## Packages of `chem`, `psd` and `slurry` -/

/-- **C122 (chem package)**: the printout names the material, gives the total mass, and then each compound of the material with its own mass, in order. -/
theorem C122_chem_package (num : Num → Str) (name : Str) (p : Chem.Package) (hd : p.mat.compounds.Nodup) (hl : p.masses.length = p.mat.compounds.length)
    (hname : Plain name) (hc : ∀ c ∈ p.mat.compounds, Plain c) (hn : ∀ x, Plain (num x)) :
    ∃ t, chemPackage num name p = .ok t ∧ lines t =
      [txt "MaterialPackage", ljust 20 (txt "material") ++ name, ljust 20 (txt "mass") ++ num p.mass, txt "Component masses:"] ++
        List.zipWith (fun c x => ljust 20 c ++ num x) p.mat.compounds p.masses ++ [[]] := by
  refine ⟨_, by unfold chemPackage; rw [massLines_ok (indexed_chem hd) hl], ?_⟩
  refine lines_of ?_ ?_
  · intro s hs
    rcases List.mem_append.1 hs with hs | hs
    · simp only [List.mem_cons, List.not_mem_nil, or_false] at hs
      rcases hs with rfl | rfl | rfl | rfl
      · exact plain_txt _ (by decide)
      · exact plain_append.2 ⟨plain_ljust (plain_txt _ (by decide)), hname⟩
      · exact plain_append.2 ⟨plain_ljust (plain_txt _ (by decide)), hn _⟩
      · exact plain_txt _ (by decide)
    · exact plain_zip (key := id) hc hn s hs
  · simp only [List.map_append, List.flatten_append, List.map_cons, List.map_nil, List.flatten_cons, List.flatten_nil, List.append_nil, List.append_assoc]
    rfl

/-- **C122 (psd package)**: the same for size classes. -/
theorem C122_psd_package (key : ℚ → Str) (num : F64 → Str) (name : Str) (p : Psd.Package) (hd : p.mat.classes.Nodup) (hl : p.masses.length = p.mat.classes.length)
    (hname : Plain name) (hc : ∀ c, Plain (key c)) (hn : ∀ x, Plain (num x)) :
    ∃ t, psdPackage key num name p = .ok t ∧ lines t =
      [txt "MaterialPackage", ljust 20 (txt "material") ++ name, ljust 20 (txt "mass") ++ num p.mass, txt "Component masses:"] ++
        List.zipWith (fun c x => ljust 20 (key c) ++ num x) p.mat.classes p.masses ++ [[]] := by
  refine ⟨_, by unfold psdPackage; rw [massLines_ok (indexed_psd hd) hl], ?_⟩
  refine lines_of ?_ ?_
  · intro s hs
    rcases List.mem_append.1 hs with hs | hs
    · simp only [List.mem_cons, List.not_mem_nil, or_false] at hs
      rcases hs with rfl | rfl | rfl | rfl
      · exact plain_txt _ (by decide)
      · exact plain_append.2 ⟨plain_ljust (plain_txt _ (by decide)), hname⟩
      · exact plain_append.2 ⟨plain_ljust (plain_txt _ (by decide)), hn _⟩
      · exact plain_txt _ (by decide)
    · exact plain_zip (fun c _ => hc c) hn s hs
  · simp only [List.map_append, List.flatten_append, List.map_cons, List.map_nil, List.flatten_cons, List.flatten_nil, List.append_nil, List.append_assoc]
    rfl

/-- **C122 (slurry package)**: besides, the fractions, the densities, the mass of water and the volume. -/
theorem C122_slurry_package (key : ℚ → Str) (num : F64 → Str) (name : Str) (p : Slurry.Package) (hd : p.mat.psd.classes.Nodup) (hl : p.masses.length = p.mat.psd.classes.length)
    (hname : Plain name) (hc : ∀ c, Plain (key c)) (hn : ∀ x, Plain (num x)) :
    ∃ t, slurryPackage key num name p = .ok t ∧ lines t =
      [txt "MaterialPackage", ljust 24 (txt "material") ++ name, ljust 24 (txt "mass fraction solids") ++ num p.massFractionSolids,
        ljust 24 (txt "volume fraction solids") ++ num p.volumeFractionSolids, ljust 24 (txt "solid density") ++ num p.density,
        ljust 24 (txt "slurry density") ++ num p.slurryDensity, ljust 24 (txt "mass") ++ num p.mass, ljust 24 (txt "H2O mass") ++ num p.water,
        ljust 24 (txt "volume") ++ num p.volume, txt "Component masses:"] ++
        List.zipWith (fun c x => ljust 24 (key c) ++ num x) p.mat.psd.classes p.masses ++ [[]] := by
  refine ⟨_, by unfold slurryPackage; rw [massLines_ok (indexed_psd hd) hl], ?_⟩
  refine lines_of ?_ ?_
  · intro s hs
    rcases List.mem_append.1 hs with hs | hs
    · simp only [List.mem_cons, List.not_mem_nil, or_false] at hs
      rcases hs with rfl | rfl | rfl | rfl | rfl | rfl | rfl | rfl | rfl | rfl
      · exact plain_txt _ (by decide)
      · exact plain_append.2 ⟨plain_ljust (plain_txt _ (by decide)), hname⟩
      all_goals first
        | exact plain_append.2 ⟨plain_ljust (plain_txt _ (by decide)), hn _⟩
        | exact plain_txt _ (by decide)
    · exact plain_zip (fun c _ => hc c) hn s hs
  · simp only [figure, List.map_append, List.flatten_append, List.map_cons, List.map_nil, List.flatten_cons, List.flatten_nil, List.append_nil, List.append_assoc]
    rfl

theorem tail_inj {a b z : List Str} {h h' : List Str} (e : h ++ a ++ z = h' ++ b ++ z) (hl : h.length = h'.length) : h = h' ∧ a = b := by
  rw [List.append_assoc, List.append_assoc] at e
  obtain ⟨e1, e2⟩ := List.append_inj e hl
  exact ⟨e1, List.append_cancel_right e2⟩

/-- **C122 (packages, nothing is lost)**: if numbers are written differently when they are different, two packages of a material with the same printout have the same masses. -/
theorem C122_chem_determines (num : Num → Str) (name : Str) (p q : Chem.Package) (hm : q.mat = p.mat) (hd : p.mat.compounds.Nodup)
    (hl : p.masses.length = p.mat.compounds.length) (hl' : q.masses.length = q.mat.compounds.length) (hname : Plain name) (hc : ∀ c ∈ p.mat.compounds, Plain c)
    (hn : ∀ x, Plain (num x)) (hi : Function.Injective num) (h : chemPackage num name p = chemPackage num name q) : p = q := by
  obtain ⟨t, h1, h2⟩ := C122_chem_package num name p hd hl hname hc hn
  obtain ⟨u, k1, k2⟩ := C122_chem_package num name q (hm ▸ hd) hl' hname (hm ▸ hc) hn
  rw [h1, k1] at h
  cases h
  rw [h2] at k2
  obtain ⟨_, e⟩ := tail_inj k2 rfl
  rw [hm] at e hl'
  have := zip_inj (key := id) hi hl hl' e
  cases p; cases q
  simp only at hm this
  rw [hm, this]

theorem C122_psd_determines (key : ℚ → Str) (num : F64 → Str) (name : Str) (p q : Psd.Package) (hm : q.mat = p.mat) (hd : p.mat.classes.Nodup)
    (hl : p.masses.length = p.mat.classes.length) (hl' : q.masses.length = q.mat.classes.length) (hname : Plain name) (hc : ∀ c, Plain (key c))
    (hn : ∀ x, Plain (num x)) (hi : Function.Injective num) (h : psdPackage key num name p = psdPackage key num name q) : p = q := by
  obtain ⟨t, h1, h2⟩ := C122_psd_package key num name p hd hl hname hc hn
  obtain ⟨u, k1, k2⟩ := C122_psd_package key num name q (hm ▸ hd) hl' hname hc hn
  rw [h1, k1] at h
  cases h
  rw [h2] at k2
  obtain ⟨_, e⟩ := tail_inj k2 rfl
  rw [hm] at e hl'
  have := zip_inj hi hl hl' e
  cases p; cases q
  simp only at hm this
  rw [hm, this]

theorem C122_slurry_determines (key : ℚ → Str) (num : F64 → Str) (name : Str) (p q : Slurry.Package) (hm : q.mat = p.mat) (hd : p.mat.psd.classes.Nodup)
    (hl : p.masses.length = p.mat.psd.classes.length) (hl' : q.masses.length = q.mat.psd.classes.length) (hname : Plain name) (hc : ∀ c, Plain (key c))
    (hn : ∀ x, Plain (num x)) (hi : Function.Injective num) (h : slurryPackage key num name p = slurryPackage key num name q) : p = q := by
  obtain ⟨t, h1, h2⟩ := C122_slurry_package key num name p hd hl hname hc hn
  obtain ⟨u, k1, k2⟩ := C122_slurry_package key num name q (hm ▸ hd) hl' hname hc hn
  rw [h1, k1] at h
  cases h
  rw [h2] at k2
  obtain ⟨e', e⟩ := tail_inj k2 rfl
  rw [hm] at e hl'
  have := zip_inj hi hl hl' e
  simp only [List.cons.injEq, List.append_cancel_left_eq] at e'
  have ed := hi e'.2.2.2.2.1
  have ew := hi e'.2.2.2.2.2.2.2.1
  cases p; cases q
  simp only at hm this ed ew
  rw [hm, this, ed, ew]

/-- A way to write numbers: distinct numbers are written differently, without line ends. -/
def unary (q : ℚ) : Str := (if q < 0 then '-' else '+') :: List.replicate q.num.natAbs '1' ++ '/' :: List.replicate q.den '1'

theorem unary_plain (q : ℚ) : Plain (unary q) := by
  intro h
  unfold unary at h
  simp only [List.cons_append, List.mem_cons, List.mem_append, List.mem_replicate] at h
  rcases h with h | h | h | h
  · split at h <;> revert h <;> decide
  · exact absurd h.2 (by decide)
  · exact absurd h (by decide)
  · exact absurd h.2 (by decide)

theorem replicate_sep {a b c d : ℕ} (h : List.replicate a '1' ++ '/' :: List.replicate b '1' = List.replicate c '1' ++ '/' :: List.replicate d '1') : a = c ∧ b = d := by
  induction a generalizing c with
  | zero => cases c with
    | zero =>
      have := congrArg List.length h
      simp at this; exact ⟨rfl, this⟩
    | succ c => simp [List.replicate_succ] at h
  | succ a ih => cases c with
    | zero => simp [List.replicate_succ] at h
    | succ c =>
      simp only [List.replicate_succ, List.cons_append, List.cons.injEq, true_and] at h
      obtain ⟨h1, h2⟩ := ih h
      exact ⟨by rw [h1], h2⟩

theorem unary_inj : Function.Injective unary := by
  intro a b h
  unfold unary at h
  simp only [List.cons_append, List.cons.injEq] at h
  obtain ⟨h1, h2⟩ := h
  obtain ⟨h3, h4⟩ := replicate_sep h2
  have hs : (a < 0 ↔ b < 0) := by
    by_cases ha : a < 0 <;> by_cases hb : b < 0 <;> simp [ha, hb] at h1 ⊢
  have ha := Rat.num_neg (a := a)
  have hb := Rat.num_neg (a := b)
  have hn : a.num < 0 ↔ b.num < 0 := ha.trans (hs.trans hb.symm)
  apply Rat.ext _ h4
  omega

/-- `str(x)` of the examples, for `chem`. -/
def numEx (x : Num) : Str := (if x.isFloat then 'f' else 'i') :: unary x.val
theorem numEx_plain (x : Num) : Plain (numEx x) := by
  intro h
  rcases List.mem_cons.1 h with h | h
  · split at h <;> revert h <;> decide
  · exact unary_plain _ h
theorem numEx_inj : Function.Injective numEx := by
  intro a b h
  simp only [numEx, List.cons.injEq] at h
  obtain ⟨a1, a2⟩ := a
  obtain ⟨b1, b2⟩ := b
  have := unary_inj h.2
  cases a1 <;> cases b1 <;> simp_all

/-- `str(x)` of the examples, for `psd` and `slurry`. -/
def f64Ex : F64 → Str
  | .fin q => unary q
  | .pinf => txt "inf"
  | .ninf => txt "-inf"
  | .nan => txt "nan"

/-- A chem material and packages of it. -/
def ironEx : Chem.Material := ⟨0, [txt "Fe", txt "C"], [], []⟩
example : ∃ t, chemPackage numEx (txt "pig iron") ⟨ironEx, [Chem.fl 95, Chem.fl 5]⟩ = .ok t ∧ lines t =
    [txt "MaterialPackage", txt "material            pig iron", txt "mass                " ++ numEx (Chem.fl 100), txt "Component masses:",
      txt "Fe                  " ++ numEx (Chem.fl 95), txt "C                   " ++ numEx (Chem.fl 5), []] := by
  obtain ⟨t, h1, h2⟩ := C122_chem_package numEx (txt "pig iron") ⟨ironEx, [Chem.fl 95, Chem.fl 5]⟩ (by decide) rfl (plain_txt _ (by decide))
    (by intro c hc; simp only [ironEx, List.mem_cons, List.not_mem_nil, or_false] at hc; rcases hc with rfl | rfl <;> exact plain_txt _ (by decide)) numEx_plain
  refine ⟨t, h1, h2.trans ?_⟩
  have e : (⟨ironEx, [Chem.fl 95, Chem.fl 5]⟩ : Chem.Package).mass = Chem.fl 100 := by decide +kernel
  rw [e]
  rfl

/-- **C122 (violated)**: a material that lists a compound twice: the printout shows the mass of the first twice, so that different packages print alike. -/
theorem C122_duplicates_violated (num : Num → Str) (name : Str) : ∃ p q : Chem.Package, p.mat = q.mat ∧ p ≠ q ∧ p.masses.length = p.mat.compounds.length ∧
    chemPackage num name p = chemPackage num name q := by
  refine ⟨⟨⟨0, [txt "Fe", txt "Fe", txt "Fe"], [], []⟩, [Chem.fl 1, Chem.fl 2, Chem.fl 3]⟩, ⟨⟨0, [txt "Fe", txt "Fe", txt "Fe"], [], []⟩, [Chem.fl 1, Chem.fl 3, Chem.fl 2]⟩,
    rfl, by decide +kernel, rfl, ?_⟩
  have e : (⟨⟨0, [txt "Fe", txt "Fe", txt "Fe"], [], []⟩, [Chem.fl 1, Chem.fl 2, Chem.fl 3]⟩ : Chem.Package).mass =
    (⟨⟨0, [txt "Fe", txt "Fe", txt "Fe"], [], []⟩, [Chem.fl 1, Chem.fl 3, Chem.fl 2]⟩ : Chem.Package).mass := by decide +kernel
  unfold chemPackage
  rw [e]
  rfl

/-! ## Materials of `chem`, `psd` and `slurry` -/

/-- The text of the table of a material: the name, the heading, one line per compound or size class. -/
def tableText (name : Str) (rows : List (List Str)) : Str := txt "Material: name='" ++ name ++ txt "'" ++ nl ++ ((rows.map row).map (· ++ nl)).flatten

theorem plain_nameLine {name : Str} (h : Plain name) : Plain (txt "Material: name='" ++ name ++ txt "'") :=
  plain_append.2 ⟨plain_append.2 ⟨plain_txt _ (by decide), h⟩, plain_txt _ (by decide)⟩

theorem lines_table {name : Str} (h : Plain name) {rows : List (List Str)} (hr : ∀ r ∈ rows, ∀ s ∈ r, Plain s) :
    lines (tableText name rows) = (txt "Material: name='" ++ name ++ txt "'") :: rows.map row ++ [[]] := by
  unfold tableText
  rw [lines_line (plain_nameLine h), lines_of _ rfl]
  · rfl
  · intro s hs
    obtain ⟨r, h1, rfl⟩ := List.mem_map.1 hs
    exact plain_row (hr r h1)

/-- The cells of the table. -/
def cells {κ α : Type} (key : κ → Str) (num : α → Str) (names : List Str) (keys : List κ) (val : Str → κ → α) : List (List Str) :=
  keys.map (fun k => key k :: names.map (fun n => num (val n k)))

theorem cells_plain {κ α : Type} {key : κ → Str} {num : α → Str} {names : List Str} {keys : List κ} {val : Str → κ → α} (hk : ∀ k ∈ keys, Plain (key k)) (hn : ∀ x, Plain (num x)) :
    ∀ r ∈ cells key num names keys val, ∀ s ∈ r, Plain s := by
  intro r hr s hs
  obtain ⟨k, h1, rfl⟩ := List.mem_map.1 hr
  rcases List.mem_cons.1 hs with rfl | hs
  · exact hk k h1
  · obtain ⟨n, _, rfl⟩ := List.mem_map.1 hs
    exact hn _

theorem chemMaterial_text {num : Num → Str} {name : Str} {m : Chem.Material} {val : Str → Str → Num} (hd : m.compounds.Nodup) (hf : Filled m.compounds val m.assays) :
    chemMaterial num name m = .ok (tableText name ((txt "Compound" :: sorted (m.assays.map (·.1))) :: cells id num (sorted (m.assays.map (·.1))) m.compounds val)) := by
  unfold chemMaterial
  dsimp only
  rw [tableLines_ok (indexed_chem hd) hf (fun n hn => mem_sorted.1 hn), headLine_row]
  simp only [tableText, nameLine, cells, List.map_cons, List.flatten_cons, List.map_map, List.append_assoc]
  rfl

theorem psdMaterial_text {key : ℚ → Str} {num : F64 → Str} {name : Str} {m : Psd.Material} {val : Str → ℚ → F64} (hd : m.classes.Nodup) (hf : Filled m.classes val m.assays) :
    psdMaterial key num name m = .ok (tableText name ((txt "Compound" :: sorted (m.assays.map (·.1))) :: cells key num (sorted (m.assays.map (·.1))) m.classes val)) := by
  unfold psdMaterial
  dsimp only
  rw [tableLines_ok (indexed_psd hd) hf (fun n hn => mem_sorted.1 hn), headLine_row]
  simp only [tableText, nameLine, cells, List.map_cons, List.flatten_cons, List.map_map, List.append_assoc]
  rfl

/-- **C122 (chem material)**: the printout is a table with a column per assay, in alphabetical order, and a line per compound; the cell shows what that assay has of that compound. -/
theorem C122_chem_material (num : Num → Str) (name : Str) (m : Chem.Material) (val : Str → Str → Num) (hd : m.compounds.Nodup) (hf : Filled m.compounds val m.assays)
    (hname : Plain name) (ha : ∀ e ∈ m.assays, Plain e.1) (hc : ∀ c ∈ m.compounds, Plain c) (hn : ∀ x, Plain (num x)) :
    ∃ t ns, chemMaterial num name m = .ok t ∧ Alphabetical ns (m.assays.map (·.1)) ∧
      lines t = (txt "Material: name='" ++ name ++ txt "'") :: row (txt "Compound" :: ns) :: m.compounds.map (fun c => row (c :: ns.map (fun n => num (val n c)))) ++ [[]] := by
  refine ⟨_, _, chemMaterial_text hd hf, sorted_alphabetical _, ?_⟩
  rw [lines_table hname]
  · simp only [cells, List.map_cons, List.map_map]; rfl
  · intro r hr
    rcases List.mem_cons.1 hr with rfl | hr
    · intro s hs
      rcases List.mem_cons.1 hs with rfl | hs
      · exact plain_txt _ (by decide)
      · obtain ⟨e, he, rfl⟩ := List.mem_map.1 (mem_sorted.1 hs)
        exact ha e he
    · exact cells_plain (key := id) hc hn r hr

/-- **C122 (psd material)**: the same for size classes. -/
theorem C122_psd_material (key : ℚ → Str) (num : F64 → Str) (name : Str) (m : Psd.Material) (val : Str → ℚ → F64) (hd : m.classes.Nodup) (hf : Filled m.classes val m.assays)
    (hname : Plain name) (ha : ∀ e ∈ m.assays, Plain e.1) (hc : ∀ c, Plain (key c)) (hn : ∀ x, Plain (num x)) :
    ∃ t ns, psdMaterial key num name m = .ok t ∧ Alphabetical ns (m.assays.map (·.1)) ∧
      lines t = (txt "Material: name='" ++ name ++ txt "'") :: row (txt "Compound" :: ns) :: m.classes.map (fun c => row (key c :: ns.map (fun n => num (val n c)))) ++ [[]] := by
  refine ⟨_, _, psdMaterial_text hd hf, sorted_alphabetical _, ?_⟩
  rw [lines_table hname]
  · simp only [cells, List.map_cons, List.map_map]; rfl
  · intro r hr
    rcases List.mem_cons.1 hr with rfl | hr
    · intro s hs
      rcases List.mem_cons.1 hs with rfl | hs
      · exact plain_txt _ (by decide)
      · obtain ⟨e, he, rfl⟩ := List.mem_map.1 (mem_sorted.1 hs)
        exact ha e he
    · exact cells_plain (fun c _ => hc c) hn r hr

/-- **C122 (slurry material)**: two more lines, of the solid densities and the water fractions of the assays. -/
theorem C122_slurry_material (key : ℚ → Str) (num : F64 → Str) (name : Str) (m : Slurry.Material) (val : Str → ℚ → F64) (dens water : Str → ℚ) (hd : m.psd.classes.Nodup)
    (hf : Filled m.psd.classes val m.psd.assays) (h1 : ∀ e ∈ m.psd.assays, m.densities.lookup e.1 = some (dens e.1)) (h2 : ∀ e ∈ m.psd.assays, m.waters.lookup e.1 = some (water e.1))
    (hname : Plain name) (ha : ∀ e ∈ m.psd.assays, Plain e.1) (hc : ∀ c, Plain (key c)) (hn : ∀ x, Plain (num x)) :
    ∃ t ns, slurryMaterial key num name m = .ok t ∧ Alphabetical ns (m.psd.assays.map (·.1)) ∧
      lines t = (txt "Material: name='" ++ name ++ txt "'") :: row (txt "Compound" :: ns) :: row (txt "Solid density" :: ns.map (fun n => key (dens n))) ::
        row (txt "H2O fraction" :: ns.map (fun n => key (water n))) :: m.psd.classes.map (fun c => row (key c :: ns.map (fun n => num (val n c)))) ++ [[]] := by
  have hmem : ∀ {P : Str → Prop}, (∀ e ∈ m.psd.assays, P e.1) → ∀ n ∈ sorted (m.psd.assays.map (·.1)), P n := by
    intro P hP n hn
    obtain ⟨e, he, rfl⟩ := List.mem_map.1 (mem_sorted.1 hn)
    exact hP e he
  have e : slurryMaterial key num name m = .ok (tableText name ((txt "Compound" :: sorted (m.psd.assays.map (·.1))) ::
      (txt "Solid density" :: (sorted (m.psd.assays.map (·.1))).map (fun n => key (dens n))) :: (txt "H2O fraction" :: (sorted (m.psd.assays.map (·.1))).map (fun n => key (water n))) ::
      cells key num (sorted (m.psd.assays.map (·.1))) m.psd.classes val)) := by
    unfold slurryMaterial
    dsimp only
    rw [tableLines_ok (indexed_psd hd) hf (fun n hn => mem_sorted.1 hn), headLine_row, dictLine_ok (hmem (P := fun n => m.densities.lookup n = some (dens n)) h1),
      dictLine_ok (hmem (P := fun n => m.waters.lookup n = some (water n)) h2)]
    simp only [tableText, nameLine, cells, List.map_cons, List.flatten_cons, List.map_map, List.append_assoc]
    rfl
  refine ⟨_, _, e, sorted_alphabetical _, ?_⟩
  rw [lines_table hname]
  · simp only [cells, List.map_cons, List.map_map]; rfl
  · have hks : ∀ (l : String) (f : Str → ℚ), '\n' ∉ l.toList → ∀ s ∈ txt l :: (sorted (m.psd.assays.map (·.1))).map (fun n => key (f n)), Plain s := by
      intro l f hl s hs
      rcases List.mem_cons.1 hs with rfl | hs
      · exact plain_txt _ hl
      · obtain ⟨n, _, rfl⟩ := List.mem_map.1 hs
        exact hc _
    intro r hr
    rcases List.mem_cons.1 hr with rfl | hr
    · intro s hs
      rcases List.mem_cons.1 hs with rfl | hs
      · exact plain_txt _ (by decide)
      · exact hmem ha s hs
    rcases List.mem_cons.1 hr with rfl | hr
    · exact hks _ dens (by decide)
    rcases List.mem_cons.1 hr with rfl | hr
    · exact hks _ water (by decide)
    · exact cells_plain (fun c _ => hc c) hn r hr

end Auxi.Printout.Props
