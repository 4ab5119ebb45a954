import Verif.Props.Printout

/-! # C122, continued: printed tables can be read back; the printouts of `thermo` -/
namespace Auxi.Printout.Props
open Auxi Auxi.Printout Auxi.Printout.Spec Auxi.Printout.Proofs
open Auxi.FileFormat (strLe pyFloat readChem readPsd)
open Auxi.FileFormat.Spec (Item Row Layout Full Holds Column)
open Auxi.Chem (Num)
open Auxi.Psd (F64)
open Auxi.Thermo (V vadd vdiv vgt vsum)
open Auxi.Thermo.Props (molar Weighed)

/-! ## Reading a table back -/

/-- The rows of a table. -/
def rowsOf {κ α : Type} (key : κ → Str) (num : α → Str) (value : α → ℚ) (names : List Str) (keys : List κ) (val : Str → κ → α) : List Row :=
  keys.map (fun k => ⟨key k, names.map (fun n => num (val n k)), names.map (fun n => value (val n k)), []⟩)

theorem rowsOf_items {κ α : Type} {key : κ → Str} {num : α → Str} {value : α → ℚ} {names : List Str} {keys : List κ} {val : Str → κ → α} :
    (rowsOf key num value names keys val).map Row.items = cells key num names keys val := by
  simp only [rowsOf, cells, List.map_map]
  refine List.map_congr_left fun k _ => ?_
  simp [Row.items]

theorem rowsOf_full {κ α : Type} {key : κ → Str} {num : α → Str} {value : α → ℚ} {names : List Str} {keys : List κ} {val : Str → κ → α}
    (h : ∀ n ∈ names, ∀ k ∈ keys, pyFloat (num (val n k)) = .ok (value (val n k))) : Full names (cells key num names keys val) (rowsOf key num value names keys val) := by
  refine ⟨?_, ?_, Or.inr ?_⟩
  · rw [rowsOf_items, List.filter_eq_self]
    intro r hr
    obtain ⟨k, _, rfl⟩ := List.mem_map.1 hr
    simp
  · intro r hr
    obtain ⟨k, hk, rfl⟩ := List.mem_map.1 hr
    refine ⟨by simp, ?_⟩
    rw [List.forall₂_map_left_iff, List.forall₂_map_right_iff, List.forall₂_same]
    exact fun n hn => h n hn k hk
  · intro hm
    obtain ⟨k, _, h⟩ := List.mem_map.1 hm
    cases h

theorem holds_lookup {κ α : Type} {key : κ → Str} {num : α → Str} {value : α → ℚ} {names : List Str} {keys : List κ} {val : Str → κ → α} {d : List (Str × List ℚ)}
    (h : Holds names (rowsOf key num value names keys val) d) {n : Str} (hn : n ∈ names) : d.lookup n = some (keys.map (fun k => value (val n k))) := by
  obtain ⟨j, hlt, hj⟩ := List.mem_iff_getElem.1 hn
  have hj' : names[j]? = some n := by rw [List.getElem?_eq_getElem hlt, hj]
  obtain ⟨l, h1, h2⟩ := h.2 j n hj'
  have e : l.map some = (keys.map (fun k => value (val n k))).map some := by
    rw [h2]
    simp only [rowsOf, List.map_map]
    refine List.map_congr_left fun k _ => ?_
    simp only [Function.comp_apply, List.getElem?_map, hj', Option.map_some]
  rw [h1, List.map_injective_iff.2 (Option.some_injective _) e]

theorem lookup_none {α : Type} {d : List (Str × α)} {n : Str} (h : n ∉ d.map (·.1)) : d.lookup n = none := by
  induction d with
  | nil => rfl
  | cons e d ih =>
    obtain ⟨e1, e2⟩ := e
    simp only [List.map_cons, List.mem_cons, not_or] at h
    rw [List.lookup_cons, beq_eq_false_iff_ne.2 h.1]
    exact ih h.2

theorem narrow_plain {s : Str} (h : Narrow s) : Plain s := fun hm => by
  have := h.1.2 _ hm
  revert this; decide

theorem narrow_compound : Narrow (txt "Compound") := ⟨⟨by decide, by decide⟩, by decide⟩

theorem table_layout {κ α : Type} {key : κ → Str} {num : α → Str} {names : List Str} {keys : List κ} {val : Str → κ → α} (hn : ∀ n ∈ names, Narrow n) (hk : ∀ k ∈ keys, Narrow (key k))
    (hv : ∀ n ∈ names, ∀ k ∈ keys, Narrow (num (val n k))) {name : Str} (hname : Plain name) :
    Layout ((txt "Compound" :: names) :: cells key num names keys val) (body (tableText name ((txt "Compound" :: names) :: cells key num names keys val))) := by
  unfold tableText
  rw [body_line (plain_nameLine hname)]
  apply rows_layout
  · intro r hr
    rcases List.mem_cons.1 hr with rfl | hr
    · simp
    · obtain ⟨k, _, rfl⟩ := List.mem_map.1 hr; simp
  · intro r hr s hs
    rcases List.mem_cons.1 hr with rfl | hr
    · rcases List.mem_cons.1 hs with rfl | hs
      · exact narrow_compound
      · exact hn s hs
    · obtain ⟨k, hkm, rfl⟩ := List.mem_map.1 hr
      rcases List.mem_cons.1 hs with rfl | hs
      · exact hk k hkm
      · obtain ⟨n, hnm, rfl⟩ := List.mem_map.1 hs
        exact hv n hnm k hkm

theorem filled_cell {κ α : Type} {keys : List κ} {val : Str → κ → α} {assays : List (Str × List α)} (h : Filled keys val assays) {P : α → Prop} (hp : ∀ e ∈ assays, ∀ x ∈ e.2, P x) :
    ∀ n ∈ sorted (assays.map (·.1)), ∀ k ∈ keys, P (val n k) := by
  intro n hn k hk
  obtain ⟨e, he, rfl⟩ := List.mem_map.1 (mem_sorted.1 hn)
  refine hp e he _ ?_
  rw [h.2 e he]
  exact List.mem_map_of_mem hk

theorem filled_lookup {κ α : Type} {keys : List κ} {val : Str → κ → α} {assays : List (Str × List α)} (h : Filled keys val assays) {n : Str} (hn : n ∈ assays.map (·.1)) :
    assays.lookup n = some (keys.map (val n)) := by
  obtain ⟨x, h1, h2⟩ := lookup_mem hn
  rw [h1]; exact congrArg some (h.2 _ h2)

/-- **C122 (chem material, nothing is lost)**: without its first line, the printout is itself a material file.  Reading it gives a material with the same compounds and assays, provided
that all names and numbers are narrower than the columns and `float` understands the numbers as `str` wrote them. -/
theorem C122_chem_readback (i : ℕ) (num : Num → Str) (name : Str) (m : Chem.Material) (val : Str → Str → Num) (els : List Str) (hd : m.compounds.Nodup)
    (hf : Filled m.compounds val m.assays) (hname : Plain name) (ha : ∀ e ∈ m.assays, Narrow e.1) (hc : ∀ c ∈ m.compounds, Narrow c)
    (hn : ∀ e ∈ m.assays, ∀ x ∈ e.2, Narrow (num x) ∧ pyFloat (num x) = .ok x.val) (he : Stoich.elements m.compounds = .ok els) :
    ∃ t m', chemMaterial num name m = .ok t ∧ readChem i (body t) = .ok m' ∧ m'.compounds = m.compounds ∧
      (∀ n, m'.assays.lookup n = (m.assays.lookup n).map (·.map fun x => Chem.fl x.val)) ∧ els.Perm m'.elements := by
  have hnames : ∀ n ∈ sorted (m.assays.map (·.1)), Narrow n := by
    intro n hn
    obtain ⟨e, h, rfl⟩ := List.mem_map.1 (mem_sorted.1 hn)
    exact ha e h
  have hcell := filled_cell hf hn
  have hlab : (rowsOf id num Num.val (sorted (m.assays.map (·.1))) m.compounds val).map Row.label = m.compounds := by
    simp [rowsOf, Function.comp_def]
  obtain ⟨m', d, h1, h2, h3, h4, h5⟩ := FileFormat.Props.C95_chem (i := i) (els := els)
    (table_layout (key := id) (num := num) (val := val) hnames hc (fun n hn k hk => (hcell n hn k hk).1) hname)
    ((sorted_alphabetical _).1.nodup_iff.2 hf.1) (rowsOf_full (value := Num.val) (fun n hn k hk => (hcell n hn k hk).2)) (by rw [hlab]; exact he)
  refine ⟨_, m', chemMaterial_text hd hf, h1, h2.trans hlab, ?_, h5⟩
  intro n
  rw [h4, FileFormat.Props.lookup_map]
  by_cases hm : n ∈ m.assays.map (·.1)
  · rw [holds_lookup h3 (mem_sorted.2 hm), filled_lookup hf hm]
    simp [Function.comp_def]
  · rw [lookup_none (d := d), lookup_none hm]
    · rfl
    · rw [h3.1]; exact fun h => hm (mem_sorted.1 h)

/-- The number, if finite. -/
def ratOf : F64 → ℚ
  | .fin q => q
  | _ => 0

/-- **C122 (psd material, nothing is lost)**: the same. -/
theorem C122_psd_readback (i : ℕ) (key : ℚ → Str) (num : F64 → Str) (name : Str) (m : Psd.Material) (val : Str → ℚ → F64) (hd : m.classes.Nodup)
    (hf : Filled m.classes val m.assays) (hname : Plain name) (ha : ∀ e ∈ m.assays, Narrow e.1) (hc : ∀ c ∈ m.classes, Narrow (key c) ∧ pyFloat (key c) = .ok c)
    (hn : ∀ e ∈ m.assays, ∀ x ∈ e.2, Narrow (num x) ∧ ∃ q, x = .fin q ∧ pyFloat (num x) = .ok q) :
    ∃ t m', psdMaterial key num name m = .ok t ∧ readPsd i (body t) = .ok m' ∧ m'.classes = m.classes ∧ ∀ n, m'.assays.lookup n = m.assays.lookup n := by
  have hnames : ∀ n ∈ sorted (m.assays.map (·.1)), Narrow n := by
    intro n hn
    obtain ⟨e, h, rfl⟩ := List.mem_map.1 (mem_sorted.1 hn)
    exact ha e h
  have hcell := filled_cell hf hn
  have hval : ∀ n ∈ sorted (m.assays.map (·.1)), ∀ k ∈ m.classes, pyFloat (num (val n k)) = .ok (ratOf (val n k)) ∧ val n k = .fin (ratOf (val n k)) := by
    intro n hn k hk
    obtain ⟨q, e, h⟩ := (hcell n hn k hk).2
    rw [h, e]; exact ⟨rfl, rfl⟩
  obtain ⟨m', d, h1, h2, h3, h4⟩ := FileFormat.Props.C95_psd (i := i) (classes := m.classes)
    (table_layout (key := key) (num := num) (val := val) hnames (fun k hk => (hc k hk).1) (fun n hn k hk => (hcell n hn k hk).1) hname)
    ((sorted_alphabetical _).1.nodup_iff.2 hf.1) (rowsOf_full (value := ratOf) (fun n hn k hk => (hval n hn k hk).1))
    (by
      unfold rowsOf
      rw [List.forall₂_map_left_iff, List.forall₂_same]
      exact fun k hk => (hc k hk).2)
  refine ⟨_, m', psdMaterial_text hd hf, h1, h2, ?_⟩
  intro n
  rw [h4, FileFormat.Props.lookup_map]
  by_cases hm : n ∈ m.assays.map (·.1)
  · rw [holds_lookup h3 (mem_sorted.2 hm), filled_lookup hf hm]
    simp only [Option.map_some, List.map_map, Option.some.injEq]
    exact List.map_congr_left fun k hk => (hval n (mem_sorted.2 hm) k hk).2.symm
  · rw [lookup_none (d := d), lookup_none hm]
    · rfl
    · rw [h3.1]; exact fun h => hm (mem_sorted.1 h)

/-- A chem material with two assays. -/
def steelEx (a b : Num) : Chem.Material := ⟨0, [txt "Fe"], [(txt "A", [a]), (txt "B", [b])], [txt "Fe"]⟩

theorem steelEx_filled (a b : Num) : Filled (steelEx a b).compounds (fun n _ => if n = txt "A" then a else b) (steelEx a b).assays := by
  refine ⟨by change [txt "A", txt "B"].Nodup; decide, ?_⟩
  intro e he
  simp only [steelEx, List.mem_cons, List.not_mem_nil, or_false] at he
  rcases he with rfl | rfl
  · simp [steelEx]
  · simp only [steelEx, List.map_cons, List.map_nil, List.cons.injEq, and_true]
    rw [if_neg (by decide)]

theorem narrow_of {s : String} (h : s.toList ≠ [] ∧ (∀ c ∈ s.toList, FileFormat.isSpace c = false) ∧ s.toList.length < 20) : Narrow (txt s) := ⟨⟨h.1, h.2.1⟩, h.2.2⟩

/-- `str(x)` of an example that `float` understands. -/
def halfEx (x : Num) : Str := if x.val = 1 / 2 then txt "0.5" else txt "2.5e-05"

example : ∃ t m', chemMaterial halfEx (txt "steel") (steelEx (Chem.fl (1 / 2)) (Chem.fl (1 / 40000))) = .ok t ∧ readChem 7 (body t) = .ok m' ∧ m'.compounds = [txt "Fe"] ∧
    m'.assays.lookup (txt "B") = some [Chem.fl (1 / 40000)] := by
  obtain ⟨t, m', h1, h2, h3, h4, _⟩ := C122_chem_readback 7 halfEx (txt "steel") (steelEx (Chem.fl (1 / 2)) (Chem.fl (1 / 40000))) _ [txt "Fe"] (by decide)
    (steelEx_filled _ _) (plain_txt _ (by decide))
    (by
      intro e he
      simp only [steelEx, List.mem_cons, List.not_mem_nil, or_false] at he
      rcases he with rfl | rfl <;> exact narrow_of (by decide))
    (by
      intro c hc
      simp only [steelEx, List.mem_cons, List.not_mem_nil, or_false] at hc
      subst hc; exact narrow_of (by decide))
    (by
      intro e he x hx
      simp only [steelEx, List.mem_cons, List.not_mem_nil, or_false] at he
      rcases he with rfl | rfl <;> simp only [List.mem_cons, List.not_mem_nil, or_false] at hx <;> subst hx
      · have e : halfEx (Chem.fl (1 / 2)) = txt "0.5" := by decide +kernel
        rw [e]; exact ⟨narrow_of (by decide), by decide +kernel⟩
      · have e : halfEx (Chem.fl (1 / 40000)) = txt "2.5e-05" := by decide +kernel
        rw [e]; exact ⟨narrow_of (by decide), by decide +kernel⟩)
    (by decide +kernel)
  exact ⟨t, m', h1, h2, h3, (h4 _).trans (by rfl)⟩

theorem items_append {a b : Str} (ha : Item a) (hb : Item b) : Item (a ++ b) :=
  ⟨by simp [ha.1], fun c hc => (List.mem_append.1 hc).elim (ha.2 c) (hb.2 c)⟩

/-- **C122 (violated for long numbers)**: a number of twenty or more characters, such as `1.2345678901234567e-05`, leaves no blank before the next: the two numbers run together.  Whoever
reads the table finds one number too few; the reader of material files skips the compound. -/
theorem C122_wide_violated (i : ℕ) (num : Num → Str) (a b : Num) (ha : Item (num a)) (hw : 20 ≤ (num a).length) (hb : Item (num b)) :
    ∃ t m', chemMaterial num (txt "steel") (steelEx a b) = .ok t ∧ lines t = [txt "Material: name='steel'", txt "Compound            A                   B                   ",
      txt "Fe                  " ++ num a ++ num b ++ List.replicate (20 - (num b).length) ' ', []] ∧
      readChem i (body t) = .ok m' ∧ m'.compounds = [] := by
  have hs : sorted ((steelEx a b).assays.map (·.1)) = [txt "A", txt "B"] := by
    change sorted [txt "A", txt "B"] = _; decide +kernel
  have ht := chemMaterial_text (num := num) (name := txt "steel") (m := steelEx a b) (by simp [steelEx]) (steelEx_filled a b)
  have hr : (txt "Compound" :: sorted ((steelEx a b).assays.map (·.1))) :: cells id num (sorted ((steelEx a b).assays.map (·.1))) (steelEx a b).compounds
      (fun n _ => if n = txt "A" then a else b) = [[txt "Compound", txt "A", txt "B"], [txt "Fe", num a, num b]] := by
    rw [hs]
    simp only [cells, steelEx, List.map_cons, List.map_nil]
    rw [if_neg (show ¬ txt "B" = txt "A" by decide)]
    rfl
  rw [hr] at ht
  have hlong : ljust 20 (num a) = num a := by
    unfold ljust
    rw [show 20 - (num a).length = 0 by omega]; simp
  have hrow : row [txt "Fe", num a, num b] = txt "Fe" ++ List.replicate 18 ' ' ++ (num a ++ num b) ++ List.replicate (20 - (num b).length) ' ' := by
    unfold row
    simp only [List.map_cons, List.map_nil, List.flatten_cons, List.flatten_nil, List.append_nil, hlong]
    simp only [ljust, List.append_assoc]
    rfl
  have hline : FileFormat.Spec.Line [txt "Fe", num a ++ num b] (row [txt "Fe", num a, num b]) := by
    rw [hrow]
    have : txt "Fe" ++ List.replicate 18 ' ' ++ (num a ++ num b) ++ List.replicate (20 - (num b).length) ' ' =
      [] ++ (txt "Fe" ++ List.replicate 18 ' ' ++ (num a ++ num b)) ++ List.replicate (20 - (num b).length) ' ' := rfl
    rw [this]
    exact .items (fun _ h => by cases h) (.cons (narrow_of (by decide)).1 (by decide) (blank_replicate _) (.one (items_append ha hb))) (blank_replicate _)
  have hl : Layout ((txt "Compound" :: [txt "A", txt "B"]) :: [[txt "Fe", num a ++ num b]]) (body (tableText (txt "steel") [[txt "Compound", txt "A", txt "B"], [txt "Fe", num a, num b]])) := by
    unfold tableText
    rw [body_line (plain_nameLine (plain_txt _ (by decide)))]
    simp only [List.map_cons, List.map_nil, List.flatten_cons, List.flatten_nil]
    refine .cons (row_line (by simp) ?_) (Or.inl rfl) (.cons hline (Or.inl rfl) .nil)
    intro s hs
    simp only [List.mem_cons, List.not_mem_nil, or_false] at hs
    rcases hs with rfl | rfl | rfl <;> exact narrow_of (by decide)
  obtain ⟨m', d, h1, h2, _⟩ := FileFormat.Props.C95_chem (i := i) (rows := []) (els := []) hl (by decide) ⟨rfl, by simp, Or.inl (by simp)⟩ (by decide +kernel)
  refine ⟨_, m', ht, ?_, h1, h2⟩
  rw [lines_table (plain_txt _ (by decide))]
  · simp only [List.map_cons, List.map_nil, hrow]
    simp only [List.append_assoc]
    rfl
  · intro r hr s hs
    simp only [List.mem_cons, List.not_mem_nil, or_false] at hr
    have pl : ∀ {s}, Item s → Plain s := fun h hm => by have := h.2 _ hm; revert this; decide
    rcases hr with rfl | rfl <;> simp only [List.mem_cons, List.not_mem_nil, or_false] at hs <;> rcases hs with rfl | rfl | rfl
    · exact plain_txt _ (by decide)
    · exact plain_txt _ (by decide)
    · exact plain_txt _ (by decide)
    · exact plain_txt _ (by decide)
    · exact pl ha
    · exact pl hb

example : Item (txt "1.2345678901234567e-05") ∧ 20 ≤ (txt "1.2345678901234567e-05").length ∧ Item (txt "0.5") := ⟨⟨by decide, by decide⟩, by decide, by decide, by decide⟩

end Auxi.Printout.Props
