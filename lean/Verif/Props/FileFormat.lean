import Verif.Proofs.FileCustom
import Verif.Spec.Chem
import Verif.Spec.Psd
import Verif.Spec.Stoich
import Verif.Props.Chem
import Mathlib.Tactic.FieldSimp

/-!
# C95: material files

A text with a given layout (`Spec.Layout`: items separated by blanks and tabs, lines) is read as exactly what it says.
-/
namespace Auxi.FileFormat.Props
open Auxi.FileFormat Auxi.FileFormat.Spec

/-! ### Layout does not matter -/

/-- **C95 (white space is irrelevant).** Two files with the same items in the same lines are read alike, whatever blanks, tabs and line ends
separate them: the same material or the same exception. -/
theorem C95_layout_irrelevant {rows : List (List Str)} {t u : Str} (ht : Layout rows t) (hu : Layout rows u) (i : ℕ) :
    readChem i t = readChem i u ∧ readPsd i t = readPsd i u ∧ readSlurry i t = readSlurry i u ∧ readThermo i t = readThermo i u := by
  have h : (fileLines t).map split = (fileLines u).map split := (fileLines_layout ht).trans (fileLines_layout hu).symm
  refine ⟨chemOfLines_congr i _ _ h, psdOfLines_congr i _ _ h, slurryOfLines_congr i _ _ h, ?_⟩
  unfold readThermo readThermoData
  rw [thermoOfLines_congr _ _ h]

theorem items_write : ∀ (fs : List Str), fs ≠ [] → (∀ f ∈ fs, Item f) → Items fs ([' '].intercalate fs)
  | [], h, _ => absurd rfl h
  | [f], _, h => by simpa [List.intercalate] using Items.one (h f (by simp))
  | f :: g :: fs, _, h => by
    have ih := items_write (g :: fs) (by simp) (fun x hx => h x (by simp [hx]))
    have := Items.cons (h f (by simp)) (g := [' ']) (by simp) (by intro c hc; simp at hc; exact Or.inl hc) ih
    simpa [List.intercalate] using this

/-- The plain writer produces the layout (the hypotheses of `C95_layout_irrelevant` can be met for all rows of items). -/
theorem layout_write (rows : List (List Str)) (h : ∀ fs ∈ rows, ∀ f ∈ fs, Item f) : Layout rows (write rows) := by
  induction rows with
  | nil => exact .nil
  | cons fs rows ih =>
    have e : write (fs :: rows) = [' '].intercalate fs ++ ['\n'] ++ write rows := by simp [write]
    rw [e]
    refine .cons ?_ (Or.inl rfl) (ih (fun x hx => h x (by simp [hx])))
    by_cases hf : fs = []
    · subst hf; exact .blank (by simp [Blank, List.intercalate])
    · have := Line.items (a := []) (b := []) (by simp [Blank]) (items_write fs hf (h fs (by simp))) (by simp [Blank])
      simpa using this

/-- Reading a laid out text is reading any lines with the same items (used for the concrete examples below). -/
theorem reads {rows : List (List Str)} {t : Str} (ht : Layout rows t) {lines : List Str} (hl : lines.map split = rows.map cut) (i : ℕ) :
    readChem i t = chemOfLines i lines ∧ readPsd i t = psdOfLines i lines ∧ readSlurry i t = slurryOfLines i lines ∧
    readThermoData t = thermoOfLines lines := by
  have h : (fileLines t).map split = lines.map split := (fileLines_layout ht).trans hl.symm
  exact ⟨chemOfLines_congr i _ _ h, psdOfLines_congr i _ _ h, slurryOfLines_congr i _ _ h, thermoOfLines_congr _ _ h⟩

instance (s : Str) : Decidable (Item s) := inferInstanceAs (Decidable (s ≠ [] ∧ _))

/-! ### chem -/

theorem cut_cons (f : Str) (fs : List Str) : cut (f :: fs) = f :: fs := if_neg (by simp)

/-- The header of a laid out file, and the remaining lines. -/
theorem header_layout {corner : Str} {names : List Str} {layout : List (List Str)} {t : Str} (h : Layout ((corner :: names) :: layout) t) :
    ∃ x lines, fileLines t = x :: lines ∧ assayNames x = names ∧ lines.map split = layout.map cut := by
  have h1 := fileLines_layout h
  cases h2 : fileLines t with
  | nil => rw [h2] at h1; simp at h1
  | cons x lines =>
    rw [h2] at h1
    simp only [List.map_cons, List.cons.injEq, cut_cons] at h1
    exact ⟨x, lines, rfl, by unfold assayNames; rw [h1.1]; rfl, h1.2⟩

/-- **C95 (chem).** A file with a heading line naming the assays and lines of a compound and its numbers is read as a material with exactly
these compounds, assays and numbers; lines with too few items are skipped, further items ignored; the element list is that of the compounds. -/
theorem C95_chem {i : ℕ} {t corner : Str} {names : List Str} {layout : List (List Str)} {rows : List Row} {els : List Str}
    (ht : Layout ((corner :: names) :: layout) t) (hn : names.Nodup) (hr : Full names layout rows)
    (he : Stoich.elements (rows.map Row.label) = .ok els) :
    ∃ m d, readChem i t = .ok m ∧ m.compounds = rows.map Row.label ∧ Holds names rows d ∧
      m.assays = d.map (fun e => (e.1, e.2.map Chem.fl)) ∧ els.Perm m.elements := by
  obtain ⟨x, lines, h1, h2, h3⟩ := header_layout ht
  obtain ⟨d, h4, h5⟩ := tableRows_spec (label := fun s => .ok s) hn layout lines rows (rows.map Row.label) h3 hr (forall₂_label rows) [] []
    (initDict [] names) (holds_init hn)
  obtain ⟨l, h6, h7⟩ := elementList_spec he
  refine ⟨⟨i, rows.map Row.label, d.map (fun e => (e.1, e.2.map Chem.fl)), l⟩, d, ?_, rfl, by simpa using h5, rfl, h7.symm⟩
  unfold readChem
  rw [h1]
  simp only [chemOfLines, h2]
  rw [show (fun s => Except.ok s : Str → Res Str) = Except.ok from rfl] at h4
  rw [h4]
  simp only [List.nil_append, h6]

/-- **C95 (chem, refusal).** If the formula of a compound cannot be parsed the material is not created. -/
theorem C95_chem_refuses {i : ℕ} {t corner : Str} {names : List Str} {layout : List (List Str)} {rows : List Row} {e : PyErr}
    (ht : Layout ((corner :: names) :: layout) t) (hn : names.Nodup) (hr : Full names layout rows)
    (he : Stoich.elements (rows.map Row.label) = .error e) : readChem i t = .error e := by
  obtain ⟨x, lines, h1, h2, h3⟩ := header_layout ht
  obtain ⟨d, h4, h5⟩ := tableRows_spec (label := fun s => .ok s) hn layout lines rows (rows.map Row.label) h3 hr (forall₂_label rows) [] []
    (initDict [] names) (holds_init hn)
  unfold readChem
  rw [h1]
  simp only [chemOfLines, h2]
  rw [show (fun s => Except.ok s : Str → Res Str) = Except.ok from rfl] at h4
  rw [h4]
  simp only [List.nil_append, elementList_error he]

theorem column_length {rows : List Row} {j : ℕ} {l : List ℚ} (h : Column rows j l) : l.length = rows.length := by
  have := congrArg List.length h
  simpa using this

theorem lookup_map {α β : Type} (f : α → β) (k : Str) : ∀ d : List (Str × α), (d.map (fun e => (e.1, f e.2))).lookup k = (d.lookup k).map f
  | [] => rfl
  | (k', v) :: d => by
    simp only [List.map_cons, List.lookup_cons]
    cases k == k'
    · exact lookup_map f k d
    · rfl

/-- **C95 (chem, use).** The material read from a file that lists no compound twice satisfies what the package theorems (C50-C54) assume of
a material, and the package made of any of its assays has the masses the file says: mass times the assay's number over the assay's total. -/
theorem C95_chem_package {i : ℕ} {t corner : Str} {names : List Str} {layout : List (List Str)} {rows : List Row} {els : List Str}
    (ht : Layout ((corner :: names) :: layout) t) (hn : names.Nodup) (hr : Full names layout rows)
    (he : Stoich.elements (rows.map Row.label) = .ok els) (hd : (rows.map Row.label).Nodup)
    {j : ℕ} {name : Str} (hj : names[j]? = some name) {col : List ℚ} (hc : Column rows j col) (h0 : col.sum ≠ 0) (mass : ℚ) :
    ∃ m, readChem i t = .ok m ∧ Chem.Spec.MatOK m ∧
      ∃ p, m.createPackage (some name) (Chem.fl mass) true = .ok p ∧ p.mass.val = mass ∧
        p.masses.map Chem.Num.val = col.map (fun x => mass * (x / col.sum)) := by
  obtain ⟨m, d, h1, h2, h3, h4, h5⟩ := C95_chem (i := i) ht hn hr he
  refine ⟨m, h1, ⟨by rw [h2]; exact hd, ⟨els, by rw [h2]; exact he, h5⟩⟩, ?_⟩
  obtain ⟨l, hl, hcol⟩ := h3.2 j name hj
  have e : l = col := by
    have : l.map some = col.map some := by rw [hcol, hc]
    exact List.map_injective_iff.2 (Option.some_injective _) this
  subst e
  have hk : m.assays.lookup name = some (l.map Chem.fl) := by rw [h4, lookup_map, hl]; rfl
  have hv : (l.map Chem.fl).map Chem.Num.val = l := by simp [Chem.fl, Function.comp_def]
  obtain ⟨p, g1, _, g2, g3⟩ := Chem.Props.C50_create m name (l.map Chem.fl) (Chem.fl mass) hk (by rw [hv]; exact h0)
  refine ⟨p, g1, g2, ?_⟩
  rw [g3, hv]
  simp [Chem.fl, Function.comp_def]

/-! ### psd -/

/-- **C95 (psd).** Likewise for particle size distributions: the first items are numbers, the size classes. -/
theorem C95_psd {i : ℕ} {t corner : Str} {names : List Str} {layout : List (List Str)} {rows : List Row} {classes : List ℚ}
    (ht : Layout ((corner :: names) :: layout) t) (hn : names.Nodup) (hr : Full names layout rows)
    (hc : List.Forall₂ (fun r k => pyFloat r.label = .ok k) rows classes) :
    ∃ m d, readPsd i t = .ok m ∧ m.classes = classes ∧ Holds names rows d ∧ m.assays = d.map (fun e => (e.1, e.2.map .fin)) := by
  obtain ⟨x, lines, h1, h2, h3⟩ := header_layout ht
  obtain ⟨d, h4, h5⟩ := tableRows_spec hn layout lines rows classes h3 hr hc [] [] (initDict [] names) (holds_init hn)
  refine ⟨⟨i, classes, d.map (fun e => (e.1, e.2.map .fin))⟩, d, ?_, rfl, by simpa using h5, rfl⟩
  unfold readPsd
  rw [h1]
  simp only [psdOfLines, h2, h4, List.nil_append]

/-! ### slurry -/

/-- **C95 (slurry).** The second line gives the solid densities, the third the water fractions, the others the size classes. -/
theorem C95_slurry {i : ℕ} {t corner : Str} {names : List Str} {layout : List (List Str)} {rows : List Row} {classes : List ℚ} {rd rw : Row}
    (ht : Layout ((corner :: names) :: rd.items :: rw.items :: layout) t) (hn : names.Nodup)
    (h2d : rd.label = "solid_density".toList) (h2w : rw.label = "H2O".toList) (hd : rd.Denotes names.length) (hw : rw.Denotes names.length)
    (hr : Full names layout rows) (hc : List.Forall₂ (fun r k => pyFloat r.label = .ok k) rows classes) :
    ∃ m d, readSlurry i t = .ok m ∧ m.psd.classes = classes ∧ Holds names rows d ∧ m.psd.assays = d.map (fun e => (e.1, e.2.map .fin)) ∧
      m.densities.map (·.1) = names ∧ m.waters.map (·.1) = names ∧
      ∀ (j : ℕ) (name : Str), names[j]? = some name → m.densities.lookup name = rd.values[j]? ∧ m.waters.lookup name = rw.values[j]? := by
  obtain ⟨x, lines, h1, h2, h3⟩ := header_layout ht
  have cutI : ∀ r : Row, cut r.items = r.items := fun r => cut_cons _ _
  match lines, h3 with
  | [], h3 => simp at h3
  | [_], h3 => simp at h3
  | l1 :: l2 :: lines, h3 =>
    simp only [List.map_cons, List.cons.injEq, cutI] at h3
    obtain ⟨d1, e1, k1, v1⟩ := titledRow_spec hn hd h2d h3.1 1
    obtain ⟨d2, e2, k2, v2⟩ := titledRow_spec hn hw h2w h3.2.1 0
    obtain ⟨d, h4, h5⟩ := tableRows_spec hn layout lines rows classes h3.2.2 hr hc [] [] (initDict [] names) (holds_init hn)
    refine ⟨⟨⟨i, classes, d.map (fun e => (e.1, e.2.map .fin))⟩, d1, d2⟩, d, ?_, rfl, by simpa using h5, rfl, k1, k2,
      fun j name hj => ⟨v1 j name hj, v2 j name hj⟩⟩
    unfold readSlurry
    rw [h1]
    simp only [slurryOfLines, h2, List.getElem?_cons_zero, List.getElem?_cons_succ, e1, e2, List.drop_succ_cons, List.drop_zero, h4,
      List.nil_append]

/-- **C95 (slurry, refusal).** A file whose second line does not start with `solid_density`, or whose third does not start with `H2O`, is
refused (with numbers in order on the second line). -/
theorem C95_slurry_refuses {i : ℕ} {t corner : Str} {names : List Str} {layout : List (List Str)} :
    (∀ fs, fs.headD [] ≠ "solid_density".toList → Layout ((corner :: names) :: fs :: layout) t → readSlurry i t = .error .exception) ∧
    (∀ (rd : Row) (fs : List Str), names.Nodup → rd.label = "solid_density".toList → rd.Denotes names.length → fs.headD [] ≠ "H2O".toList →
      Layout ((corner :: names) :: rd.items :: fs :: layout) t → readSlurry i t = .error .exception) := by
  have hcut : ∀ (fs : List Str), (cut fs).headD [] = fs.headD [] := by
    intro fs
    unfold cut
    split
    · rename_i h; subst h; rfl
    · rfl
  constructor
  · intro fs hfs ht
    obtain ⟨x, lines, h1, h2, h3⟩ := header_layout ht
    cases lines with
    | nil => simp at h3
    | cons l lines =>
      simp only [List.map_cons, List.cons.injEq] at h3
      unfold readSlurry
      rw [h1]
      simp only [slurryOfLines, h2, List.getElem?_cons_zero, titledRow, h3.1, hcut]
      rw [if_pos hfs]
  · intro rd fs hn hl hd hfs ht
    obtain ⟨x, lines, h1, h2, h3⟩ := header_layout ht
    match lines, h3 with
    | [], h3 => simp at h3
    | [_], h3 => simp at h3
    | l1 :: l2 :: lines, h3 =>
      have cutI : cut rd.items = rd.items := cut_cons _ _
      simp only [List.map_cons, List.cons.injEq, cutI] at h3
      obtain ⟨d1, e1, k1, v1⟩ := titledRow_spec hn hd hl h3.1 1
      unfold readSlurry
      rw [h1]
      simp only [slurryOfLines, h2, List.getElem?_cons_zero, List.getElem?_cons_succ, e1]
      simp only [titledRow, h3.2.1, hcut]
      rw [if_pos hfs]

/-! ### thermo -/

theorem hash_cut {fs : List Str} : Hash fs ↔ isHash ((cut fs).headD []) = true := by
  unfold cut
  cases fs with
  | nil => exact ⟨(by rintro ⟨t, r, h⟩; simp at h), fun h => absurd h (by rw [if_pos rfl]; decide)⟩
  | cons f fs =>
    rw [if_neg (by simp)]
    change _ ↔ isHash f = true
    constructor
    · rintro ⟨t, r, h⟩; simp only [List.cons.injEq] at h; rw [h.1]; rfl
    · intro h
      unfold isHash at h
      split at h
      · exact ⟨_, _, rfl⟩
      · exact absurd h (by simp)

theorem material_compounds (i : ℕ) (d : ThermoData) : (d.material i).compounds = d.compounds := rfl

/-- **C95 (thermo, without custom properties).** -/
theorem C95_thermo_plain {t corner : Str} {names : List Str} {table : List (List Str)} {rows : List Row} {els : List Str}
    (ht : Layout ((corner :: names) :: table) t) (hn : names.Nodup) (hh : ∀ fs ∈ table, ¬ Hash fs)
    (hr : Full names table rows) (he : Stoich.elements (rows.map Row.label) = .ok els) :
    ∃ d, readThermoData t = .ok d ∧ d.compounds = rows.map Row.label ∧ Holds names rows d.assays ∧ els.Perm d.elements ∧
      d.customNames = [] ∧ HoldsCustom names [] d.custom := by
  obtain ⟨x, lines, h1, h2, h3⟩ := header_layout ht
  obtain ⟨g1, g2⟩ := no_hash h3 (fun fs hfs => by
    have := hh fs hfs
    rw [hash_cut] at this
    simpa using this)
  obtain ⟨d, h4, h5⟩ := tableRows_spec (label := fun s => .ok s) hn table lines rows (rows.map Row.label) h3 hr (forall₂_label rows) [] []
    (initDict [] names) (holds_init hn)
  rw [show (fun s => Except.ok s : Str → Res Str) = Except.ok from rfl, List.nil_append] at h4
  rw [List.nil_append] at h5
  have hlen : names.take d.length = names := by
    have : d.length = names.length := by rw [← h5.1, List.length_map]
    rw [this, List.take_length]
  obtain ⟨l, h6, h7⟩ := elementList_spec he
  refine ⟨⟨rows.map Row.label, d, l, [], initDict [] names⟩, ?_, rfl, h5, h7.symm, rfl, holdsCustom_init hn⟩
  unfold readThermoData
  rw [h1]
  simp only [thermoOfLines, h2, g1, g2, h4, List.drop_nil, customRows, h6, hlen]

/-- **C95 (thermo).** A table, a line starting with `#`, and custom properties with a number for each assay: all are read as written. -/
theorem C95_thermo {t corner : Str} {names : List Str} {table : List (List Str)} {hash : List Str} {rows props : List Row} {els : List Str}
    (ht : Layout ((corner :: names) :: (table ++ hash :: props.map Row.items)) t) (hn : names.Nodup)
    (hh : ∀ fs ∈ table, ¬ Hash fs) (h1 : Hash hash) (hr : Full names table rows)
    (hp : ∀ r ∈ props, r.Denotes names.length) (hpn : (props.map Row.label).Nodup)
    (he : Stoich.elements (rows.map Row.label) = .ok els) :
    ∃ d, readThermoData t = .ok d ∧ d.compounds = rows.map Row.label ∧ Holds names rows d.assays ∧ els.Perm d.elements ∧
      d.customNames = props.flatMap (fun r => List.replicate names.length r.label) ∧ HoldsCustom names props d.custom := by
  obtain ⟨x, lines, e1, e2, e3⟩ := header_layout ht
  obtain ⟨g1, g2⟩ := split_at_hash e3 (fun fs hfs => by
    have := hh fs hfs
    rw [hash_cut] at this
    simpa using this) (hash_cut.1 h1)
  obtain ⟨d, h4, h5⟩ := tableRows_spec (label := fun s => .ok s) hn table _ rows (rows.map Row.label) g1 hr (forall₂_label rows) [] []
    (initDict [] names) (holds_init hn)
  rw [show (fun s => Except.ok s : Str → Res Str) = Except.ok from rfl, List.nil_append] at h4
  rw [List.nil_append] at h5
  have hlen : d.length = names.length := by rw [← h5.1, List.length_map]
  have g3 : (props.map Row.items).map cut = props.map Row.items := by
    rw [List.map_map]; exact List.map_congr_left (fun r _ => cut_cons _ _)
  obtain ⟨c, h6, h7⟩ := customRows_spec hn props _ (g2.trans g3) hp [] (by simpa using hpn) [] _ (holdsCustom_init hn)
  obtain ⟨l, h8, h9⟩ := elementList_spec he
  rw [List.nil_append] at h6 h7
  refine ⟨⟨rows.map Row.label, d, l, props.flatMap (fun r => List.replicate names.length r.label), c⟩, ?_, rfl, h5, h9.symm, rfl, h7⟩
  unfold readThermoData
  rw [e1]
  simp only [thermoOfLines, e2, h4, hlen, List.take_length]
  rw [h6]
  simp only [h8]

/-- **C95 is false of the code after the `#`**: with at least one assay, a file with a blank line among its custom properties (all lines before
it being in order) is refused with an `IndexError`. -/
theorem C95_thermo_blank {t corner : Str} {names : List Str} {table : List (List Str)} {hash : List Str} {rows props : List Row}
    {after : List (List Str)}
    (ht : Layout ((corner :: names) :: (table ++ hash :: (props.map Row.items ++ [] :: after))) t) (hn : names.Nodup) (h0 : names ≠ [])
    (hh : ∀ fs ∈ table, ¬ Hash fs) (h1 : Hash hash) (hr : Full names table rows)
    (hp : ∀ r ∈ props, r.Denotes names.length) (hpn : (props.map Row.label).Nodup) (i : ℕ) :
    readThermo i t = .error .indexError := by
  obtain ⟨x, lines, e1, e2, e3⟩ := header_layout ht
  obtain ⟨g1, g2⟩ := split_at_hash e3 (fun fs hfs => by
    have := hh fs hfs
    rw [hash_cut] at this
    simpa using this) (hash_cut.1 h1)
  obtain ⟨d, h4, h5⟩ := tableRows_spec (label := fun s => .ok s) hn table _ rows (rows.map Row.label) g1 hr (forall₂_label rows) [] []
    (initDict [] names) (holds_init hn)
  rw [show (fun s => Except.ok s : Str → Res Str) = Except.ok from rfl, List.nil_append] at h4
  rw [List.nil_append] at h5
  have hlen : d.length = names.length := by rw [← h5.1, List.length_map]
  have g3 : (props.map Row.items).map cut = props.map Row.items := by
    rw [List.map_map]; exact List.map_congr_left (fun r _ => cut_cons _ _)
  have key : ∀ (ls : List Str) (st : List Str × List (Str × List (Str × ℚ))), ls.map split = (props.map Row.items ++ [] :: after).map cut →
      HoldsCustom names [] st.2 → customRows names names.length ls st = .error .indexError := by
    intro ls st hls hst
    rw [List.map_append, g3, List.map_cons] at hls
    obtain ⟨l1, l2, rfl, hl1, hl2⟩ := List.map_eq_append_iff.1 hls
    obtain ⟨c, h6, h7⟩ := customRows_spec hn props l1 hl1 hp [] (by simpa using hpn) st.1 st.2 hst
    have app : ∀ (a b : List Str) (s s' : List Str × List (Str × List (Str × ℚ))), customRows names names.length a s = .ok s' →
        customRows names names.length (a ++ b) s = customRows names names.length b s' := by
      intro a
      induction a with
      | nil => intro b s s' h; simp only [customRows, Except.ok.injEq] at h; subst h; rfl
      | cons y a ih =>
        intro b s s' h
        rw [customRows] at h
        rw [List.cons_append, customRows]
        cases hc : customRow names (split y) (List.range names.length) s with
        | error e => rw [hc] at h; simp at h
        | ok s1 => rw [hc] at h; exact ih b s1 s' h
    rw [app l1 l2 _ _ h6]
    cases l2 with
    | nil => simp at hl2
    | cons y l2 =>
      simp only [List.map_cons, List.cons.injEq] at hl2
      obtain ⟨n, names', rfl⟩ := List.exists_cons_of_ne_nil h0
      rw [customRows, hl2.1, List.length_cons, List.range_succ_eq_map, customRow]
      rfl
  unfold readThermo readThermoData
  rw [e1]
  simp only [thermoOfLines, e2, h4, hlen, List.take_length]
  rw [key _ _ g2 (holdsCustom_init hn)]
  rfl

end Auxi.FileFormat.Props
