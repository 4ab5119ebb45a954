import Verif.Props.FileExamples
import Verif.Props.FileNumbers
import Verif.Props.ThermoMix

/-! # C95, C100: white space, exactly which texts are numbers, short slurry files, thermo materials and packages -/
namespace Auxi.FileFormat.Props
open Auxi.FileFormat Auxi.FileFormat.Spec

/-! ### White space -/

/-- The code points for which Python's `str.isspace` holds (Unicode white space and the separators FS, GS, RS and US). -/
def whiteSpace : List ℕ :=
  [9, 10, 11, 12, 13, 28, 29, 30, 31, 32, 0x85, 0xa0, 0x1680, 0x2000, 0x2001, 0x2002, 0x2003, 0x2004, 0x2005, 0x2006, 0x2007, 0x2008, 0x2009, 0x200a,
    0x2028, 0x2029, 0x202f, 0x205f, 0x3000]

theorem isSpace_iff (c : Char) : isSpace c = true ↔ c.toNat ∈ whiteSpace := by
  unfold isSpace whiteSpace
  simp only [Bool.or_eq_true, Bool.and_eq_true, beq_iff_eq, decide_eq_true_eq, List.mem_cons, List.not_mem_nil, or_false]
  omega

theorem strip_around {a s b : Str} (ha : ∀ c ∈ a, isSpace c = true) (hb : ∀ c ∈ b, isSpace c = true) : strip (a ++ s ++ b) = strip s := by
  have drop_left : ∀ {x y : Str}, (∀ c ∈ x, isSpace c = true) → (x ++ y).dropWhile isSpace = y.dropWhile isSpace := by
    intro x y hx
    induction x with
    | nil => rfl
    | cons c x ih => rw [List.cons_append, List.dropWhile_cons_of_pos (hx c (by simp))]; exact ih (fun d hd => hx d (by simp [hd]))
  have all_drop : ∀ {x : Str}, (∀ c ∈ x, isSpace c = true) → x.dropWhile isSpace = [] := by
    intro x hx
    have := drop_left (y := []) hx
    simpa using this
  unfold strip
  rw [List.append_assoc, drop_left ha]
  by_cases h : ∀ c ∈ s, isSpace c = true
  · rw [all_drop h, all_drop (fun c hc => (List.mem_append.1 hc).elim (h c) (hb c))]
  · have e : (s ++ b).dropWhile isSpace = s.dropWhile isSpace ++ b := by
      clear ha
      induction s with
      | nil => exact absurd (by simp) h
      | cons c s ih =>
        by_cases hc : isSpace c = true
        · rw [List.cons_append, List.dropWhile_cons_of_pos hc, List.dropWhile_cons_of_pos hc]
          refine ih (fun hs => h (fun d hd => ?_))
          rcases List.mem_cons.1 hd with rfl | hd
          · exact hc
          · exact hs d hd
        · rw [List.cons_append, List.dropWhile_cons_of_neg hc, List.dropWhile_cons_of_neg hc, List.cons_append]
    rw [e, List.reverse_append, drop_left (fun c hc => hb c (List.mem_reverse.1 hc))]

/-- **C95 (white space).** White space of any kind around a line or a number is ignored. -/
theorem C95_white_space (a s b : Str) (ha : ∀ c ∈ a, c.toNat ∈ whiteSpace) (hb : ∀ c ∈ b, c.toNat ∈ whiteSpace) :
    prepare (a ++ s ++ b) = prepare s ∧ pyFloat (a ++ s ++ b) = pyFloat s := by
  have h := strip_around (s := s) (fun c hc => (isSpace_iff c).2 (ha c hc)) (fun c hc => (isSpace_iff c).2 (hb c hc))
  unfold prepare pyFloat
  rw [h]
  exact ⟨rfl, rfl⟩

/-- A no-break space before, an ideographic space after. -/
example : prepare ([Char.ofNat 0xa0] ++ "A B".toList ++ [Char.ofNat 0x3000]) = prepare "A B".toList :=
  (C95_white_space _ _ _ (by decide) (by decide)).1

/-! ### Exactly which texts are numbers -/

theorem expSign_inv (s : Str) : ∃ g, s = signText g ++ (expSign s).2 ∧ (g == some true) = (expSign s).1 := by
  cases s with
  | nil => exact ⟨none, rfl, rfl⟩
  | cons c t =>
    unfold expSign
    dsimp only
    by_cases h1 : c = '-'
    · rw [if_pos h1]; exact ⟨some true, by rw [h1]; rfl, rfl⟩
    · rw [if_neg h1]
      by_cases h2 : c = '+'
      · rw [if_pos h2]; exact ⟨some false, by rw [h2]; rfl, rfl⟩
      · rw [if_neg h2]; exact ⟨none, rfl, rfl⟩

theorem digits_of_all {d : Str} (h : d.all isDigit = true) : Digits d := by
  intro c hc
  have := List.all_eq_true.1 h c hc
  unfold isDigit at this
  simpa using this

theorem digits_take (s : Str) : Digits (s.takeWhile isDigit) := digits_of_all (List.all_takeWhile (p := isDigit) (l := s))

theorem exponent_inv {r : Str} {e : ℤ} (h : exponent r = some e) :
    ∃ x, r = expText x ∧ e = expValue x ∧ ∀ c s d, x = some (c, s, d) → (c = 'e' ∨ c = 'E') ∧ d ≠ [] ∧ Digits d := by
  cases r with
  | nil => exact ⟨none, rfl, (Option.some.inj h).symm, fun c s d h => by cases h⟩
  | cons c t =>
    unfold exponent at h
    dsimp only at h
    by_cases hc : c = 'e' ∨ c = 'E'
    · rw [if_pos hc] at h
      by_cases hd : (expSign t).2 ≠ [] ∧ (expSign t).2.all isDigit = true
      · rw [if_pos hd] at h
        obtain ⟨g, g1, g2⟩ := expSign_inv t
        refine ⟨some (c, g, (expSign t).2), by rw [expText, ← g1], ?_, fun c' s d h => by cases h; exact ⟨hc, hd.1, digits_of_all hd.2⟩⟩
        rw [← Option.some.inj h, ← g2]
        unfold expValue
        rw [digits_eq]
        by_cases hg : g = some true
        · simp [hg]
        · have : (g == some true) = false := by simpa using hg
          simp [this, hg]
      · rw [if_neg hd] at h; cases h
    · rw [if_neg hc] at h; cases h

theorem fraction_inv (r : Str) : ∃ f, r = fracText f ++ (fraction r).2 ∧ f.getD [] = (fraction r).1 ∧ ∀ g, f = some g → Digits g := by
  cases r with
  | nil => exact ⟨none, rfl, rfl, fun g h => by cases h⟩
  | cons c t =>
    unfold fraction
    dsimp only
    by_cases hc : c = '.'
    · rw [if_pos hc]
      exact ⟨some (t.takeWhile isDigit), by rw [hc]; simp [fracText], rfl, fun g h => by cases h; exact digits_take t⟩
    · rw [if_neg hc]
      exact ⟨none, rfl, rfl, fun g h => by cases h⟩

/-- **C95, C100 (numbers).** A text is read as a number exactly if, without surrounding white space, it is a number in decimal notation; everything else
raises `ValueError`. -/
theorem C95_number_iff (s : Str) (q : ℚ) : pyFloat s = .ok q ↔ ∃ n : Numeral, n.Proper ∧ strip s = n.text ∧ n.value = q := by
  constructor
  · intro h
    unfold pyFloat at h
    dsimp only at h
    cases hu : unsigned (expSign (strip s)).2 with
    | none => rw [hu] at h; cases h
    | some v =>
      rw [hu] at h
      have h := Except.ok.inj h
      obtain ⟨g, g1, g2⟩ := expSign_inv (strip s)
      unfold unsigned at hu
      dsimp only at hu
      split at hu
      · cases hu
      · rename_i hne
        obtain ⟨e, he, hv⟩ := Option.map_eq_some_iff.1 hu
        obtain ⟨x, x1, x2, x3⟩ := exponent_inv he
        obtain ⟨f, f1, f2, f3⟩ := fraction_inv ((expSign (strip s)).2.dropWhile isDigit)
        refine ⟨⟨g, (expSign (strip s)).2.takeWhile isDigit, f, x⟩, ⟨digits_take _, f3, ?_, x3⟩, ?_, ?_⟩
        · by_contra hx
          simp only [not_or, not_exists, not_and, ne_eq, not_not] at hx
          refine hne ⟨hx.1, ?_⟩
          rw [← f2]
          cases hf : f with
          | none => rfl
          | some y => exact hx.2 y hf
        · unfold Numeral.text
          dsimp only
          rw [List.append_assoc, ← x1, ← f1, List.takeWhile_append_dropWhile, ← g1]
        · unfold Numeral.value
          dsimp only
          rw [← h, ← g2, ← hv, ← f2, x2, digits_eq]
          by_cases hg : g = some true
          · simp [hg]
          · have : (g == some true) = false := by simpa using hg
            simp [this, hg]
  · rintro ⟨n, h1, h2, rfl⟩
    have := (C95_number n h1).2
    have k := (C95_number n h1).1
    unfold pyFloat at this ⊢
    rw [h2]
    rwa [show strip n.text = n.text by have := strip_trim (a := []) (b := []) (by simp) (by simp) (item_trim k); simpa using this] at this

/-- **C100 (numbers).** A text that is not a number in decimal notation raises `ValueError`. -/
theorem C100_number_refused (s : Str) (h : ¬ ∃ n : Numeral, n.Proper ∧ strip s = n.text) : pyFloat s = .error .valueError := by
  cases hp : pyFloat s with
  | ok q => obtain ⟨n, h1, h2, _⟩ := (C95_number_iff s q).1 hp; exact absurd ⟨n, h1, h2⟩ h
  | error e =>
    unfold pyFloat at hp
    dsimp only at hp
    cases hu : unsigned (expSign (strip s)).2 with
    | none => rw [hu] at hp; cases hp; rfl
    | some v => rw [hu] at hp; cases hp

/-- An exponent needs a digit. -/
example : pyFloat "1e".toList = .error .valueError ∧ pyFloat "1E+".toList = .error .valueError ∧ pyFloat ".".toList = .error .valueError ∧
    pyFloat "1.0.".toList = .error .valueError ∧ pyFloat " -1.5e2\t".toList = .ok (-150) := by decide +kernel

/-! ### Slurry files that are too short -/

/-- **C100 (slurry).** A slurry file without its density or water line raises `IndexError`. -/
theorem C100_slurry_short {i : ℕ} {t corner : Str} {names : List Str} :
    (Layout [corner :: names] t → readSlurry i t = .error .indexError) ∧
    (∀ rd : Row, names.Nodup → rd.label = "solid_density".toList → rd.Denotes names.length → Layout [corner :: names, rd.items] t →
      readSlurry i t = .error .indexError) := by
  constructor
  · intro ht
    obtain ⟨x, lines, h1, h2, h3⟩ := header_layout ht
    have : lines = [] := by simpa using h3
    unfold readSlurry
    rw [h1, this]
    rfl
  · intro rd hn hl hd ht
    obtain ⟨x, lines, h1, h2, h3⟩ := header_layout ht
    match lines, h3 with
    | [], h3 => simp at h3
    | l1 :: l2 :: lines, h3 => simp at h3
    | [l1], h3 =>
      have cutI : cut rd.items = rd.items := cut_cons _ _
      simp only [List.map_cons, List.map_nil, List.cons.injEq, cutI] at h3
      obtain ⟨d1, e1, k1, v1⟩ := titledRow_spec hn hd hl h3.1 1
      unfold readSlurry
      rw [h1]
      simp only [slurryOfLines, h2, List.getElem?_cons_zero, List.getElem?_cons_succ, e1, List.getElem?_nil]
      rfl

/-- The hypotheses: a density line only. -/
example : Layout (items ["SizeClass A", "solid_density 3.0"]) "SizeClass A\nsolid_density 3.0\n".toList ∧
    (⟨"solid_density".toList, ["3.0".toList], [3], []⟩ : Row).Denotes 1 :=
  ⟨layout_write (items ["SizeClass A", "solid_density 3.0"]) (by decide), ⟨rfl, .cons (by decide +kernel) .nil⟩⟩

/-! ### Thermochemical materials -/

/-- `Written names rows props m`: the material has exactly the compounds of the rows, exactly the assays `names`, each with its column of numbers, and for each
assay the custom properties `props`. -/
structure Written (names : List Str) (rows props : List Row) (m : Thermo.Material) : Prop where
  compounds : m.compounds = rows.map Row.label
  assay_names : m.assays.map (·.1) = names
  assays : ∀ (j : ℕ) (name : Str) (col : List ℚ), names[j]? = some name → Column rows j col → m.assays.lookup name = some (col.map (fun q : ℚ => some (q : ℝ)))
  property_names : m.customNames = props.flatMap (fun r => List.replicate names.length r.label)
  custom_names : m.custom.map (·.1) = names
  custom : ∀ (j : ℕ) (name : Str) (vals : List ℚ), names[j]? = some name → vals.map some = props.map (fun r => r.values[j]?) →
    m.custom.lookup name = some ((props.map Row.label).zip (vals.map (fun q : ℚ => (q : ℝ))))

theorem written_of {names : List Str} {rows props : List Row} {d : ThermoData} (i : ℕ) (h1 : d.compounds = rows.map Row.label) (h2 : Holds names rows d.assays)
    (h3 : d.customNames = props.flatMap (fun r => List.replicate names.length r.label)) (h4 : HoldsCustom names props d.custom) :
    Written names rows props (d.material i) where
  compounds := h1
  assay_names := by change (List.map _ _).map _ = _; rw [List.map_map]; exact h2.1
  assays := by
    intro j name col hj hc
    obtain ⟨l, e1, e2⟩ := h2.2 j name hj
    have e : l = col := List.map_injective_iff.2 (Option.some_injective _) (e2.trans hc.symm)
    change List.lookup name (List.map _ _) = _
    rw [lookup_map, e1, ← e]; rfl
  property_names := h3
  custom_names := by change (List.map _ _).map _ = _; rw [List.map_map]; exact h4.1
  custom := by
    intro j name vals hj hv
    obtain ⟨l, e1, e2⟩ := h4.2 j name hj
    change List.lookup name (List.map _ _) = _
    rw [lookup_map, e1]
    change some (List.map _ _) = some _
    have e3 : l.map (·.1) = props.map Row.label := by have := congrArg (List.map (·.1)) e2; simpa [Function.comp_def] using this
    have e4 : l.map (·.2) = vals := by
      have := congrArg (List.map (·.2)) e2
      refine List.map_injective_iff.2 (Option.some_injective _) ?_
      rw [hv]
      simpa [Function.comp_def] using this
    rw [← e3, ← e4, List.map_map]
    refine congrArg some ?_
    clear e1 e2 e3 e4 hv
    induction l with
    | nil => rfl
    | cons a l ih => exact congrArg (List.cons _) ih

/-- **C95 (thermo, the material).** The material object has the compounds, elements, assays and custom properties of the file. -/
theorem C95_thermo_material {t corner : Str} {names : List Str} {table : List (List Str)} {hash : List Str} {rows props : List Row} {els : List Str}
    (ht : Layout ((corner :: names) :: (table ++ hash :: props.map Row.items)) t) (hn : names.Nodup)
    (hh : ∀ fs ∈ table, ¬ Hash fs) (h1 : Hash hash) (hr : Full names table rows)
    (hp : ∀ r ∈ props, r.Denotes names.length) (hpn : (props.map Row.label).Nodup)
    (he : Stoich.elements (rows.map Row.label) = .ok els) (i : ℕ) :
    ∃ m, readThermo i t = .ok m ∧ m.ident = i ∧ els.Perm m.elements ∧ Written names rows props m := by
  obtain ⟨d, e1, e2, e3, e4, e5, e6⟩ := C95_thermo ht hn hh h1 hr hp hpn he
  refine ⟨d.material i, ?_, rfl, e4, written_of i e2 e3 e5 e6⟩
  unfold readThermo
  rw [e1]; rfl

/-- **C95 (thermo, the material, without custom properties).** -/
theorem C95_thermo_plain_material {t corner : Str} {names : List Str} {table : List (List Str)} {rows : List Row} {els : List Str}
    (ht : Layout ((corner :: names) :: table) t) (hn : names.Nodup) (hh : ∀ fs ∈ table, ¬ Hash fs)
    (hr : Full names table rows) (he : Stoich.elements (rows.map Row.label) = .ok els) (i : ℕ) :
    ∃ m, readThermo i t = .ok m ∧ m.ident = i ∧ els.Perm m.elements ∧ Written names rows [] m := by
  obtain ⟨d, e1, e2, e3, e4, e5, e6⟩ := C95_thermo_plain ht hn hh hr he
  refine ⟨d.material i, ?_, rfl, e4, written_of i e2 e3 e5 e6⟩
  unfold readThermo
  rw [e1]; rfl

open Auxi.Thermo Auxi.Thermo.Spec in
/-- **C95 (thermo, the package).** A package created from an assay of a file without custom properties, all of whose compounds are in the thermochemical
data, has the requested mass, temperature and pressure, and each compound in the
proportion of the file. -/
theorem C95_thermo_package {t corner : Str} {names : List Str} {table : List (List Str)} {rows : List Row} {els : List Str}
    (ht : Layout ((corner :: names) :: table) t) (hn : names.Nodup) (hh : ∀ fs ∈ table, ¬ Hash fs)
    (hr : Full names table rows) (he : Stoich.elements (rows.map Row.label) = .ok els) (hd : (rows.map Row.label).Nodup) (i : ℕ)
    {db : Db} (hk : ∀ r ∈ rows, ∃ h, ThermoChem.H db r.label 25 1 = .ok h)
    {j : ℕ} {name : Str} (hj : names[j]? = some name) {col : List ℚ} (hc : Column rows j col) (h0 : col.sum ≠ 0) (mass T P : ℝ) :
    ∃ m p, readThermo i t = .ok m ∧ m.createPackage db (some name) (some mass) (some P) (some T) true = .ok p ∧
      p.mat = m ∧ p.mass = some mass ∧ p.T = some T ∧ p.P = some P ∧ p.isCoal = false ∧ p.HHV = none ∧
      p.masses = col.map (fun x : ℚ => some (mass * ((x : ℝ) / ((col.sum : ℚ) : ℝ)))) := by
  obtain ⟨m, e1, e2, e3, w⟩ := C95_thermo_plain_material ht hn hh hr he i
  have hs : ((col.sum : ℚ) : ℝ) ≠ 0 := by exact_mod_cast h0
  have hsum : ∀ l : List ℚ, (l.map (fun q : ℚ => (q : ℝ))).sum = ((l.sum : ℚ) : ℝ) := by
    intro l
    induction l with
    | nil => simp
    | cons a l ih => rw [List.map_cons, List.sum_cons, List.sum_cons, ih, Rat.cast_add]
  have hla := w.assays j name col hj hc
  have hv : vsum (col.map (fun q : ℚ => some (q : ℝ))) = some ((col.sum : ℚ) : ℝ) := by
    have := vsum_map (col.map (fun q : ℚ => (q : ℝ)))
    rw [List.map_map, hsum] at this
    exact this
  have hsc : m.scaled name (some mass) true = .ok (col.map (fun x : ℚ => some (mass * ((x : ℝ) / ((col.sum : ℚ) : ℝ))))) := by
    unfold Material.scaled Material.assayTotal Material.assay
    rw [hla]
    change Except.ok _ = Except.ok _
    rw [hv, List.map_map]
    congr 1
    refine List.map_congr_left (fun x _ => ?_)
    change (if ((col.sum : ℚ) : ℝ) = 0 then none else some (mass * (x : ℝ) / ((col.sum : ℚ) : ℝ))) = _
    rw [if_neg hs, mul_div_assoc]
  have hlen : col.length = m.compounds.length := by
    rw [w.compounds, List.length_map, ← List.length_map (f := some), hc, List.length_map]
  have hms : col.map (fun x : ℚ => some (mass * ((x : ℝ) / ((col.sum : ℚ) : ℝ)))) = (col.map (fun x : ℚ => mass * ((x : ℝ) / ((col.sum : ℚ) : ℝ)))).map some := by
    rw [List.map_map]; rfl
  obtain ⟨g, hg⟩ := rep_of_list (m := m) (by rw [w.compounds]; exact hd) hms (by rw [List.length_map]; exact hlen)
  have hcoal : m.isCoal name = .ok false := by
    unfold Material.isCoal
    rw [w.property_names]
    rw [if_neg (by simp)]
  have hhhv : m.hhv name = .ok none := by
    unfold Material.hhv
    rw [w.custom j name [] hj rfl]
    rfl
  have hkn : Known db m := by
    intro c hc'
    rw [w.compounds] at hc'
    obtain ⟨r, hr1, rfl⟩ := List.mem_map.1 hc'
    exact hk r hr1
  refine ⟨m, ⟨m, col.map (fun x : ℚ => some (mass * ((x : ℝ) / ((col.sum : ℚ) : ℝ)))), some P, some T, some (if 0 < (m.compounds.map g).sum then hOf db m g T else 0), false, none⟩,
    e1, ?_, rfl, ?_, rfl, rfl, rfl, rfl, rfl⟩
  · unfold Material.createPackage
    dsimp only
    rw [hsc]
    dsimp only
    rw [hcoal]
    dsimp only
    rw [hhhv]
    dsimp only
    exact newPackage_rep hkn hg (some P) T none
  · change vsum _ = _
    rw [hms, vsum_map]
    congr 1
    rw [List.sum_map_mul_left, ← hsum]
    have : ∀ l : List ℚ, (l.map (fun x : ℚ => (x : ℝ) / (col.map (fun q : ℚ => (q : ℝ))).sum)).sum = (l.map (fun q : ℚ => (q : ℝ))).sum / (col.map (fun q : ℚ => (q : ℝ))).sum := by
      intro l
      simp only [div_eq_mul_inv, List.sum_map_mul_right]
    rw [this, div_self (by rw [hsum]; exact hs), mul_one]

end Auxi.FileFormat.Props
