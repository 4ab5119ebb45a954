import Verif.Proofs.PersistValues
import Verif.Proofs.Stoich2

/-!
# Property C114: what is written to a file is what is read from it

`Numbers F` stands for the floats: any type of numbers with a `repr` that `float` reads back exactly (which Python promises for its floats).
-/
namespace Auxi.Persist.Props
open Auxi Persist Persist.Spec Json Json.Proofs Persist.Proofs

/-! ## Whole numbers, for the examples -/

/-- The text of a natural number is read back. -/
theorem numVal_digits (n : ℕ) : Stoich.numVal (Nat.toDigits 10 n) = n := by
  induction n using Nat.strong_induction_on with
  | _ n ih =>
    rw [Nat.toDigits_eq_if (by decide)]
    by_cases h : n < 10
    · rw [if_pos h]
      simp only [Stoich.numVal, List.foldl_cons, List.foldl_nil]
      have := Nat.toNat_digitChar_of_lt_ten h
      rw [this]
      show 10 * 0 + (48 + n - 48) = n
      omega
    · rw [if_neg h]
      have := ih (n / 10) (by omega)
      unfold Stoich.numVal at this ⊢
      rw [List.foldl_append, this]
      simp only [List.foldl_cons, List.foldl_nil]
      have := Nat.toNat_digitChar_of_lt_ten (n := n % 10) (by omega)
      rw [this]
      show 10 * (n / 10) + (48 + n % 10 - 48) = n
      omega

theorem digits_digit (n : ℕ) : ∀ c ∈ Nat.toDigits 10 n, c.isDigit = true := fun _ h => Nat.isDigit_of_mem_toDigits (by decide) (by decide) h

/-- Whole numbers as a type of numbers; the derived magnetic constants are stand-ins. -/
def ints : Numbers ℤ where
  repr x := if x < 0 then '-' :: Nat.toDigits 10 x.natAbs else Nat.toDigits 10 x.natAbs
  float s := match s with
    | [] => none
    | c :: s => if c = '-' then some (-(Stoich.numVal s : ℤ)) else some (Stoich.numVal (c :: s) : ℤ)
  head x := by
    have h : ∃ c s, Nat.toDigits 10 x.natAbs = c :: s ∧ c.isDigit = true := by
      cases hd : Nat.toDigits 10 x.natAbs with
      | nil => have := numVal_digits x.natAbs; rw [hd] at this; have h0 : x.natAbs = 0 := this.symm; rw [h0] at hd; cases hd
      | cons c s => exact ⟨c, s, rfl, digits_digit x.natAbs c (by rw [hd]; exact List.mem_cons_self ..)⟩
    by_cases hx : x < 0
    · rw [if_pos hx]; exact ⟨_, _, rfl, Or.inr rfl⟩
    · rw [if_neg hx]; obtain ⟨c, s, h1, h2⟩ := h; exact ⟨c, s, h1, Or.inl h2⟩
  chars x c hc := by
    have h : ∀ c ∈ Nat.toDigits 10 x.natAbs, numChar c = true := fun c hc => by unfold numChar; rw [digits_digit _ c hc]; rfl
    by_cases hx : x < 0
    · rw [if_pos hx] at hc
      rcases List.mem_cons.1 hc with rfl | hc
      · rfl
      · exact h c hc
    · rw [if_neg hx] at hc; exact h c hc
  exact x := by
    by_cases hx : x < 0
    · simp only [if_pos hx, if_true]
      rw [numVal_digits]; congr 1; omega
    · simp only [if_neg hx]
      cases hd : Nat.toDigits 10 x.natAbs with
      | nil => have := numVal_digits x.natAbs; rw [hd] at this; have h0 : x.natAbs = 0 := this.symm; rw [h0] at hd; cases hd
      | cons c s =>
        have hc := digits_digit x.natAbs c (by rw [hd]; exact List.mem_cons_self ..)
        have hne : c ≠ '-' := by rintro rfl; exact absurd hc (by decide)
        simp only [if_neg hne]
        rw [← hd, numVal_digits]
        congr 1; omega
  derived p := if p = 0 then none else some (p, p - 1, p + 1)
  fmt x := Nat.toDigits 10 x.natAbs

/-- A heat capacity record. -/
def exRecord (a b c d : ℤ) : Py ℤ := .inst recordClass [("Tmin".toList, .num a), ("Tmax".toList, .num b), ("_coefficients".toList, .list [.num c, .num d]), ("_exponents".toList, .list [.num 0, .num 1])]

/-- A bound method `Zero_mag`. -/
def zeroMethod : Py ℤ := .method "Zero_mag".toList

/-- A phase without magnetic data, as the constructor makes it: two records. -/
def exPhase : Py ℤ := .inst phaseClass [("name".toList, .str "S".toList), ("symbol".toList, .str "S".toList), ("Tref".toList, .num 298), ("DHref".toList, .num (-1200)), ("Sref".toList, .num 27),
  ("_Cp_records".toList, .dict [("900".toList, exRecord 298 900 20 1), ("1800".toList, exRecord 900 1800 30 2)]), ("Cp_mag".toList, zeroMethod), ("H_mag".toList, zeroMethod),
  ("S_mag".toList, zeroMethod), ("G_mag".toList, zeroMethod)]

/-- A phase with magnetic data, as `read` makes it from a file. -/
def exMagnetic : Py ℤ := .inst phaseClass [("name".toList, .str "L".toList), ("symbol".toList, .str "L".toList), ("Tref".toList, .num 298), ("DHref".toList, .num 5), ("Sref".toList, .num 34),
  ("_Cp_records".toList, .dict [("900".toList, exRecord 298 900 20 1)]), ("Tc_mag".toList, .num 1043), ("beta0_mag".toList, .num 2), ("p_mag".toList, .num 1),
  ("_A_mag".toList, .num 1), ("_B_mag".toList, .num 0), ("_D_mag".toList, .num 2)]

/-- A compound with both phases. -/
def exCompound : Py ℤ := .inst compoundClass [("formula".toList, .str "Fe".toList), ("molar_mass".toList, .num 56), ("_phases".toList, .dict [("S".toList, exPhase), ("L".toList, exMagnetic)]),
  ("reference".toList, .str "rao1985".toList)]

/-- Its data. -/
def exData : CompObj ℤ := ⟨"Fe".toList, 56, some "rao1985".toList,
  [("S".toList, ⟨"S".toList, "S".toList, 298, -1200, 27, none, [(900, ⟨298, 900, [20, 1], [0, 1]⟩), (1800, ⟨900, 1800, [30, 2], [0, 1]⟩)]⟩),
   ("L".toList, ⟨"L".toList, "L".toList, 298, 5, 34, some ⟨1043, 2, 1, 1, 0, 2⟩, [(900, ⟨298, 900, [20, 1], [0, 1]⟩)]⟩)]⟩

theorem exCompound_view : compView ints exCompound = some exData := by rfl

theorem exRecord_plain (a b c d : ℤ) : Plain (exRecord a b c d) :=
  ⟨by show ["Tmin".toList, "Tmax".toList, "_coefficients".toList, "_exponents".toList].Nodup; decide, by decide, Or.inr trivial, by decide, Or.inr trivial, by decide, Or.inr ⟨trivial, trivial, trivial⟩, by decide, Or.inr ⟨trivial, trivial, trivial⟩, trivial⟩

theorem exPhase_plain : Plain exPhase :=
  ⟨by decide, by decide, Or.inr trivial, by decide, Or.inr trivial, by decide, Or.inr trivial, by decide, Or.inr trivial, by decide, Or.inr trivial, by decide,
    Or.inr ⟨by decide, by decide, exRecord_plain .., by decide, exRecord_plain .., trivial⟩, by decide, Or.inl ⟨_, rfl⟩, by decide, Or.inl ⟨_, rfl⟩, by decide, Or.inl ⟨_, rfl⟩, by decide,
    Or.inl ⟨_, rfl⟩, trivial⟩

theorem exMagnetic_plain : Plain exMagnetic :=
  ⟨by decide, by decide, Or.inr trivial, by decide, Or.inr trivial, by decide, Or.inr trivial, by decide, Or.inr trivial, by decide, Or.inr trivial, by decide,
    Or.inr ⟨by decide, by decide, exRecord_plain .., trivial⟩, by decide, Or.inr trivial, by decide, Or.inr trivial, by decide, Or.inr trivial, by decide, Or.inr trivial, by decide, Or.inr trivial,
    by decide, Or.inr trivial, trivial⟩

theorem exCompound_holds : Holds ints exCompound exData where
  plain := ⟨by decide, by decide, Or.inr trivial, by decide, Or.inr trivial, by decide, Or.inr ⟨by decide, by decide, exPhase_plain, by decide, exMagnetic_plain, trivial⟩, by decide, Or.inr trivial, trivial⟩
  view := exCompound_view
  settled := by
    intro l hl e he
    obtain rfl : [("S".toList, exPhase), ("L".toList, exMagnetic)] = l := by
      have : attr "_phases" exCompound = some (.dict [("S".toList, exPhase), ("L".toList, exMagnetic)]) := rfl
      rw [this] at hl
      injection hl with hl
      injection hl
    rcases List.mem_cons.1 he with rfl | he
    · exact Or.inl rfl
    · obtain rfl := List.mem_singleton.1 he
      rfl

/-! ## Objects -/

/-- **C114 (objects).** An object of any class with neither its own text nor its own `_init` (all classes of the library except `Compound`, `Phase` and `CpRecord`) is read back from its file with
everything that can be seen in it unchanged, along every sequence of attributes, keys and list positions; and writing it again gives the same file. -/
theorem C114_object {F : Type} (N : Numbers F) (o : Py F) (h : Plain o) {k : Str} (hk : cls o = some k) (h1 : k ≠ compoundClass) (h2 : k ≠ phaseClass) (h3 : k ≠ recordClass) :
    ∃ o', read N (text N o) = .ok o' ∧ cls o' = some k ∧ (∀ p, look p o' = look p o) ∧ text N o' = text N o := by
  have ht : ∀ q : Py F, cls q = some k → text N q = dumps N.toFloats (flatten q) := by
    intro q hq
    unfold text
    rw [hq, if_neg (by simpa using h3), if_neg (by simpa using h2)]
  have hc : cls (canon o) = some k := by rw [cls_canon, hk]
  refine ⟨canon o, ?_, hc, fun p => look_canon p o h, ?_⟩
  · rw [ht o hk, read_dumps N o h]
    unfold init initEntry
    rw [hc, if_neg (by simpa using h1), if_neg (by simpa using h2), if_pos (by rfl)]
  · rw [ht _ hc, ht o hk]
    show dump N.toFloats 0 (sorted (flatten (canon o))) = dump N.toFloats 0 (sorted (flatten o))
    rw [sorted_flatten_canon o h]

/-- A general ledger account with two sub-accounts and a name that needs escaping. -/
def exAccount : Py ℤ := .inst "auxi.modelling.financial.des.GeneralLedgerAccount".toList
  [("name".toList, .str "Bank \"a\"\n£".toList), ("description".toList, .none), ("number".toList, .str "0010/000".toList), ("accounts".toList, .list [.str "x".toList, .num (-5), .bool true])]

example : ∃ o', read ints (text ints exAccount) = .ok o' ∧ (∀ p, look p o' = look p exAccount) ∧ look [.key "name".toList] o' = some (.str "Bank \"a\"\n£".toList) ∧
    look [.key "accounts".toList, .pos 1] o' = some (.num (-5)) := by
  obtain ⟨o', h1, _, h2, _⟩ := C114_object ints exAccount ⟨by decide, by decide, Or.inr trivial, by decide, Or.inr trivial, by decide, Or.inr trivial, by decide,
    Or.inr ⟨trivial, trivial, trivial, trivial⟩, trivial⟩ rfl (by decide) (by decide) (by decide)
  exact ⟨o', h1, h2, by rw [h2]; rfl, by rw [h2]; rfl⟩

/-! ## Compounds -/

/-- **C114 (compounds).** A compound is read back from its file with the same formula, molar mass and reference and the same phases, each with the same reference values, magnetic data and heat capacity
records; writing it again gives the same file. -/
theorem C114_compound {F : Type} (N : Numbers F) {o : Py F} {c : CompObj F} (h : Holds N o c) :
    ∃ o' c', read N (text N o) = .ok o' ∧ Holds N o' c' ∧ SameComp c c' ∧ text N o' = text N o := read_compound N h

example : ∃ o' c', read ints (text ints exCompound) = .ok o' ∧ Holds ints o' c' ∧ c'.formula = "Fe".toList ∧ ∃ q, c'.phases.lookup "L".toList = some q ∧ q.mag = some ⟨1043, 2, 1, 1, 0, 2⟩ := by
  obtain ⟨o', c', h1, h2, h3, _⟩ := C114_compound ints exCompound_holds
  obtain ⟨q, h4, h5⟩ := h3.phases "L".toList _ rfl
  exact ⟨o', c', h1, h2, h3.formula.symm, q, h4, h5.mag.symm⟩

/-- Writing and reading, `n` times. -/
def rounds {F : Type} (N : Numbers F) : ℕ → Py F → Res (Py F)
  | 0, o => .ok o
  | n + 1, o => match read N (text N o) with
    | .ok o' => rounds N n o'
    | .error e => .error e

theorem sameComp_trans {F : Type} {c d e : CompObj F} (h : SameComp c d) (h' : SameComp d e) : SameComp c e := by
  refine ⟨h.formula.trans h'.formula, h.molarMass.trans h'.molarMass, h.reference.trans h'.reference, h.names.trans h'.names, fun k p hk => ?_⟩
  obtain ⟨q, h1, h2⟩ := h.phases k p hk
  obtain ⟨r, h3, h4⟩ := h'.phases k q h1
  exact ⟨r, h3, ⟨h2.name.trans h4.name, h2.symbol.trans h4.symbol, h2.Tref.trans h4.Tref, h2.DHref.trans h4.DHref, h2.Sref.trans h4.Sref, h2.mag.trans h4.mag, h2.records.trans h4.records⟩⟩

/-- **C114 (any number of times).** However often a compound is written and read, its data and its file stay the same. -/
theorem C114_rounds {F : Type} (N : Numbers F) (n : ℕ) {o : Py F} {c : CompObj F} (h : Holds N o c) (hn : (c.phases.map (·.1)).Nodup) :
    ∃ o' c', rounds N n o = .ok o' ∧ Holds N o' c' ∧ SameComp c c' ∧ text N o' = text N o := by
  induction n generalizing o c with
  | zero => exact ⟨o, c, rfl, h, sameComp_refl c hn, rfl⟩
  | succ n ih =>
    obtain ⟨o1, c1, h1, h2, h3, h4⟩ := C114_compound N h
    obtain ⟨o2, c2, g1, g2, g3, g4⟩ := ih h2 (h3.names.nodup_iff.1 hn)
    exact ⟨o2, c2, by simp only [rounds]; rw [h1]; exact g1, g2, sameComp_trans h3 g3, g4.trans h4⟩

example : ∃ o' c', rounds ints 1000 exCompound = .ok o' ∧ Holds ints o' c' ∧ SameComp exData c' ∧ text ints o' = text ints exCompound := C114_rounds ints 1000 exCompound_holds (by decide)

/-- **C114 (values).** The compound that is read gives the same heat capacity, enthalpy, entropy and Gibbs energy for every phase at every temperature. -/
theorem C114_values {F : Type} (N : Numbers F) (val : F → ℝ) {o : Py F} {c : CompObj F} (h : Holds N o c) (hd : Distinct val c) :
    ∃ o' c', read N (text N o) = .ok o' ∧ compView N o' = some c' ∧ ∀ f, IsProperty f → ∀ (phase : Str) (T : ℝ), (c'.comp val).prop f phase T = (c.comp val).prop f phase T := by
  obtain ⟨o', c', h1, h2, h3, _⟩ := C114_compound N h
  exact ⟨o', c', h1, h2.view, fun f hf phase T => (prop_same hf val h3 hd phase T).symm⟩

theorem exData_distinct : Distinct (fun x : ℤ => (x : ℝ)) exData := by
  intro e he
  rcases List.mem_cons.1 he with rfl | he
  · show [((900 : ℤ) : ℝ), ((1800 : ℤ) : ℝ)].Nodup
    simp
  · obtain rfl := List.mem_singleton.1 he
    show [((900 : ℤ) : ℝ)].Nodup
    simp

example : ∃ o' c', read ints (text ints exCompound) = .ok o' ∧ compView ints o' = some c' ∧ ∀ f, IsProperty f → ∀ (phase : Str) (T : ℝ),
    (c'.comp (fun x : ℤ => (x : ℝ))).prop f phase T = (exData.comp (fun x : ℤ => (x : ℝ))).prop f phase T := C114_values ints _ exCompound_holds exData_distinct

/-! ## Directories -/

/-- **C114 (directories).** Write any compounds, one after the other, to a directory that has no compound files yet.  Then, in whatever order the system lists the files, loading the directory succeeds
and leaves for each formula the data of the last compound that was written with it, and nothing for other formulas. -/
theorem C114_directory {F : Type} (N : Numbers F) (cs : List (Py F × CompObj F)) (hcs : ∀ x ∈ cs, Holds N x.1 x.2) (dir : List (Str × Str))
    (hdir : ∀ e ∈ dir, ¬ ("Compound_".toList <+: e.1 ∧ ".json".toList <:+ e.1)) :
    ∃ dir', writeAll N (cs.map (·.1)) dir = .ok dir' ∧ ∀ dir'', dir''.Perm dir' → ∃ db, loadAuxi N (some dir'') = (db, none) ∧
      ∀ f, (lastWith f cs = none → db.lookup f = none) ∧
        ∀ x, lastWith f cs = some x → ∃ o' c', db.lookup f = some o' ∧ Holds N o' c' ∧ SameComp x.2 c' := by
  obtain ⟨dir', h1, h2⟩ := directory N cs hcs dir (fun e he => by
    rw [Bool.eq_false_iff, ne_eq, isDataFile_iff]
    exact hdir e he)
  exact ⟨dir', h1, fun d hd => by obtain ⟨db, k1, _, _, k2⟩ := h2 d hd; exact ⟨db, k1, k2⟩⟩

example : ∃ dir', writeAll ints [exCompound] [("README".toList, "x".toList)] = .ok dir' ∧ ∀ dir'', dir''.Perm dir' → ∃ db, loadAuxi ints (some dir'') = (db, none) ∧
    ∃ o' c', db.lookup "Fe".toList = some o' ∧ SameComp exData c' ∧ compView ints o' = some c' := by
  obtain ⟨dir', h1, h2⟩ := C114_directory ints [(exCompound, exData)] (fun x hx => by obtain rfl := List.mem_singleton.1 hx; exact exCompound_holds) [("README".toList, "x".toList)]
    (fun e he => by obtain rfl := List.mem_singleton.1 he; exact fun h => absurd h.1 (by decide))
  refine ⟨dir', h1, fun d hd => ?_⟩
  obtain ⟨db, k1, k2⟩ := h2 d hd
  obtain ⟨o', c', g1, g2, g3⟩ := (k2 "Fe".toList).2 (exCompound, exData) rfl
  exact ⟨db, k1, o', c', g1, g3, g2.view⟩

/-- **C114 (data base).** The module functions `Cp`, `H`, `S` and `G` give, after loading the directory, the same results (values and exceptions) for every compound string, temperature and mass as
with the compounds that were written. -/
theorem C114_database {F : Type} (N : Numbers F) (val : F → ℝ) (cs : List (Py F × CompObj F)) (hcs : ∀ x ∈ cs, Holds N x.1 x.2) (hdis : ∀ x ∈ cs, Distinct val x.2)
    (hn : (cs.map (fun x => x.2.formula)).Nodup) (dir : List (Str × Str)) (hdir : ∀ e ∈ dir, ¬ ("Compound_".toList <+: e.1 ∧ ".json".toList <:+ e.1)) :
    ∃ dir', writeAll N (cs.map (·.1)) dir = .ok dir' ∧ ∀ dir'', dir''.Perm dir' → ∃ db, loadAuxi N (some dir'') = (db, none) ∧
      ∀ f, IsProperty f → ∀ (s : Str) (T mass : ℝ), ThermoChem.evaluate f (values N val db) s T mass = ThermoChem.evaluate f (cs.map (fun x => (x.2.formula, x.2.comp val))) s T mass := by
  obtain ⟨dir', h1, h2⟩ := directory N cs hcs dir (fun e he => by
    rw [Bool.eq_false_iff, ne_eq, isDataFile_iff]
    exact hdir e he)
  refine ⟨dir', h1, fun d hd => ?_⟩
  obtain ⟨db, k1, k2, _, k4⟩ := h2 d hd
  refine ⟨db, k1, fun f hf s T mass => ?_⟩
  refine (evaluate_same hf val (fun k => ?_) s T mass).symm
  obtain ⟨v1, v2⟩ := values_lookup N val db k k2
  have hl : (cs.map (fun x => (x.2.formula, x.2.comp val))).lookup k = (lastWith k cs).map (fun x => x.2.comp val) := by
    refine Option.ext fun y => ?_
    have hn' : ((cs.map (fun x => (x.2.formula, x.2.comp val))).map (·.1)).Nodup := by rw [List.map_map]; exact hn
    rw [lookup_iff hn']
    unfold lastWith
    constructor
    · intro hy
      obtain ⟨x, hx, hxy⟩ := List.mem_map.1 hy
      injection hxy with e1 e2
      have hfind : cs.reverse.find? (fun x => x.2.formula == k) ≠ none := by
        rw [ne_eq, List.find?_eq_none, not_forall]
        exact ⟨x, by simp [hx, e1]⟩
      cases hz : cs.reverse.find? (fun x => x.2.formula == k) with
      | none => exact absurd hz hfind
      | some z =>
        have hz1 : z ∈ cs := List.mem_reverse.1 (List.mem_of_find?_eq_some hz)
        have hz2 : z.2.formula = k := by have := List.find?_some hz; simpa using this
        have : (z.2.formula, z.2.comp val) ∈ cs.map (fun x => (x.2.formula, x.2.comp val)) := List.mem_map.2 ⟨z, hz1, rfl⟩
        have g1 := lookup_of_mem hn' this
        have g2 := lookup_of_mem hn' hy
        rw [hz2] at g1
        rw [g1] at g2
        exact g2
    · intro hy
      obtain ⟨z, hz, hzy⟩ := Option.map_eq_some_iff.1 hy
      have hz1 : z ∈ cs := List.mem_reverse.1 (List.mem_of_find?_eq_some hz)
      have hz2 : z.2.formula = k := by have := List.find?_some hz; simpa using this
      exact List.mem_map.2 ⟨z, hz1, by rw [hz2, hzy]⟩
  rw [hl]
  cases hx : lastWith k cs with
  | none => exact Or.inl ⟨rfl, v1 ((k4 k).1 hx)⟩
  | some x =>
    obtain ⟨o', c', g1, g2, g3⟩ := (k4 k).2 x hx
    refine Or.inr ⟨x.2, c', g3, hdis x (List.mem_reverse.1 (List.mem_of_find?_eq_some hx)), rfl, v2 o' c' g1 g2.view⟩

example : ∃ dir', writeAll ints [exCompound] [] = .ok dir' ∧ ∀ dir'', dir''.Perm dir' → ∃ db, loadAuxi ints (some dir'') = (db, none) ∧
    ∀ (s : Str) (T mass : ℝ), ThermoChem.H (values ints (fun x : ℤ => (x : ℝ)) db) s T mass = ThermoChem.H [("Fe".toList, exData.comp (fun x : ℤ => (x : ℝ)))] s T mass := by
  obtain ⟨dir', h1, h2⟩ := C114_database ints (fun x : ℤ => (x : ℝ)) [(exCompound, exData)] (fun x hx => by obtain rfl := List.mem_singleton.1 hx; exact exCompound_holds)
    (fun x hx => by obtain rfl := List.mem_singleton.1 hx; exact exData_distinct) (by simp) [] (fun e he => nomatch he)
  refine ⟨dir', h1, fun d hd => ?_⟩
  obtain ⟨db, k1, k2⟩ := h2 d hd
  exact ⟨db, k1, fun s T mass => k2 _ .H s T mass⟩

/-! ## What does not survive -/

/-- The text begins with these characters. -/
def Begins (a s : Str) : Prop := ∃ t, s = a ++ t

theorem begins_append {a s : Str} (h : Begins a s) (r : Str) : Begins a (s ++ r) := by
  obtain ⟨t, rfl⟩ := h
  exact ⟨t ++ r, by rw [List.append_assoc]⟩

theorem value_letter {F : Type} (N : Floats F) (t : Str) (c : Char) (hc : c = 'P' ∨ c = 'C') : ∀ n, value N n (c :: t) = none := by
  intro n
  cases n with
  | zero => rfl
  | succ n => rcases hc with rfl | rfl <;> simp [value, List.isPrefixOf]

theorem loads_begins {F : Type} (N : Floats F) {s : Str} (h : Begins ['\t', 'P'] s ∨ Begins ['\t', '\t', 'C'] s) : loads N s = .error .valueError := by
  unfold loads
  rcases h with ⟨t, rfl⟩ | ⟨t, rfl⟩
  · have : skip (['\t', 'P'] ++ t) = 'P' :: t := by simp [skip]
    rw [this, value_letter N t 'P' (Or.inl rfl)]
  · have : skip (['\t', '\t', 'C'] ++ t) = 'C' :: t := by simp [skip]
    rw [this, value_letter N t 'C' (Or.inr rfl)]

/-- **C114 (violated: phases).** No phase that is written to a file can be read back: its text is not JSON. -/
theorem C114_phase_violated {F : Type} (N : Numbers F) (o : Py F) (h : cls o = some phaseClass) : read N (text N o) = .error .valueError := by
  have ht : Begins ['\t', 'P'] (text N o) := by
    unfold text
    rw [h, if_neg (by decide), if_pos rfl]
    unfold phaseText
    repeat (refine begins_append ?_ _)
    exact ⟨"HASE: ".toList, by decide⟩
  unfold read
  rw [loads_begins N.toFloats (Or.inl ht)]

/-- **C114 (violated: records).** No heat capacity record that is written to a file can be read back. -/
theorem C114_record_violated {F : Type} (N : Numbers F) (o : Py F) (h : cls o = some recordClass) : read N (text N o) = .error .valueError := by
  have ht : Begins ['\t', '\t', 'C'] (text N o) := by
    unfold text
    rw [h, if_pos rfl]
    unfold recordText
    repeat (refine begins_append ?_ _)
    exact ⟨"p RECORD:\n".toList, by decide⟩
  unfold read
  rw [loads_begins N.toFloats (Or.inr ht)]

example : read ints (text ints exPhase) = .error .valueError := C114_phase_violated ints _ rfl
example : read ints (text ints (exRecord 1 2 3 4)) = .error .valueError := C114_record_violated ints _ rfl

/-- A phase to which magnetic data were given after it was made: the magnetic methods are still bound to zero. -/
def exGiven : Py ℤ := .inst phaseClass [("name".toList, .str "S".toList), ("symbol".toList, .str "S".toList), ("Tref".toList, .num 298), ("DHref".toList, .num 5), ("Sref".toList, .num 34),
  ("_Cp_records".toList, .dict [("900".toList, exRecord 298 900 20 1)]), ("Cp_mag".toList, zeroMethod), ("H_mag".toList, zeroMethod), ("S_mag".toList, zeroMethod), ("G_mag".toList, zeroMethod),
  ("Tc_mag".toList, .num 1000), ("beta0_mag".toList, .num 1), ("p_mag".toList, .num 1), ("_A_mag".toList, .num 1), ("_B_mag".toList, .num 0), ("_D_mag".toList, .num 2)]

theorem exGiven_plain : Plain exGiven :=
  ⟨by decide, by decide, Or.inr trivial, by decide, Or.inr trivial, by decide, Or.inr trivial, by decide, Or.inr trivial, by decide, Or.inr trivial, by decide,
    Or.inr ⟨by decide, by decide, exRecord_plain .., trivial⟩, by decide, Or.inl ⟨_, rfl⟩, by decide, Or.inl ⟨_, rfl⟩, by decide, Or.inl ⟨_, rfl⟩, by decide, Or.inl ⟨_, rfl⟩,
    by decide, Or.inr trivial, by decide, Or.inr trivial, by decide, Or.inr trivial, by decide, Or.inr trivial, by decide, Or.inr trivial,
    by decide, Or.inr trivial, trivial⟩

/-- The compound with that phase. -/
def exGivenComp : Py ℤ := .inst compoundClass [("formula".toList, .str "Fe".toList), ("molar_mass".toList, .num 56), ("_phases".toList, .dict [("S".toList, exGiven)]), ("reference".toList, .str [])]

/-- Its data, with (`some`) and without (`none`) the magnetic contribution. -/
def givenData (m : Option (MagObj ℤ)) : CompObj ℤ := ⟨"Fe".toList, 56, some [], [("S".toList, ⟨"S".toList, "S".toList, 298, 5, 34, m, [(900, ⟨298, 900, [20, 1], [0, 1]⟩)]⟩)]⟩

/-- **C114 (violated: magnetic data given later).** Without the condition on the magnetic attributes the property fails: writing and reading a compound whose phase was given magnetic data (and `_init`) after
it was made switches the magnetic contribution on, and changes the heat capacity. -/
theorem C114_magnetic_violated : ∃ (o o' : Py ℤ) (c c' : CompObj ℤ), Plain o ∧ compView ints o = some c ∧ read ints (text ints o) = .ok o' ∧ compView ints o' = some c' ∧
    (c'.comp (fun x : ℤ => (x : ℝ))).prop ThermoChem.Phase.Cp "S".toList 2000 ≠ (c.comp (fun x : ℤ => (x : ℝ))).prop ThermoChem.Phase.Cp "S".toList 2000 := by
  have hp : Plain exGivenComp := ⟨by decide, by decide, Or.inr trivial, by decide, Or.inr trivial, by decide, Or.inr ⟨by decide, by decide, exGiven_plain, trivial⟩, by decide, Or.inr trivial, trivial⟩
  obtain ⟨o', h1, h2⟩ : ∃ o', init ints (canon exGivenComp) = .ok o' ∧ compView ints o' = some (givenData (some ⟨1000, 1, 1, 1, 0, 2⟩)) := ⟨_, rfl, rfl⟩
  refine ⟨exGivenComp, o', givenData none, givenData (some ⟨1000, 1, 1, 1, 0, 2⟩), hp, rfl, ?_, h2, ?_⟩
  · have : text ints exGivenComp = dumps ints.toFloats (flatten exGivenComp) := by
      unfold text
      rw [if_neg (by decide), if_neg (by decide)]
    rw [this, read_dumps ints _ hp, h1]
  · have key : ∀ m : Option (MagObj ℤ), ((givenData m).comp (fun x : ℤ => (x : ℝ))).prop ThermoChem.Phase.Cp "S".toList 2000 =
        .ok ((ThermoChem.CpRecord.Cp ⟨((298 : ℤ) : ℝ), ((900 : ℤ) : ℝ), [(((20 : ℤ) : ℝ), ((0 : ℤ) : ℝ)), (((1 : ℤ) : ℝ), ((1 : ℤ) : ℝ))]⟩ ((900 : ℤ) : ℝ)) +
          (match m.map (fun m : MagObj ℤ => (⟨(m.Tc : ℝ), (m.beta0 : ℝ), (m.p : ℝ)⟩ : ThermoChem.Mag)) with | some m => m.Cp 2000 | none => 0)) := by
      intro m
      have hl : ((givenData m).comp (fun x : ℤ => (x : ℝ))).phases.lookup "S".toList =
        some ⟨((5 : ℤ) : ℝ), ((34 : ℤ) : ℝ), [(((900 : ℤ) : ℝ), ⟨((298 : ℤ) : ℝ), ((900 : ℤ) : ℝ), [(((20 : ℤ) : ℝ), ((0 : ℤ) : ℝ)), (((1 : ℤ) : ℝ), ((1 : ℤ) : ℝ))]⟩)],
          m.map (fun m : MagObj ℤ => (⟨(m.Tc : ℝ), (m.beta0 : ℝ), (m.p : ℝ)⟩ : ThermoChem.Mag))⟩ := rfl
      unfold ThermoChem.Compound.prop
      rw [hl]
      simp only
      unfold ThermoChem.Phase.Cp ThermoChem.Phase.CpMag
      simp only [ThermoChem.sortRecords, ThermoChem.insertRecord, ThermoChem.cpLoop]
      rw [if_neg (by norm_num)]
      rfl
    rw [key, key]
    intro h
    injection h with h
    rw [add_right_inj] at h
    simp only [Option.map_some, Option.map_none] at h
    unfold ThermoChem.Mag.Cp ThermoChem.Mag.D ThermoChem.R at h
    simp only at h
    rw [if_neg (by norm_num)] at h
    have hlog : Real.log (((1 : ℤ) : ℝ) + 1) ≠ 0 := by
      have : (0 : ℝ) < Real.log (((1 : ℤ) : ℝ) + 1) := Real.log_pos (by norm_num)
      exact ne_of_gt this
    have : (8.314462618 : ℝ) ≠ 0 := by norm_num
    rcases mul_eq_zero.1 h with h | h
    · rcases mul_eq_zero.1 h with h | h
      · exact this h
      · exact hlog h
    · revert h
      norm_num

/-- **C114 (violated: a file that cannot be read).** Loading a directory in which one file cannot be read raises, and leaves only the compounds read before it: all that were loaded earlier are gone. -/
theorem C114_load_violated {F : Type} (N : Numbers F) (l : List (Str × Str)) (name : Str) (h : isDataFile name = true) : loadAuxi N (some ((name, []) :: l)) = ([], some .valueError) := by
  unfold loadAuxi
  simp only [List.filter_cons, h, if_true]
  rfl

example : loadAuxi ints (some [("Compound_Fe.json".toList, []), ("Compound_Ag.json".toList, text ints exCompound)]) = ([], some .valueError) := C114_load_violated ints _ _ (by decide)

/-- A number in the notation of JSON: a minus sign or nothing, digits, a fraction or nothing, an exponent or nothing. -/
def JsonNumber (s : Str) : Prop := ∃ sign int frac exp : Str, s = sign ++ int ++ frac ++ exp ∧ (sign = [] ∨ sign = ['-']) ∧ int ≠ [] ∧ (∀ c ∈ int, c.isDigit = true) ∧
  (frac = [] ∨ ∃ d, frac = '.' :: d ∧ ∀ c ∈ d, c.isDigit = true) ∧
  (exp = [] ∨ ∃ e plus d, exp = e :: plus ++ d ∧ (e = 'e' ∨ e = 'E') ∧ (plus = [] ∨ plus = ['+'] ∨ plus = ['-']) ∧ ∀ c ∈ d, c.isDigit = true)

theorem isPrefixOf_false {c d : Char} (s t : Str) (h : c ≠ d) : (c :: s).isPrefixOf (d :: t) = false := by
  simp [List.isPrefixOf, h]

theorem takeWhile_all {p : Char → Bool} : ∀ {l : Str}, (∀ c ∈ l, p c = true) → l.takeWhile p = l
  | [], _ => rfl
  | c :: l, h => by rw [List.takeWhile, h c (by simp)]; dsimp only; rw [takeWhile_all (fun d hd => h d (List.mem_cons_of_mem _ hd))]

theorem dropWhile_all {p : Char → Bool} : ∀ {l : Str}, (∀ c ∈ l, p c = true) → l.dropWhile p = []
  | [], _ => rfl
  | c :: l, h => by rw [List.dropWhile, h c (by simp)]; exact dropWhile_all (fun d hd => h d (List.mem_cons_of_mem _ hd))

/-- **C114.** A number in a file is passed to `float` whole, in every notation of JSON; if `float` refuses it the file is refused. -/
theorem C114_number {F : Type} (N : Floats F) (s : Str) (h : JsonNumber s) :
    loads N s = match N.float s with | some x => .ok (.num x) | none => .error .valueError := by
  obtain ⟨sign, int, frac, exp, rfl, hs, hi, hid, hf, he⟩ := h
  have hdig : ∀ c : Char, c.isDigit = true → numChar c = true := fun c h => by unfold numChar; rw [h]; rfl
  have hall : ∀ c ∈ sign ++ int ++ frac ++ exp, numChar c = true := by
    intro c hc
    simp only [List.mem_append] at hc
    rcases hc with ((hc | hc) | hc) | hc
    · rcases hs with rfl | rfl
      · cases hc
      · rw [List.mem_singleton.1 hc]; rfl
    · exact hdig c (hid c hc)
    · rcases hf with rfl | ⟨d, rfl, hd⟩
      · cases hc
      · rcases List.mem_cons.1 hc with rfl | hc
        · rfl
        · exact hdig c (hd c hc)
    · rcases he with rfl | ⟨e, plus, d, rfl, he, hp, hd⟩
      · cases hc
      · rcases List.mem_cons.1 hc with rfl | hc
        · rcases he with rfl | rfl <;> rfl
        · rcases List.mem_append.1 hc with hc | hc
          · rcases hp with rfl | rfl | rfl
            · cases hc
            · rw [List.mem_singleton.1 hc]; rfl
            · rw [List.mem_singleton.1 hc]; rfl
          · exact hdig c (hd c hc)
  obtain ⟨c, t, ht, hc⟩ : ∃ c t, sign ++ int ++ frac ++ exp = c :: t ∧ (c.isDigit = true ∨ c = '-') := by
    rcases hs with rfl | rfl
    · cases int with
      | nil => exact absurd rfl hi
      | cons c t => exact ⟨c, t ++ frac ++ exp, by simp, Or.inl (hid c (by simp))⟩
    · exact ⟨'-', int ++ frac ++ exp, by simp, Or.inr rfl⟩
  rw [ht] at hall ⊢
  have hne : ∀ d : Char, d.isDigit = false → d ≠ '-' → c ≠ d := by
    rintro d h1 h2 rfl
    rcases hc with h | h
    · rw [h] at h1; cases h1
    · exact h2 h
  have hw : c ≠ ' ' ∧ c ≠ '\t' ∧ c ≠ '\n' ∧ c ≠ '\r' := ⟨hne _ (by decide) (by decide), hne _ (by decide) (by decide), hne _ (by decide) (by decide), hne _ (by decide) (by decide)⟩
  have hskip : skip (c :: t) = c :: t := by simp [skip, hw]
  have hd : (c.isDigit || c == '-') = true := by rcases hc with h | h <;> simp [h]
  have htake : (c :: t).takeWhile numChar = c :: t := takeWhile_all hall
  have hdrop : (c :: t).dropWhile numChar = [] := dropWhile_all hall
  rw [loads, hskip, show 2 * (c :: t).length + 2 = (2 * (c :: t).length + 1) + 1 from rfl, value, if_neg (hne '"' (by decide) (by decide)), if_neg (hne '[' (by decide) (by decide)),
    if_neg (hne '{' (by decide) (by decide)), show "null".toList = ['n', 'u', 'l', 'l'] by decide, show "true".toList = ['t', 'r', 'u', 'e'] by decide,
    show "false".toList = ['f', 'a', 'l', 's', 'e'] by decide, isPrefixOf_false _ _ (hne 'n' (by decide) (by decide)).symm, isPrefixOf_false _ _ (hne 't' (by decide) (by decide)).symm,
    isPrefixOf_false _ _ (hne 'f' (by decide) (by decide)).symm, hd, htake, hdrop]
  cases N.float (c :: t) with
  | none => rfl
  | some x => rfl

/-- Two floats, with their texts in Python. -/
def twoFloats : Floats Bool where
  repr b := if b then "-1.5e-07".toList else "1e+22".toList
  float s := if s = "-1.5e-07".toList ∨ s = "-1.5E-07".toList then some true else if s = "1e+22".toList then some false else none
  head b := by cases b; exacts [⟨_, _, rfl, Or.inl (by decide)⟩, ⟨_, _, rfl, Or.inr rfl⟩]
  chars b := by cases b <;> decide
  exact b := by cases b <;> decide

example : loads twoFloats "-1.5E-07".toList = .ok (.num true) ∧ loads twoFloats (dumps twoFloats (.num false)) = .ok (.num false) := by
  refine ⟨(C114_number twoFloats _ ⟨['-'], ['1'], ".5".toList, "E-07".toList, by decide, by decide, by decide, by decide, Or.inr ⟨['5'], by decide, by decide⟩,
    Or.inr ⟨'E', ['-'], ['0', '7'], by decide, by decide, by decide, by decide⟩⟩).trans rfl, ?_⟩
  exact (C114_number twoFloats "1e+22".toList ⟨[], ['1'], [], "e+22".toList, by decide, by decide, by decide, by decide, Or.inl rfl,
    Or.inr ⟨'e', ['+'], ['2', '2'], by decide, by decide, by decide, by decide⟩⟩).trans rfl

end Auxi.Persist.Props
