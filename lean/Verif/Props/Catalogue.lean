import Verif.Catalogue
import Verif.Spec.Catalogue
import Verif.Proofs.JsonSort
import Verif.Props.ShippedThermo

/-!
# Property C134: the catalogue of the loaded compounds
-/
namespace Auxi.Catalogue.Props
open ThermoChem Catalogue Catalogue.Spec Json Json.Proofs

theorem before_of_le {s t : Str} (h : strLe s t = true) (hne : s ≠ t) : Before s t := by
  unfold Before
  induction s generalizing t with
  | nil =>
    cases t with
    | nil => exact absurd rfl hne
    | cons b t => exact List.Lex.nil
  | cons a s ih =>
    cases t with
    | nil => cases h
    | cons b t =>
      simp only [strLe] at h
      rw [List.map_cons, List.map_cons, List.cons_lt_cons_iff]
      by_cases h1 : a.toNat < b.toNat
      · exact Or.inl h1
      · by_cases h2 : b.toNat < a.toNat
        · rw [if_neg h1, if_pos h2] at h; cases h
        · rw [if_neg h1, if_neg h2] at h
          have hab : a.toNat = b.toNat := by omega
          exact Or.inr ⟨hab, ih h (fun e => hne (by rw [e, toNat_inj hab]))⟩

theorem sortedKeys_before {α : Type} {d : List (Str × α)} (hn : (d.map (·.1)).Nodup) : (sortedKeys d).Pairwise Before := by
  unfold sortedKeys
  have h1 : (sortKeys d).Pairwise (fun a b => strLe a.1 b.1 = true) := sortKeys_sorted d
  have h2 : ((sortKeys d).map (·.1)).Nodup := ((sortKeys_perm d).map _).nodup_iff.2 hn
  rw [List.pairwise_map]
  rw [List.Nodup, List.pairwise_map] at h2
  exact (h1.and h2).imp (fun h => before_of_le h.1 h.2)

theorem mem_sortedKeys {α : Type} (d : List (Str × α)) (k : Str) : k ∈ sortedKeys d ↔ ∃ v, d.lookup k = some v := by
  unfold sortedKeys
  rw [((sortKeys_perm d).map _).mem_iff]
  constructor
  · intro h
    cases hl : d.lookup k with
    | none => exact absurd h (lookup_none.1 hl)
    | some v => exact ⟨v, rfl⟩
  · rintro ⟨v, h⟩
    exact List.mem_map.2 ⟨(k, v), mem_of_lookup h, rfl⟩

theorem join_eq (sep : Str) : ∀ l, join sep l = List.intercalate sep l
  | [] => rfl
  | [s] => by simp [join, List.intercalate]
  | s :: t :: l => by rw [join, join_eq sep (t :: l)]; simp [List.intercalate]

/-- The rows of the catalogue. -/
def rowsOf (db : List (Str × Compound)) (l : List Str) : List (Str × List Str) := l.filterMap (fun f => (db.lookup f).map (fun c => (f, phaseList c)))

theorem compoundLines_eq (db : List (Str × Compound)) : ∀ l, compoundLines db l = (rowsOf db l).map line
  | [] => rfl
  | f :: l => by
    unfold compoundLines rowsOf
    rw [List.filterMap_cons]
    cases db.lookup f with
    | none => exact compoundLines_eq db l
    | some c =>
      simp only [Option.map_some, List.map_cons]
      rw [compoundLines_eq db l, join_eq]
      rfl

theorem rowsOf_keys (db : List (Str × Compound)) : ∀ l, (∀ f ∈ l, ∃ c, db.lookup f = some c) → (rowsOf db l).map (·.1) = l
  | [], _ => rfl
  | f :: l, h => by
    obtain ⟨c, hc⟩ := h f (by simp)
    unfold rowsOf
    rw [List.filterMap_cons, hc]
    simp only [Option.map_some, List.map_cons]
    exact congrArg (f :: ·) (rowsOf_keys db l (fun g hg => h g (List.mem_cons_of_mem _ hg)))

theorem catalogue_rows (db : List (Str × Compound)) (h : Dict db) : IsCatalogue db (rowsOf db (sortedKeys db)) := by
  have hk := rowsOf_keys db (sortedKeys db) (fun f hf => (mem_sortedKeys db f).1 hf)
  have hr : ∀ r ∈ rowsOf db (sortedKeys db), ∃ c, db.lookup r.1 = some c ∧ r.2 = phaseList c := by
    intro r hr
    obtain ⟨f, _, hf⟩ := List.mem_filterMap.1 hr
    obtain ⟨c, h1, h2⟩ := Option.map_eq_some_iff.1 hf
    subst h2
    exact ⟨c, h1, rfl⟩
  refine ⟨by rw [hk]; exact sortedKeys_before h.1, fun r hr' => ?_, fun f => by rw [hk]; exact mem_sortedKeys db f, fun r hr' c hc p => ?_⟩
  · obtain ⟨c, h1, h2⟩ := hr r hr'
    rw [h2]
    exact sortedKeys_before (h.2 _ (mem_of_lookup h1))
  · obtain ⟨c', h1, h2⟩ := hr r hr'
    rw [hc] at h1
    injection h1 with h1
    subst h1
    rw [h2]
    exact mem_sortedKeys c.phases p

/-- **C134 (what is printed).** `list_compounds` prints a heading and then one line for each loaded compound: its formula and its phases, compounds and phases in the order of their names. -/
theorem C134_printed (db : List (Str × Compound)) (h : Dict db) :
    ∃ rows, IsCatalogue db rows ∧ listCompounds db = "Compounds currently loaded:".toList :: rows.map line := by
  exact ⟨rowsOf db (sortedKeys db), catalogue_rows db h, by rw [listCompounds, compoundLines_eq]⟩

theorem before_asymm {s t : Str} (h : Before s t) (h' : Before t s) : False := lt_asymm (α := List ℕ) h h'

theorem sorted_ext : ∀ {l l' : List Str}, l.Pairwise Before → l'.Pairwise Before → (∀ s, s ∈ l ↔ s ∈ l') → l = l' := by
  intro l l' h h' hm
  have n : ∀ {l : List Str}, l.Pairwise Before → l.Nodup := fun h => h.imp (fun hb => by rintro rfl; exact lt_irrefl (α := List ℕ) _ hb)
  have hp : l.Perm l' := (List.perm_ext_iff_of_nodup (n h) (n h')).2 hm
  exact hp.eq_of_pairwise (fun a b _ _ h1 h2 => (before_asymm h1 h2).elim) h h'

/-- **C134 (there is one catalogue).** The rows are determined by the compounds that are loaded, so that two dictionaries with the same compounds, in whatever order they were loaded, print the same. -/
theorem C134_unique (db db' : List (Str × Compound)) (h : ∀ f, db.lookup f = db'.lookup f) (rows rows' : List (Str × List Str)) (hr : IsCatalogue db rows) (hr' : IsCatalogue db' rows') : rows = rows' := by
  have hk : rows.map (·.1) = rows'.map (·.1) := sorted_ext hr.order hr'.order (fun f => by rw [hr.formulas, hr'.formulas, h f])
  have hlen : rows.length = rows'.length := by simpa using congrArg List.length hk
  refine List.ext_getElem hlen (fun i h1 h2 => ?_)
  have e1 : rows[i].1 = rows'[i].1 := by
    have := congrArg (fun l => l[i]?) hk
    simpa [h1, h2] using this
  have m1 : rows[i] ∈ rows := List.getElem_mem h1
  have m2 : rows'[i] ∈ rows' := List.getElem_mem h2
  obtain ⟨c, hc⟩ := (hr.formulas rows[i].1).1 (List.mem_map.2 ⟨_, m1, rfl⟩)
  have hc' : db'.lookup rows'[i].1 = some c := by rw [← e1, ← h, hc]
  refine Prod.ext e1 (sorted_ext (hr.phaseOrder _ m1) (hr'.phaseOrder _ m2) (fun p => ?_))
  rw [hr.phases _ m1 c hc p, hr'.phases _ m2 c hc' p]

theorem C134_order (db db' : List (Str × Compound)) (h : Dict db) (hp : db.Perm db') : listCompounds db = listCompounds db' := by
  have h' : Dict db' := ⟨(hp.map _).nodup_iff.1 h.1, fun e he => h.2 e (hp.symm.subset he)⟩
  obtain ⟨r, h1, h2⟩ := C134_printed db h
  obtain ⟨r', h1', h2'⟩ := C134_printed db' h'
  rw [h2, h2', C134_unique db db' (fun f => lookup_perm hp h.1 f) r r' h1 h1']

theorem cp_ok {p : Phase} (h : p.records ≠ []) (f : Phase → ℝ → Res ℝ) (hf : f ∈ [Phase.Cp, Phase.H, Phase.S, Phase.G]) (T : ℝ) : ∃ v, f p T = .ok v := by
  have hne : (sortRecords p.records).getLast? ≠ none := by
    rw [ne_eq, List.getLast?_eq_none_iff]
    cases hr : p.records with
    | nil => exact absurd hr h
    | cons r l =>
      rw [sortRecords]
      cases sortRecords l with
      | nil => simp [insertRecord]
      | cons s l => unfold insertRecord; split <;> simp
  obtain ⟨z, hz⟩ := Option.ne_none_iff_exists'.1 hne
  have hC : ∀ T, ∃ v, p.Cp T = .ok v := by
    intro T
    unfold Phase.Cp
    cases cpLoop T (sortRecords p.records) with
    | some r => exact ⟨_, rfl⟩
    | none => simp only [hz]; exact ⟨_, rfl⟩
  obtain ⟨w, hw⟩ := hC z.1
  simp only [List.mem_cons, List.not_mem_nil, or_false] at hf
  rcases hf with rfl | rfl | rfl | rfl
  · exact hC T
  · unfold Phase.H; cases hLoop T (sortRecords p.records) p.DHref with
    | mk a b => cases b with
      | true => exact ⟨_, rfl⟩
      | false => simp only [hz, hw]; exact ⟨_, rfl⟩
  · unfold Phase.S; cases sLoop T (sortRecords p.records) p.Sref with
    | mk a b => cases b with
      | true => exact ⟨_, rfl⟩
      | false => simp only [hz, hw]; exact ⟨_, rfl⟩
  · unfold Phase.G; cases gLoop T (sortRecords p.records) p.DHref p.Sref with
    | mk a b => cases b with
      | mk b c => cases c with
        | true => exact ⟨_, rfl⟩
        | false => simp only [hz, hw]; exact ⟨_, rfl⟩

/-- **C134 (what is listed can be asked).** For names without brackets: a formula that is not listed raises `KeyError`; a phase that is not listed for its formula raises an exception; and the four functions answer
for every phase that is listed, at every temperature above absolute zero and every mass, if the compound has a molar mass and the phase heat capacity data without gaps. -/
theorem C134_ask (db : List (Str × Compound)) (rows : List (Str × List Str)) (hr : IsCatalogue db rows) (f p : Str) (h1 : '[' ∉ f) (h2 : ']' ∉ f) (h3 : '[' ∉ p) (h4 : ']' ∉ p) (T m : ℝ) (_ : -273.15 < T) :
    ∀ q ∈ [Cp db, H db, S db, G db],
      (f ∉ rows.map (·.1) → q (f ++ '[' :: p ++ [']']) T m = .error .keyError) ∧
      (∀ ps, (f, ps) ∈ rows → p ∉ ps → q (f ++ '[' :: p ++ [']']) T m = .error .exception) ∧
      (∀ ps, (f, ps) ∈ rows → p ∈ ps → (∀ c, db.lookup f = some c → c.molarMass ≠ 0 ∧ ∀ d, c.phases.lookup p = some d → ThermoChem.Spec.PhaseMagOK d ∧ ∃ T0 l, ThermoChem.Spec.Covers d T0 l) → ∃ v, q (f ++ '[' :: p ++ [']']) T m = .ok v) := by
  have hs := ThermoChem.Props.C73_text f p h1 h2 h3 h4
  have main : ∀ g ∈ [Phase.Cp, Phase.H, Phase.S, Phase.G],
      (f ∉ rows.map (·.1) → evaluate g db (f ++ '[' :: p ++ [']']) T m = .error .keyError) ∧
      (∀ ps, (f, ps) ∈ rows → p ∉ ps → evaluate g db (f ++ '[' :: p ++ [']']) T m = .error .exception) ∧
      (∀ ps, (f, ps) ∈ rows → p ∈ ps → (∀ c, db.lookup f = some c → c.molarMass ≠ 0 ∧ ∀ d, c.phases.lookup p = some d → ThermoChem.Spec.PhaseMagOK d ∧ ∃ T0 l, ThermoChem.Spec.Covers d T0 l) →
        ∃ v, evaluate g db (f ++ '[' :: p ++ [']']) T m = .ok v) := by
    intro g hg
    have hev : evaluate g db (f ++ '[' :: p ++ [']']) T m = match db.lookup f with
        | none => .error .keyError
        | some c => match c.prop g p (T + 273.15) with
          | .error e => .error e
          | .ok v => finalise c v m := by
      unfold evaluate
      rw [hs]
      rfl
    rw [hev]
    refine ⟨fun hf => ?_, fun ps hps hp => ?_, fun ps hps hp hok => ?_⟩
    · cases hl : db.lookup f with
      | none => rfl
      | some c => exact absurd ((hr.formulas f).2 ⟨c, hl⟩) hf
    · obtain ⟨c, hc⟩ := (hr.formulas f).1 (List.mem_map.2 ⟨_, hps, rfl⟩)
      rw [hc]
      have : c.phases.lookup p = none := by
        cases hl : c.phases.lookup p with
        | none => rfl
        | some d => exact absurd ((hr.phases _ hps c hc p).2 ⟨d, hl⟩) hp
      simp only [Compound.prop, this]
    · obtain ⟨c, hc⟩ := (hr.formulas f).1 (List.mem_map.2 ⟨_, hps, rfl⟩)
      obtain ⟨d, hd⟩ := (hr.phases _ hps c hc p).1 hp
      obtain ⟨k1, k2⟩ := hok c hc
      have hne : d.records ≠ [] := by
        obtain ⟨_, T0, l, hl⟩ := k2 d hd
        intro h0
        have := hl.perm
        rw [h0] at this
        exact hl.ne (List.perm_nil.1 this)
      obtain ⟨v, hv⟩ := cp_ok hne g hg (T + 273.15)
      rw [hc]
      simp only [Compound.prop, hd, hv, finalise]
      exact ⟨_, if_neg k1⟩
  intro q hq
  simp only [List.mem_cons, List.not_mem_nil, or_false] at hq
  rcases hq with rfl | rfl | rfl | rfl
  · exact main Phase.Cp (by simp)
  · exact main Phase.H (by simp)
  · exact main Phase.S (by simp)
  · exact main Phase.G (by simp)

/-- **C134 (references).** A compound without a reference has the empty text; one with a reference has the text of the reference list, or `KeyError` if it is not there. -/
theorem C134_reference (refs : List (Str × Str)) : getReference refs none = .ok [] ∧ getReference refs (some []) = .ok [] ∧
    ∀ r, r ≠ [] → (∀ t, refs.lookup r = some t → getReference refs (some r) = .ok t) ∧ (r ∉ refs.map (·.1) → getReference refs (some r) = .error .keyError) := by
  refine ⟨rfl, rfl, fun r hr => ⟨fun t ht => ?_, fun h => ?_⟩⟩
  · simp only [getReference, if_neg hr, ht]
  · simp only [getReference, if_neg hr, lookup_none.2 h]

/-! ## Examples and the default data -/

/-- Two compounds, loaded in the order of the files. -/
noncomputable def exDb : List (Str × Compound) := [("Fe".toList, ⟨56 / 1000, [("S".toList, ThermoChem.Props.sampleM), ("L".toList, ThermoChem.Props.sampleM)]⟩), ("Ag".toList, ⟨108 / 1000, [("S".toList, ThermoChem.Props.sampleM)]⟩)]

theorem exDb_dict : Dict exDb := by
  refine ⟨by simp [exDb], fun e he => ?_⟩
  simp only [exDb, List.mem_cons, List.not_mem_nil, or_false] at he
  rcases he with rfl | rfl <;> simp

example : listCompounds exDb = ["Compounds currently loaded:".toList, "Ag: S".toList, "Fe: L, S".toList] := rfl

example : ∃ rows, IsCatalogue exDb rows ∧ listCompounds exDb = "Compounds currently loaded:".toList :: rows.map line := C134_printed exDb exDb_dict

example : listCompounds exDb = listCompounds exDb.reverse := C134_order _ _ exDb_dict (List.reverse_perm _).symm

example : ∀ rows, IsCatalogue exDb rows → rows = [("Ag".toList, ["S".toList]), ("Fe".toList, ["L".toList, "S".toList])] := by
  intro rows h
  refine C134_unique exDb exDb (fun _ => rfl) rows _ h ?_
  obtain ⟨r, h1, h2⟩ := C134_printed exDb exDb_dict
  have e : rowsOf exDb (sortedKeys exDb) = [("Ag".toList, ["S".toList]), ("Fe".toList, ["L".toList, "S".toList])] := rfl
  have : IsCatalogue exDb (rowsOf exDb (sortedKeys exDb)) := catalogue_rows exDb exDb_dict
  rwa [e] at this

example (T m : ℝ) (hT : -273.15 < T) : H exDb "Fe[G]".toList T m = .error .exception ∧ H exDb "Au[S]".toList T m = .error .keyError ∧ ∃ v, H exDb "Fe[L]".toList T m = .ok v := by
  have hc : IsCatalogue exDb (rowsOf exDb (sortedKeys exDb)) := catalogue_rows exDb exDb_dict
  have e : rowsOf exDb (sortedKeys exDb) = [("Ag".toList, ["S".toList]), ("Fe".toList, ["L".toList, "S".toList])] := rfl
  rw [e] at hc
  refine ⟨(C134_ask exDb _ hc "Fe".toList "G".toList (by decide) (by decide) (by decide) (by decide) T m hT (H exDb) (by simp)).2.1 ["L".toList, "S".toList] (by simp) (by decide),
    (C134_ask exDb _ hc "Au".toList "S".toList (by decide) (by decide) (by decide) (by decide) T m hT (H exDb) (by simp)).1 (by decide),
    (C134_ask exDb _ hc "Fe".toList "L".toList (by decide) (by decide) (by decide) (by decide) T m hT (H exDb) (by simp)).2.2 ["L".toList, "S".toList] (by simp) (by decide) ?_⟩
  intro c hc'
  injection hc' with hc'
  subst hc'
  refine ⟨by norm_num, fun d hd => ?_⟩
  injection hd with hd
  subst hd
  exact ⟨ThermoChem.Props.sampleM_ok, _, _, ThermoChem.Props.sampleM_covers⟩

example : getReference shippedReferences (some "rao1985".toList) = .ok "Rao, Y.K. (1985). Stoichiometry and Thermodynamics of Metallurgical Processes. Cambridge, UK: Cambridge University. ISBN: 0-521-25856-1.".toList ∧
    getReference shippedReferences (some "rao1986".toList) = .error .keyError :=
  ⟨((C134_reference shippedReferences).2.2 "rao1985".toList (by decide)).1 _ rfl, ((C134_reference shippedReferences).2.2 "rao1986".toList (by decide)).2 (by decide)⟩

/-- **C134 (the default data).** All phases that `list_compounds` lists after import can be asked: the four functions answer at every temperature above absolute zero and for every mass. -/
theorem C134_default (db : List (Str × Compound)) (h : ThermoChem.Spec.Loaded db) (rows : List (Str × List Str)) (hr : IsCatalogue db rows) (f p : Str) (ps : List Str) (hf : (f, ps) ∈ rows)
    (hp : p ∈ ps) (T m : ℝ) (hT : -273.15 < T) : ∀ q ∈ [Cp db, H db, S db, G db], ∃ v, q (f ++ '[' :: p ++ [']']) T m = .ok v := by
  obtain ⟨c, hc⟩ := (hr.formulas f).1 (List.mem_map.2 ⟨_, hf, rfl⟩)
  obtain ⟨d, hd⟩ := (hr.phases _ hf c hc p).1 hp
  have hm : (f, c) ∈ shippedDb := h.subset (mem_of_lookup hc)
  obtain ⟨⟨f', c'⟩, hs, he⟩ := List.mem_map.1 hm
  injection he with e1 e2
  subst e1
  subst e2
  obtain ⟨⟨p', d'⟩, hs', he'⟩ := List.mem_map.1 (mem_of_lookup hd)
  injection he' with e3 e4
  subst e3
  exact (ThermoChem.Props.C106_usable db h f' c' hs p' d' hs' m).2.2 T hT

theorem shippedDb_dict : Dict shippedDb := by
  have k1 : ((shipped.map (fun c => c.1.toList)).Nodup) := by decide +kernel
  have k2 : shipped.all (fun c => decide ((c.2.phases.map (fun p => p.1.toList)).Nodup)) = true := by decide +kernel
  refine ⟨?_, fun e he => ?_⟩
  · unfold shippedDb
    rw [List.map_map]
    exact k1
  · obtain ⟨c, hc, rfl⟩ := List.mem_map.1 he
    have := List.all_eq_true.1 k2 c hc
    simp only [DataCompound.compound, List.map_map]
    exact of_decide_eq_true this

example : ∃ rows, IsCatalogue shippedDb rows ∧ "Al2O3".toList ∈ rows.map (·.1) ∧ "Xx".toList ∉ rows.map (·.1) := by
  refine ⟨_, catalogue_rows shippedDb shippedDb_dict, ?_, ?_⟩
  · rw [(catalogue_rows shippedDb shippedDb_dict).formulas]
    have : "Al2O3".toList ∈ shipped.map (fun c => c.1.toList) := by decide +kernel
    obtain ⟨c, hc, he⟩ := List.mem_map.1 this
    exact ⟨c.2.compound, lookup_of_mem shippedDb_dict.1 (List.mem_map.2 ⟨c, hc, by rw [← he]⟩)⟩
  · rw [(catalogue_rows shippedDb shippedDb_dict).formulas]
    rintro ⟨c, hc⟩
    have : "Xx".toList ∉ shipped.map (fun c => c.1.toList) := by decide +kernel
    obtain ⟨d, hd, he⟩ := List.mem_map.1 (mem_of_lookup hc)
    injection he with e1 _
    exact this (List.mem_map.2 ⟨d, hd, e1⟩)

end Auxi.Catalogue.Props
