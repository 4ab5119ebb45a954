import Verif.Props.PrintoutMore

/-! # C122, continued: the printouts of `thermo` -/
namespace Auxi.Printout.Props
open Auxi Auxi.Printout Auxi.Printout.Spec Auxi.Printout.Proofs
open Auxi.Thermo (V vadd vdiv vgt vsum)
open Auxi.Thermo.Props
open Classical

/-! ## Materials -/

theorem vsum_sum (l : List ℝ) : ∀ a : ℝ, (l.map some).foldl vadd (some a) = some (a + l.sum) := by
  induction l with
  | nil => intro a; simp
  | cons x l ih => intro a; simp only [List.map_cons, List.foldl_cons, List.sum_cons]; rw [show vadd (some a) (some x) = some (a + x) from rfl, ih, add_assoc]

theorem thermoCell_ok {m : Thermo.Material} {frac : Str → Str → ℝ} (hd : m.compounds.Nodup) (hf : Filled m.compounds (fun n c => some (frac n c)) m.assays) {c n : Str}
    (hc : c ∈ m.compounds) (hn : n ∈ m.assays.map (·.1)) : thermoCell m c n = .ok (some (frac n c)) := by
  obtain ⟨i, hlt, hi⟩ := List.mem_iff_getElem.1 hc
  have hi' : m.compounds[i]? = some c := by rw [List.getElem?_eq_getElem hlt, hi]
  unfold thermoCell
  rw [indexed_thermo hd i c hi']
  simp only [filled_dict hf hn, item, List.getElem?_map, hi']
  rfl

theorem thermoTotal_ok {m : Thermo.Material} {frac : Str → Str → ℝ} (hd : m.compounds.Nodup) (hf : Filled m.compounds (fun n c => some (frac n c)) m.assays) {n : Str}
    (hn : n ∈ m.assays.map (·.1)) : ∀ (cs : List Str) (a : ℝ), (∀ c ∈ cs, c ∈ m.compounds) → thermoTotal m n cs (some a) = .ok (some (a + (cs.map (frac n)).sum))
  | [], a, _ => by simp [thermoTotal]
  | c :: cs, a, h => by
    rw [thermoTotal, thermoCell_ok hd hf (h c (by simp)) hn]
    change thermoTotal m n cs (some (a + frac n c)) = _
    rw [thermoTotal_ok hd hf hn cs _ (fun c hc => h c (by simp [hc])), List.map_cons, List.sum_cons, add_assoc]

theorem lookup_pairs {α : Type} (f : Str → α) : ∀ {ks : List Str} {k : Str}, k ∈ ks → (ks.map (fun k => (k, f k))).lookup k = some (f k)
  | k' :: ks, k, h => by
    rw [List.map_cons, List.lookup_cons]
    by_cases e : k = k'
    · subst e; simp
    · rw [beq_eq_false_iff_ne.2 e]
      exact lookup_pairs f ((List.mem_cons.1 h).resolve_left e)

theorem hasProps_lookup {m : Thermo.Material} {props : List Str} {val : Str → Str → ℝ} (h : HasProps m props val) {n : Str} (hn : n ∈ m.assays.map (·.1)) :
    dict m.custom n = .ok (props.map (fun k => (k, val n k))) := by
  obtain ⟨d, h1, h2⟩ := dict_mem (d := m.custom) (h.1 ▸ hn)
  rw [h1]; exact congrArg _ (h.2 _ h2)

theorem sorted_first {l : List Str} (h : l ≠ []) : ∃ a, item (sorted l) 0 = .ok a ∧ a ∈ l := by
  have hp := (sorted_alphabetical l).1
  cases hs : sorted l with
  | nil => rw [hs] at hp; exact absurd hp.symm.eq_nil h
  | cons a r => exact ⟨a, rfl, hp.mem_iff.1 (by rw [hs]; simp)⟩

theorem thermoCustom_ok {sci : V → Str} {w : ℕ} {m : Thermo.Material} {props : List Str} {val : Str → Str → ℝ} (h : HasProps m props val) (ha : m.assays ≠ []) (hc : m.customNames ≠ []) :
    thermoCustom sci w m (sorted (m.assays.map (·.1))) = .ok (bar '-' w ++ txt "Custom Properties:\n" ++ bar '-' w ++
      (((sorted props).map (fun k => ljust 20 k ++ columns ((sorted (m.assays.map (·.1))).map fun n => rjust 15 (sci (some (val n k)))))).map (· ++ nl)).flatten) := by
  unfold thermoCustom
  rw [if_pos (List.length_pos_iff.2 hc)]
  obtain ⟨a, h1, h2⟩ := sorted_first (l := m.custom.map (·.1)) (by rw [h.1]; simpa using ha)
  rw [h1]
  dsimp only
  rw [hasProps_lookup h (h.1 ▸ h2)]
  dsimp only
  rw [List.map_map, show ((fun x : Str × ℝ => x.1) ∘ fun k => (k, val a k)) = id from rfl, List.map_id,
    cat_ok (g := fun k => ljust 20 k ++ columns ((sorted (m.assays.map (·.1))).map fun n => rjust 15 (sci (some (val n k)))) ++ nl)]
  · dsimp only
    rw [map_flatten_snoc (fun k => ljust 20 k ++ columns ((sorted (m.assays.map (·.1))).map fun n => rjust 15 (sci (some (val n k)))))]
  · intro k hk
    refine padLine_ok fun n hn => ?_
    rw [hasProps_lookup h (mem_sorted.1 hn)]
    simp only [dict, lookup_pairs (val n) (mem_sorted.1 hk)]

theorem thermo_rows {sci : V → Str} {m : Thermo.Material} {frac : Str → Str → ℝ} (hd : m.compounds.Nodup) (hf : Filled m.compounds (fun n c => some (frac n c)) m.assays) :
    cat (fun c => padLine c (fun a => cell sci (thermoCell m c a)) (sorted (m.assays.map (·.1)))) (sorted m.compounds) =
      .ok (((sorted m.compounds).map (fun c => ljust 20 c ++ columns ((sorted (m.assays.map (·.1))).map fun n => rjust 15 (sci (some (frac n c)))))).map (· ++ nl)).flatten := by
  rw [cat_ok (g := fun c => ljust 20 c ++ columns ((sorted (m.assays.map (·.1))).map fun n => rjust 15 (sci (some (frac n c)))) ++ nl),
    map_flatten_snoc (fun c => ljust 20 c ++ columns ((sorted (m.assays.map (·.1))).map fun n => rjust 15 (sci (some (frac n c)))))]
  intro c hc
  refine padLine_ok fun n hn => ?_
  rw [thermoCell_ok hd hf (mem_sorted.1 hc) (mem_sorted.1 hn)]; rfl

theorem thermo_total {sci : V → Str} {m : Thermo.Material} {frac : Str → Str → ℝ} (hd : m.compounds.Nodup) (hf : Filled m.compounds (fun n c => some (frac n c)) m.assays) :
    padLine (txt "Total") (fun a => cell sci (thermoTotal m a (sorted m.compounds) (some 0))) (sorted (m.assays.map (·.1))) =
      .ok (ljust 20 (txt "Total") ++ columns ((sorted (m.assays.map (·.1))).map fun n => rjust 15 (sci (some (((sorted m.compounds).map (frac n)).sum)))) ++ nl) := by
  refine padLine_ok fun n hn => ?_
  rw [thermoTotal_ok hd hf (mem_sorted.1 hn) _ _ (fun c hc => mem_sorted.1 hc), zero_add]; rfl

theorem lineLength_width (name : Str) (m : Thermo.Material) : lineLength name m = width name m := by
  unfold lineLength width
  cases m.assays with
  | nil => rfl
  | cons e l => simp; omega

theorem thermoMaterial_text {sci : V → Str} {name : Str} {m : Thermo.Material} {frac : Str → Str → ℝ} {props : List Str} {prop : Str → Str → ℝ} (hd : m.compounds.Nodup)
    (hf : Filled m.compounds (fun n c => some (frac n c)) m.assays) (hp : HasProps m props prop) (hc : m.customNames = [] ↔ props = []) (h0 : m.assays = [] → props = []) :
    thermoMaterial sci name m = .ok (((materialLines sci name (width name m) (sorted (m.assays.map (·.1))) (sorted m.compounds) (sorted props) frac prop).map (· ++ nl)).flatten) := by
  have hps0 : sorted props = [] ↔ props = [] := ⟨fun h => by have := (sorted_alphabetical props).1; rw [h] at this; exact this.symm.eq_nil, fun h => by rw [h]; rfl⟩
  have hns0 : sorted (m.assays.map (·.1)) = [] ↔ m.assays = [] :=
    ⟨fun h => by have := (sorted_alphabetical (m.assays.map (·.1))).1; rw [h] at this; simpa using this.symm.eq_nil, fun h => by rw [h]; rfl⟩
  have hcust : thermoCustom sci (width name m) m (sorted (m.assays.map (·.1))) = .ok (((if sorted props = [] then [] else
      [List.replicate (width name m) '-', txt "Custom Properties:", List.replicate (width name m) '-'] ++
      (sorted props).map (fun k => ljust 20 k ++ columns ((sorted (m.assays.map (·.1))).map fun n => rjust 15 (sci (some (prop n k)))))).map (· ++ nl)).flatten) := by
    by_cases h : props = []
    · have : m.customNames = [] := hc.2 h
      rw [if_pos (hps0.2 h)]
      unfold thermoCustom
      rw [this]; rfl
    · rw [if_neg (fun e => h (hps0.1 e)), thermoCustom_ok hp (fun e => h (h0 e)) (fun e => h (hc.1 e))]
      simp only [List.map_append, List.flatten_append, List.map_cons, List.map_nil, List.flatten_cons, List.flatten_nil, List.append_nil, List.append_assoc, bar]
      rfl
  unfold thermoMaterial
  dsimp only
  rw [lineLength_width, thermo_rows hd hf, thermo_total hd hf, hcust]
  simp only [materialLines, padded_columns, List.map_append, List.flatten_append, List.map_cons, List.map_nil, List.flatten_cons, List.flatten_nil, List.append_nil, List.append_assoc, bar]
  have : (if m.assays.length > 0 then txt "Composition Details (mass fractions)\n" else []) =
      (List.map (fun x => x ++ nl) (if sorted (List.map (fun x => x.1) m.assays) = [] then [] else [txt "Composition Details (mass fractions)"])).flatten := by
    by_cases h : m.assays = []
    · rw [if_pos (hns0.2 h), if_neg (by simp [h])]; rfl
    · rw [if_neg (fun e => h (hns0.1 e)), if_pos (List.length_pos_iff.2 h)]; rfl
  rw [this]
  rfl

/-- **C122 (thermo material)**: one column per assay and one line per compound, both in alphabetical order; a line of totals; one line per custom property. -/
theorem C122_thermo_material (sci : V → Str) (name : Str) (m : Thermo.Material) (frac : Str → Str → ℝ) (props : List Str) (prop : Str → Str → ℝ) (hd : m.compounds.Nodup)
    (hf : Filled m.compounds (fun n c => some (frac n c)) m.assays) (hp : HasProps m props prop) (hc : m.customNames = [] ↔ props = []) (h0 : m.assays = [] → props = [])
    (hname : Plain name) (ha : ∀ e ∈ m.assays, Plain e.1) (hcs : ∀ c ∈ m.compounds, Plain c) (hps : ∀ k ∈ props, Plain k) (hs : ∀ x, Plain (sci x)) :
    ∃ t ns cs ps, thermoMaterial sci name m = .ok t ∧ Alphabetical ns (m.assays.map (·.1)) ∧ Alphabetical cs m.compounds ∧ Alphabetical ps props ∧
      lines t = materialLines sci name (width name m) ns cs ps frac prop ++ [[]] := by
  refine ⟨_, _, _, _, thermoMaterial_text hd hf hp hc h0, sorted_alphabetical _, sorted_alphabetical _, sorted_alphabetical _, lines_of ?_ rfl⟩
  have hn : ∀ n ∈ sorted (m.assays.map (·.1)), Plain n := by
    intro n hn
    obtain ⟨e, he, rfl⟩ := List.mem_map.1 (mem_sorted.1 hn)
    exact ha e he
  have hcol : ∀ f : Str → V, Plain (columns ((sorted (m.assays.map (·.1))).map fun n => rjust 15 (sci (f n)))) := by
    intro f
    refine plain_columns fun s h => ?_
    obtain ⟨n, _, rfl⟩ := List.mem_map.1 h
    exact plain_rjust (hs _)
  have hb : ∀ c : Char, c ≠ '\n' → Plain (List.replicate (width name m) c) := fun c h => plain_rep h _
  intro s h
  simp only [materialLines, List.mem_append, List.mem_cons, List.not_mem_nil, or_false] at h
  rcases h with (((((h | h) | h) | h) | h) | h) | h
  · rcases h with rfl | rfl | rfl | rfl | rfl
    · exact hb _ (by decide)
    · exact plain_txt _ (by decide)
    · exact hb _ (by decide)
    · exact plain_append.2 ⟨plain_ljust (plain_txt _ (by decide)), hname⟩
    · exact hb _ (by decide)
  · split at h
    · cases h
    · rw [List.mem_singleton] at h; subst h; exact plain_txt _ (by decide)
  · rcases h with rfl | rfl
    · refine plain_append.2 ⟨plain_ljust (plain_txt _ (by decide)), plain_columns fun s h => ?_⟩
      obtain ⟨n, hm, rfl⟩ := List.mem_map.1 h
      exact plain_ljust fun e => hn n hm (List.mem_of_mem_take e)
    · exact hb _ (by decide)
  · obtain ⟨c, hm, rfl⟩ := List.mem_map.1 h
    exact plain_append.2 ⟨plain_ljust (hcs c (mem_sorted.1 hm)), hcol _⟩
  · subst h
    exact plain_append.2 ⟨plain_ljust (plain_txt _ (by decide)), hcol _⟩
  · split at h
    · cases h
    · simp only [List.mem_append, List.mem_cons, List.not_mem_nil, or_false] at h
      rcases h with (rfl | rfl | rfl) | h
      · exact hb _ (by decide)
      · exact plain_txt _ (by decide)
      · exact hb _ (by decide)
      · obtain ⟨k, hm, rfl⟩ := List.mem_map.1 h
        exact plain_append.2 ⟨plain_ljust (hps k (mem_sorted.1 hm)), hcol _⟩
  · subst h; exact hb _ (by decide)

/-- **C122 (violated: a thermo material with custom properties)**: after an assay has been added the material can no longer be printed: the assay has no entry for the custom properties. -/
theorem C122_added_violated (sci : V → Str) (name assay : Str) (m : Thermo.Material) (frac : Str → Str → ℝ) (props : List Str) (prop : Str → Str → ℝ) (f : Str → ℝ)
    (hd : m.compounds.Nodup) (hf : Filled m.compounds (fun n c => some (frac n c)) m.assays) (hp : HasProps m props prop) (hc : m.customNames ≠ []) (hp0 : props ≠ []) (h0 : m.assays ≠ [])
    (hnew : assay ∉ m.assays.map (·.1)) :
    (m.addAssay assay (.array (m.compounds.map fun c => some (f c)))).1 = .ok () ∧
      thermoMaterial sci name (m.addAssay assay (.array (m.compounds.map fun c => some (f c)))).2 = .error .keyError := by
  have e : m.addAssay assay (.array (m.compounds.map fun c => some (f c))) = (.ok (), { m with assays := m.assays ++ [(assay, m.compounds.map fun c => some (f c))] }) := by
    unfold Thermo.Material.addAssay
    dsimp only
    rw [if_neg (by simp), if_neg hnew]
  rw [e]
  refine ⟨rfl, ?_⟩
  set m' : Thermo.Material := { m with assays := m.assays ++ [(assay, m.compounds.map fun c => some (f c))] } with hm'
  have hf' : Filled m'.compounds (fun n c => some ((fun n c => if n = assay then f c else frac n c) n c)) m'.assays := by
    refine ⟨?_, ?_⟩
    · simp only [hm', List.map_append, List.map_cons, List.map_nil]
      refine List.nodup_append.2 ⟨hf.1, by simp, fun x hx y hy e => ?_⟩
      rw [List.mem_singleton] at hy
      exact hnew (by rw [← hy, ← e]; exact hx)
    · intro x hx
      rcases List.mem_append.1 hx with hx | hx
      · have : x.1 ≠ assay := fun e => hnew (e ▸ List.mem_map_of_mem (f := (·.1)) hx)
        simp only [if_neg this]
        exact hf.2 x hx
      · rw [List.mem_singleton] at hx
        subst hx
        simp [hm']
  unfold thermoMaterial
  dsimp only
  rw [thermo_rows (m := m') hd hf', thermo_total (m := m') hd hf']
  dsimp only
  have hcu : thermoCustom sci (lineLength name m') m' (sorted (m'.assays.map (·.1))) = .error .keyError := by
    unfold thermoCustom
    rw [if_pos (List.length_pos_iff.2 hc)]
    obtain ⟨a, h1, h2⟩ := sorted_first (l := m.custom.map (·.1)) (by rw [hp.1]; simpa using h0)
    rw [show item (sorted (m'.custom.map (·.1))) 0 = .ok a from h1]
    dsimp only
    rw [show dict m'.custom a = _ from hasProps_lookup hp (hp.1 ▸ h2)]
    dsimp only
    rw [List.map_map, show ((fun x : Str × ℝ => x.1) ∘ fun k => (k, prop a k)) = id from rfl, List.map_id]
    have hbad : ∀ k ∈ sorted props, padLine k (fun a => match dict m'.custom a with
        | .error e => .error e
        | .ok d => match dict d k with
          | .error e => .error e
          | .ok x => .ok (rjust 15 (sci (some x)))) (sorted (m'.assays.map (·.1))) = .error .keyError := by
      intro k hk
      unfold padLine
      rw [mapRes_error (e := .keyError) (x := assay)]
      · exact mem_sorted.2 (by simp [hm'])
      · have : dict m'.custom assay = .error .keyError := by
          unfold dict
          rw [show m'.custom = m.custom from rfl, lookup_none (by rw [hp.1]; exact hnew)]
        rw [this]
      · intro n hn d hd'
        by_cases hn' : n ∈ m.assays.map (·.1)
        · rw [show dict m'.custom n = _ from hasProps_lookup hp hn'] at hd'
          simp only [dict, lookup_pairs (prop n) (mem_sorted.1 hk)] at hd'
          cases hd'
        · rw [show dict m'.custom n = .error .keyError by
            unfold dict
            rw [show m'.custom = m.custom from rfl, lookup_none (by rw [hp.1]; exact hn')]] at hd'
          cases hd'; rfl
    obtain ⟨k, hk⟩ := List.exists_mem_of_ne_nil _ hp0
    rw [cat_error (e := .keyError) (mem_sorted.2 hk) (hbad k (mem_sorted.2 hk)) (fun y hy d hd' => by have hd'' := (hbad y hy).symm.trans hd'; cases hd''; rfl)]
  rw [hcu]

/-! ## Packages and streams -/

/-- What a list of masses or flow rates says: in the order of the compounds, `g` of each. -/
def Lists (m : Thermo.Material) (l : List V) (g : Str → ℝ) : Prop := l = m.compounds.map (fun c => some (g c))

theorem Lists.rep {m : Thermo.Material} {l : List V} {g : Str → ℝ} (h : Lists m l g) : Thermo.Rep m l g := by
  unfold Thermo.Rep
  rw [h, List.map_map]; rfl

theorem Lists.sum {m : Thermo.Material} {l : List V} {g : Str → ℝ} (h : Lists m l g) : vsum l = some (m.compounds.map g).sum := by
  have := vsum_sum (m.compounds.map g) 0
  rw [zero_add] at this
  rw [← this, h, List.map_map]; rfl

theorem amounts_ok {m : Thermo.Material} {l : List V} {g : Str → ℝ} (h : Lists m l g) (hd : m.compounds.Nodup) (hw : Weighed m) :
    ∃ b, Thermo.amountsLoop m m.compounds l = .ok b ∧ Lists m b (fun c => g c / molar c) := by
  obtain ⟨b, h1, h2⟩ := amountsLoop_rep hd hw m.compounds (fun _ h => h) hd l g h.rep
  refine ⟨b, h1, ?_⟩
  unfold Lists
  rw [h2, List.map_map]
  exact List.map_congr_left fun c hc => by simp [hc]

/-- The amounts of the compounds together. -/
noncomputable def moles (m : Thermo.Material) (g : Str → ℝ) : ℝ := (m.compounds.map (fun c => g c / molar c)).sum

theorem rowText (sci : V → Str) (c : Str) (a b d : ℝ) :
    ljust 20 c ++ sci (some a) ++ txt "  " ++ sci (some b) ++ txt "  " ++ sci (some d) ++ nl = ljust 20 c ++ columns [sci (some a), sci (some b), sci (some d)] ++ nl := by
  simp [columns, List.intercalate, List.intersperse]

theorem compoundLines_pos {sci : V → Str} {m : Thermo.Material} {masses amounts : List V} {g a : Str → ℝ} (hd : m.compounds.Nodup) (h : Lists m masses g) (ha : Lists m amounts a)
    (hpos : 0 < (m.compounds.map g).sum) (hmol : (m.compounds.map a).sum ≠ 0) :
    compoundLines sci m masses amounts = .ok ((m.compounds.map (fun c => ljust 20 c ++ columns [sci (some (g c)), sci (some (g c / (m.compounds.map g).sum)),
      sci (some (a c / (m.compounds.map a).sum))])).map (· ++ nl)).flatten := by
  unfold compoundLines
  dsimp only
  rw [cat_ok (g := fun c => ljust 20 c ++ columns [sci (some (g c)), sci (some (g c / (m.compounds.map g).sum)), sci (some (a c / (m.compounds.map a).sum))] ++ nl),
    map_flatten_snoc (fun c => ljust 20 c ++ columns [sci (some (g c)), sci (some (g c / (m.compounds.map g).sum)), sci (some (a c / (m.compounds.map a).sum))])]
  intro c hc
  obtain ⟨i, hlt, hi⟩ := List.mem_iff_getElem.1 hc
  have hi' : m.compounds[i]? = some c := by rw [List.getElem?_eq_getElem hlt, hi]
  rw [indexed_thermo hd i c hi']
  dsimp only
  rw [h.sum, ha.sum, if_pos (show vgt (some (m.compounds.map g).sum) (some 0) from hpos)]
  have e1 : item masses i = .ok (some (g c)) := by unfold item; rw [h, List.getElem?_map, hi']; rfl
  have e2 : item amounts i = .ok (some (a c)) := by unfold item; rw [ha, List.getElem?_map, hi']; rfl
  rw [e1, e2]
  dsimp only
  rw [show vdiv (some (g c)) (some (m.compounds.map g).sum) = some (g c / (m.compounds.map g).sum) from if_neg hpos.ne',
    show vdiv (some (a c)) (some (m.compounds.map a).sum) = some (a c / (m.compounds.map a).sum) from if_neg hmol, rowText]

theorem compoundLines_nonpos {sci : V → Str} {m : Thermo.Material} {masses amounts : List V} {g : Str → ℝ} (hd : m.compounds.Nodup) (h : Lists m masses g)
    (hpos : (m.compounds.map g).sum ≤ 0) :
    compoundLines sci m masses amounts = .ok ((m.compounds.map (fun c => ljust 20 c ++ columns [sci (some 0), sci (some 0), sci (some 0)])).map (· ++ nl)).flatten := by
  unfold compoundLines
  dsimp only
  rw [cat_ok (g := fun c => ljust 20 c ++ columns [sci (some 0), sci (some 0), sci (some 0)] ++ nl), map_flatten_snoc (fun c => ljust 20 c ++ columns [sci (some 0), sci (some 0), sci (some 0)])]
  intro c hc
  obtain ⟨i, hlt, hi⟩ := List.mem_iff_getElem.1 hc
  have hi' : m.compounds[i]? = some c := by rw [List.getElem?_eq_getElem hlt, hi]
  rw [indexed_thermo hd i c hi']
  dsimp only
  rw [h.sum, if_neg (show ¬ vgt (some (m.compounds.map g).sum) (some 0) from not_lt.2 hpos), rowText]

theorem customLines_ok {sci : V → Str} {d : List (Str × V)} {x : Str → V} (h : ∀ e ∈ d, e.2 = x e.1) :
    customLines sci d = .ok (((customPart sci (sorted (d.map (·.1))) x).map (· ++ nl)).flatten) := by
  have h0 : sorted (d.map (·.1)) = [] ↔ d = [] :=
    ⟨fun h => by have := (sorted_alphabetical (d.map (·.1))).1; rw [h] at this; simpa using this.symm.eq_nil, fun h => by rw [h]; rfl⟩
  unfold customLines customPart
  by_cases hd : d = []
  · rw [if_neg (by simp [hd]), if_pos (h0.2 hd)]; rfl
  · rw [if_pos (List.length_pos_iff.2 hd), if_neg (fun e => hd (h0.1 e)), cat_ok (g := fun k => ljust 20 k ++ sci (x k) ++ nl)]
    · dsimp only
      rw [map_flatten_snoc (fun k => ljust 20 k ++ sci (x k))]
      simp only [List.map_append, List.flatten_append, List.map_cons, List.map_nil, List.flatten_cons, List.flatten_nil, List.append_nil, List.append_assoc, bar]
      rfl
    · intro k hk
      obtain ⟨v, h1, h2⟩ := dict_mem (mem_sorted.1 hk)
      rw [h1]
      dsimp only
      rw [show v = x k from h _ h2]

theorem heading_plain {sci : V → Str} {kind : String} {name : Str} {figs : List (String × V × String)} (hs : ∀ x, Plain (sci x)) (hk : '\n' ∉ kind.toList) (hname : Plain name)
    (hf : ∀ f ∈ figs, '\n' ∉ f.1.toList ∧ '\n' ∉ f.2.2.toList) : ∀ s ∈ heading sci kind name figs, Plain s := by
  intro s h
  simp only [heading, List.mem_append, List.mem_cons, List.not_mem_nil, or_false] at h
  rcases h with (rfl | rfl | rfl | rfl) | h
  · exact plain_rep (by decide) _
  · exact hk
  · exact plain_rep (by decide) _
  · exact plain_append.2 ⟨plain_ljust (plain_txt _ (by decide)), hname⟩
  · obtain ⟨f, hm, rfl⟩ := List.mem_map.1 h
    exact plain_append.2 ⟨plain_append.2 ⟨plain_ljust (hf f hm).1, plain_rjust (hs _)⟩, (hf f hm).2⟩

theorem compoundPart_plain {sci : V → Str} {cs : List Str} {a b d : Str → ℝ} (hs : ∀ x, Plain (sci x)) (hc : ∀ c ∈ cs, Plain c) : ∀ s ∈ compoundPart sci cs a b d, Plain s := by
  intro s h
  simp only [compoundPart, List.mem_append, List.mem_cons, List.not_mem_nil, or_false] at h
  rcases h with (rfl | rfl | rfl | rfl) | h
  · exact plain_rep (by decide) _
  · exact plain_txt _ (by decide)
  · exact plain_txt _ (by decide)
  · exact plain_rep (by decide) _
  · obtain ⟨c, hm, rfl⟩ := List.mem_map.1 h
    refine plain_append.2 ⟨plain_ljust (hc c hm), plain_columns fun s h => ?_⟩
    simp only [List.mem_cons, List.not_mem_nil, or_false] at h
    rcases h with rfl | rfl | rfl <;> exact hs _

theorem customPart_plain {sci : V → Str} {ks : List Str} {x : Str → V} (hs : ∀ x, Plain (sci x)) (hk : ∀ k ∈ ks, Plain k) : ∀ s ∈ customPart sci ks x, Plain s := by
  intro s h
  unfold customPart at h
  split at h
  · cases h
  · simp only [List.mem_append, List.mem_cons, List.not_mem_nil, or_false] at h
    rcases h with (rfl | rfl | rfl) | h
    · exact plain_rep (by decide) _
    · exact plain_txt _ (by decide)
    · exact plain_rep (by decide) _
    · obtain ⟨k, hm, rfl⟩ := List.mem_map.1 h
      exact plain_append.2 ⟨plain_ljust (hk k hm), hs _⟩

theorem compoundHead_eq : compoundHead = (([List.replicate 67 '-', txt "Compound Details", txt "Formula             Mass            Mass Fraction   Mole Fraction   ",
    List.replicate 67 '-'] : List Str).map (· ++ nl)).flatten := by decide +kernel

/-- The figures at the head of the printout of a package. -/
noncomputable def packageFigures (p : Thermo.Package) (g : Str → ℝ) : List (String × V × String) :=
  [("Mass", some (p.mat.compounds.map g).sum, " kg"), ("Amount", some (moles p.mat g), " kmol"), ("Pressure", p.P, " atm"), ("Temperature", p.T, " °C"), ("Enthalpy", p.H, " kWh")]

/-- The figures at the head of the printout of a stream; the heating value only of coal. -/
noncomputable def streamFigures (s : Thermo.Stream) (g : Str → ℝ) : List (String × V × String) :=
  [("Mass Flow Rate", some (s.mat.compounds.map g).sum, " kg/h"), ("Amount Flow Rate", some (moles s.mat g), " kmol/h"), ("Pressure", s.P, " atm"), ("Temperature", s.T, " °C"),
    ("Enthalpy Flow Rate", s.Hfr, " kWh/h")] ++ (match s.isCoal, s.HHV with
      | true, some v => [("HHV", v, " MJ/kg")]
      | _, _ => [])

theorem package_text {sci : V → Str} {name : Str} {p : Thermo.Package} {custom : List (Str × V)} {g : Str → ℝ} {x : Str → V} (hd : p.mat.compounds.Nodup) (hg : Lists p.mat p.masses g)
    (hw : Weighed p.mat) (hx : ∀ e ∈ custom, e.2 = x e.1) {r : List Str}
    (hr : ∀ b, Lists p.mat b (fun c => g c / molar c) → compoundLines sci p.mat p.masses b = .ok (r.map (· ++ nl)).flatten) :
    thermoPackage sci name p custom = .ok (((heading sci "MaterialPackage" name (packageFigures p g) ++ ([List.replicate 67 '-', txt "Compound Details",
      txt "Formula             Mass            Mass Fraction   Mole Fraction   ", List.replicate 67 '-'] ++ r) ++ customPart sci (sorted (custom.map (·.1))) x ++
      [List.replicate 67 '=']).map (· ++ nl)).flatten) := by
  obtain ⟨b, b1, b2⟩ := amounts_ok hg hd hw
  unfold thermoPackage
  rw [amount_rep hg.rep hw]
  dsimp only
  unfold Thermo.Package.compoundAmounts
  rw [b1]
  dsimp only
  rw [hr b b2, customLines_ok hx, hg.sum, compoundHead_eq]
  simp only [heading, packageFigures, unitLine, bar, List.map_append, List.flatten_append, List.map_cons, List.map_nil, List.flatten_cons, List.flatten_nil, List.append_nil, List.append_assoc]
  rfl

theorem sorted_plain {custom : List (Str × V)} (h : ∀ e ∈ custom, Plain e.1) : ∀ k ∈ sorted (custom.map (·.1)), Plain k := by
  intro k hk
  obtain ⟨e, he, rfl⟩ := List.mem_map.1 (mem_sorted.1 hk)
  exact h e he

theorem parts_plain {a b c : List Str} (ha : ∀ s ∈ a, Plain s) (hb : ∀ s ∈ b, Plain s) (hc : ∀ s ∈ c, Plain s) : ∀ s ∈ a ++ b ++ c ++ [List.replicate 67 '='], Plain s := by
  intro s h
  simp only [List.mem_append, List.mem_singleton] at h
  rcases h with ((h | h) | h) | rfl
  · exact ha s h
  · exact hb s h
  · exact hc s h
  · exact plain_rep (by decide) _

theorem figures_plain {p : Thermo.Package} {g : Str → ℝ} : ∀ f ∈ packageFigures p g, '\n' ∉ f.1.toList ∧ '\n' ∉ f.2.2.toList := by
  intro f hf
  simp only [packageFigures, List.mem_cons, List.not_mem_nil, or_false] at hf
  rcases hf with rfl | rfl | rfl | rfl | rfl <;> refine ⟨?_, ?_⟩ <;> dsimp only <;> decide

/-- **C122 (thermo package)**: the printout gives the total mass and amount, pressure, temperature and enthalpy; then each compound with its mass, its fraction of the mass and its fraction
of the amount; then the custom properties in alphabetical order.  For packages of positive mass. -/
theorem C122_thermo_package (sci : V → Str) (name : Str) (p : Thermo.Package) (custom : List (Str × V)) (g : Str → ℝ) (x : Str → V) (hd : p.mat.compounds.Nodup)
    (hg : Lists p.mat p.masses g) (hw : Weighed p.mat) (hx : ∀ e ∈ custom, e.2 = x e.1) (hpos : 0 < (p.mat.compounds.map g).sum) (hmol : moles p.mat g ≠ 0)
    (hname : Plain name) (hc : ∀ c ∈ p.mat.compounds, Plain c) (hk : ∀ e ∈ custom, Plain e.1) (hs : ∀ x, Plain (sci x)) :
    ∃ t ks, thermoPackage sci name p custom = .ok t ∧ Alphabetical ks (custom.map (·.1)) ∧
      lines t = heading sci "MaterialPackage" name (packageFigures p g) ++
        compoundPart sci p.mat.compounds g (fun c => g c / (p.mat.compounds.map g).sum) (fun c => g c / molar c / moles p.mat g) ++ customPart sci ks x ++ [List.replicate 67 '='] ++ [[]] := by
  refine ⟨_, _, package_text hd hg hw hx (fun b hb => compoundLines_pos hd hg hb hpos hmol), sorted_alphabetical _, ?_⟩
  exact lines_of (parts_plain (heading_plain hs (by decide) hname figures_plain)
    (compoundPart_plain (a := g) (b := fun c => g c / (p.mat.compounds.map g).sum) (d := fun c => g c / molar c / moles p.mat g) hs hc)
    (customPart_plain hs (sorted_plain hk))) rfl

/-- **C122 (thermo package, no mass)**: if the total mass is not positive, zeros are shown for every compound, whatever its mass. -/
theorem C122_thermo_package_zero (sci : V → Str) (name : Str) (p : Thermo.Package) (custom : List (Str × V)) (g : Str → ℝ) (x : Str → V) (hd : p.mat.compounds.Nodup)
    (hg : Lists p.mat p.masses g) (hw : Weighed p.mat) (hx : ∀ e ∈ custom, e.2 = x e.1) (hpos : (p.mat.compounds.map g).sum ≤ 0)
    (hname : Plain name) (hc : ∀ c ∈ p.mat.compounds, Plain c) (hk : ∀ e ∈ custom, Plain e.1) (hs : ∀ x, Plain (sci x)) :
    ∃ t ks, thermoPackage sci name p custom = .ok t ∧ Alphabetical ks (custom.map (·.1)) ∧
      lines t = heading sci "MaterialPackage" name (packageFigures p g) ++ compoundPart sci p.mat.compounds 0 0 0 ++ customPart sci ks x ++ [List.replicate 67 '='] ++ [[]] := by
  refine ⟨_, _, package_text hd hg hw hx (fun b _ => compoundLines_nonpos hd hg hpos), sorted_alphabetical _, ?_⟩
  exact lines_of (parts_plain (heading_plain hs (by decide) hname figures_plain) (compoundPart_plain (a := 0) (b := 0) (d := 0) hs hc) (customPart_plain hs (sorted_plain hk))) rfl

theorem stream_text {sci : V → Str} {name : Str} {s : Thermo.Stream} {custom : List (Str × V)} {g : Str → ℝ} {x : Str → V} (hd : s.mat.compounds.Nodup) (hg : Lists s.mat s.mfrs g)
    (hw : Weighed s.mat) (hcoal : s.isCoal = true → s.HHV ≠ none) (hx : ∀ e ∈ custom, e.2 = x e.1) {r : List Str}
    (hr : ∀ b, Lists s.mat b (fun c => g c / molar c) → compoundLines sci s.mat s.mfrs b = .ok (r.map (· ++ nl)).flatten) :
    thermoStream sci name s custom = .ok (((heading sci "MaterialStream" name (streamFigures s g) ++ ([List.replicate 67 '-', txt "Compound Details",
      txt "Formula             Mass            Mass Fraction   Mole Fraction   ", List.replicate 67 '-'] ++ r) ++ customPart sci (sorted (custom.map (·.1))) x ++
      [List.replicate 67 '=']).map (· ++ nl)).flatten) := by
  obtain ⟨b, b1, b2⟩ := amounts_ok hg hd hw
  have hafr : s.afr = .ok (some (moles s.mat g)) := by
    unfold Thermo.Stream.afr
    rw [afrLoop_pkg]
    exact amount_rep (p := toPkg s) hg.rep hw
  have hh : hhvLine sci s = .ok ((((match s.isCoal, s.HHV with
      | true, some v => [("HHV", v, " MJ/kg")]
      | _, _ => []) : List (String × V × String)).map (fun f => ljust 20 (txt f.1) ++ rjust 15 (sci f.2.1) ++ txt f.2.2)).map (· ++ nl)).flatten := by
    unfold hhvLine
    cases hb : s.isCoal with
    | false => rfl
    | true =>
      cases hv : s.HHV with
      | none => exact absurd hv (hcoal hb)
      | some v => simp [unitLine]
  unfold thermoStream
  rw [hafr]
  dsimp only
  rw [hh]
  dsimp only
  unfold Thermo.Stream.compoundAfrs
  rw [b1]
  dsimp only
  rw [hr b b2, customLines_ok hx, show s.mfr = some (s.mat.compounds.map g).sum from hg.sum, compoundHead_eq]
  simp only [heading, streamFigures, unitLine, bar, List.map_append, List.flatten_append, List.map_cons, List.map_nil, List.flatten_cons, List.flatten_nil, List.append_nil, List.append_assoc]
  rfl

theorem streamFigures_plain {s : Thermo.Stream} {g : Str → ℝ} : ∀ f ∈ streamFigures s g, '\n' ∉ f.1.toList ∧ '\n' ∉ f.2.2.toList := by
  intro f hf
  unfold streamFigures at hf
  rcases List.mem_append.1 hf with hf | hf
  · simp only [List.mem_cons, List.not_mem_nil, or_false] at hf
    rcases hf with rfl | rfl | rfl | rfl | rfl <;> refine ⟨?_, ?_⟩ <;> dsimp only <;> decide
  · split at hf
    · rw [List.mem_singleton] at hf; subst hf; refine ⟨?_, ?_⟩ <;> dsimp only <;> decide
    · cases hf

/-- **C122 (stream)**: the same for streams; of coal, if it has one, also the heating value. -/
theorem C122_thermo_stream (sci : V → Str) (name : Str) (s : Thermo.Stream) (custom : List (Str × V)) (g : Str → ℝ) (x : Str → V) (hd : s.mat.compounds.Nodup)
    (hg : Lists s.mat s.mfrs g) (hw : Weighed s.mat) (hcoal : s.isCoal = true → s.HHV ≠ none) (hx : ∀ e ∈ custom, e.2 = x e.1) (hpos : 0 < (s.mat.compounds.map g).sum)
    (hmol : moles s.mat g ≠ 0) (hname : Plain name) (hc : ∀ c ∈ s.mat.compounds, Plain c) (hk : ∀ e ∈ custom, Plain e.1) (hs : ∀ x, Plain (sci x)) :
    ∃ t ks, thermoStream sci name s custom = .ok t ∧ Alphabetical ks (custom.map (·.1)) ∧
      lines t = heading sci "MaterialStream" name (streamFigures s g) ++
        compoundPart sci s.mat.compounds g (fun c => g c / (s.mat.compounds.map g).sum) (fun c => g c / molar c / moles s.mat g) ++ customPart sci ks x ++ [List.replicate 67 '='] ++ [[]] := by
  refine ⟨_, _, stream_text hd hg hw hcoal hx (fun b hb => compoundLines_pos hd hg hb hpos hmol), sorted_alphabetical _, ?_⟩
  exact lines_of (parts_plain (heading_plain hs (by decide) hname streamFigures_plain)
    (compoundPart_plain (a := g) (b := fun c => g c / (s.mat.compounds.map g).sum) (d := fun c => g c / molar c / moles s.mat g) hs hc)
    (customPart_plain hs (sorted_plain hk))) rfl

theorem C122_thermo_stream_zero (sci : V → Str) (name : Str) (s : Thermo.Stream) (custom : List (Str × V)) (g : Str → ℝ) (x : Str → V) (hd : s.mat.compounds.Nodup)
    (hg : Lists s.mat s.mfrs g) (hw : Weighed s.mat) (hcoal : s.isCoal = true → s.HHV ≠ none) (hx : ∀ e ∈ custom, e.2 = x e.1) (hpos : (s.mat.compounds.map g).sum ≤ 0)
    (hname : Plain name) (hc : ∀ c ∈ s.mat.compounds, Plain c) (hk : ∀ e ∈ custom, Plain e.1) (hs : ∀ x, Plain (sci x)) :
    ∃ t ks, thermoStream sci name s custom = .ok t ∧ Alphabetical ks (custom.map (·.1)) ∧
      lines t = heading sci "MaterialStream" name (streamFigures s g) ++ compoundPart sci s.mat.compounds 0 0 0 ++ customPart sci ks x ++ [List.replicate 67 '='] ++ [[]] := by
  refine ⟨_, _, stream_text hd hg hw hcoal hx (fun b _ => compoundLines_nonpos hd hg hpos), sorted_alphabetical _, ?_⟩
  exact lines_of (parts_plain (heading_plain hs (by decide) hname streamFigures_plain) (compoundPart_plain (a := 0) (b := 0) (d := 0) hs hc) (customPart_plain hs (sorted_plain hk))) rfl

/-! ## Violations and examples -/

/-- `'{:.8e}'.format(x)` of the examples. -/
def sciEx : V → Str
  | none => txt "nan"
  | some _ => txt "0.00000000e+00"
theorem sciEx_plain (x : V) : Plain (sciEx x) := by cases x <;> exact plain_txt _ (by decide)

theorem wet_plain : ∀ c ∈ mWet.compounds, Plain c := by
  intro c hc
  simp only [mWet, List.mem_cons, List.not_mem_nil, or_false] at hc
  rcases hc with rfl | rfl <;> exact plain_txt _ (by decide)
theorem wet_nodup : mWet.compounds.Nodup := by simp only [mWet]; decide +kernel

/-- `x` of carbon and `y` of water. -/
noncomputable def wetEx (x y : ℝ) (c : Str) : ℝ := if c = "C[S]".toList then x else y
theorem lists_wet (x y : ℝ) : Lists mWet [some x, some y] (wetEx x y) := by
  unfold Lists mWet
  simp only [List.map_cons, List.map_nil, wetEx]
  rw [if_pos trivial, if_neg (by decide)]
theorem sum_wet (x y : ℝ) : (mWet.compounds.map (wetEx x y)).sum = x + y := by
  unfold mWet
  simp only [List.map_cons, List.map_nil, wetEx]
  rw [if_pos trivial, if_neg (by decide)]
  simp
theorem moles_wet (x y : ℝ) : moles mWet (wetEx x y) = x / 12.0107 + y / 18.01528 := by
  unfold moles mWet
  simp only [List.map_cons, List.map_nil, wetEx]
  rw [if_pos trivial, if_neg (by decide), molar_C, molar_H2O]
  simp

/-- A package of two kilograms of carbon and three of water is printed as two fifths carbon. -/
example : ∃ t, thermoPackage sciEx (txt "sludge") (pEx 3 25) [(txt "moisture", some 7)] = .ok t ∧
    (ljust 20 (txt "C[S]") ++ columns [sciEx (some 2), sciEx (some (2 / (2 + 3))), sciEx (some (2 / 12.0107 / (2 / 12.0107 + 3 / 18.01528)))]) ∈ lines t := by
  obtain ⟨t, ks, h1, _, h2⟩ := C122_thermo_package sciEx (txt "sludge") (pEx 3 25) [(txt "moisture", some 7)] (wetEx 2 3) (fun _ => some 7) wet_nodup (lists_wet 2 3) weighed_mWet
    (by simp) (by rw [show (pEx 3 25).mat = mWet from rfl, sum_wet]; norm_num) (by rw [show (pEx 3 25).mat = mWet from rfl, moles_wet]; norm_num) (plain_txt _ (by decide)) wet_plain
    (by simp only [List.mem_singleton]; rintro _ rfl; exact plain_txt _ (by decide)) sciEx_plain
  refine ⟨t, h1, ?_⟩
  rw [h2, show (pEx 3 25).mat = mWet from rfl, sum_wet, moles_wet]
  simp only [compoundPart, mWet, List.map_cons, wetEx, molar_C, if_true, txt]
  simp

/-- **C122 (violated: no total mass)**: two kilograms of carbon and minus three of water (masses are not checked): the printout says that there is no carbon. -/
theorem C122_negative_violated (sci : V → Str) (name : Str) (hname : Plain name) (hs : ∀ x, Plain (sci x)) :
    ∃ p : Thermo.Package, ∃ t, p.compoundMass (txt "C[S]") = .ok (some 2) ∧ thermoPackage sci name p [] = .ok t ∧
      (ljust 20 (txt "C[S]") ++ columns [sci (some 0), sci (some 0), sci (some 0)]) ∈ lines t := by
  obtain ⟨t, ks, h1, _, h2⟩ := C122_thermo_package_zero sci name (pEx (-3) 25) [] (wetEx 2 (-3)) (fun _ => some 7) wet_nodup (lists_wet 2 (-3)) weighed_mWet
    (by simp) (by rw [show (pEx (-3) 25).mat = mWet from rfl, sum_wet]; norm_num) hname wet_plain (by simp) hs
  refine ⟨pEx (-3) 25, t, ?_, h1, ?_⟩
  · unfold Thermo.Package.compoundMass
    rw [show (pEx (-3) 25).mat = mWet from rfl, if_pos (show txt "C[S]" ∈ mWet.compounds from List.mem_cons_self ..)]
    unfold Thermo.entry
    rw [show mWet.index (txt "C[S]") = .ok 0 from indexed_thermo wet_nodup 0 (txt "C[S]") rfl]
    rfl
  rw [h2, show (pEx (-3) 25).mat = mWet from rfl]
  simp only [compoundPart, mWet, List.map_cons, txt]
  simp

/-- **C122 (violated: coal without a heating value)**: a coal stream that was made without a heating value, which the constructor allows, cannot be printed. -/
theorem C122_hhv_violated (sci : V → Str) (name : Str) (custom : List (Str × V)) : ∃ s : Thermo.Stream,
    Thermo.newStream db2 mCoal [some 1] (some 1) (some 25) true none = .ok s ∧ thermoStream sci name s custom = .error .typeError := by
  have h1 := newCoal (P := some 1) (t := 25) (hhv := none) coalData (rep_coal 1) (by rw [total_coal]; norm_num) (by simp [mCoal])
  refine ⟨_, h1, ?_⟩
  have hafr : ∀ s : Thermo.Stream, s.mat = mCoal → s.mfrs = [some 1] → s.afr = .ok (some (moles mCoal (fun _ => 1))) := by
    intro s e1 e2
    unfold Thermo.Stream.afr
    rw [afrLoop_pkg]
    have hw : Weighed mCoal := by
      intro c hc
      simp only [mCoal, List.mem_singleton] at hc
      subst hc; rw [molar_C]; norm_num
    have := amount_rep (p := toPkg s) (g := fun _ => 1) (by change Thermo.Rep s.mat s.mfrs _; rw [e1, e2]; exact rep_coal 1) (by change Weighed s.mat; rw [e1]; exact hw)
    change _ = Except.ok (some ((s.mat.compounds.map _).sum)) at this
    rw [e1] at this
    exact this
  unfold thermoStream
  rw [hafr _ rfl rfl]
  rfl

/-- A stream of carbon and water, a coal with a heating value. -/
noncomputable def wetStream : Thermo.Stream := ⟨mWet, [some 2, some 3], some 1, some 25, some 0, true, some (some 25), none⟩
example : ∃ t, thermoStream sciEx (txt "sludge") wetStream [] = .ok t ∧ (ljust 20 (txt "HHV") ++ rjust 15 (sciEx (some 25)) ++ txt " MJ/kg") ∈ lines t := by
  obtain ⟨t, ks, h1, _, h2⟩ := C122_thermo_stream sciEx (txt "sludge") wetStream [] (wetEx 2 3) (fun _ => none) wet_nodup (lists_wet 2 3) weighed_mWet (by simp [wetStream])
    (by simp) (by rw [show wetStream.mat = mWet from rfl, sum_wet]; norm_num) (by rw [show wetStream.mat = mWet from rfl, moles_wet]; norm_num) (plain_txt _ (by decide)) wet_plain
    (by simp) sciEx_plain
  refine ⟨t, h1, ?_⟩
  rw [h2]
  simp only [heading, streamFigures, wetStream, List.map_append, List.map_cons]
  simp

/-- A thermo material with two assays and a custom property. -/
noncomputable def mixEx : Thermo.Material := ⟨3, [txt "SiO2[S]", txt "FeO[S]"], [(txt "ore", [some 0.25, some 0.75]), (txt "flux", [some 1, some 0])], [],
  [txt "price"], [(txt "ore", [(txt "price", 9)]), (txt "flux", [(txt "price", 4)])]⟩
noncomputable def fracEx (n c : Str) : ℝ := if n = txt "ore" then (if c = txt "FeO[S]" then 0.75 else 0.25) else (if c = txt "FeO[S]" then 0 else 1)
noncomputable def priceEx (n _k : Str) : ℝ := if n = txt "ore" then 9 else 4
theorem mixEx_filled : Filled mixEx.compounds (fun n c => some (fracEx n c)) mixEx.assays := by
  refine ⟨by simp only [mixEx]; decide, ?_⟩
  intro e he
  have h1 : (txt "flux" = txt "ore") = False := by simp only [eq_iff_iff, iff_false]; decide
  have h2 : (txt "SiO2[S]" = txt "FeO[S]") = False := by simp only [eq_iff_iff, iff_false]; decide
  simp only [mixEx, List.mem_cons, List.not_mem_nil, or_false] at he
  rcases he with rfl | rfl <;> simp [mixEx, fracEx, h1, h2]
theorem mixEx_props : HasProps mixEx [txt "price"] priceEx := by
  refine ⟨rfl, ?_⟩
  intro e he
  have h1 : (txt "flux" = txt "ore") = False := by simp only [eq_iff_iff, iff_false]; decide
  simp only [mixEx, List.mem_cons, List.not_mem_nil, or_false] at he
  rcases he with rfl | rfl <;> simp [priceEx, h1]
theorem mixEx_nodup : mixEx.compounds.Nodup := by simp only [mixEx]; decide

example : ∃ t ns cs ps, thermoMaterial sciEx (txt "charge") mixEx = .ok t ∧ Alphabetical ns [txt "ore", txt "flux"] ∧ Alphabetical cs [txt "SiO2[S]", txt "FeO[S]"] ∧
    Alphabetical ps [txt "price"] ∧ lines t = materialLines sciEx (txt "charge") (width (txt "charge") mixEx) ns cs ps fracEx priceEx ++ [[]] :=
  C122_thermo_material sciEx (txt "charge") mixEx fracEx [txt "price"] priceEx mixEx_nodup mixEx_filled mixEx_props (by simp [mixEx]) (by simp [mixEx]) (plain_txt _ (by decide))
    (by intro e he; simp only [mixEx, List.mem_cons, List.not_mem_nil, or_false] at he; rcases he with rfl | rfl <;> exact plain_txt _ (by decide))
    (by intro c hc; simp only [mixEx, List.mem_cons, List.not_mem_nil, or_false] at hc; rcases hc with rfl | rfl <;> exact plain_txt _ (by decide))
    (by simp only [List.mem_singleton]; rintro _ rfl; exact plain_txt _ (by decide)) sciEx_plain

example : thermoMaterial sciEx (txt "charge") (mixEx.addAssay (txt "dust") (.array (mixEx.compounds.map fun _ => some (1 / 2)))).2 = .error .keyError :=
  (C122_added_violated sciEx (txt "charge") (txt "dust") mixEx fracEx [txt "price"] priceEx (fun _ => 1 / 2) mixEx_nodup mixEx_filled mixEx_props (by simp [mixEx]) (by simp) (by simp [mixEx])
    (by simp only [mixEx, List.map_cons, List.map_nil]; decide)).2

end Auxi.Printout.Props
