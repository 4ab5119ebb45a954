import Verif.Props.Thermo
import Mathlib.Algebra.BigOperators.Group.Finset.Basic

/-!
# Property C61: splitting thermo packages
-/
namespace Auxi.Thermo.Props
open Auxi Auxi.Thermo Auxi.Thermo.Spec
open Auxi.Chem (indexOf indexOf_none)

theorem settle_rep {db : Db} {p : Package} (hk : Known db p.mat) (hc : p.isCoal = false) {g : Str → ℝ} (h : Rep p.mat p.masses g) {t : ℝ} (ht : p.T = some t) (r : Package) :
    settle db p r = (.ok r, { p with H := some (hOf db p.mat g t) }) := by
  unfold settle
  rw [ht, setT_rep hk hc h t, ← ht]

theorem consistent_rep {db : Db} {p : Package} {g : Str → ℝ} (h : Rep p.mat p.masses g) {t : ℝ} (ht : p.T = some t) (hc : Consistent db p) :
    p.H = some (hOf db p.mat g t) := by
  obtain ⟨t', h1, h2⟩ := hc
  rw [ht] at h1
  cases h1
  rw [h2, enthalpyAt_hOf h]

theorem totalMass_rep {p : Package} (hp : Sound p) : p.mass = some (totalMass p) := by unfold Package.mass totalMass; exact hp.rep.sum

/-! ## Extracting a mass -/

/-- **C61 (mass).** Extracting a mass between 0 and that of the package splits it: the part has that mass, and the same composition and pressure. -/
theorem C61_mass (db : Db) (p : Package) (hp : Sound p) (hn : NonNeg p) (hc : Consistent db p) (hk : Known db p.mat) (x : ℝ) (hx : 0 ≤ x) (hle : x ≤ totalMass p)
    (hpos : 0 < totalMass p) : ∃ part rest, p.extract db (.num true (some x)) = (.ok part, rest) ∧ Split p rest part ∧ part.mat = p.mat ∧ part.P = p.P ∧
      (∀ c, content part c = x / totalMass p * content p c) ∧ totalMass part = x := by
  obtain ⟨t, ht, _⟩ := hc
  have hH := consistent_rep hp.rep ht ⟨t, ht, by assumption⟩
  set M := totalMass p with hM
  have h1 := hp.rep.scale (x / M)
  have h2 := hp.rep.scale (1 - x / M)
  have hdiv : vdiv (some x) p.mass = some (x / M) := by rw [totalMass_rep hp]; exact if_neg hpos.ne'
  have hf : 0 ≤ x / M := div_nonneg hx hpos.le
  let part : Package := ⟨p.mat, p.masses.map (fun y => vmul y (some (x / M))), p.P, some t, some (hOf db p.mat (fun c => content p c * (x / M)) t), false, none⟩
  let rest : Package := { p with masses := p.masses.map (fun y => vmul y (some (1 - x / M))), T := some t, H := some (hOf db p.mat (fun c => content p c * (1 - x / M)) t) }
  have hpart : ∀ c, content part c = x / M * content p c := by
    intro c
    by_cases hc : c ∈ p.mat.compounds
    · rw [Rep.content (p := part) h1 hc, mul_comm]
    · rw [content_absent hc, content_absent (p := part) hc, mul_zero]
  refine ⟨part, rest, ?_, ⟨rfl, ?_, ht.symm, ht.symm, rfl, ?_⟩, rfl, rfl, hpart, ?_⟩
  · unfold Package.extract Package.extractMass
    dsimp only
    rw [if_pos rfl, if_neg (by rw [totalMass_rep hp]; exact not_lt.2 hle), hdiv, ht]
    rw [newPackage_nonneg hk h1 (fun c _ => mul_nonneg (hn c) hf)]
    dsimp only
    change settle db { p with masses := p.masses.map (fun y => vmul y (some (1 - x / M))), T := some t } part = _
    rw [settle_rep (p := { p with masses := p.masses.map (fun y => vmul y (some (1 - x / M))), T := some t }) hk hp.not_coal h2 rfl]
  · intro c
    rw [hpart]
    by_cases hc : c ∈ p.mat.compounds
    · rw [Rep.content (p := rest) h2 hc]; ring
    · rw [content_absent hc, content_absent (p := rest) hc]; ring
  · intro h hh
    rw [hH] at hh
    cases hh
    refine ⟨_, _, rfl, rfl, ?_⟩
    rw [hOf_scale, hOf_scale]; ring
  · unfold totalMass
    rw [List.map_congr_left (fun c _ => hpart c), List.sum_map_mul_left]
    change x / M * (p.mat.compounds.map (content p)).sum = x
    rw [show (p.mat.compounds.map (content p)).sum = M from rfl]
    field_simp

/-- **C61 (too much).** Extracting more than there is is refused and changes nothing. -/
theorem C61_too_much (db : Db) (p : Package) (hp : Sound p) (x : ℝ) (hx : totalMass p < x) : p.extract db (.num true (some x)) = (.error .exception, p) := by
  unfold Package.extract Package.extractMass
  dsimp only
  rw [if_pos rfl, if_pos (by rw [totalMass_rep hp]; exact hx)]

/-! ## Extracting a compound -/

/-- **C61 (compound).** Extracting a compound splits the package into that compound and the others. -/
theorem C61_compound (db : Db) (p : Package) (hp : Sound p) (hc : Consistent db p) (hk : Known db p.mat) (c : Str) (hin : c ∈ p.mat.compounds) :
    ∃ part rest, p.extract db (.str c) = (.ok part, rest) ∧ Split p rest part ∧ part.mat = p.mat ∧ part.P = p.P ∧
      (∀ d, content part d = if d = c then content p c else 0) := by
  obtain ⟨t, ht, _⟩ := hc
  have hH := consistent_rep hp.rep ht ⟨t, ht, by assumption⟩
  obtain ⟨i, i1, i2⟩ := index_mem hin
  have h1 := (Rep.empty p.mat).set hp.distinct i2 (content p c)
  have h2 := hp.rep.set hp.distinct i2 0
  let part : Package := ⟨p.mat, p.mat.emptyAssay.set i (some (content p c)), p.P, some t, some (hOf db p.mat (Function.update (fun _ => 0) c (content p c)) t), false, none⟩
  let rest : Package := { p with masses := p.masses.set i (some 0), T := some t, H := some (hOf db p.mat (Function.update (content p) c 0) t) }
  have hpart : ∀ d, content part d = if d = c then content p c else 0 := by
    intro d
    by_cases hd : d ∈ p.mat.compounds
    · rw [Rep.content (p := part) h1 hd]
      by_cases hdc : d = c
      · subst hdc; simp
      · rw [Function.update_of_ne hdc, if_neg hdc]
    · rw [content_absent (p := part) hd, if_neg (by rintro rfl; exact hd hin)]
  refine ⟨part, rest, ?_, ⟨rfl, ?_, ht.symm, ht.symm, rfl, ?_⟩, rfl, rfl, hpart⟩
  · unfold Package.extract Package.extractCompound
    dsimp only
    rw [createEmpty hk]
    dsimp only
    rw [if_neg (not_not.2 hin), i1]
    dsimp only
    rw [hp.rep.at i2]
    dsimp only
    rw [ht, setT_rep (p := ⟨p.mat, p.mat.emptyAssay.set i (some (content p c)), some 1, some 25, some 0, false, none⟩) hk rfl h1 t]
    dsimp only
    change settle db { p with masses := p.masses.set i (some 0), T := some t } part = _
    rw [settle_rep (p := { p with masses := p.masses.set i (some 0), T := some t }) hk hp.not_coal h2 rfl]
  · intro d
    rw [hpart]
    by_cases hd : d ∈ p.mat.compounds
    · rw [Rep.content (p := rest) h2 hd]
      by_cases hdc : d = c
      · subst hdc; simp
      · rw [Function.update_of_ne hdc, if_neg hdc, add_zero]
    · rw [content_absent hd, content_absent (p := rest) hd, if_neg (by rintro rfl; exact hd hin), add_zero]
  · intro h hh
    rw [hH] at hh
    cases hh
    refine ⟨_, _, rfl, rfl, ?_⟩
    rw [hOf_update hp.distinct hin, hOf_update hp.distinct hin, hOf_zero]; ring

/-- **C61 (compound and mass).** Extracting a mass of a compound, up to what there is, splits the package. -/
theorem C61_compound_mass (db : Db) (p : Package) (hp : Sound p) (hc : Consistent db p) (hk : Known db p.mat) (c : Str) (hin : c ∈ p.mat.compounds)
    (x : ℝ) (hle : x ≤ content p c) : ∃ part rest, p.extract db (.tup c true (some x)) = (.ok part, rest) ∧ Split p rest part ∧ part.mat = p.mat ∧ part.P = p.P ∧
      (∀ d, content part d = if d = c then x else 0) := by
  obtain ⟨t, ht, _⟩ := hc
  have hH := consistent_rep hp.rep ht ⟨t, ht, by assumption⟩
  obtain ⟨i, i1, i2⟩ := index_mem hin
  have h2 := hp.rep.set hp.distinct i2 (content p c - x)
  let rest : Package := { p with masses := p.masses.set i (some (content p c - x)), T := some t, H := some (hOf db p.mat (Function.update (content p) c (content p c - x)) t) }
  obtain ⟨ms, m1, m2⟩ := addTuple_rep (p := ⟨p.mat, p.mat.emptyAssay, p.P, some t, some 0, false, none⟩) hk hp.distinct (Rep.empty p.mat) rfl hin x
  let part : Package := ⟨p.mat, ms, p.P, some t, some (0 + x * unitH db c t), false, none⟩
  have hpart : ∀ d, content part d = if d = c then x else 0 := by
    intro d
    by_cases hd : d ∈ p.mat.compounds
    · rw [Rep.content (p := part) m2 hd]
      by_cases hdc : d = c
      · subst hdc; simp
      · rw [Function.update_of_ne hdc, if_neg hdc]
    · rw [content_absent (p := part) hd, if_neg (by rintro rfl; exact hd hin)]
  refine ⟨part, rest, ?_, ⟨rfl, ?_, ht.symm, ht.symm, rfl, ?_⟩, rfl, rfl, hpart⟩
  · unfold Package.extract Package.extractCompoundMass
    dsimp only
    rw [if_pos rfl, if_neg (not_not.2 hin), i1]
    dsimp only
    rw [hp.rep.at i2]
    dsimp only
    rw [if_neg (show ¬ vgt (some x) (some (content p c)) from not_lt.2 hle)]
    rw [show vsub (some (content p c)) (some x) = some (content p c - x) from rfl, ht,
      setT_rep (p := { p with masses := p.masses.set i (some (content p c - x)), T := some t }) hk hp.not_coal h2 t]
    dsimp only
    rw [createEmpty hk]
    dsimp only
    rw [m1]
    rfl
  · intro d
    rw [hpart]
    by_cases hd : d ∈ p.mat.compounds
    · rw [Rep.content (p := rest) h2 hd]
      by_cases hdc : d = c
      · subst hdc; simp
      · rw [Function.update_of_ne hdc, if_neg hdc, add_zero]
    · rw [content_absent hd, content_absent (p := rest) hd, if_neg (by rintro rfl; exact hd hin), add_zero]
  · intro h hh
    rw [hH] at hh
    cases hh
    refine ⟨_, _, rfl, rfl, ?_⟩
    rw [hOf_update hp.distinct hin]; ring

/-- **C61 (compound and mass, too much).** Refused; nothing changes. -/
theorem C61_compound_too_much (db : Db) (p : Package) (hp : Sound p) (c : Str) (hin : c ∈ p.mat.compounds) (x : ℝ) (hx : content p c < x) :
    p.extract db (.tup c true (some x)) = (.error .exception, p) := by
  obtain ⟨i, i1, i2⟩ := index_mem hin
  unfold Package.extract Package.extractCompoundMass
  dsimp only
  rw [if_pos rfl, if_neg (not_not.2 hin), i1]
  dsimp only
  rw [hp.rep.at i2]
  dsimp only
  rw [if_pos (show vgt (some x) (some (content p c)) from hx)]

/-- **C61 (unknown compound).** Asking for a compound that the material does not have gives an empty package, whatever the mass asked for, and
changes nothing. -/
theorem C61_unknown (db : Db) (p : Package) (hk : Known db p.mat) (c : Str) (hin : c ∉ p.mat.compounds) (x : V) :
    ∃ part, p.extract db (.str c) = (.ok part, p) ∧ p.extract db (.tup c true x) = (.ok part, p) ∧ (∀ d, content part d = 0) ∧ part.H = some 0 := by
  refine ⟨⟨p.mat, p.mat.emptyAssay, some 1, some 25, some 0, false, none⟩, ?_, ?_, ?_, ?_⟩
  rotate_left
  · unfold Package.extract Package.extractCompoundMass
    dsimp only
    rw [if_pos rfl, if_pos hin, createEmpty hk]
  · intro d
    by_cases hd : d ∈ p.mat.compounds
    · exact Rep.content (p := ⟨p.mat, p.mat.emptyAssay, some 1, some 25, some 0, false, none⟩) (Rep.empty p.mat) hd
    · exact content_absent hd
  · rfl
  · unfold Package.extract Package.extractCompound
    dsimp only
    rw [createEmpty hk]
    dsimp only
    rw [if_pos hin]

/-! ## Extracting the compounds of a material -/

theorem extractCompound_rep {db : Db} {p : Package} (hk : Known db p.mat) (hn : p.mat.compounds.Nodup) (hcoal : p.isCoal = false) {g : Str → ℝ} (h : Rep p.mat p.masses g)
    {t : ℝ} (ht : p.T = some t) (hH : p.H = some (hOf db p.mat g t)) (c : Str) :
    ∃ r p' k, p.extractCompound db c = (.ok r, p') ∧ p'.mat = p.mat ∧ p'.T = p.T ∧ p'.P = p.P ∧ p'.isCoal = p.isCoal ∧ Rep p.mat p'.masses k ∧
      (∀ d ∈ p.mat.compounds, k d = if d = c then 0 else g d) ∧ p'.H = some (hOf db p.mat k t) := by
  unfold Package.extractCompound
  rw [createEmpty hk]
  dsimp only
  by_cases hin : c ∈ p.mat.compounds
  · obtain ⟨i, i1, i2⟩ := index_mem hin
    rw [if_neg (not_not.2 hin), i1]
    dsimp only
    rw [h.at i2]
    dsimp only
    rw [ht, setT_rep (p := ⟨p.mat, p.mat.emptyAssay.set i (some (g c)), some 1, some 25, some 0, false, none⟩) hk rfl ((Rep.empty p.mat).set hn i2 (g c)) t]
    dsimp only
    have h2 := h.set hn i2 0
    rw [← ht, settle_rep (p := { p with masses := p.masses.set i (some 0) }) hk hcoal h2 ht]
    refine ⟨_, _, _, rfl, rfl, rfl, rfl, rfl, h2, ?_, rfl⟩
    intro d _
    by_cases hdc : d = c
    · subst hdc; simp
    · rw [Function.update_of_ne hdc, if_neg hdc]
  · rw [if_pos hin]
    refine ⟨_, _, g, rfl, rfl, rfl, rfl, rfl, h, ?_, hH⟩
    intro d hd
    rw [if_neg (by rintro rfl; exact hin hd)]

theorem extractLoop_rep {db : Db} (cs : List Str) (hcs : cs.Nodup) (r p : Package) (hkr : Known db r.mat) (hnr : r.mat.compounds.Nodup) (hsub : ∀ c ∈ cs, c ∈ r.mat.compounds)
    {k : Str → ℝ} (hr : Rep r.mat r.masses k) {t1 : ℝ} (ht1 : r.T = some t1) (hk : Known db p.mat) (hn : p.mat.compounds.Nodup) (hcoal : p.isCoal = false)
    {g : Str → ℝ} (h : Rep p.mat p.masses g) {t : ℝ} (ht : p.T = some t) (hH : p.H = some (hOf db p.mat g t)) :
    ∃ r' p' k' g', extractLoop db cs r p = (.ok r', p') ∧ r'.mat = r.mat ∧ r'.P = r.P ∧ r'.isCoal = r.isCoal ∧ Rep r.mat r'.masses k' ∧
      (∀ d, k' d = k d + if d ∈ cs ∧ d ∈ p.mat.compounds then g d else 0) ∧ p'.mat = p.mat ∧ p'.T = p.T ∧ p'.P = p.P ∧ p'.isCoal = p.isCoal ∧
      Rep p.mat p'.masses g' ∧ (∀ d ∈ p.mat.compounds, g' d = if d ∈ cs then 0 else g d) ∧ p'.H = some (hOf db p.mat g' t) := by
  induction cs generalizing r p k g with
  | nil => exact ⟨r, p, k, g, rfl, rfl, rfl, rfl, hr, by simp, rfl, rfl, rfl, rfl, h, by simp, hH⟩
  | cons c cs ih =>
    rw [List.nodup_cons] at hcs
    have hm : p.compoundMass c = .ok (some (if c ∈ p.mat.compounds then g c else 0)) := by
      unfold Package.compoundMass
      by_cases hc : c ∈ p.mat.compounds
      · rw [if_pos hc, if_pos hc, h.entry hc]
      · rw [if_neg hc, if_neg hc]
    obtain ⟨ms, m1, m2⟩ := addTuple_rep hkr hnr hr ht1 (hsub c (by simp)) (if c ∈ p.mat.compounds then g c else 0)
    obtain ⟨e, p1, g1, e1, e2, e3, e4, e5, e6, e7, e8⟩ := extractCompound_rep hk hn hcoal h ht hH c
    obtain ⟨r', p', k', g', f1, f2, f3, f4, f5, f6, f7, f8, f9, f10, f11, f12, f13⟩ :=
      ih hcs.2 { r with masses := ms, H := vadd r.H (some ((if c ∈ p.mat.compounds then g c else 0) * unitH db c t1)) } p1 hkr hnr (fun d hd => hsub d (by simp [hd])) m2 ht1
        (e2 ▸ hk) (e2 ▸ hn) (e5.trans hcoal) (e2 ▸ e6) (e3.trans ht) (e2 ▸ e8)
    refine ⟨r', p', k', g', ?_, f2, f3, f4, f5, ?_, f7.trans e2, f8.trans e3, f9.trans e4, f10.trans e5, e2 ▸ f11, ?_, e2 ▸ f13⟩
    · unfold extractLoop
      rw [hm]
      dsimp only
      rw [m1]
      dsimp only
      rw [e1]
      exact f1
    · intro d
      rw [f6 d, e2]
      by_cases hd : d = c
      · subst hd
        rw [Function.update_self]
        simp [hcs.1]
      · rw [Function.update_of_ne hd]
        by_cases hd2 : d ∈ p.mat.compounds
        · rw [e7 d hd2]; simp [hd]
        · simp [hd2]
    · intro d hd
      rw [f12 d (e2 ▸ hd), e7 d hd]
      by_cases hdc : d = c
      · subst hdc; simp [hcs.1]
      · simp [hdc]

theorem split_sum {l m : List Str} (hl : l.Nodup) (hm : m.Nodup) (f : Str → ℝ) :
    (l.map (fun c => if c ∈ m then 0 else f c)).sum + (m.map (fun c => if c ∈ l then f c else 0)).sum = (l.map f).sum := by
  classical
  rw [← List.sum_toFinset _ hl, ← List.sum_toFinset _ hm, ← List.sum_toFinset _ hl]
  have h1 : ∑ c ∈ m.toFinset, (if c ∈ l then f c else 0) = ∑ c ∈ l.toFinset, (if c ∈ m then f c else 0) := by
    rw [← Finset.sum_filter, ← Finset.sum_filter]
    refine Finset.sum_congr ?_ (fun _ _ => rfl)
    ext c; simp [and_comm]
  rw [h1, ← Finset.sum_add_distrib]
  refine Finset.sum_congr rfl (fun c _ => ?_)
  split <;> simp

/-- **C61 (material).** Extracting a material moves all its compounds out of the package, into a package of that material. -/
theorem C61_material (db : Db) (p : Package) (m : Material) (hp : Sound p) (hc : Consistent db p) (hk : Known db p.mat) (hkm : Known db m) (hm : m.compounds.Nodup) :
    ∃ part rest, p.extract db (.mat m) = (.ok part, rest) ∧ Split p rest part ∧ part.mat = m ∧
      (∀ c, content part c = if c ∈ m.compounds then content p c else 0) := by
  obtain ⟨t, ht, _⟩ := hc
  have hH := consistent_rep hp.rep ht ⟨t, ht, by assumption⟩
  obtain ⟨r', p', k', g', f1, f2, f3, f4, f5, f6, f7, f8, f9, f10, f11, f12, f13⟩ :=
    extractLoop_rep m.compounds hm ⟨m, m.emptyAssay, some 1, some 25, some 0, false, none⟩ p hkm hm (fun _ h => h) (Rep.empty m) rfl hk hp.distinct hp.not_coal hp.rep ht hH
  dsimp only at f2 f3 f4 f5
  have f5' : Rep r'.mat r'.masses k' := f2 ▸ f5
  have f11' : Rep p'.mat p'.masses g' := f7 ▸ f11
  let part : Package := { r' with T := some t, H := some (hOf db r'.mat k' t) }
  have hpart : ∀ c, content part c = if c ∈ m.compounds then content p c else 0 := by
    intro c
    by_cases hc : c ∈ m.compounds
    · rw [Rep.content (p := part) f5' (show c ∈ r'.mat.compounds from f2 ▸ hc), f6 c, if_pos hc]
      by_cases hcp : c ∈ p.mat.compounds
      · rw [if_pos ⟨hc, hcp⟩, zero_add]
      · rw [if_neg (fun x => hcp x.2), content_absent hcp, add_zero]
    · rw [content_absent (p := part) (show c ∉ r'.mat.compounds from f2 ▸ hc), if_neg hc]
  refine ⟨part, p', ?_, ⟨f7, ?_, f8, ht.symm, f9, ?_⟩, f2, hpart⟩
  · unfold Package.extract Package.extractMaterial
    dsimp only
    rw [createEmpty hkm]
    dsimp only
    rw [f1]
    dsimp only
    rw [f8, ht, setT_rep (p := r') (f2 ▸ hkm) f4 f5' t]
    rfl
  · intro c
    rw [hpart]
    by_cases hc : c ∈ p.mat.compounds
    · rw [Rep.content (p := p') f11' (f7 ▸ hc), f12 c hc]
      split <;> simp
    · rw [content_absent (p := p') (f7 ▸ hc), content_absent hc]; simp
  · intro h hh
    rw [hH] at hh
    cases hh
    refine ⟨_, _, f13, rfl, ?_⟩
    have e1 : hOf db p.mat g' t = (p.mat.compounds.map (fun c => if c ∈ m.compounds then 0 else content p c * unitH db c t)).sum := by
      unfold hOf
      rw [List.map_congr_left (fun c hc => by rw [f12 c hc, ite_mul, zero_mul])]
    have e2 : hOf db r'.mat k' t = (m.compounds.map (fun c => if c ∈ p.mat.compounds then content p c * unitH db c t else 0)).sum := by
      unfold hOf
      rw [f2, List.map_congr_left (fun c hc => by rw [f6 c, zero_add, ite_mul, zero_mul])]
      congr 1
      exact List.map_congr_left (fun c hc => by simp [hc])
    rw [e1, e2, split_sum hp.distinct hm]
    rfl

theorem pAB_consistent (t : ℝ) : Consistent db1 (pAB t) := by
  refine ⟨t, rfl, ?_⟩
  unfold enthalpyAt
  change _ = some ([content (pAB t) "A[S]".toList * unitH db1 "A[S]".toList t, content (pAB t) "B[S]".toList * unitH db1 "B[S]".toList t].sum)
  rw [(pAB_content t).1, (pAB_content t).2, unit_A, unit_B]
  simp [pAB]
theorem pAB_nonneg (t : ℝ) : NonNeg (pAB t) := by
  intro c
  by_cases hc : c ∈ (pAB t).mat.compounds
  · simp only [pAB, mAB, List.mem_cons, List.not_mem_nil, or_false] at hc
    rcases hc with rfl | rfl
    · rw [(pAB_content t).1]; norm_num
    · rw [(pAB_content t).2]; norm_num
  · rw [content_absent hc]
theorem pAB_total (t : ℝ) : totalMass (pAB t) = 5 := by
  change ([content (pAB t) "A[S]".toList, content (pAB t) "B[S]".toList].sum) = 5
  rw [(pAB_content t).1, (pAB_content t).2]; norm_num

example : ∃ part rest, (pAB 100).extract db1 (.num true (some 4)) = (.ok part, rest) ∧ Split (pAB 100) rest part ∧ totalMass part = 4 := by
  obtain ⟨part, rest, h1, h2, _, _, _, h3⟩ := C61_mass db1 _ (pAB_sound 100) (pAB_nonneg _) (pAB_consistent _) known_mAB 4 (by norm_num) (by rw [pAB_total]; norm_num) (by rw [pAB_total]; norm_num)
  exact ⟨part, rest, h1, h2, h3⟩
example : ∃ part rest, (pAB 100).extract db1 (.mat mB) = (.ok part, rest) ∧ Split (pAB 100) rest part := by
  obtain ⟨part, rest, h1, h2, _⟩ := C61_material db1 (pAB 100) mB (pAB_sound _) (pAB_consistent _) known_mAB known_mB (by simp only [mB]; decide +kernel)
  exact ⟨part, rest, h1, h2⟩
example : ∃ part rest, (pAB 100).extract db1 (.str "B[S]".toList) = (.ok part, rest) ∧ Split (pAB 100) rest part := by
  obtain ⟨part, rest, h1, h2, _⟩ := C61_compound db1 (pAB 100) (pAB_sound _) (pAB_consistent _) known_mAB "B[S]".toList (by simp [pAB, mAB])
  exact ⟨part, rest, h1, h2⟩
example : (1 : ℝ) ≤ content (pAB 100) "B[S]".toList := by rw [(pAB_content _).2]; norm_num

end Auxi.Thermo.Props
