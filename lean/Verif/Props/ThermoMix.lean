import Verif.Props.ThermoSolve

/-! # C62, C63: materials of constant heat capacity, for which the solver is exact: full histories, mixing included -/
namespace Auxi.Thermo.Props
open Auxi.Thermo Auxi.Thermo.Spec

/-- Every compound of the material has a constant positive heat capacity: its specific enthalpy rises linearly with temperature. -/
def Steady (db : Db) (m : Material) : Prop := ∀ c ∈ m.compounds, ∃ a b : ℝ, 0 < a ∧ ∀ x, unitH db c x = a * x + b

theorem hOf_affine {db : Db} {m : Material} (hs : Steady db m) {g : Str → ℝ} (hg : ∀ c ∈ m.compounds, 0 ≤ g c) (hpos : 0 < (m.compounds.map g).sum) :
    ∃ a b : ℝ, 0 < a ∧ ∀ x, hOf db m g x = a * x + b := by
  unfold hOf
  have key : ∀ l : List Str, (∀ c ∈ l, c ∈ m.compounds) → ∃ a b : ℝ, 0 ≤ a ∧ (0 < (l.map g).sum → 0 < a) ∧ ∀ x, (l.map (fun c => g c * unitH db c x)).sum = a * x + b := by
    intro l
    induction l with
    | nil => intro _; exact ⟨0, 0, le_rfl, fun h => by simp at h, fun x => by simp⟩
    | cons c l ih =>
      intro hl
      obtain ⟨a, b, h1, h2, h3⟩ := ih (fun d hd => hl d (List.mem_cons_of_mem _ hd))
      obtain ⟨a', b', h4, h5⟩ := hs c (hl c List.mem_cons_self)
      have h6 := hg c (hl c List.mem_cons_self)
      refine ⟨g c * a' + a, g c * b' + b, by positivity, fun h => ?_, fun x => ?_⟩
      · rw [List.map_cons, List.sum_cons] at h
        rcases h6.eq_or_lt with h7 | h7
        · rw [← h7, zero_add] at h; have := h2 h; positivity
        · positivity
      · rw [List.map_cons, List.sum_cons, h3, h5]; ring
  obtain ⟨a, b, _, h2, h3⟩ := key _ (fun _ h => h)
  exact ⟨a, b, h2 hpos, h3⟩

theorem setH_steady {db : Db} {p : Package} (hk : Known db p.mat) (h0 : p.mat.compounds ≠ []) (hn : p.mat.compounds.Nodup) (hc : p.isCoal = false) {g : Str → ℝ} (h : Rep p.mat p.masses g)
    {t : ℝ} (ht : p.T = some t) (hs : Steady db p.mat) (hg : ∀ c ∈ p.mat.compounds, 0 ≤ g c) (hpos : 0 < (p.mat.compounds.map g).sum) (H : ℝ) :
    ∃ t', p.setH db (some H) = (.ok (), { p with H := some H, T := some t' }) ∧ H = hOf db p.mat g t' := by
  obtain ⟨a, b, ha, hab⟩ := hOf_affine hs hg hpos
  obtain ⟨t', h1, h2⟩ := setH_defined hk h0 hc h (some H)
  have k := C63_affine (calcH db { p with H := some H }) a b ha.ne' (fun x => by rw [calcH_rep (p := { p with H := some H }) hk hc h x]; exact congrArg (fun y => Except.ok (some y)) (hab x)) H t
  rw [← ht] at k
  rw [k] at h1
  cases h1
  refine ⟨_, h2, ?_⟩
  rw [hab]
  field_simp
  ring

theorem mass_pos_add {p q : Package} (hp : NonNeg p) (hq : NonNeg q) (hsub : ∀ c ∈ q.mat.compounds, c ∈ p.mat.compounds) (hn : q.mat.compounds.Nodup)
    (hn' : p.mat.compounds.Nodup) (h : 0 < totalMass p + totalMass q) :
    0 < (p.mat.compounds.map (fun c => content p c + content q c)).sum := by
  rw [List.sum_map_add]
  have : totalMass q ≤ (p.mat.compounds.map (content q)).sum := by
    have sp : q.mat.compounds.Subperm p.mat.compounds := hn.subperm hsub
    obtain ⟨l, hl1, hl2⟩ := sp
    have : totalMass q = (l.map (content q)).sum := ((hl1.map _).sum_eq).symm
    rw [this]
    refine List.Sublist.sum_le_sum (hl2.map _) (fun y hy => ?_)
    obtain ⟨c, _, rfl⟩ := List.mem_map.1 hy
    exact hq c
  exact lt_of_lt_of_le h (by unfold totalMass at this ⊢; linarith)

/-- **C62 (mixing).** For a material of constant heat capacity, the sum of two packages that report the enthalpy of their contents reports it too (as long
as there is some mass). -/
theorem C62_mix (db : Db) (p q : Package) (gp : Good db p) (gq : Good db q) (hm : q.mat = p.mat ∨ p.mat.ident ≠ q.mat.ident) (hs : Steady db p.mat)
    (hpos : 0 < totalMass p + totalMass q) (r : Package) (hr : p.add db (.pkg q) = .ok r) : Good db r ∧ r.mat = p.mat := by
  obtain ⟨tp, htp, Hp⟩ := gp.consistent
  obtain ⟨tq, htq, Hq⟩ := gq.consistent
  have hsub : ∀ c ∈ q.mat.compounds, c ∈ p.mat.compounds := by
    rcases hm with hm | hi
    · rw [hm]; exact fun _ h => h
    · by_contra hx
      push Not at hx
      obtain ⟨c, h1, h2⟩ := hx
      rw [C60_foreign db p q gp.sound gq.sound hi gp.known c h1 h2] at hr
      cases hr
  have hnn : ∀ c ∈ p.mat.compounds, 0 ≤ content p c + content q c := fun c _ => add_nonneg (gp.nonneg c) (gq.nonneg c)
  have hmass := mass_pos_add gp.nonneg gq.nonneg hsub gq.sound.distinct gp.sound.distinct hpos
  by_cases hi : p.mat.ident = q.mat.ident
  · have hm : q.mat = p.mat := hm.resolve_right (not_not.2 hi)
    have hq' : Rep p.mat q.masses (content q) := hm ▸ gq.sound.rep
    obtain ⟨s, hs1, hs'⟩ := gp.sound.rep.add hq'
    obtain ⟨t', e1, e2⟩ := setH_steady (p := ⟨p.mat, s, some 1, some 25, some (hOf db p.mat (fun c => content p c + content q c) 25), false, none⟩) gp.known gp.sound.some_compound
      gp.sound.distinct rfl hs' rfl hs hnn hmass (enthalpyAt db p tp + enthalpyAt db q tq)
    unfold Package.add at hr
    dsimp only at hr
    rw [if_pos hi, hs1] at hr
    dsimp only at hr
    rw [newPackage_nonneg gp.known hs' hnn] at hr
    dsimp only at hr
    rw [Hp, Hq] at hr
    rw [show vadd (some (enthalpyAt db p tp)) (some (enthalpyAt db q tq)) = some (enthalpyAt db p tp + enthalpyAt db q tq) from rfl, e1] at hr
    have hr : (⟨p.mat, s, p.P, some t', some (enthalpyAt db p tp + enthalpyAt db q tq), false, none⟩ : Package) = r := Except.ok.inj hr
    subst hr
    exact ⟨good_of (p := ⟨p.mat, s, p.P, some t', some (enthalpyAt db p tp + enthalpyAt db q tq), false, none⟩) hs' gp.sound.some_compound gp.sound.distinct rfl rfl hnn (congrArg some e2) gp.known, rfl⟩
  · obtain ⟨b, r1, r2, r3, r4, r5, k, r6, r7⟩ := addLoop_rep (db := db) gq.sound.rep q.mat.compounds gq.sound.distinct (fun _ h => h) p gp.known gp.sound.distinct hsub gp.sound.rep htp
    have r6' : Rep b.mat b.masses k := r2 ▸ r6
    have hk : ∀ c, k c = content p c + content q c := fun c => by
      rw [r7]
      split
      · rfl
      · rename_i h; rw [content_absent (p := q) h]
    obtain rfl : k = fun c => content p c + content q c := funext hk
    obtain ⟨t', e1, e2⟩ := setH_steady (p := b) (r2 ▸ gp.known) (r2 ▸ gp.sound.some_compound) (r2 ▸ gp.sound.distinct) (r5.trans gp.sound.not_coal) r6' (r4.trans htp) (r2 ▸ hs)
      (r2 ▸ hnn) (r2 ▸ hmass) (enthalpyAt db p tp + enthalpyAt db q tq)
    unfold Package.add at hr
    dsimp only at hr
    rw [if_neg hi, r1] at hr
    dsimp only at hr
    rw [Hp, Hq] at hr
    rw [show vadd (some (enthalpyAt db p tp)) (some (enthalpyAt db q tq)) = some (enthalpyAt db p tp + enthalpyAt db q tq) from rfl, e1] at hr
    have hr : ({ b with H := some (enthalpyAt db p tp + enthalpyAt db q tq), T := some t' } : Package) = r := Except.ok.inj hr
    subst hr
    exact ⟨good_of (p := { b with H := some (enthalpyAt db p tp + enthalpyAt db q tq), T := some t' }) r6' (r2 ▸ gp.sound.some_compound) (r2 ▸ gp.sound.distinct) rfl (r5.trans gp.sound.not_coal) (r2 ▸ hnn)
      (congrArg some e2) (r2 ▸ gp.known), r2⟩

theorem sum_update_pos {m : Material} (hn : m.compounds.Nodup) {g : Str → ℝ} (hg : ∀ c ∈ m.compounds, 0 ≤ g c) {c : Str} (hc : c ∈ m.compounds) {x : ℝ} (hx : 0 ≤ x)
    (h : 0 < (m.compounds.map g).sum + x) : 0 < (m.compounds.map (Function.update g c (g c + x))).sum := by
  have : ∀ l : List Str, l.Nodup → c ∈ l → (l.map (Function.update g c (g c + x))).sum = (l.map g).sum + x := by
    intro l
    induction l with
    | nil => intro _ h; cases h
    | cons d l ih =>
      intro hl hm
      rw [List.nodup_cons] at hl
      rw [List.map_cons, List.map_cons, List.sum_cons, List.sum_cons]
      by_cases hd : d = c
      · subst hd
        have : l.map (Function.update g d (g d + x)) = l.map g := List.map_congr_left (fun e he => Function.update_of_ne (by rintro rfl; exact hl.1 he) _ _)
        rw [this, Function.update_self]; ring
      · rw [ih hl.2 ((List.mem_cons.1 hm).resolve_left (Ne.symm hd)), Function.update_of_ne hd]; ring
  rw [this _ hn hc]
  exact h

/-- **C62 (adding a compound at a temperature).** The same for `p + (compound, mass, temperature)`. -/
theorem C62_compound_at (db : Db) (p : Package) (gp : Good db p) (hs : Steady db p.mat) (c : Str) (x t : ℝ) (hx : 0 ≤ x) (hpos : 0 < totalMass p + x) (r : Package)
    (hr : p.add db (.tup3 c true (some x) (some t)) = .ok r) : Good db r ∧ r.mat = p.mat := by
  obtain ⟨t0, ht0, Hp⟩ := gp.consistent
  unfold Package.add at hr
  dsimp only at hr
  rw [if_pos rfl] at hr
  by_cases hc : c ∈ p.mat.compounds
  · obtain ⟨i, i1, i2⟩ := index_mem hc
    have hsc := gp.sound.rep.scale 1
    rw [show (fun c => content p c * 1) = content p from funext (fun c => mul_one _)] at hsc
    have hset := hsc.set gp.sound.distinct i2 (content p c + x)
    have hmul : p.mul db true (some 1) = .ok ⟨p.mat, p.masses.map (fun y => vmul y (some 1)), p.P, some t0, some (hOf db p.mat (content p) t0), false, none⟩ := by
      unfold Package.mul
      rw [if_pos rfl, if_neg (show ¬ vgt (some 0) (some 1) from by simp [vgt]), ht0, newPackage_nonneg gp.known hsc (fun c _ => gp.nonneg c)]
    have hnn : ∀ d ∈ p.mat.compounds, 0 ≤ Function.update (content p) c (content p c + x) d := fun d _ => update_nonneg (add_nonneg (gp.nonneg c) hx) gp.nonneg d
    obtain ⟨t', e1, e2⟩ := setH_steady (p := ⟨p.mat, (p.masses.map (fun y => vmul y (some 1))).set i (some (content p c + x)), p.P, some t0, some (hOf db p.mat (content p) t0), false, none⟩)
      gp.known gp.sound.some_compound gp.sound.distinct rfl hset rfl hs hnn (sum_update_pos gp.sound.distinct (fun c _ => gp.nonneg c) hc hx hpos) (enthalpyAt db p t0 + x * unitH db c t)
    rw [i1] at hr
    dsimp only at hr
    rw [thermoH_known gp.known hc] at hr
    dsimp only at hr
    rw [hmul] at hr
    dsimp only at hr
    unfold bumpAt at hr
    rw [hsc.at i2] at hr
    dsimp only at hr
    rw [Hp, show vadd (some (content p c)) (some x) = some (content p c + x) from rfl,
      show vadd (some (enthalpyAt db p t0)) (some (x * unitH db c t)) = some (enthalpyAt db p t0 + x * unitH db c t) from rfl, e1] at hr
    have hr : (⟨p.mat, (p.masses.map (fun y => vmul y (some 1))).set i (some (content p c + x)), p.P, some t', some (enthalpyAt db p t0 + x * unitH db c t), false, none⟩ : Package) = r := Except.ok.inj hr
    subst hr
    exact ⟨good_of (p := ⟨p.mat, (p.masses.map (fun y => vmul y (some 1))).set i (some (content p c + x)), p.P, some t', some (enthalpyAt db p t0 + x * unitH db c t), false, none⟩) hset
      gp.sound.some_compound gp.sound.distinct rfl rfl hnn (congrArg some e2) gp.known, rfl⟩
  · have he : p.mat.index c = .error .valueError := by unfold Material.index; rw [Chem.indexOf_none hc]
    rw [he] at hr
    cases hr

/-- **C62 (setting the enthalpy).** The same for `p.H = x`. -/
theorem C62_set (db : Db) (p : Package) (gp : Good db p) (hs : Steady db p.mat) (hpos : 0 < totalMass p) (x : ℝ) (r : Package) (hr : p.setH db (some x) = (.ok (), r)) :
    Good db r ∧ r.mat = p.mat := by
  obtain ⟨t0, ht0, _⟩ := gp.consistent
  obtain ⟨t', e1, e2⟩ := setH_steady gp.known gp.sound.some_compound gp.sound.distinct gp.sound.not_coal gp.sound.rep ht0 hs (fun c _ => gp.nonneg c) hpos x
  rw [e1] at hr
  cases hr
  exact ⟨good_of (p := { p with H := some x, T := some t' }) gp.sound.rep gp.sound.some_compound gp.sound.distinct rfl gp.sound.not_coal (fun c _ => gp.nonneg c) (congrArg some e2) gp.known, rfl⟩

/-- Packages obtained by any operations at all, mixing and setting of the enthalpy included, as long as there is some mass, and the heat
capacities are constant, when the solver runs. -/
inductive History (db : Db) : Package → Prop
  /-- from an assay (or empty), the mass not negative and the resulting numbers finite -/
  | created {m : Material} {a : Option Str} {x P T : V} {b : Bool} {p : Package} : Known db m → m.createPackage db a x P T b = .ok p → Sound p → NonNeg p → History db p
  /-- `p * k` -/
  | scaled {p r : Package} {k : ℝ} : History db p → p.mul db true (some k) = .ok r → History db r
  /-- `p + (c, x)` -/
  | compound {p r : Package} {c : Str} {x : ℝ} : History db p → 0 ≤ x → p.add db (.tup c true (some x)) = .ok r → History db r
  /-- `p + (c, x, t)` -/
  | compoundAt {p r : Package} {c : Str} {x t : ℝ} : History db p → Steady db p.mat → 0 ≤ x → 0 < totalMass p + x → p.add db (.tup3 c true (some x) (some t)) = .ok r → History db r
  /-- `p + q` -/
  | mixed {p q r : Package} : History db p → History db q → Steady db p.mat → (q.mat = p.mat ∨ p.mat.ident ≠ q.mat.ident) → 0 < totalMass p + totalMass q → p.add db (.pkg q) = .ok r → History db r
  /-- `p.T = t` -/
  | heated {p r : Package} {t : ℝ} : History db p → p.setT db (some t) = (.ok (), r) → History db r
  /-- `p.H = x` -/
  | enthalpy {p r : Package} {x : ℝ} : History db p → Steady db p.mat → 0 < totalMass p → p.setH db (some x) = (.ok (), r) → History db r
  /-- the extracted part of a mass -/
  | part {p part rest : Package} {x : ℝ} : History db p → 0 < totalMass p → 0 ≤ x → p.extract db (.num true (some x)) = (.ok part, rest) → History db part
  /-- the remainder after extracting a mass -/
  | rest {p part rest : Package} {x : ℝ} : History db p → 0 < totalMass p → 0 ≤ x → p.extract db (.num true (some x)) = (.ok part, rest) → History db rest
  /-- the extracted compound -/
  | compoundPart {p part rest : Package} {c : Str} : History db p → p.extract db (.str c) = (.ok part, rest) → History db part
  /-- the remainder after extracting a compound -/
  | compoundRest {p part rest : Package} {c : Str} : History db p → p.extract db (.str c) = (.ok part, rest) → History db rest
  /-- the extracted mass of a compound -/
  | massPart {p part rest : Package} {c : Str} {x : ℝ} : History db p → 0 ≤ x → p.extract db (.tup c true (some x)) = (.ok part, rest) → History db part
  /-- the remainder after extracting a mass of a compound -/
  | massRest {p part rest : Package} {c : Str} {x : ℝ} : History db p → 0 ≤ x → p.extract db (.tup c true (some x)) = (.ok part, rest) → History db rest

/-- **C62 (full histories, constant heat capacity).** For materials whose compounds have constant positive heat capacities, after any history of operations,
mixing of packages and setting of enthalpies included, the enthalpy a package reports is that of its contents at the temperature it reports. -/
theorem C62_full_history_partial (db : Db) (p : Package) (h : History db p) : Consistent db p ∧ NonNeg p := by
  suffices Good db p from ⟨this.consistent, this.nonneg⟩
  induction h with
  | created hk h h1 hn => exact created_good hk h h1 hn
  | scaled _ h ih => exact scaled_good ih h
  | compound _ hx h ih => exact compound_good ih hx h
  | compoundAt _ hs hx hpos h ih => exact (C62_compound_at db _ ih hs _ _ _ hx hpos _ h).1
  | mixed _ _ hs hm hpos h ih ih' => exact (C62_mix db _ _ ih ih' hm hs hpos _ h).1
  | heated _ h ih => exact heated_good ih h
  | enthalpy _ hs hpos h ih => exact (C62_set db _ ih hs hpos _ _ h).1
  | part _ hpos hx h ih => exact (extractMass_good ih hpos hx h).1
  | rest _ hpos hx h ih => exact (extractMass_good ih hpos hx h).2
  | compoundPart _ h ih => exact (extractCompound_good ih h).1
  | compoundRest _ h ih => exact (extractCompound_good ih h).2
  | massPart _ hx h ih => exact (extractCompoundMass_good ih hx h).1
  | massRest _ hx h ih => exact (extractCompoundMass_good ih hx h).2

/-- The heat capacity of a package, for contents of constant heat capacity: the enthalpy of one degree. -/
noncomputable def heatCapacity (db : Db) (p : Package) : ℝ := enthalpyAt db p 1 - enthalpyAt db p 0

theorem enthalpy_steady {db : Db} {p : Package} (gp : Good db p) (hs : Steady db p.mat) (hpos : 0 < totalMass p) :
    0 < heatCapacity db p ∧ ∀ x, enthalpyAt db p x = heatCapacity db p * x + enthalpyAt db p 0 := by
  obtain ⟨a, b, ha, hab⟩ := hOf_affine hs (g := content p) (fun c _ => gp.nonneg c) hpos
  have e : ∀ x, enthalpyAt db p x = a * x + b := hab
  have k : heatCapacity db p = a := by unfold heatCapacity; rw [e, e]; ring
  refine ⟨k ▸ ha, fun x => ?_⟩
  rw [k, e, e]; ring

/-- **C63 (mixtures).** The temperature of the sum of two packages of one material of constant heat capacity is the mean of their temperatures, weighted with
their heat capacities; so it lies between them. -/
theorem C63_mixture (db : Db) (p q : Package) (gp : Good db p) (gq : Good db q) (hm : q.mat = p.mat) (hs : Steady db p.mat) (hp : 0 < totalMass p)
    (hq : 0 < totalMass q) (a b : ℝ) (ha : p.T = some a) (hb : q.T = some b) : ∃ r t, p.add db (.pkg q) = .ok r ∧ r.T = some t ∧
    t = (heatCapacity db p * a + heatCapacity db q * b) / (heatCapacity db p + heatCapacity db q) ∧ min a b ≤ t ∧ t ≤ max a b := by
  obtain ⟨r, hr, m1, m2, m3, _⟩ := C60_same db p q gp.sound gq.sound hm gp.known
  obtain ⟨gr, _⟩ := C62_mix db p q gp gq (Or.inl hm) hs (by linarith) r hr
  obtain ⟨t, ht, Hr⟩ := gr.consistent
  obtain ⟨_, e, Hp⟩ := gp.consistent
  rw [ha] at e; cases e
  obtain ⟨_, e, Hq⟩ := gq.consistent
  rw [hb] at e; cases e
  have Hs := m3 _ _ Hp Hq
  rw [Hr] at Hs
  have Hs : enthalpyAt db r t = enthalpyAt db p a + enthalpyAt db q b := Option.some.inj Hs
  have add : enthalpyAt db r t = enthalpyAt db p t + enthalpyAt db q t := by
    unfold enthalpyAt
    rw [m1, hm, ← List.sum_map_add]
    exact congrArg List.sum (List.map_congr_left (fun c _ => by rw [m2]; ring))
  obtain ⟨k1, e1⟩ := enthalpy_steady gp hs hp
  obtain ⟨k2, e2⟩ := enthalpy_steady gq (hm ▸ hs) hq
  rw [add, e1 t, e1 a, e2 t, e2 b] at Hs
  have key : t * (heatCapacity db p + heatCapacity db q) = heatCapacity db p * a + heatCapacity db q * b := by linarith
  refine ⟨r, t, hr, ht, by rw [eq_div_iff (by positivity)]; exact key, ?_, ?_⟩
  · by_contra hlt
    push Not at hlt
    have h1 : t < a := hlt.trans_le (min_le_left _ _)
    have h2 : t < b := hlt.trans_le (min_le_right _ _)
    nlinarith
  · by_contra hlt
    push Not at hlt
    have h1 : a < t := (le_max_left _ _).trans_lt hlt
    have h2 : b < t := (le_max_right _ _).trans_lt hlt
    nlinarith

theorem mAB_steady : Steady db1 mAB := by
  intro c hc
  simp only [mAB, List.mem_cons, List.not_mem_nil, or_false] at hc
  rcases hc with rfl | rfl
  · exact ⟨1, -25, one_pos, fun x => by rw [unit_A]; ring⟩
  · exact ⟨2, -49, two_pos, fun x => by rw [unit_B]; ring⟩

theorem pAB_good (t : ℝ) : Good db1 (pAB t) := by
  have h : Rep mAB [some 2, some 3] (content (pAB t)) := (pAB_sound t).rep
  refine ⟨pAB_sound t, fun c => ?_, pAB_consistent t, known_mAB⟩
  by_cases hc : c ∈ (pAB t).mat.compounds
  · simp only [pAB, mAB, List.mem_cons, List.not_mem_nil, or_false] at hc
    rcases hc with rfl | rfl
    · rw [(pAB_content t).1]; norm_num
    · rw [(pAB_content t).2]; norm_num
  · rw [content_absent hc]

theorem pAB_mass (t : ℝ) : totalMass (pAB t) = 5 := by
  change ([content (pAB t) "A[S]".toList, content (pAB t) "B[S]".toList].sum) = _
  rw [(pAB_content t).1, (pAB_content t).2]; norm_num

/-- Mixing equal amounts at 100 and at 20 degrees gives 60 degrees. -/
example : ∃ r, (pAB 100).add db1 (.pkg (pAB 20)) = .ok r ∧ r.T = some 60 := by
  obtain ⟨r, t, h1, h2, h3, _⟩ := C63_mixture db1 (pAB 100) (pAB 20) (pAB_good _) (pAB_good _) rfl mAB_steady (by rw [pAB_mass]; norm_num) (by rw [pAB_mass]; norm_num) 100 20 rfl rfl
  refine ⟨r, h1, ?_⟩
  rw [h2, h3]
  unfold heatCapacity
  rw [pAB_affine, pAB_affine, pAB_affine, pAB_affine]
  norm_num

/-- A history: an empty package, a kilogram of A in it, mixed with a kilogram of A at another temperature. -/
example : ∃ r t, History db1 r ∧ content r "A[S]".toList = 2 ∧ r.T = some t ∧ r.H = some (enthalpyAt db1 r t) := by
  have e0 := createEmpty known_mAB (some 1) 25 true (some 0)
  have g0 := empty_good known_mAB (by simp [mAB]) (by simp only [mAB]; decide +kernel) (some 1) 25
  have h0 : History db1 _ := History.created known_mAB e0 g0.sound g0.nonneg
  have hA : "A[S]".toList ∈ mAB.compounds := by simp [mAB]
  have c0 : content (⟨mAB, mAB.emptyAssay, some 1, some 25, some 0, false, none⟩ : Package) "A[S]".toList = 0 :=
    Rep.content (p := ⟨mAB, mAB.emptyAssay, some 1, some 25, some 0, false, none⟩) (g := fun _ => 0) (Rep.empty mAB) hA
  obtain ⟨p, p1, pm, p2, p3, _, _, _, p4⟩ := C60_tuple db1 _ g0.sound known_mAB "A[S]".toList 1 0 25 hA rfl rfl
  have h1 : History db1 p := History.compound h0 zero_le_one p1
  have gp := compound_good g0 zero_le_one p1
  have cp : content p "A[S]".toList = 1 := by rw [p2, c0]; simp
  have hpos : 0 < totalMass p := by
    have : totalMass p = content p "A[S]".toList + content p "B[S]".toList := by
      unfold totalMass; rw [pm]; simp [mAB]
    rw [this, cp]
    have := gp.nonneg "B[S]".toList
    linarith
  obtain ⟨q, q1⟩ : ∃ q, p.setT db1 (some 100) = (.ok (), q) := ⟨_, setT_rep gp.known gp.sound.not_coal gp.sound.rep 100⟩
  have h2 : History db1 q := History.heated h1 q1
  have gq := heated_good gp q1
  rw [setT_rep gp.known gp.sound.not_coal gp.sound.rep 100] at q1
  obtain rfl := (Prod.mk.inj q1).2
  obtain ⟨r, r1, _, r3, _⟩ := C60_same db1 p _ gp.sound gq.sound rfl gp.known
  have h3 : History db1 r := History.mixed h1 h2 (pm ▸ mAB_steady) (Or.inl rfl) (add_pos hpos hpos) r1
  obtain ⟨t, t1, t2⟩ := (C62_full_history_partial db1 r h3).1
  refine ⟨r, t, h3, ?_, t1, t2⟩
  rw [r3, show content ({ p with T := some 100, H := _ } : Package) "A[S]".toList = content p "A[S]".toList from rfl, cp]
  norm_num

end Auxi.Thermo.Props
