import Verif.Proofs.CoalStream

/-!
# Properties C67, C86, C87 and C88: coal
-/
namespace Auxi.Thermo.Props
open Auxi Auxi.Thermo Auxi.Thermo.Spec
open Classical

/-! ## Data for the examples: carbon with no enthalpy, carbon dioxide with -1 kWh/kg -/

/-- A compound with one phase, no heat capacity and molar mass 1. -/
noncomputable def inert (ph : Str) (dh : ℝ) : ThermoChem.Compound := ⟨1, [(ph, ⟨dh, 0, [(3000, ⟨298.15, 3000, [(0, 0)]⟩)], none⟩)]⟩
/-- The data base. -/
noncomputable def db2 : Db := [("C".toList, inert "S".toList 0), ("CO2".toList, inert "G".toList (-3600000)), ("H2O".toList, inert "L".toList 0), ("O2".toList, inert "G".toList 0),
  ("N2".toList, inert "G".toList 0), ("SO2".toList, inert "G".toList 0)]
/-- A material of carbon. -/
noncomputable def mCoal : Material := ⟨4, ["C[S]".toList], [], ["C".toList], [], []⟩

theorem H_C (T x : ℝ) : ThermoChem.H db2 "C[S]".toList T x = .ok 0 := by
  rw [H_of_split (f := "C".toList) (ph := "S".toList) (cc := inert "S".toList 0) (by decide +kernel) (by unfold db2; rfl) (by unfold inert; rfl) rfl (flat_H _ _ _)]
  simp
theorem H_CO2 (T x : ℝ) : ThermoChem.H db2 "CO2[G]".toList T x = .ok (-x) := by
  rw [H_of_split (f := "CO2".toList) (ph := "G".toList) (cc := inert "G".toList (-3600000)) (by decide +kernel) (by unfold db2; rfl) (by unfold inert; rfl) rfl (flat_H _ _ _)]
  norm_num
theorem H_H2O (T x : ℝ) : ThermoChem.H db2 "H2O[L]".toList T x = .ok 0 := by
  rw [H_of_split (f := "H2O".toList) (ph := "L".toList) (cc := inert "L".toList 0) (by decide +kernel) (by unfold db2; rfl) (by unfold inert; rfl) rfl (flat_H _ _ _)]
  simp
theorem H_O2 (T x : ℝ) : ThermoChem.H db2 "O2[G]".toList T x = .ok 0 := by
  rw [H_of_split (f := "O2".toList) (ph := "G".toList) (cc := inert "G".toList 0) (by decide +kernel) (by unfold db2; rfl) (by unfold inert; rfl) rfl (flat_H _ _ _)]
  simp
theorem H_N2 (T x : ℝ) : ThermoChem.H db2 "N2[G]".toList T x = .ok 0 := by
  rw [H_of_split (f := "N2".toList) (ph := "G".toList) (cc := inert "G".toList 0) (by decide +kernel) (by unfold db2; rfl) (by unfold inert; rfl) rfl (flat_H _ _ _)]
  simp
theorem H_SO2 (T x : ℝ) : ThermoChem.H db2 "SO2[G]".toList T x = .ok 0 := by
  rw [H_of_split (f := "SO2".toList) (ph := "G".toList) (cc := inert "G".toList 0) (by decide +kernel) (by unfold db2; rfl) (by unfold inert; rfl) rfl (flat_H _ _ _)]
  simp

theorem unit_C (T : ℝ) : unitH db2 "C[S]".toList T = 0 := by unfold unitH; rw [H_C]
theorem unit_CO2 (T : ℝ) : unitH db2 "CO2[G]".toList T = -1 := by unfold unitH; rw [H_CO2]
theorem unit_H2O (T : ℝ) : unitH db2 "H2O[L]".toList T = 0 := by unfold unitH; rw [H_H2O]
theorem unit_O2 (T : ℝ) : unitH db2 "O2[G]".toList T = 0 := by unfold unitH; rw [H_O2]
theorem unit_N2 (T : ℝ) : unitH db2 "N2[G]".toList T = 0 := by unfold unitH; rw [H_N2]
theorem unit_SO2 (T : ℝ) : unitH db2 "SO2[G]".toList T = 0 := by unfold unitH; rw [H_SO2]

theorem known_mCoal : Known db2 mCoal := by
  intro c hc; simp only [mCoal, List.mem_singleton] at hc; subst hc; exact ⟨_, H_C _ _⟩
theorem known_products : Known db2 products := by
  intro c hc
  simp only [products, List.mem_cons, List.not_mem_nil, or_false] at hc
  rcases hc with rfl | rfl | rfl | rfl | rfl
  · exact ⟨_, H_CO2 _ _⟩
  · exact ⟨_, H_H2O _ _⟩
  · exact ⟨_, H_O2 _ _⟩
  · exact ⟨_, H_N2 _ _⟩
  · exact ⟨_, H_SO2 _ _⟩

theorem coalData : CoalData db2 mCoal := by
  refine ⟨known_mCoal, known_products, ?_, by simp [mCoal]⟩
  exact (Stoich.Props.C45_succeeds_iff mCoal.compounds).1 ⟨["C".toList], by simp only [mCoal]; decide +kernel⟩

theorem rep_coal (x : ℝ) : Rep mCoal [some x] (fun _ => x) := rfl

theorem kind_C : kind "C[S]".toList = some 0 := by
  have : pureElement (formulaOf "C[S]".toList) coalElements = .ok (some 0) := by decide +kernel
  unfold kind; rw [this]

theorem elem_coal (x : ℝ) (i : ℕ) : elemSum mCoal.compounds (fun _ => x) i = if i = 0 then x else 0 := by
  unfold elemSum mCoal
  simp only [List.map_cons, List.map_nil, kind_C, List.sum_cons, List.sum_nil, add_zero, Option.some.injEq]
  by_cases h : i = 0
  · subst h; simp
  · rw [if_neg h, if_neg (fun e => h e.symm)]

theorem total_coal (x : ℝ) : elemTotal (elemSum mCoal.compounds (fun _ => x)) = x := by
  unfold elemTotal; simp [elem_coal]

theorem burn_coal (x : ℝ) : burnH db2 (elemSum mCoal.compounds (fun _ => x)) = -(440095 / 120107) * x := by
  unfold burnH
  rw [unit_CO2, unit_H2O, unit_O2, unit_N2, unit_SO2, elem_coal, if_pos rfl]
  push_cast
  ring

theorem partH_coal (x t : ℝ) (b : Bool) : partH db2 mCoal.compounds (fun _ => x) b t = 0 := by
  have : ∀ c ∈ mCoal.compounds, (if (kind c).isSome = b then x * unitH db2 c t else 0) = 0 := by
    intro c hc
    simp only [mCoal, List.mem_singleton] at hc
    subst hc
    rw [unit_C, mul_zero, ite_self]
  unfold partH
  rw [List.map_congr_left this]
  simp

theorem coalH_coal (x d : ℝ) : coalH db2 mCoal (fun _ => x) d 25 = d * x := by
  unfold coalH
  dsimp only
  rw [partH_coal, total_coal, show (25:ℝ) + 273.15 = 298.15 by norm_num]
  ring

/-! ## C86 -/

/-- A compound that is one of the elements of coal. -/
def Elemental (c : Str) : Prop := ∃ e ∈ ["C".toList, "H".toList, "O".toList, "N".toList, "S".toList], Chem.Spec.share c e = 1

theorem pureElement_some {c : Str} (h : Stoich.Spec.IsFormula c) (es : List Str) :
    ∃ o, pureElement (formulaOf c) es = .ok o ∧ (o.isSome ↔ ∃ e ∈ es, Chem.Spec.share c e = 1) ∧ ∀ i, o = some i → i < es.length := by
  induction es with
  | nil => exact ⟨none, rfl, by simp, by intro i h; cases h⟩
  | cons e es ih =>
    obtain ⟨o, h1, h2, h3⟩ := ih
    obtain ⟨t, cp, _, _, _, _, h5⟩ := Chem.emf_total h
    have hs : Stoich.elementMassFraction (formulaOf c) e = .ok (Chem.Spec.share c e) := by
      rw [fraction_formulaOf h]; unfold Chem.Spec.share; rw [h5 e]
    unfold pureElement
    rw [hs]
    dsimp only
    by_cases hx : Chem.Spec.share c e = 1
    · rw [if_pos hx]
      exact ⟨some 0, rfl, by simp [hx], by intro i hi; cases hi; simp⟩
    · rw [if_neg hx, h1]
      refine ⟨o.map (· + 1), rfl, ?_, ?_⟩
      · rw [Option.isSome_map, h2]
        simp [hx]
      · intro i hi
        rw [Option.map_eq_some_iff] at hi
        obtain ⟨j, hj, rfl⟩ := hi
        have := h3 j hj
        simp only [List.length_cons]; omega

theorem kind_isSome {c : Str} (h : Stoich.Spec.IsFormula c) : (kind c).isSome ↔ Elemental c := by
  obtain ⟨o, h1, h2, _⟩ := pureElement_some h coalElements
  unfold kind
  rw [h1]
  exact h2

theorem kind_lt {c : Str} (h : Stoich.Spec.IsFormula c) {i : ℕ} (hi : kind c = some i) : i < 5 := by
  obtain ⟨o, h1, _, h3⟩ := pureElement_some h coalElements
  unfold kind at hi
  rw [h1] at hi
  exact h3 i hi

theorem total_elemental {m : Material} (hf : ∀ c ∈ m.compounds, Stoich.Spec.IsFormula c) (g : Str → ℝ) :
    elemTotal (elemSum m.compounds g) = (m.compounds.map (fun c => if Elemental c then g c else 0)).sum := by
  unfold elemTotal elemSum
  rw [← List.sum_map_add, ← List.sum_map_add, ← List.sum_map_add, ← List.sum_map_add]
  refine congrArg List.sum (List.map_congr_left fun c hc => ?_)
  have hk := kind_isSome (hf c hc)
  cases hkd : kind c with
  | none =>
    rw [hkd] at hk
    have hn : ¬ Elemental c := fun he => by simpa using hk.2 he
    simp [hn]
  | some i =>
    rw [hkd] at hk
    rw [if_pos (hk.1 rfl)]
    have := kind_lt (hf c hc) hkd
    interval_cases i <;> simp

/-- The mass flow rate of the elemental compounds, given the flow rates of all. -/
noncomputable def elementalFlow (m : Material) (ms : List ℝ) : ℝ := ((m.compounds.zip ms).map (fun p => if Elemental p.1 then p.2 else 0)).sum

theorem zip_map_self (l : List Str) (g : Str → ℝ) : l.zip (l.map g) = l.map (fun c => (c, g c)) := by
  induction l with
  | nil => rfl
  | cons a l ih => simp only [List.map_cons, List.zip_cons_cons, ih]

theorem elementalFlow_rep {m : Material} (hf : ∀ c ∈ m.compounds, Stoich.Spec.IsFormula c) {ms : List ℝ} {g : Str → ℝ} (h : ms = m.compounds.map g) :
    elementalFlow m ms = elemTotal (elemSum m.compounds g) := by
  rw [total_elemental hf, h]
  unfold elementalFlow
  rw [zip_map_self, List.map_map]
  rfl

theorem rep_list {m : Material} {ms : List ℝ} (hn : m.compounds.Nodup) (hl : ms.length = m.compounds.length) : ∃ g, Rep m (ms.map some) g ∧ ms = m.compounds.map g := by
  obtain ⟨g, hg⟩ := rep_of_list (m := m) (a := ms.map some) hn rfl hl
  refine ⟨g, hg, ?_⟩
  have : (ms.map some) = (m.compounds.map g).map some := hg
  exact List.map_injective_iff.2 (Option.some_injective ℝ) this

theorem elemSum_scale (cs : List Str) (g : Str → ℝ) (k : ℝ) (i : ℕ) : elemSum cs (fun c => g c * k) i = elemSum cs g i * k := by
  unfold elemSum
  rw [← List.sum_map_mul_right]
  refine congrArg List.sum (List.map_congr_left fun c _ => ?_)
  split <;> simp
theorem partH_scale (db : Db) (cs : List Str) (g : Str → ℝ) (b : Bool) (t k : ℝ) : partH db cs (fun c => g c * k) b t = partH db cs g b t * k := by
  unfold partH
  rw [← List.sum_map_mul_right]
  refine congrArg List.sum (List.map_congr_left fun c _ => ?_)
  split <;> ring
theorem total_scale (cs : List Str) (g : Str → ℝ) (k : ℝ) : elemTotal (elemSum cs (fun c => g c * k)) = elemTotal (elemSum cs g) * k := by
  unfold elemTotal; simp only [elemSum_scale]; ring
theorem burn_scale (db : Db) (cs : List Str) (g : Str → ℝ) (k : ℝ) : burnH db (elemSum cs (fun c => g c * k)) = burnH db (elemSum cs g) * k := by
  unfold burnH; simp only [elemSum_scale]; ring
theorem assay_scale (cs : List Str) (g : Str → ℝ) {k : ℝ} (hk : k ≠ 0) : elemAssay (elemSum cs (fun c => g c * k)) = elemAssay (elemSum cs g) := by
  unfold elemAssay
  simp only [elemSum_scale, total_scale, mul_div_mul_right _ _ hk]
theorem coalH_scale (db : Db) (m : Material) (g : Str → ℝ) (d t : ℝ) {k : ℝ} (hk : k ≠ 0) : coalH db m (fun c => g c * k) d t = coalH db m g d t * k := by
  unfold coalH
  dsimp only
  rw [assay_scale _ _ hk, total_scale, partH_scale]; ring
theorem formation_scale (db : Db) (m : Material) (g : Str → ℝ) (v : ℝ) {k : ℝ} (hk : k ≠ 0) : formation db m (fun c => g c * k) (some v) = formation db m g (some v) := by
  unfold formation
  dsimp only
  rw [burn_scale, total_scale, List.sum_map_mul_right, mul_div_mul_right _ _ hk, mul_div_mul_right _ _ hk]

/-- **C86 (partial: coal with a known heating value).** Scaling a coal stream scales its enthalpy flow rate: the enthalpy per kilogram does not depend
on the flow rate. -/
theorem C86_with_hhv_partial (db : Db) (m : Material) (ms : List ℝ) (P : V) (t v k : ℝ) (hd : CoalData db m) (hl : ms.length = m.compounds.length) (hpos : 0 < ms.sum)
    (he : elementalFlow m ms ≠ 0) (hk : 0 < k) : ∃ s r h, newStream db m (ms.map some) P (some t) true (some (some v)) = .ok s ∧ s.mul db true (some k) = .ok r ∧
      s.Hfr = some h ∧ r.Hfr = some (k * h) ∧ r.T = s.T ∧ r.HHV = s.HHV ∧ r.mfrs = ms.map (fun x => some (x * k)) := by
  obtain ⟨g, hr, hg⟩ := rep_list hd.distinct hl
  rw [elementalFlow_rep hd.formulas hg] at he
  have h1 := newCoal hd hr he (by rw [← hg]; exact hpos) P t (some v)
  have hM' : elemTotal (elemSum m.compounds (fun c => g c * k)) ≠ 0 := by rw [total_scale]; exact mul_ne_zero he hk.ne'
  have h2 := newCoal hd (hr.scale k) hM' (by rw [List.sum_map_mul_right, ← hg]; exact mul_pos hpos hk) P t (some v)
  refine ⟨_, ⟨m, (ms.map some).map (fun x => vmul x (some k)), P, some t, some (k * coalH db m g (formation db m g (some v)) t), true, some (some v), some (some (formation db m g (some v)))⟩, _, h1, ?_, rfl, ?_, ?_⟩
  · unfold Stream.mul
    rw [if_pos rfl, if_neg (show ¬ vgt (some 0) (some k) from not_lt.2 hk.le)]
    dsimp only [Option.map_some] at h2 ⊢
    rw [h2, coalH_scale _ _ _ _ _ hk.ne', formation_scale _ _ _ _ hk.ne', mul_comm]
  · rfl
  · exact ⟨rfl, rfl, by rw [List.map_map]; rfl⟩

example : ∃ s r h, newStream db2 mCoal ([3].map some) (some 1) (some 100) true (some (some 25)) = .ok s ∧ s.mul db2 true (some 2) = .ok r ∧ s.Hfr = some h ∧ r.Hfr = some (2 * h) := by
  obtain ⟨s, r, h, h1, h2, h3, h4, _⟩ := C86_with_hhv_partial db2 mCoal [3] (some 1) 100 25 2 coalData rfl (by norm_num)
    (by rw [elementalFlow_rep (ms := [3]) (g := fun _ => 3) coalData.formulas rfl, total_coal]; norm_num) (by norm_num)
  exact ⟨s, r, h, h1, h2, h3, h4⟩

/-- **C86 (violated without a heating value).** One kilogram of carbon per hour, as coal: doubling the stream does not double its enthalpy. -/
theorem C86_violated : ∃ s r : Stream, ∃ h : ℝ, newStream db2 mCoal [some 1] (some 1) (some 25) true none = .ok s ∧ s.mul db2 true (some 2) = .ok r ∧
    s.Hfr = some h ∧ r.Hfr ≠ some (2 * h) := by
  have h1 := newCoal (P := some 1) (t := 25) (hhv := none) coalData (rep_coal 1) (by rw [total_coal]; norm_num) (by simp [mCoal])
  have h2 := newCoal (P := some 1) (t := 25) (hhv := none) coalData (rep_coal 2) (by rw [total_coal]; norm_num) (by simp [mCoal])
  refine ⟨_, ⟨mCoal, [some 2], some 1, some 25, some (coalH db2 mCoal (fun _ => 2) (formation db2 mCoal (fun _ => 2) none) 25), true, none,
    some (some (formation db2 mCoal (fun _ => 2) none))⟩, _, h1, ?_, rfl, ?_⟩
  · unfold Stream.mul
    rw [if_pos rfl, if_neg (show ¬ vgt (some 0) (some 2) by simp [vgt])]
    dsimp only
    have e : [some (1:ℝ)].map (fun x => vmul x (some 2)) = [some 2] := by
      change [some ((1:ℝ) * 2)] = _; norm_num
    rw [e]
    exact h2
  · dsimp only
    rw [coalH_coal, coalH_coal]
    unfold formation
    dsimp only
    rw [burn_coal, burn_coal, total_coal, total_coal, partH_coal, partH_coal]
    norm_num

/-! ## C87: splitting coal -/

theorem newStream_fields {db : Db} {m : Material} {a : List V} {P T : V} {b : Bool} {v : Option V} {s : Stream} (h : newStream db m a P T b v = .ok s) :
    s.mat = m ∧ s.mfrs = a ∧ s.isCoal = b ∧ s.T = T ∧ s.P = P ∧ s.HHV = v := by
  unfold newStream Stream.setHHV at h
  dsimp only at h
  split at h
  · cases h
  · rename_i s' hs
    have hs' : s'.mat = m ∧ s'.mfrs = a ∧ s'.isCoal = b ∧ s'.T = T ∧ s'.P = P ∧ s'.HHV = v := by
      split at hs
      · split at hs
        · cases hs
        · cases hs; exact ⟨rfl, rfl, rfl, rfl, rfl, rfl⟩
      · cases hs; exact ⟨rfl, rfl, rfl, rfl, rfl, rfl⟩
    split at h
    · split at h
      · cases h
      · cases h; exact hs'
    · cases h; exact hs'

theorem setT_fields {db : Db} {s s' : Stream} {T : V} {o : Res Unit} (h : s.setT db T = (o, s')) :
    s'.mat = s.mat ∧ s'.mfrs = s.mfrs ∧ s'.isCoal = s.isCoal ∧ s'.T = T ∧ s'.P = s.P ∧ s'.HHV = s.HHV ∧ s'.DH298 = s.DH298 := by
  unfold Stream.setT at h
  dsimp only at h
  split at h <;> (cases h; exact ⟨rfl, rfl, rfl, rfl, rfl, rfl, rfl⟩)

theorem settleS_fields {db : Db} {s r r' s' : Stream} (h : settleS db s r = (.ok r', s')) :
    r' = r ∧ s'.mat = s.mat ∧ s'.mfrs = s.mfrs ∧ s'.isCoal = s.isCoal ∧ s'.T = s.T ∧ s'.P = s.P ∧ s'.HHV = s.HHV := by
  unfold settleS at h
  split at h
  · cases h
  · rename_i s'' hs
    cases h
    obtain ⟨h1, h2, h3, h4, h5, h6, _⟩ := setT_fields hs
    exact ⟨rfl, h1, h2, h3, h4, h5, h6⟩

/-- **C87 (partial).** Splitting off a mass flow rate, of any stream, conserves the flow rate of every compound and keeps the temperature. -/
theorem C87_flows_partial (db : Db) (s part rest : Stream) (x : ℝ) (hf : ∃ ms : List ℝ, s.mfrs = ms.map some ∧ ms.length = s.mat.compounds.length)
    (hd : s.mat.compounds.Nodup) (h0 : totalFlow s ≠ 0) (h : s.extract db (.num true (some x)) = (.ok part, rest)) :
    (∀ c, flow rest c + flow part c = flow s c) ∧ totalFlow part = x ∧ part.T = s.T ∧ rest.T = s.T ∧ rest.isCoal = s.isCoal ∧ rest.HHV = s.HHV := by
  obtain ⟨ms, h1, h2⟩ := hf
  obtain ⟨g, hr⟩ := rep_of_list hd h1 h2
  have hg : ∀ c ∈ s.mat.compounds, flow s c = g c := fun c hc => Rep.content (p := toPkg s) hr hc
  have htot : totalFlow s = (s.mat.compounds.map g).sum := by
    unfold totalFlow; rw [List.map_congr_left hg]
  have hmfr : s.mfr = some (totalFlow s) := by unfold Stream.mfr; rw [hr.sum, htot]
  change s.extractMfr db (some x) = _ at h
  unfold Stream.extractMfr at h
  split at h
  · cases h
  · dsimp only at h
    have hfr : vdiv (some x) s.mfr = some (x / totalFlow s) := by
      rw [hmfr]; change (if totalFlow s = 0 then none else some (x / totalFlow s)) = _; rw [if_neg h0]
    rw [hfr] at h
    split at h
    · cases h
    · rename_i r hn
      obtain ⟨n1, n2, n3, n4, n5, n6⟩ := newStream_fields hn
      obtain ⟨e1, e2, e3, e4, e5, e6, e7⟩ := settleS_fields h
      subst e1
      dsimp only at e2 e3 e4 e5 e6 e7
      have hp : Rep part.mat part.mfrs (fun c => g c * (x / totalFlow s)) := by
        rw [n1, n2]; exact hr.scale _
      have hre : Rep rest.mat rest.mfrs (fun c => g c * (1 - x / totalFlow s)) := by
        rw [e2, e3]; exact hr.scale _
      have fp : ∀ c ∈ s.mat.compounds, flow part c = g c * (x / totalFlow s) := fun c hc => Rep.content (p := toPkg part) hp (by rw [show (toPkg part).mat = s.mat from n1]; exact hc)
      refine ⟨?_, ?_, n4, e5, e4, e7⟩
      · intro c
        by_cases hc : c ∈ s.mat.compounds
        · rw [fp c hc, hg c hc, show flow rest c = g c * (1 - x / totalFlow s) from Rep.content (p := toPkg rest) hre (by rw [show (toPkg rest).mat = s.mat from e2]; exact hc)]
          ring
        · rw [show flow s c = 0 from content_absent (p := toPkg s) hc, show flow part c = 0 from content_absent (p := toPkg part) (by rw [show (toPkg part).mat = s.mat from n1]; exact hc),
            show flow rest c = 0 from content_absent (p := toPkg rest) (by rw [show (toPkg rest).mat = s.mat from e2]; exact hc), add_zero]
      · unfold totalFlow
        rw [n1, List.map_congr_left fp, List.sum_map_mul_right, ← htot]
        field_simp

/-- **C87 (the part is never coal).** -/
theorem C87_part_not_coal (db : Db) (s part rest : Stream) (b : Bool) (x : V) (h : s.extract db (.num b x) = (.ok part, rest)) : part.isCoal = false ∧ part.HHV = none := by
  cases b with
  | false => cases h
  | true =>
    change s.extractMfr db x = _ at h
    unfold Stream.extractMfr at h
    split at h
    · cases h
    · dsimp only at h
      split at h
      · cases h
      · rename_i r hn
        obtain ⟨n1, n2, n3, n4, n5, n6⟩ := newStream_fields hn
        obtain ⟨e1, _⟩ := settleS_fields h
        subst e1
        exact ⟨n3, n6⟩

/-- **C87 (violated).** Two kilograms of coal per hour at 25 °C, half split off: the enthalpies of the two halves do not add up to that of the whole. -/
theorem C87_violated : ∃ s part rest : Stream, ∃ h a b : ℝ, newStream db2 mCoal [some 2] (some 1) (some 25) true (some (some 36)) = .ok s ∧
    s.extract db2 (.num true (some 1)) = (.ok part, rest) ∧ s.Hfr = some h ∧ rest.Hfr = some a ∧ part.Hfr = some b ∧ a + b ≠ h := by
  have h1 := newCoal (P := some 1) (t := 25) (hhv := some 36) coalData (rep_coal 2) (by rw [total_coal]; norm_num) (by simp [mCoal])
  set d := formation db2 mCoal (fun _ => 2) (some 36) with hd
  have hdv : d = 10 - 440095 / 120107 := by
    rw [hd]
    unfold formation
    dsimp only
    rw [burn_coal, total_coal]
    simp only [mCoal, List.map_cons, List.map_nil, List.sum_cons, List.sum_nil]
    norm_num
  have hpk := newPackage_nonneg (P := some 1) (t := 25) (HHV := none) known_mCoal (rep_coal 1) (fun _ _ => by norm_num)
  have hz : hOf db2 mCoal (fun _ => 1) 25 = 0 := by
    have : ∀ c ∈ mCoal.compounds, (fun _ => (1:ℝ)) c * unitH db2 c 25 = 0 := by
      intro c hc
      simp only [mCoal, List.mem_singleton] at hc
      subst hc
      rw [unit_C, mul_zero]
    unfold hOf
    rw [List.map_congr_left this]
    simp
  rw [hz] at hpk
  have k := newStream_like db2 mCoal [some 1] (some 1) (some 25) none
  rw [hpk] at k
  obtain ⟨part, k1, k2, k3⟩ := like_ok k
  have hT := hfrCoal_eq (s := ⟨mCoal, [some 1], some 1, some 25, some (coalH db2 mCoal (fun _ => 2) d 25), true, some (some 36), some (some d)⟩) coalData (rep_coal 1)
    (by rw [total_coal]; norm_num) rfl 25
  refine ⟨_, part, ⟨mCoal, [some 1], some 1, some 25, some (coalH db2 mCoal (fun _ => 1) d 25), true, some (some 36), some (some d)⟩, _, coalH db2 mCoal (fun _ => 1) d 25, 0, h1,
    ?_, rfl, rfl, ?_, ?_⟩
  · unfold Stream.extract
    dsimp only
    rw [if_pos rfl]
    unfold Stream.extractMfr Stream.mfr
    dsimp only
    have e0 : vsum [some (2:ℝ)] = some 2 := by have := vsum_map [2]; simpa using this
    have e1 : vdiv (some 1) (some 2) = some (1 / 2) := by change (if (2:ℝ) = 0 then none else some (1 / 2)) = _; rw [if_neg (by norm_num)]
    have e2 : [some (2:ℝ)].map (fun y => vmul y (some (1 / 2))) = [some 1] := by change [some ((2:ℝ) * (1 / 2))] = _; norm_num
    have e3 : [some (2:ℝ)].map (fun y => vmul y (vsub (some 1) (some (1 / 2)))) = [some 1] := by change [some ((2:ℝ) * (1 - 1 / 2))] = _; norm_num
    rw [e0, if_neg (show ¬ vgt (some 1) (some 2) by simp [vgt]), e1, e2, e3, k1]
    dsimp only
    unfold settleS Stream.setT Stream.calcHfr
    dsimp only
    rw [if_pos rfl]
    dsimp only [Option.map_some]
    rw [hT]
  · have := congrArg Package.H k3
    exact this
  · rw [coalH_coal, coalH_coal, hdv]; norm_num

/-- The stream of `C87_violated` meets the hypotheses of `C87_flows_partial` and `C87_part_not_coal`. -/
example : ∃ s part rest : Stream, s.isCoal = true ∧ totalFlow part = 1 ∧ (∀ c, flow rest c + flow part c = flow s c) ∧ part.isCoal = false := by
  obtain ⟨s, part, rest, _, _, _, h1, h2, _⟩ := C87_violated
  obtain ⟨n1, n2, n3, _⟩ := newStream_fields h1
  have hrep : Rep s.mat s.mfrs (fun _ => 2) := by rw [n1, n2]; exact rep_coal 2
  have hflow : totalFlow s ≠ 0 := by
    have hg' : ∀ c ∈ s.mat.compounds, flow s c = 2 := fun c hc => Rep.content (p := toPkg s) hrep hc
    unfold totalFlow
    rw [List.map_congr_left hg', n1]
    simp [mCoal]
  obtain ⟨k1, k2, _⟩ := C87_flows_partial db2 s part rest 1 ⟨[2], by rw [n2]; rfl, by rw [n1]; rfl⟩ (by rw [n1]; simp [mCoal]) hflow h2
  exact ⟨s, part, rest, n3, k2, k1, (C87_part_not_coal db2 s part rest true (some 1) h2).1⟩

/-! ## C88: the heating value of a mixture -/

/-- The heat set free by burning `x` kilograms of a compound to carbon dioxide, water and sulphur dioxide, all at 25 °C. -/
noncomputable def combustionHeat (db : Db) (c : Str) (x : ℝ) : ℝ :=
  x * unitH db c 25 - x * (Chem.Spec.share c "C".toList : ℝ) / (Chem.Spec.share "CO2".toList "C".toList : ℝ) * unitH db "CO2[G]".toList 25 -
    x * (Chem.Spec.share c "H".toList : ℝ) / (Chem.Spec.share "H2O".toList "H".toList : ℝ) * unitH db "H2O[L]".toList 25 -
    x * (Chem.Spec.share c "S".toList : ℝ) / (Chem.Spec.share "SO2".toList "S".toList : ℝ) * unitH db "SO2[G]".toList 25

/-- The same with the carbon going to one molecule of carbon, oxygen and osmium each. -/
noncomputable def osmiumHeat (db : Db) (c : Str) (x : ℝ) : ℝ :=
  x * unitH db c 25 - x * (Chem.Spec.share c "C".toList : ℝ) / (Chem.Spec.share "COs".toList "C".toList : ℝ) * unitH db "CO2[G]".toList 25 -
    x * (Chem.Spec.share c "H".toList : ℝ) / (Chem.Spec.share "H2O".toList "H".toList : ℝ) * unitH db "H2O[L]".toList 25 -
    x * (Chem.Spec.share c "S".toList : ℝ) / (Chem.Spec.share "SO2".toList "S".toList : ℝ) * unitH db "SO2[G]".toList 25

theorem share_ok {c e : Str} {f : ℚ} (h : Stoich.elementMassFraction c e = .ok f) : Chem.Spec.share c e = f := by unfold Chem.Spec.share; rw [h]

theorem fraction_share {c : Str} (h : Stoich.Spec.IsFormula c) (e : Str) : Stoich.elementMassFraction c e = .ok (Chem.Spec.share c e) := by
  obtain ⟨t, cp, _, _, _, _, h5⟩ := Chem.emf_total h
  unfold Chem.Spec.share; rw [h5 e]

theorem addTuple_hhv {db : Db} {s r : Stream} (hd : CoalData db s.mat) (hc : s.isCoal = true) {v : ℝ} (hv : s.HHV = some (some v)) {g : Str → ℝ} (h : Rep s.mat s.mfrs g)
    {c : Str} (hin : c ∈ s.mat.compounds) {x : ℝ} (hF : (s.mat.compounds.map g).sum + x ≠ 0) (hr : s.addTuple db c (some x) = .ok r) :
    r.HHV = some (some ((v * (s.mat.compounds.map g).sum + osmiumHeat db c x * 3.6) / ((s.mat.compounds.map g).sum + x))) := by
  obtain ⟨i, i1, i2⟩ := index_mem hin
  unfold Stream.addTuple at hr
  rw [i1] at hr
  dsimp only at hr
  split at hr
  · cases hr
  · unfold bumpAt at hr
    rw [h.at i2] at hr
    dsimp only at hr
    have hset := h.set hd.distinct i2 (g c + x)
    have hmfr : vsum (s.mfrs.set i (vadd (some (g c)) (some x))) = some ((s.mat.compounds.map g).sum + x) := by
      change vsum (s.mfrs.set i (some (g c + x))) = _
      rw [hset.sum]
      have := sum_update hd.distinct hin g (fun _ => 1) (g c + x)
      simp only [mul_one] at this
      rw [this]
      congr 1; ring
    unfold Stream.updateHHV at hr
    dsimp only at hr
    rw [if_pos hc, hv] at hr
    dsimp only at hr
    rw [thermoH_known hd.known hin] at hr
    dsimp only at hr
    rw [productH_eq hd.products (by simp [products]) emf_COs (fraction_share (hd.formulas c hin) _) (by norm_num)] at hr
    dsimp only at hr
    rw [productH_eq hd.products (by simp [products]) emf_H2O (fraction_share (hd.formulas c hin) _) (by norm_num)] at hr
    dsimp only at hr
    rw [productH_eq hd.products (by simp [products]) emf_SO2 (fraction_share (hd.formulas c hin) _) (by norm_num)] at hr
    dsimp only at hr
    unfold Stream.mfr at hr
    dsimp only at hr
    rw [hmfr] at hr
    unfold Stream.setHHV at hr
    dsimp only at hr
    rw [if_pos hc] at hr
    have e : vdiv (vadd (vmul (some v) (vsub (some ((s.mat.compounds.map g).sum + x)) (some x)))
        (vmul (vsub (vsub (vsub (some (x * unitH db c 25)) (some (x * (Chem.Spec.share c "C".toList : ℝ) / ((120107 / 2022407 : ℚ) : ℝ) * unitH db "CO2[G]".toList 25)))
          (some (x * (Chem.Spec.share c "H".toList : ℝ) / ((50397 / 450382 : ℚ) : ℝ) * unitH db "H2O[L]".toList 25)))
          (some (x * (Chem.Spec.share c "S".toList : ℝ) / ((80165 / 160162 : ℚ) : ℝ) * unitH db "SO2[G]".toList 25))) (some 3.6)))
        (some ((s.mat.compounds.map g).sum + x)) = some ((v * (s.mat.compounds.map g).sum + osmiumHeat db c x * 3.6) / ((s.mat.compounds.map g).sum + x)) := by
      change (if (s.mat.compounds.map g).sum + x = 0 then none else some _) = _
      rw [if_neg hF]
      unfold osmiumHeat
      rw [share_ok emf_COs, share_ok emf_H2O, share_ok emf_SO2, add_sub_cancel_right]
    rw [e] at hr
    split at hr
    · cases hr
    · rename_i u s' heq
      split at heq
      · cases heq
      · cases heq
        cases hr
        rfl

theorem addTuple_exists {db : Db} {s : Stream} (hd : CoalData db s.mat) {t v : ℝ} (hT : s.T = some t) (hv : s.HHV = some (some v)) {g : Str → ℝ} (h : Rep s.mat s.mfrs g)
    {c : Str} (hin : c ∈ s.mat.compounds) {x : ℝ} (hF : (s.mat.compounds.map g).sum + x ≠ 0) (hE : elemTotal (elemSum s.mat.compounds (Function.update g c (g c + x))) ≠ 0) :
    ∃ r, s.addTuple db c (some x) = .ok r := by
  obtain ⟨i, i1, i2⟩ := index_mem hin
  unfold Stream.addTuple
  rw [i1]
  dsimp only
  rw [hT, thermoH_known hd.known hin]
  dsimp only
  have hset := h.set hd.distinct i2 (g c + x)
  have hb : bumpAt s.mfrs i (some x) = .ok (s.mfrs.set i (some (g c + x))) := by
    unfold bumpAt; rw [h.at i2]; rfl
  rw [hb]
  dsimp only
  unfold Stream.updateHHV
  dsimp only
  by_cases hc : s.isCoal = true
  swap
  · rw [if_neg hc]; exact ⟨_, rfl⟩
  have hmfr : vsum (s.mfrs.set i (some (g c + x))) = some ((s.mat.compounds.map g).sum + x) := by
    rw [hset.sum]
    have := sum_update hd.distinct hin g (fun _ => 1) (g c + x)
    simp only [mul_one] at this
    rw [this]
    congr 1; ring
  rw [if_pos hc, hv]
  dsimp only
  rw [thermoH_known hd.known hin]
  dsimp only
  rw [productH_eq hd.products (by simp [products]) emf_COs (fraction_share (hd.formulas c hin) _) (by norm_num)]
  dsimp only
  rw [productH_eq hd.products (by simp [products]) emf_H2O (fraction_share (hd.formulas c hin) _) (by norm_num)]
  dsimp only
  rw [productH_eq hd.products (by simp [products]) emf_SO2 (fraction_share (hd.formulas c hin) _) (by norm_num)]
  dsimp only
  unfold Stream.mfr
  dsimp only
  rw [hmfr]
  unfold Stream.setHHV
  dsimp only
  rw [if_pos hc]
  have hz : ∀ f a b c d : ℝ, f ≠ 0 → vdiv (vadd (vmul (some v) (vsub (some f) (some x))) (vmul (vsub (vsub (vsub (some a) (some b)) (some c)) (some d)) (some 3.6))) (some f) =
      some ((v * (f - x) + (a - b - c - d) * 3.6) / f) := fun f a b c d hf => by
    change (if f = 0 then none else some ((v * (f - x) + (a - b - c - d) * 3.6) / f)) = _; rw [if_neg hf]
  rw [hz _ _ _ _ _ hF]
  rw [dh298_eq (s := ⟨s.mat, s.mfrs.set i (some (g c + x)), s.P, some t, s.Hfr, s.isCoal, some (some _), s.DH298⟩) hd hset hE (some _) rfl]
  exact ⟨_, rfl⟩

/-- **C88 (partial: compounds without carbon).** Adding a compound that contains no carbon to coal updates its higher heating value so that the heat of
combustion is accounted for: what the stream releases afterwards is what it released before plus the compound's heat of combustion. -/
theorem C88_no_carbon_partial (db : Db) (s r : Stream) (v : ℝ) (c : Str) (x : ℝ) (hd : CoalData db s.mat) (hc : s.isCoal = true) (hv : s.HHV = some (some v))
    (hf : ∃ ms : List ℝ, s.mfrs = ms.map some ∧ ms.length = s.mat.compounds.length) (hin : c ∈ s.mat.compounds) (h0 : Chem.Spec.share c "C".toList = 0)
    (hF : totalFlow s + x ≠ 0) (hr : s.add db (.tup c true (some x)) = .ok r) :
    ∃ w : ℝ, r.HHV = some (some w) ∧ w * (totalFlow s + x) = v * totalFlow s + 3.6 * combustionHeat db c x := by
  obtain ⟨ms, h1, h2⟩ := hf
  obtain ⟨g, hg⟩ := rep_of_list hd.distinct h1 h2
  have htot : totalFlow s = (s.mat.compounds.map g).sum := by
    have hg' : ∀ c ∈ s.mat.compounds, flow s c = g c := fun c hc => Rep.content (p := toPkg s) hg hc
    unfold totalFlow
    rw [List.map_congr_left hg']
  rw [htot] at hF ⊢
  refine ⟨_, addTuple_hhv hd hc hv hg hin hF hr, ?_⟩
  rw [div_mul_cancel₀ _ hF]
  unfold osmiumHeat combustionHeat
  rw [h0]
  push_cast
  ring

/-- Moist carbon. -/
noncomputable def mWet : Material := ⟨7, ["C[S]".toList, "H2O[L]".toList], [], ["C".toList, "H".toList, "O".toList], [], []⟩
theorem wetData : CoalData db2 mWet := by
  refine ⟨?_, known_products, ?_, ?_⟩
  · intro c hc
    simp only [mWet, List.mem_cons, List.not_mem_nil, or_false] at hc
    rcases hc with rfl | rfl
    · exact ⟨_, H_C _ _⟩
    · exact ⟨_, H_H2O _ _⟩
  · exact (Stoich.Props.C45_succeeds_iff mWet.compounds).1 ⟨["C".toList, "H".toList, "O".toList], by simp only [mWet]; decide +kernel⟩
  · simp only [mWet]; decide +kernel

theorem wet_total (g : Str → ℝ) : elemTotal (elemSum mWet.compounds g) = g "C[S]".toList := by
  have hw : kind "H2O[L]".toList = none := by
    have : pureElement (formulaOf "H2O[L]".toList) coalElements = .ok none := by decide +kernel
    unfold kind; rw [this]
  unfold elemTotal elemSum mWet
  simp only [List.map_cons, List.map_nil, kind_C, hw, List.sum_cons, List.sum_nil]
  simp

/-- Water is added to moist coal: the heating value of the mixture is diluted accordingly. -/
example : ∃ s r : Stream, ∃ w : ℝ, newStream db2 mWet [some 1, some 1] (some 1) (some 100) true (some (some 30)) = .ok s ∧
    s.add db2 (.tup "H2O[L]".toList true (some 2)) = .ok r ∧ r.HHV = some (some w) ∧ w * (totalFlow s + 2) = 30 * totalFlow s + 3.6 * combustionHeat db2 "H2O[L]".toList 2 := by
  have h1 := newCoal (P := some 1) (t := 100) (hhv := some 30) wetData (g := fun _ => 1) (a := [some 1, some 1]) rfl (by rw [wet_total]; norm_num) (by norm_num [mWet])
  have hc : "H2O[L]".toList ∈ mWet.compounds := by simp [mWet]
  set d := formation db2 mWet (fun _ => 1) (some 30) with hd
  set s : Stream := ⟨mWet, [some 1, some 1], some 1, some 100, some (coalH db2 mWet (fun _ => 1) d 100), true, some (some 30), some (some d)⟩ with hs
  have hrep : Rep s.mat s.mfrs (fun _ => 1) := rfl
  have hsum : (s.mat.compounds.map (fun _ => (1:ℝ))).sum = 2 := by norm_num [hs, mWet]
  have hflow : totalFlow s = 2 := by
    have hg' : ∀ c ∈ s.mat.compounds, flow s c = 1 := fun c hc => Rep.content (p := toPkg s) hrep hc
    unfold totalFlow
    rw [List.map_congr_left hg', hsum]
  obtain ⟨r, hr⟩ := addTuple_exists (s := s) (t := 100) (v := 30) wetData rfl rfl hrep hc (x := 2) (by rw [hsum]; norm_num)
    (by rw [show s.mat = mWet from rfl, wet_total, Function.update_of_ne (by decide)]; norm_num)
  obtain ⟨w, h2, h3⟩ := C88_no_carbon_partial db2 s r 30 "H2O[L]".toList 2 wetData rfl rfl ⟨[1, 1], rfl, rfl⟩ hc (share_ok (by decide +kernel)) (by rw [hflow]; norm_num) hr
  exact ⟨s, r, w, h1, hr, h2, h3⟩

/-- **C88 (violated for carbon).** To one kilogram of coal with a heating value of 36 MJ/kg one kilogram of carbon is added, whose heat of combustion
in these data is 3.66 kWh/kg; the new heating value is not the mean of the two but far too high. -/
theorem C88_violated : ∃ s r : Stream, ∃ w : ℝ, newStream db2 mCoal [some 1] (some 1) (some 25) true (some (some 36)) = .ok s ∧
    s.add db2 (.tup "C[S]".toList true (some 1)) = .ok r ∧ r.HHV = some (some w) ∧ combustionHeat db2 "C[S]".toList 1 = 440095 / 120107 ∧
    w * (totalFlow s + 1) > 36 * totalFlow s + 3.6 * combustionHeat db2 "C[S]".toList 1 + 40 := by
  have h1 := newCoal (P := some 1) (t := 25) (hhv := some 36) coalData (rep_coal 1) (by rw [total_coal]; norm_num) (by simp [mCoal])
  set d := formation db2 mCoal (fun _ => 1) (some 36) with hd
  set s : Stream := ⟨mCoal, [some 1], some 1, some 25, some (coalH db2 mCoal (fun _ => 1) d 25), true, some (some 36), some (some d)⟩ with hs
  have hsC : Chem.Spec.share "C[S]".toList "C".toList = 1 := share_ok (by decide +kernel)
  have hsH : Chem.Spec.share "C[S]".toList "H".toList = 0 := share_ok (by decide +kernel)
  have hsS : Chem.Spec.share "C[S]".toList "S".toList = 0 := share_ok (by decide +kernel)
  have hsum : (s.mat.compounds.map (fun _ => (1:ℝ))).sum = 1 := by simp [hs, mCoal]
  have hflow : totalFlow s = 1 := by
    have : totalFlow s = (s.mat.compounds.map (fun _ => (1:ℝ))).sum := by
      have hg' : ∀ c ∈ s.mat.compounds, flow s c = 1 := fun c hc => Rep.content (p := toPkg s) (rep_coal 1) hc
      unfold totalFlow
      rw [List.map_congr_left hg']
    rw [this, hsum]
  have hex : ∃ r, s.addTuple db2 "C[S]".toList (some 1) = .ok r := by
    unfold Stream.addTuple
    obtain ⟨i, i1, i2⟩ := index_mem (m := mCoal) (c := "C[S]".toList) (by simp [mCoal])
    have i0 : i = 0 := by
      have : Chem.indexOf mCoal.compounds "C[S]".toList = some 0 := by simp only [mCoal]; decide +kernel
      rw [this] at i2; cases i2; rfl
    subst i0
    rw [show s.mat.index "C[S]".toList = .ok 0 from i1]
    dsimp only
    rw [show thermoH db2 "C[S]".toList s.T (some 1) = _ from thermoH_known known_mCoal (by simp [mCoal]) 25 1]
    dsimp only
    have hb : bumpAt s.mfrs 0 (some 1) = .ok [some 2] := by
      change Except.ok [some ((1:ℝ) + 1)] = _; norm_num
    rw [hb]
    dsimp only
    unfold Stream.updateHHV
    dsimp only
    rw [if_pos (show s.isCoal = true from rfl), thermoH_known known_mCoal (by simp [mCoal])]
    dsimp only
    rw [productH_eq known_products (by simp [products]) emf_COs (fraction_share (coalData.formulas _ (by simp [mCoal])) _) (by norm_num)]
    dsimp only
    rw [productH_eq known_products (by simp [products]) emf_H2O (fraction_share (coalData.formulas _ (by simp [mCoal])) _) (by norm_num)]
    dsimp only
    rw [productH_eq known_products (by simp [products]) emf_SO2 (fraction_share (coalData.formulas _ (by simp [mCoal])) _) (by norm_num)]
    dsimp only
    unfold Stream.mfr
    dsimp only
    rw [show vsum [some (2:ℝ)] = some 2 by have := vsum_map [2]; simpa using this]
    unfold Stream.setHHV
    dsimp only
    rw [show s.HHV = some (some 36) from rfl]
    dsimp only
    rw [if_pos (show s.isCoal = true from rfl)]
    have hz : ∀ a b c d : ℝ, vdiv (vadd (vmul (some 36) (vsub (some 2) (some 1))) (vmul (vsub (vsub (vsub (some a) (some b)) (some c)) (some d)) (some 3.6))) (some 2) =
        some ((36 * (2 - 1) + (a - b - c - d) * 3.6) / 2) := fun a b c d => by
      change (if (2:ℝ) = 0 then none else some ((36 * (2 - 1) + (a - b - c - d) * 3.6) / 2)) = _; rw [if_neg (by norm_num)]
    rw [hz]
    rw [dh298_eq (s := ⟨mCoal, [some 2], some 1, some 25, _, true, some (some _), _⟩) coalData (rep_coal 2) (by rw [total_coal]; norm_num) (some _) rfl]
    exact ⟨_, rfl⟩
  obtain ⟨r, hr⟩ := hex
  have hh := addTuple_hhv (s := s) coalData rfl rfl (rep_coal 1) (by simp [hs, mCoal]) (x := 1) (by rw [hsum]; norm_num) hr
  have hcomb : combustionHeat db2 "C[S]".toList 1 = 440095 / 120107 := by
    unfold combustionHeat
    rw [unit_C, unit_CO2, unit_H2O, unit_SO2, hsC, hsH, hsS, share_ok emf_CO2]
    norm_num
  refine ⟨s, r, _, h1, hr, hh, hcomb, ?_⟩
  rw [hflow, hsum, hcomb]
  unfold osmiumHeat
  rw [unit_C, unit_CO2, unit_H2O, unit_SO2, hsC, hsH, hsS, share_ok emf_COs]
  norm_num

/-- **C88 (no heating value).** To coal created without a heating value no compound can be added (nor, for the same reason, extracted). -/
theorem C88_without_hhv (db : Db) (s : Stream) (hc : s.isCoal = true) (hv : s.HHV = none) (c : Str) (x : ℝ) (b : Bool) (hk : Known db s.mat) (hd : s.mat.compounds.Nodup)
    (hf : ∃ ms : List ℝ, s.mfrs = ms.map some ∧ ms.length = s.mat.compounds.length) (hin : c ∈ s.mat.compounds) : s.add db (.tup c b (some x)) = .error .typeError := by
  cases b with
  | false => rfl
  | true =>
    obtain ⟨ms, h1, h2⟩ := hf
    obtain ⟨g, hg⟩ := rep_of_list hd h1 h2
    obtain ⟨i, i1, i2⟩ := index_mem hin
    change s.addTuple db c (some x) = _
    unfold Stream.addTuple
    rw [i1]
    dsimp only
    obtain ⟨u, hu⟩ := thermoH_defined hk hin s.T (some x)
    rw [hu]
    dsimp only
    unfold bumpAt
    rw [hg.at i2]
    dsimp only
    unfold Stream.updateHHV
    dsimp only
    rw [if_pos hc, hv]

/-! ## C99: mixing coal -/

/-- The heating value of a stream per hour: higher heating value times flow rate; a stream without a heating value has none. -/
noncomputable def heating (s : Stream) : ℝ := match s.HHV with
  | some (some v) => v * totalFlow s
  | _ => 0

theorem setHfr_fields {db : Db} {s s' : Stream} {H : V} {o : Res Unit} (h : s.setHfr db H = (o, s')) :
    s'.mat = s.mat ∧ s'.mfrs = s.mfrs ∧ s'.isCoal = s.isCoal ∧ s'.Hfr = H ∧ s'.P = s.P ∧ s'.HHV = s.HHV := by
  unfold Stream.setHfr at h
  dsimp only at h
  split at h <;> (cases h; exact ⟨rfl, rfl, rfl, rfl, rfl, rfl⟩)

theorem flow_rep {s : Stream} (hd : s.mat.compounds.Nodup) (hf : ∃ ms : List ℝ, s.mfrs = ms.map some ∧ ms.length = s.mat.compounds.length) : Rep s.mat s.mfrs (flow s) := by
  obtain ⟨ms, h1, h2⟩ := hf
  obtain ⟨g, hg⟩ := rep_of_list hd h1 h2
  have hfl : ∀ c ∈ s.mat.compounds, flow s c = g c := fun c hc => Rep.content (p := toPkg s) hg hc
  change s.mfrs = _
  rw [show s.mfrs = _ from hg, List.map_map, List.map_map]
  exact List.map_congr_left fun c hc => by simp [hfl c hc]

theorem hhvTerm_eq {s : Stream} (hr : Rep s.mat s.mfrs (flow s)) (hh : s.HHV ≠ some none) (a : ℝ) : hhvTerm s (some a) = some (a + heating s) := by
  have hm : s.mfr = some (totalFlow s) := hr.sum
  unfold hhvTerm heating
  cases h : s.HHV with
  | none => simp
  | some v =>
    cases v with
    | none => exact (hh h).elim
    | some v =>
      dsimp only
      by_cases hv : v = 0
      · subst hv
        rw [if_pos rfl]; simp
      · rw [if_neg (by simpa using hv), hm]
        rfl

/-- **C99.** When two streams of one material are mixed, at least one of them coal, the result is coal, all compound flow rates and the enthalpy flow
rates add up, and so do the heating values. -/
theorem C99_mixing (db : Db) (p q r : Stream) (hm : q.mat = p.mat) (hd : p.mat.compounds.Nodup) (hfp : ∃ ms : List ℝ, p.mfrs = ms.map some ∧ ms.length = p.mat.compounds.length)
    (hfq : ∃ ms : List ℝ, q.mfrs = ms.map some ∧ ms.length = q.mat.compounds.length) (hp : p.HHV ≠ some none) (hq : q.HHV ≠ some none)
    (hcoal : p.isCoal = true ∨ q.isCoal = true) (h0 : totalFlow p + totalFlow q ≠ 0) (h : p.add db (.pkg q) = .ok r) :
    r.isCoal = true ∧ MixedStreams p q r ∧ (∃ v, r.HHV = some (some v)) ∧ heating r = heating p + heating q := by
  have rp := flow_rep hd hfp
  have rq := flow_rep (hm ▸ hd) hfq
  have rq' : Rep p.mat q.mfrs (flow q) := hm ▸ rq
  have hl : p.mfrs.length = q.mfrs.length := by
    rw [show p.mfrs = _ from rp, show q.mfrs = _ from rq']; simp
  have hb : (p.isCoal || q.isCoal) = true := by rcases hcoal with h | h <;> simp [h]
  obtain ⟨ms, hs, hs'⟩ := rp.add rq'
  change (if p.mat.ident = q.mat.ident then _ else _) = _ at h
  rw [if_pos (by rw [hm]), hs] at h
  dsimp only at h
  cases hx : newStream db p.mat ms (some 1) (some 25) (p.isCoal || q.isCoal) (sumHHV p q) with
  | error e => rw [hx] at h; cases h
  | ok x =>
    rw [hx] at h
    dsimp only at h
    obtain ⟨x1, x2, x3, x4, x5, x6⟩ := newStream_fields hx
    cases hy : x.setHfr db (vadd p.Hfr q.Hfr) with
    | mk o y =>
      obtain ⟨y1, y2, y3, y4, y5, y6⟩ := setHfr_fields hy
      rw [hy] at h
      cases o with
      | error e => cases h
      | ok u =>
        cases h
        have rr : Rep (y.setP p.P).mat (y.setP p.P).mfrs (fun c => flow p c + flow q c) := by
          change Rep y.mat y.mfrs _
          rw [y1, y2, x1, x2]; exact hs'
        have hmat : (y.setP p.P).mat = p.mat := y1.trans x1
        have hfl : ∀ c, flow (y.setP p.P) c = flow p c + flow q c := by
          intro c
          by_cases hc : c ∈ p.mat.compounds
          · exact Rep.content (p := toPkg (y.setP p.P)) rr (by rw [show (toPkg (y.setP p.P)).mat = p.mat from hmat]; exact hc)
          · rw [show flow (y.setP p.P) c = 0 from content_absent (p := toPkg (y.setP p.P)) (by rw [show (toPkg (y.setP p.P)).mat = p.mat from hmat]; exact hc),
              show flow p c = 0 from content_absent (p := toPkg p) hc, show flow q c = 0 from content_absent (p := toPkg q) (by rw [show (toPkg q).mat = p.mat from hm]; exact hc), add_zero]
        have htot : totalFlow (y.setP p.P) = totalFlow p + totalFlow q := by
          unfold totalFlow
          rw [hmat, hm, ← List.sum_map_add]
          exact congrArg List.sum (List.map_congr_left fun c _ => hfl c)
        have hv : (y.setP p.P).HHV = some (some ((heating p + heating q) / (totalFlow p + totalFlow q))) := by
          change y.HHV = _
          rw [y6, x6]
          unfold sumHHV
          rw [if_pos hb, hhvTerm_eq rp hp, hhvTerm_eq rq hq, show p.mfr = some (totalFlow p) from rp.sum, show q.mfr = some (totalFlow q) from rq.sum, zero_add]
          change some (if totalFlow p + totalFlow q = 0 then none else some ((heating p + heating q) / (totalFlow p + totalFlow q))) = _
          rw [if_neg h0]
        refine ⟨?_, ⟨hmat, hfl, ?_, rfl⟩, ⟨_, hv⟩, ?_⟩
        · change y.isCoal = true
          rw [y3, x3, hb]
        · intro a b ha hb'
          change y.Hfr = _
          rw [y4, ha, hb']; rfl
        · have : heating (y.setP p.P) = (heating p + heating q) / (totalFlow p + totalFlow q) * totalFlow (y.setP p.P) := by
            unfold heating at *
            rw [hv]
          rw [this, htot, div_mul_cancel₀ _ h0]

theorem coalLoop_any {db : Db} {m : Material} (hk : Known db m) {a : List V} {g : Str → ℝ} (h : Rep m a g) (T : V) (t : ℝ) (el re : Bool) (cs : List Str)
    (hcs : ∀ c ∈ cs, c ∈ m.compounds) : ∀ (acc acc' k : CoalSums), acc.m = acc'.m → acc.any = acc'.any → coalLoop db m a (some t) el re cs acc = .ok k →
      ∃ k', coalLoop db m a T el re cs acc' = .ok k' ∧ k'.m = k.m ∧ k'.any = k.any := by
  induction cs with
  | nil => intro acc acc' k h1 h2 hk; cases hk; exact ⟨acc', rfl, h1.symm, h2.symm⟩
  | cons c cs ih =>
    intro acc acc' k h1 h2 hl
    have ih := ih (fun c hc => hcs c (by simp [hc]))
    have hc := hcs c (by simp)
    unfold coalLoop at hl ⊢
    rw [h.entry hc] at hl ⊢
    dsimp only at hl ⊢
    cases hp : pureElement (formulaOf c) coalElements with
    | error e => rw [hp] at hl; cases hl
    | ok o =>
      rw [hp] at hl
      obtain ⟨u, hu⟩ := thermoH_defined hk hc T (some (g c))
      cases o with
      | some i =>
        dsimp only at hl ⊢
        cases el with
        | true =>
          rw [if_pos rfl, thermoH_known hk hc] at hl
          rw [if_pos rfl, hu]
          dsimp only at hl ⊢
          refine ih _ _ k ?_ ?_ hl
          · dsimp only; rw [h1]
          · rfl
        | false =>
          rw [if_neg (by simp)] at hl ⊢
          refine ih _ _ k ?_ ?_ hl
          · dsimp only; rw [h1]
          · rfl
      | none =>
        dsimp only at hl ⊢
        cases re with
        | true =>
          rw [if_pos rfl, thermoH_known hk hc] at hl
          rw [if_pos rfl, hu]
          dsimp only at hl ⊢
          refine ih _ _ k ?_ ?_ hl
          · exact h1
          · exact h2
        | false =>
          rw [if_neg (by simp)] at hl ⊢
          refine ih _ _ k ?_ ?_ hl
          · exact h1
          · exact h2

theorem hfrCoal_defined {db : Db} {s : Stream} (hd : CoalData db s.mat) {g : Str → ℝ} (h : Rep s.mat s.mfrs g) (hM : elemTotal (elemSum s.mat.compounds g) ≠ 0) {d : V}
    (hD : s.DH298 = some d) (T : V) : ∃ v, s.hfrCoal db T = .ok v := by
  have k : coalLoop db s.mat s.mfrs (some 25) false true s.mat.compounds CoalSums.zero =
      .ok ⟨fun i => some (elemSum s.mat.compounds g i), true, some 0, some (partH db s.mat.compounds g false 25)⟩ := by
    unfold CoalSums.zero
    rw [coalLoop_eq hd.known h 25 false true s.mat.compounds (fun c hc => ⟨hc, hd.formulas c hc⟩) (fun _ => 0) false 0 0]
    simp [any_of_total hM]
  obtain ⟨k', k1, _, k3⟩ := coalLoop_any hd.known h T 25 false true s.mat.compounds (fun _ h => h) CoalSums.zero CoalSums.zero _ rfl rfl k
  unfold Stream.hfrCoal
  rw [k1]
  dsimp only
  rw [k3, if_neg (by simp), hD]
  exact ⟨_, rfl⟩

/-- **C99 (the sum exists)**, for coal streams of positive total flow that contain elements. -/
theorem C99_exists (db : Db) (p q : Stream) (hm : q.mat = p.mat) (hd : CoalData db p.mat) (h1 : p.mat.compounds ≠ [])
    (hfp : ∃ ms : List ℝ, p.mfrs = ms.map some ∧ ms.length = p.mat.compounds.length)
    (hfq : ∃ ms : List ℝ, q.mfrs = ms.map some ∧ ms.length = q.mat.compounds.length) (hp : p.HHV ≠ some none) (hq : q.HHV ≠ some none)
    (hcoal : p.isCoal = true ∨ q.isCoal = true) (h0 : 0 < totalFlow p + totalFlow q)
    (he : ((p.mat.compounds.map (fun c => if Elemental c then flow p c + flow q c else 0)).sum) ≠ 0) : ∃ r, p.add db (.pkg q) = .ok r := by
  have rp := flow_rep hd.distinct hfp
  have rq := flow_rep (hm ▸ hd.distinct) hfq
  have rq' : Rep p.mat q.mfrs (flow q) := hm ▸ rq
  have hb : (p.isCoal || q.isCoal) = true := by rcases hcoal with h | h <;> simp [h]
  obtain ⟨ms, hs, hs'⟩ := rp.add rq'
  have hM : elemTotal (elemSum p.mat.compounds (fun c => flow p c + flow q c)) ≠ 0 := by rw [total_elemental hd.formulas]; exact he
  have hsum : (p.mat.compounds.map (fun c => flow p c + flow q c)).sum = totalFlow p + totalFlow q := by
    rw [List.sum_map_add]; unfold totalFlow; rw [hm]
  have hv : sumHHV p q = (some ((heating p + heating q) / (totalFlow p + totalFlow q))).map some := by
    unfold sumHHV
    rw [if_pos hb, hhvTerm_eq rp hp, hhvTerm_eq rq hq, show p.mfr = some (totalFlow p) from rp.sum, show q.mfr = some (totalFlow q) from rq.sum, zero_add]
    change some (if totalFlow p + totalFlow q = 0 then none else some ((heating p + heating q) / (totalFlow p + totalFlow q))) = _
    rw [if_neg h0.ne']; rfl
  have hx := newCoal hd hs' hM (by rw [hsum]; exact h0) (some 1) 25 (some ((heating p + heating q) / (totalFlow p + totalFlow q)))
  change ∃ r, (if p.mat.ident = q.mat.ident then _ else _) = Except.ok r
  rw [if_pos (by rw [hm]), hs]
  dsimp only
  rw [hb, hv, hx]
  dsimp only
  unfold Stream.setHfr
  dsimp only
  rw [show p.mat.compounds.isEmpty = false by simpa using h1]
  have hdef : ∀ T, ∃ v, Stream.calcHfr db ⟨p.mat, ms, some 1, some 25, vadd p.Hfr q.Hfr, true, some (some ((heating p + heating q) / (totalFlow p + totalFlow q))),
      some (some (formation db p.mat (fun c => flow p c + flow q c) (some ((heating p + heating q) / (totalFlow p + totalFlow q)))))⟩ T = .ok v := by
    intro T
    unfold Stream.calcHfr
    rw [if_pos rfl]
    exact hfrCoal_defined (s := ⟨p.mat, ms, some 1, some 25, vadd p.Hfr q.Hfr, true, some (some ((heating p + heating q) / (totalFlow p + totalFlow q))),
      some (some (formation db p.mat (fun c => flow p c + flow q c) (some ((heating p + heating q) / (totalFlow p + totalFlow q)))))⟩) hd hs' hM rfl T
  obtain ⟨t, ht⟩ := calcT_defined hdef (some 25) (vadd p.Hfr q.Hfr)
  simp only [Option.map_some]
  rw [ht]
  exact ⟨_, rfl⟩

/-- Two kilograms of coal with 36 and three without a known heating value. -/
example : ∃ s q r : Stream, newStream db2 mCoal [some 2] (some 1) (some 25) true (some (some 36)) = .ok s ∧ newStream db2 mCoal [some 3] (some 1) (some 200) true none = .ok q ∧
    s.add db2 (.pkg q) = .ok r ∧ heating r = heating s + heating q ∧ heating s = 72 := by
  have h1 := newCoal (P := some 1) (t := 25) (hhv := some 36) coalData (rep_coal 2) (by rw [total_coal]; norm_num) (by simp [mCoal])
  have h2 := newCoal (P := some 1) (t := 200) (hhv := none) coalData (rep_coal 3) (by rw [total_coal]; norm_num) (by simp [mCoal])
  generalize formation db2 mCoal (fun _ => 2) (some 36) = d at h1
  generalize formation db2 mCoal (fun _ => 3) none = d' at h2
  generalize coalH db2 mCoal (fun _ => 2) d 25 = hs at h1
  generalize coalH db2 mCoal (fun _ => 3) d' 200 = hq at h2
  set s : Stream := ⟨mCoal, [some 2], some 1, some 25, some hs, true, some (some 36), some (some d)⟩
  set q : Stream := ⟨mCoal, [some 3], some 1, some 200, some hq, true, none, some (some d')⟩
  have fs : ∀ c ∈ mCoal.compounds, flow s c = 2 := fun c hc => Rep.content (p := toPkg s) (rep_coal 2) hc
  have fq : ∀ c ∈ mCoal.compounds, flow q c = 3 := fun c hc => Rep.content (p := toPkg q) (rep_coal 3) hc
  have ts : totalFlow s = 2 := by unfold totalFlow; rw [List.map_congr_left (l := s.mat.compounds) fs]; simp [s, mCoal]
  have tq : totalFlow q = 3 := by unfold totalFlow; rw [List.map_congr_left (l := q.mat.compounds) fq]; simp [q, mCoal]
  have hE : Elemental "C[S]".toList := ⟨"C".toList, by simp, share_ok (by decide +kernel)⟩
  obtain ⟨r, hr⟩ := C99_exists db2 s q rfl coalData (by simp [s, mCoal]) ⟨[2], rfl, rfl⟩ ⟨[3], rfl, rfl⟩ (by simp [s]) (by simp [q]) (Or.inl rfl) (by rw [ts, tq]; norm_num) (by
    have : ∀ c ∈ s.mat.compounds, (if Elemental c then flow s c + flow q c else 0) = 5 := by
      intro c hc
      rw [fs c hc, fq c hc]
      simp only [s, mCoal, List.mem_singleton] at hc
      subst hc
      rw [if_pos hE]; norm_num
    rw [List.map_congr_left this]
    simp [s, mCoal])
  obtain ⟨_, _, _, h3⟩ := C99_mixing db2 s q r rfl coalData.distinct ⟨[2], rfl, rfl⟩ ⟨[3], rfl, rfl⟩ (by simp [s]) (by simp [q]) (Or.inl rfl) (by rw [ts, tq]; norm_num) hr
  refine ⟨s, q, r, h1, h2, hr, h3, ?_⟩
  change 36 * totalFlow s = 72
  rw [ts]; norm_num

/-! ## C67: coal packages -/

/-- **C67 (violated).** No package of positive mass can be created from an assay marked as coal. -/
theorem C67_never_created (db : Db) (m : Material) (name : Str) (mass P T : V) (normalise : Bool) (l : List V) (hc : m.isCoal name = .ok true)
    (hl : m.scaled name mass normalise = .ok l) (hpos : vgt (vsum l) (some 0)) : ∃ e, m.createPackage db (some name) mass P T normalise = .error e := by
  unfold Material.createPackage
  dsimp only
  rw [hl]
  dsimp only
  rw [hc]
  dsimp only
  split
  · exact ⟨_, rfl⟩
  · unfold newPackage Package.mass
    dsimp only
    rw [if_pos hpos]
    exact ⟨_, rfl⟩

/-- **C67 (partial).** A stream of such an assay can be created. -/
theorem C67_stream_partial (db : Db) (m : Material) (ms : List ℝ) (P : V) (t : ℝ) (v : Option ℝ) (hd : CoalData db m) (hl : ms.length = m.compounds.length) (hpos : 0 < ms.sum)
    (he : elementalFlow m ms ≠ 0) : ∃ s, newStream db m (ms.map some) P (some t) true (v.map some) = .ok s ∧ s.isCoal = true ∧ s.mfrs = ms.map some ∧ ∃ h, s.Hfr = some h := by
  obtain ⟨g, hr, hg⟩ := rep_list hd.distinct hl
  rw [elementalFlow_rep hd.formulas hg] at he
  exact ⟨_, newCoal hd hr he (by rw [← hg]; exact hpos) P t v, rfl, rfl, _, rfl⟩

/-- A coal material as read from a file. -/
noncomputable def mFile : Material := ⟨5, ["C[S]".toList], [("A".toList, [some 1])], ["C".toList], ["IsCoal".toList], [("A".toList, [("IsCoal".toList, 1)])]⟩
example : ∃ e, mFile.createPackage db2 (some "A".toList) (some 2) (some 1) (some 25) false = .error e := by
  refine C67_never_created db2 mFile "A".toList (some 2) (some 1) (some 25) false [some 2] ?_ ?_ ?_
  · unfold Material.isCoal mFile
    simp
  · unfold Material.scaled mFile Material.assay
    simp [vmul, vdiv]
  · rw [show vsum [some (2:ℝ)] = some 2 by have := vsum_map [2]; simpa using this]
    simp [vgt]

example : ∃ s, newStream db2 mWet ([1, 1].map some) (some 1) (some 100) true (some (some 30)) = .ok s ∧ s.isCoal = true := by
  obtain ⟨s, h1, h2, _⟩ := C67_stream_partial db2 mWet [1, 1] (some 1) 100 (some 30) wetData rfl (by norm_num)
    (by rw [elementalFlow_rep (ms := [1, 1]) (g := fun _ => 1) wetData.formulas rfl, wet_total]; norm_num)
  exact ⟨s, h1, h2⟩

end Auxi.Thermo.Props
