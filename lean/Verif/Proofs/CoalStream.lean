import Verif.Props.ThermoStream

/-!
# What the loops over a coal's compounds compute
-/
namespace Auxi.Thermo.Props
open Auxi Auxi.Thermo Auxi.Thermo.Spec
open Classical

/-- The number of the coal element (C, H, O, N, S) of which the compound consists. -/
noncomputable def kind (c : Str) : Option ℕ :=
  match pureElement (formulaOf c) coalElements with
  | .ok o => o
  | .error _ => none

theorem pureElement_defined {c : Str} (h : Stoich.Spec.IsFormula c) (es : List Str) : ∃ o, pureElement (formulaOf c) es = .ok o := by
  induction es with
  | nil => exact ⟨none, rfl⟩
  | cons e es ih =>
    obtain ⟨o, ho⟩ := ih
    obtain ⟨t, cp, _, _, _, _, h5⟩ := Chem.emf_total h
    unfold pureElement
    rw [fraction_formulaOf h, h5 e]
    dsimp only
    split
    · exact ⟨_, rfl⟩
    · rw [ho]; exact ⟨_, rfl⟩

theorem pureElement_kind {c : Str} (h : Stoich.Spec.IsFormula c) : pureElement (formulaOf c) coalElements = .ok (kind c) := by
  obtain ⟨o, ho⟩ := pureElement_defined h coalElements
  unfold kind; rw [ho]

/-- The sum of `g` over the compounds consisting of coal element number `i`. -/
noncomputable def elemSum (cs : List Str) (g : Str → ℝ) (i : ℕ) : ℝ := (cs.map (fun c => if kind c = some i then g c else 0)).sum
/-- The enthalpy at a temperature of the compounds that are coal elements (`b = true`), or that are not. -/
noncomputable def partH (db : Db) (cs : List Str) (g : Str → ℝ) (b : Bool) (t : ℝ) : ℝ := (cs.map (fun c => if (kind c).isSome = b then g c * unitH db c t else 0)).sum

theorem coalLoop_eq {db : Db} {m : Material} (hk : Known db m) {a : List V} {g : Str → ℝ} (h : Rep m a g) (t : ℝ) (el re : Bool) (cs : List Str)
    (hcs : ∀ c ∈ cs, c ∈ m.compounds ∧ Stoich.Spec.IsFormula c) (M : ℕ → ℝ) (any : Bool) (hi ho : ℝ) :
    coalLoop db m a (some t) el re cs ⟨fun i => some (M i), any, some hi, some ho⟩ =
      .ok ⟨fun i => some (M i + elemSum cs g i), any || cs.any (fun c => (kind c).isSome),
        some (hi + if el then partH db cs g true t else 0), some (ho + if re then partH db cs g false t else 0)⟩ := by
  induction cs generalizing M any hi ho with
  | nil =>
    unfold coalLoop
    simp [elemSum, partH]
  | cons c cs ih =>
    obtain ⟨hc, hf⟩ := hcs c (by simp)
    have ih' := ih (fun d hd => hcs d (by simp [hd]))
    unfold coalLoop
    rw [h.entry hc]
    dsimp only
    rw [pureElement_kind hf]
    cases hkd : kind c with
    | none =>
      dsimp only
      have e1 : ∀ i, elemSum (c :: cs) g i = elemSum cs g i := by intro i; simp [elemSum, hkd]
      have e2 : partH db (c :: cs) g true t = partH db cs g true t := by simp [partH, hkd]
      have e3 : partH db (c :: cs) g false t = g c * unitH db c t + partH db cs g false t := by simp [partH, hkd]
      have e4 : (c :: cs).any (fun c => (kind c).isSome) = cs.any (fun c => (kind c).isSome) := by simp [hkd]
      simp only [e1, e2, e3, e4]
      cases re with
      | false =>
        rw [if_neg (by simp)]
        exact ih' M any hi ho
      | true =>
        rw [if_pos rfl, thermoH_known hk hc]
        dsimp only
        change coalLoop db m a (some t) el true cs ⟨fun i => some (M i), any, some hi, some (ho + g c * unitH db c t)⟩ = _
        rw [ih']
        simp only [if_true]
        rw [add_assoc ho]
    | some i =>
      dsimp only
      have e1 : ∀ j, elemSum (c :: cs) g j = (if i = j then g c else 0) + elemSum cs g j := by intro j; simp [elemSum, hkd]
      have e2 : partH db (c :: cs) g true t = g c * unitH db c t + partH db cs g true t := by simp [partH, hkd]
      have e3 : partH db (c :: cs) g false t = partH db cs g false t := by simp [partH, hkd]
      have e4 : (any || (c :: cs).any (fun c => (kind c).isSome)) = true := by simp [hkd]
      have e5 : Function.update (fun i => some (M i)) i (vadd (some (M i)) (some (g c))) = fun j => some (M j + if i = j then g c else 0) := by
        funext j
        by_cases hj : j = i
        · subst hj; rw [Function.update_self, if_pos rfl]; rfl
        · rw [Function.update_of_ne hj, if_neg (fun h => hj h.symm), add_zero]
      rw [e4, e5]
      simp only [e1, e2, e3]
      cases el with
      | false =>
        rw [if_neg (by simp)]
        rw [ih' (fun j => M j + if i = j then g c else 0) true hi ho]
        simp [add_assoc]
      | true =>
        rw [if_pos rfl, thermoH_known hk hc]
        dsimp only
        change coalLoop db m a (some t) true re cs ⟨fun j => some (M j + if i = j then g c else 0), true, some (hi + g c * unitH db c t), some ho⟩ = _
        rw [ih']
        simp only [if_true, add_assoc, Bool.true_or]

/-- The materials into which coal burns. -/
def products : Material := ⟨0, ["CO2[G]".toList, "H2O[L]".toList, "O2[G]".toList, "N2[G]".toList, "SO2[G]".toList], [], [], [], []⟩

theorem ccV_eq {x : ℝ} {s t e : Str} {sf tf : ℚ} (ht : Stoich.elementMassFraction t e = .ok tf) (hs : Stoich.elementMassFraction s e = .ok sf) (h0 : tf ≠ 0) :
    ccV (some x) s t e = .ok (some (x * sf / tf)) := by
  unfold ccV
  rw [ht]
  dsimp only
  rw [if_neg h0, hs]
  dsimp only
  have : (tf : ℝ) ≠ 0 := by exact_mod_cast h0
  change Except.ok (if (tf : ℝ) = 0 then none else some (x * sf / tf)) = _
  rw [if_neg this]

/-- The enthalpy at 25 °C of the products of burning coal of the given element flow rates, per their stoichiometry. -/
noncomputable def burnH (db : Db) (M : ℕ → ℝ) : ℝ :=
  M 0 * 1 / ((120107 / 440095 : ℚ) : ℝ) * unitH db "CO2[G]".toList 25 + M 1 * 1 / ((50397 / 450382 : ℚ) : ℝ) * unitH db "H2O[L]".toList 25 +
    M 2 * unitH db "O2[G]".toList 25 + M 3 * unitH db "N2[G]".toList 25 + M 4 * 1 / ((80165 / 160162 : ℚ) : ℝ) * unitH db "SO2[G]".toList 25

theorem emf_CO2 : Stoich.elementMassFraction "CO2".toList "C".toList = .ok (120107 / 440095) := by decide +kernel
theorem emf_COs : Stoich.elementMassFraction "COs".toList "C".toList = .ok (120107 / 2022407) := by decide +kernel
theorem emf_H2O : Stoich.elementMassFraction "H2O".toList "H".toList = .ok (50397 / 450382) := by decide +kernel
theorem emf_SO2 : Stoich.elementMassFraction "SO2".toList "S".toList = .ok (80165 / 160162) := by decide +kernel
theorem emf_C : Stoich.elementMassFraction "C".toList "C".toList = .ok 1 := by decide +kernel
theorem emf_H : Stoich.elementMassFraction "H".toList "H".toList = .ok 1 := by decide +kernel
theorem emf_S : Stoich.elementMassFraction "S".toList "S".toList = .ok 1 := by decide +kernel

theorem productH_eq {db : Db} (hk : Known db products) {p s t e : Str} (hp : p ∈ products.compounds) {x : ℝ} {sf tf : ℚ} (ht : Stoich.elementMassFraction t e = .ok tf)
    (hs : Stoich.elementMassFraction s e = .ok sf) (h0 : tf ≠ 0) : productH db p (some x) s t e = .ok (some (x * sf / tf * unitH db p 25)) := by
  unfold productH
  rw [ccV_eq ht hs h0]
  dsimp only
  rw [thermoH_known hk hp]

theorem combustion_eq {db : Db} (hk : Known db products) (M : ℕ → ℝ) (b : Bool) (x y : V) :
    combustionProducts db ⟨fun i => some (M i), b, x, y⟩ = .ok (some (burnH db M)) := by
  unfold combustionProducts
  dsimp only
  rw [productH_eq hk (by simp [products]) emf_CO2 emf_C (by norm_num)]
  dsimp only
  rw [productH_eq hk (by simp [products]) emf_H2O emf_H (by norm_num)]
  dsimp only
  rw [thermoH_known hk (by simp [products])]
  dsimp only
  rw [thermoH_known hk (by simp [products])]
  dsimp only
  rw [productH_eq hk (by simp [products]) emf_SO2 emf_S (by norm_num)]
  dsimp only
  change Except.ok (some (0 + _ + _ + _ + _ + _)) = _
  unfold burnH
  rw [zero_add, Rat.cast_one]

/-- The total flow rate of coal elements. -/
noncomputable def elemTotal (M : ℕ → ℝ) : ℝ := M 0 + M 1 + M 2 + M 3 + M 4

/-- The composition of the coal elements. -/
noncomputable def elemAssay (M : ℕ → ℝ) : Coals.Assay := ⟨M 0 / elemTotal M, M 1 / elemTotal M, M 2 / elemTotal M, M 3 / elemTotal M, M 4 / elemTotal M⟩

/-- The data that the enthalpy of a coal stream of this material needs. -/
structure CoalData (db : Db) (m : Material) : Prop where
  known : Known db m
  products : Known db products
  formulas : ∀ c ∈ m.compounds, Stoich.Spec.IsFormula c
  distinct : m.compounds.Nodup

theorem any_of_total {cs : List Str} {g : Str → ℝ} (h : elemTotal (elemSum cs g) ≠ 0) : cs.any (fun c => (kind c).isSome) = true := by
  by_contra hn
  rw [Bool.not_eq_true, List.any_eq_false] at hn
  apply h
  have : ∀ i, elemSum cs g i = 0 := by
    intro i
    unfold elemSum
    apply List.sum_eq_zero
    intro x hx
    rw [List.mem_map] at hx
    obtain ⟨c, hc, rfl⟩ := hx
    rw [if_neg]
    intro hk
    exact hn c hc (by rw [hk]; rfl)
  simp [elemTotal, this]

/-- The enthalpy of formation that the code assigns to one kilogram of coal elements. -/
noncomputable def formation (db : Db) (m : Material) (g : Str → ℝ) (hhv : Option ℝ) : ℝ :=
  let M := elemSum m.compounds g
  match hhv with
  | none => (burnH db M / elemTotal M - partH db m.compounds g true 25) / elemTotal M + burnH db M / elemTotal M
  | some v => v / 3.6 * ((m.compounds.map g).sum / elemTotal M) + burnH db M / elemTotal M

theorem dh298_eq {db : Db} {s : Stream} (hd : CoalData db s.mat) {g : Str → ℝ} (h : Rep s.mat s.mfrs g) (hM : elemTotal (elemSum s.mat.compounds g) ≠ 0) (hhv : Option ℝ)
    (hv : s.HHV = hhv.map some) : s.dh298 db = .ok (some (formation db s.mat g hhv)) := by
  unfold Stream.dh298
  have k : coalLoop db s.mat s.mfrs (some 25) true false s.mat.compounds CoalSums.zero =
      .ok ⟨fun i => some (elemSum s.mat.compounds g i), true, some (partH db s.mat.compounds g true 25), some 0⟩ := by
    unfold CoalSums.zero
    rw [coalLoop_eq hd.known h 25 true false s.mat.compounds (fun c hc => ⟨hc, hd.formulas c hc⟩) (fun _ => 0) false 0 0]
    simp [any_of_total hM]
  rw [k]
  dsimp only
  rw [combustion_eq hd.products]
  dsimp only
  rw [if_neg (by simp)]
  have ht : CoalSums.total ⟨fun i => some (elemSum s.mat.compounds g i), true, some (partH db s.mat.compounds g true 25), some 0⟩ =
      some (elemTotal (elemSum s.mat.compounds g)) := rfl
  rw [ht]
  have hdv : ∀ x : ℝ, vdiv (some x) (some (elemTotal (elemSum s.mat.compounds g))) = some (x / elemTotal (elemSum s.mat.compounds g)) := by
    intro x; change (if elemTotal (elemSum s.mat.compounds g) = 0 then none else some (x / elemTotal (elemSum s.mat.compounds g))) = _; rw [if_neg hM]
  rw [hdv, hv]
  cases hhv with
  | none =>
    dsimp only [Option.map_none, vsub]
    rw [hdv]; rfl
  | some v =>
    dsimp only [Option.map_some]
    unfold Stream.mfr
    rw [h.sum, hdv]
    have : vdiv (some v) (some 3.6) = some (v / 3.6) := by change (if (3.6:ℝ) = 0 then none else some (v / 3.6)) = _; rw [if_neg (by norm_num)]
    rw [this]; rfl

/-- The enthalpy flow rate of a coal stream. -/
noncomputable def coalH (db : Db) (m : Material) (g : Str → ℝ) (d t : ℝ) : ℝ :=
  let M := elemSum m.compounds g
  partH db m.compounds g false t + (hdaf (t + 273.15) (elemAssay M) / 3600000 - hdaf 298.15 (elemAssay M) / 3600000 + d) * elemTotal M

theorem hfrCoal_eq {db : Db} {s : Stream} (hd : CoalData db s.mat) {g : Str → ℝ} (h : Rep s.mat s.mfrs g) (hM : elemTotal (elemSum s.mat.compounds g) ≠ 0) {d : ℝ}
    (hD : s.DH298 = some (some d)) (t : ℝ) : s.hfrCoal db (some t) = .ok (some (coalH db s.mat g d t)) := by
  unfold Stream.hfrCoal
  have k : coalLoop db s.mat s.mfrs (some t) false true s.mat.compounds CoalSums.zero =
      .ok ⟨fun i => some (elemSum s.mat.compounds g i), true, some 0, some (partH db s.mat.compounds g false t)⟩ := by
    unfold CoalSums.zero
    rw [coalLoop_eq hd.known h t false true s.mat.compounds (fun c hc => ⟨hc, hd.formulas c hc⟩) (fun _ => 0) false 0 0]
    simp [any_of_total hM]
  rw [k]
  dsimp only
  rw [if_neg (by simp), hD]
  dsimp only
  set S : CoalSums := ⟨fun i => some (elemSum s.mat.compounds g i), true, some 0, some (partH db s.mat.compounds g false t)⟩ with hS
  have ht : S.total = some (elemTotal (elemSum s.mat.compounds g)) := rfl
  have hdv : ∀ x : ℝ, vdiv (some x) (some (elemTotal (elemSum s.mat.compounds g))) = some (x / elemTotal (elemSum s.mat.compounds g)) := by
    intro x; change (if elemTotal (elemSum s.mat.compounds g) = 0 then none else some (x / elemTotal (elemSum s.mat.compounds g))) = _; rw [if_neg hM]
  have ha : S.assay = some (elemAssay (elemSum s.mat.compounds g)) := by
    unfold CoalSums.assay
    rw [ht]
    change (match vdiv (some _) _, vdiv (some _) _, vdiv (some _) _, vdiv (some _) _, vdiv (some _) _ with | some c, some h, some o, some n, some su => _ | _, _, _, _, _ => _) = _
    simp only [hdv]
    rfl
  rw [ht, ha]
  rfl

/-- A coal stream: creating one. -/
theorem newCoal {db : Db} {m : Material} (hd : CoalData db m) {a : List V} {g : Str → ℝ} (h : Rep m a g) (hM : elemTotal (elemSum m.compounds g) ≠ 0)
    (hpos : 0 < (m.compounds.map g).sum) (P : V) (t : ℝ) (hhv : Option ℝ) :
    newStream db m a P (some t) true (hhv.map some) = .ok ⟨m, a, P, some t, some (coalH db m g (formation db m g hhv) t), true, hhv.map some, some (some (formation db m g hhv))⟩ := by
  unfold newStream Stream.setHHV
  dsimp only
  rw [if_pos rfl, dh298_eq (s := ⟨m, a, P, some t, some 0, true, hhv.map some, none⟩) hd h hM hhv rfl]
  dsimp only
  unfold Stream.mfr
  dsimp only
  rw [h.sum, if_pos (show vgt (some _) (some 0) from hpos)]
  unfold Stream.calcHfr
  dsimp only
  rw [if_pos rfl, hfrCoal_eq (s := ⟨m, a, P, some t, some 0, true, hhv.map some, some (some (formation db m g hhv))⟩) hd h hM rfl]

end Auxi.Thermo.Props
