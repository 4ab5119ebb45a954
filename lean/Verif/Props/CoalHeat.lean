import Verif.Proofs.CoalHeat

/-!
# C153: coal releases its heating value when it is burned, and heating it takes the heat its model says

`MaterialStream` (`/repo/auxi/modelling/process/materials/thermo.py:1317-1423`) for a stream of coal.
-/
namespace Auxi.Thermo.Props
open Auxi Auxi.Thermo Auxi.Thermo.Spec
open Classical

theorem coalFrame {db : Db} {m : Material} (hd : CoalData db m) {ms : List ℝ} (hl : ms.length = m.compounds.length) (hM : organicFlow m ms ≠ 0) :
    ∃ g, Rep m (ms.map some) g ∧ ms = m.compounds.map g ∧ organicFlow m ms = elemTotal (elemSum m.compounds g) ∧ elemTotal (elemSum m.compounds g) ≠ 0 := by
  obtain ⟨g, hr, hg⟩ := rep_list hd.distinct hl
  have e := organicFlow_eq hd.formulas hg
  exact ⟨g, hr, hg, e, e ▸ hM⟩

/-- **C153 (burning).** A stream of coal at 25 °C with a heating value of `v` MJ/kg holds `v` MJ for every kilogram of coal more than its ash and water and the products of burning its elements do:
burning it releases its heating value. -/
theorem C153_burning (db : Db) (m : Material) (ms : List ℝ) (P : V) (v : ℝ) (hd : CoalData db m) (hl : ms.length = m.compounds.length) (hpos : 0 < ms.sum) (hM : organicFlow m ms ≠ 0) :
    ∃ s H, newStream db m (ms.map some) P (some 25) true (some (some v)) = .ok s ∧ s.Hfr = some H ∧
      H - (restEnthalpy db m ms 25 + burnedEnthalpy db m ms) = v / 3.6 * ms.sum := by
  obtain ⟨g, hr, hg, e, hM'⟩ := coalFrame hd hl hM
  have hpos' : 0 < (m.compounds.map g).sum := hg ▸ hpos
  refine ⟨_, _, newCoal hd hr hM' hpos' P 25 (some v), rfl, ?_⟩
  rw [coalH_25, restEnthalpy_eq db hd.formulas hg, burnedEnthalpy_eq db hd.formulas hg]
  unfold formation
  dsimp only
  rw [← hg]
  field_simp
  ring

/-- **C153 (heating).** Heating or cooling a stream of coal from one temperature to another changes its enthalpy flow rate by what its ash and water take, plus, for every kilogram of its organic part, the integral of
the heat capacity that the coal model gives for its ultimate analysis; when it is heated that part is positive. -/
theorem C153_heating (db : Db) (m : Material) (ms : List ℝ) (P : V) (hhv : Option ℝ) (t u : ℝ) (hd : CoalData db m) (hl : ms.length = m.compounds.length) (hpos : 0 < ms.sum)
    (h0 : ∀ e ∈ coalSymbols, 0 ≤ pureFlow m ms e) (hM : 0 < organicFlow m ms) (ht : -273.15 < t) (hu : -273.15 < u) :
    ∃ (s s' : Stream) (a b : ℝ) (c : ℝ → ℝ), newStream db m (ms.map some) P (some t) true (hhv.map some) = .ok s ∧ s.setT db (some u) = (.ok (), s') ∧ s.Hfr = some a ∧ s'.Hfr = some b ∧
      (∀ x, 0 < x → Coals.dafCp x (analysis m ms) = .ok (c x)) ∧
      b - a = (restEnthalpy db m ms u - restEnthalpy db m ms t) + organicFlow m ms * (∫ x in (t + 273.15)..(u + 273.15), c x) / 3600000 ∧
      (t < u → restEnthalpy db m ms u - restEnthalpy db m ms t < b - a) := by
  obtain ⟨g, hr, hg, e, hM'⟩ := coalFrame hd hl hM.ne'
  have hpos' : 0 < (m.compounds.map g).sum := hg ▸ hpos
  have hy : Coals.Props.Proper (analysis m ms) := by
    have hc := h0 "C".toList (by simp [coalSymbols])
    have hh := h0 "H".toList (by simp [coalSymbols])
    have ho := h0 "O".toList (by simp [coalSymbols])
    have hn := h0 "N".toList (by simp [coalSymbols])
    have hs := h0 "S".toList (by simp [coalSymbols])
    refine ⟨div_nonneg hc hM.le, div_nonneg hh hM.le, div_nonneg ho hM.le, div_nonneg hn hM.le, div_nonneg hs hM.le, ?_⟩
    show 0 < _ / _ + _ / _ + _ / _ + _ / _ + _ / _
    rw [← add_div, ← add_div, ← add_div, ← add_div]
    apply div_pos _ hM
    have : organicFlow m ms = pureFlow m ms "C".toList + pureFlow m ms "H".toList + pureFlow m ms "O".toList + pureFlow m ms "N".toList + pureFlow m ms "S".toList := by
      unfold organicFlow coalSymbols
      simp only [List.map_cons, List.map_nil, List.sum_cons, List.sum_nil]
      ring
    rw [← this]; exact hM
  have key : ∀ T U : ℝ, 0 < T → 0 < U → ∃ c : ℝ → ℝ, (∀ x, 0 < x → Coals.dafCp x (analysis m ms) = .ok (c x)) ∧
      hdaf U (analysis m ms) - hdaf T (analysis m ms) = (∫ x in T..U, c x) ∧ (T < U → hdaf T (analysis m ms) < hdaf U (analysis m ms)) := by
    intro T U hT hU
    rcases lt_trichotomy T U with h | h | h
    · obtain ⟨c, a, b, k1, k2, k3, k4, k5⟩ := Coals.Props.C83_integral _ hy T U hT h
      rw [dafH_hdaf k2, dafH_hdaf k3]
      exact ⟨c, k1, k4, fun _ => k5⟩
    · subst h
      obtain ⟨h', c, k1, _⟩ := Coals.Props.C83_derivative _ hy
      exact ⟨c, fun x hx => (k1 x hx).2, by simp, fun k => absurd k (lt_irrefl _)⟩
    · obtain ⟨c, a, b, k1, k2, k3, k4, k5⟩ := Coals.Props.C83_integral _ hy U T hU h
      rw [dafH_hdaf k2, dafH_hdaf k3]
      refine ⟨c, k1, ?_, fun k => absurd k (not_lt.2 h.le)⟩
      rw [intervalIntegral.integral_symm, ← k4]; ring
  obtain ⟨c, k1, k2, k3⟩ := key (t + 273.15) (u + 273.15) (by linarith) (by linarith)
  have hset : Stream.setT db ⟨m, ms.map some, P, some t, some (coalH db m g (formation db m g hhv) t), true, hhv.map some, some (some (formation db m g hhv))⟩ (some u) =
      (.ok (), ⟨m, ms.map some, P, some u, some (coalH db m g (formation db m g hhv) u), true, hhv.map some, some (some (formation db m g hhv))⟩) := by
    unfold Stream.setT Stream.calcHfr
    dsimp only
    rw [if_pos rfl, hfrCoal_eq (s := ⟨m, ms.map some, P, some u, _, true, hhv.map some, some (some (formation db m g hhv))⟩) hd hr hM' rfl]
  have hdiff : coalH db m g (formation db m g hhv) u - coalH db m g (formation db m g hhv) t =
      (restEnthalpy db m ms u - restEnthalpy db m ms t) + organicFlow m ms * (hdaf (u + 273.15) (analysis m ms) - hdaf (t + 273.15) (analysis m ms)) / 3600000 := by
    unfold coalH
    dsimp only
    rw [restEnthalpy_eq db hd.formulas hg, restEnthalpy_eq db hd.formulas hg, analysis_eq hd.formulas hg, e]
    ring
  refine ⟨_, _, _, _, c, newCoal hd hr hM' hpos' P t hhv, hset, rfl, rfl, k1, by rw [hdiff, k2], fun h => ?_⟩
  rw [hdiff]
  have := k3 (by linarith)
  have : 0 < organicFlow m ms * (hdaf (u + 273.15) (analysis m ms) - hdaf (t + 273.15) (analysis m ms)) / 3600000 := by
    apply div_pos _ (by norm_num)
    exact mul_pos hM (by linarith)
  linarith

/-- **C153 is false without a given heating value.** The code then makes up a heating value from the enthalpy of burning the elements, with the wrong sign: for coal whose elements have the enthalpy 0 at 25 °C, as they
have in their standard state, whose organic part flows at 1 kg/h and whose products have a negative enthalpy, as they do, the stream holds less than its ash and water and the products of burning it: burning it would take
up heat. -/
theorem C153_no_value_violated (db : Db) (m : Material) (ms : List ℝ) (P : V) (hd : CoalData db m) (hl : ms.length = m.compounds.length) (hpos : 0 < ms.sum) (hM : organicFlow m ms = 1)
    (hE : elementEnthalpy db m ms = 0) (hB : burnedEnthalpy db m ms < 0) :
    ∃ s H, newStream db m (ms.map some) P (some 25) true none = .ok s ∧ s.Hfr = some H ∧ H < restEnthalpy db m ms 25 + burnedEnthalpy db m ms ∧
      H = restEnthalpy db m ms 25 + burnedEnthalpy db m ms + burnedEnthalpy db m ms := by
  obtain ⟨g, hr, hg, e, hM'⟩ := coalFrame hd hl (by rw [hM]; norm_num)
  have hpos' : 0 < (m.compounds.map g).sum := hg ▸ hpos
  have hval : coalH db m g (formation db m g none) 25 = restEnthalpy db m ms 25 + burnedEnthalpy db m ms + burnedEnthalpy db m ms := by
    rw [coalH_25, restEnthalpy_eq db hd.formulas hg, burnedEnthalpy_eq db hd.formulas hg]
    unfold formation
    dsimp only
    rw [← e, hM, ← elementEnthalpy_eq db hd.formulas hg, hE]
    ring
  refine ⟨_, _, newCoal hd hr hM' hpos' P 25 none, rfl, ?_, hval⟩
  rw [hval]; linarith

/-! ## Coal of carbon, with and without water -/

theorem coal_list (x : ℝ) : [x] = mCoal.compounds.map (fun _ => x) := rfl

theorem organic_coal (x : ℝ) : organicFlow mCoal [x] = x := by
  rw [organicFlow_eq coalData.formulas (coal_list x), total_coal]

theorem burned_coal (x : ℝ) : burnedEnthalpy db2 mCoal [x] = -(440095 / 120107) * x := by
  rw [burnedEnthalpy_eq db2 coalData.formulas (coal_list x), burn_coal]

example : ∃ s H, newStream db2 mCoal [some 2] (some 1) (some 25) true (some (some 36)) = .ok s ∧ s.Hfr = some H ∧ H - (restEnthalpy db2 mCoal [2] 25 + burnedEnthalpy db2 mCoal [2]) = 20 := by
  obtain ⟨s, H, h1, h2, h3⟩ := C153_burning db2 mCoal [2] (some 1) 36 coalData rfl (by norm_num) (by rw [organic_coal]; norm_num)
  exact ⟨s, H, h1, h2, by rw [h3]; norm_num⟩

example : ∃ s s' a b, newStream db2 mCoal [some 2] (some 1) (some 25) true (some (some 36)) = .ok s ∧ s.setT db2 (some 900) = (.ok (), s') ∧ s.Hfr = some a ∧ s'.Hfr = some b ∧ a < b := by
  have h0 : ∀ e ∈ coalSymbols, 0 ≤ pureFlow mCoal [2] e := by
    intro e _
    unfold pureFlow
    apply List.sum_nonneg
    intro x hx
    rw [List.mem_map] at hx
    obtain ⟨p, hp, rfl⟩ := hx
    have : p = ("C[S]".toList, 2) := by simpa [mCoal] using hp
    subst this
    dsimp only
    split <;> norm_num
  obtain ⟨s, s', a, b, c, h1, h2, h3, h4, _, _, h7⟩ := C153_heating db2 mCoal [2] (some 1) (some 36) 25 900 coalData rfl (by norm_num) h0 (by rw [organic_coal]; norm_num) (by norm_num) (by norm_num)
  have hr : ∀ t, restEnthalpy db2 mCoal [2] t = 0 := fun t => by rw [restEnthalpy_eq db2 coalData.formulas (coal_list 2), partH_coal]
  have := h7 (by norm_num)
  rw [hr, hr] at this
  exact ⟨s, s', a, b, h1, h2, h3, h4, by linarith⟩

example : ∃ s H, newStream db2 mCoal [some 1] (some 1) (some 25) true none = .ok s ∧ s.Hfr = some H ∧ H < restEnthalpy db2 mCoal [1] 25 + burnedEnthalpy db2 mCoal [1] := by
  obtain ⟨s, H, h1, h2, h3, _⟩ := C153_no_value_violated db2 mCoal [1] (some 1) coalData rfl (by norm_num) (organic_coal 1)
    (by rw [elementEnthalpy_eq db2 coalData.formulas (coal_list 1), partH_coal]) (by rw [burned_coal]; norm_num)
  exact ⟨s, H, h1, h2, h3⟩

end Auxi.Thermo.Props
