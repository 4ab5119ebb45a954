import Verif.Props.SlagsMore

/-!
# Property C84 (Riboud's formula written out): which oxide counts as what
-/
namespace Auxi.Phys.Props
open Auxi Auxi.Phys
open Auxi.Stoich (CDict)

/-- The single-cation amount of an oxide with two cations: twice the amount listed under the usual name, or what is listed under the single-cation name. -/
def cations (x : CDict) (double single : String) : ℚ := match x.lookup double.toList with
  | some v => 2 * v
  | none => entry x single

/-- The network formers of Riboud's model. -/
def formers (x : CDict) : ℚ := entry x "SiO2" + cations x "P2O5" "PO2.5" + entry x "TiO2" + entry x "ZrO2"
/-- The oxides counted as lime. -/
def limes (x : CDict) : ℚ :=
  entry x "CaO" + entry x "MgO" + cations x "Fe2O3" "FeO1.5" + entry x "FeO" + entry x "MnO" + cations x "B2O3" "BO1.5"
/-- The alkalis. -/
def alkalis (x : CDict) : ℚ := entry x "Na2O" + entry x "K2O"

/-- **C84** (Riboud, formula): over the total of the oxides of the model, with `C` the fraction of those counted as lime, `A` of alumina, `F` of fluorspar and `N` of the
alkalis (the rest being network formers), the viscosity is
`exp(-17.51 + 1.73 C + 5.82 F + 7.02 N - 33.76 A) · T · exp((31140 - 23896 C - 46356 F - 39159 N + 68833 A) / T) / 10`. -/
theorem C84_riboud_formula {T : ℝ} (hT : T ≠ 0) {x : CDict} {t : ℚ}
    (ht : t = formers x + limes x + entry x "Al2O3" + entry x "CaF2" + alkalis x) (h0 : t ≠ 0) {C A F N : ℝ} (hC : C = (limes x / t : ℚ))
    (hA : A = (entry x "Al2O3" / t : ℚ)) (hF : F = (entry x "CaF2" / t : ℚ)) (hN : N = (alkalis x / t : ℚ)) :
    (riboudTx (tx T x)).1 = .ok (Real.exp (-17.51 + 1.73 * C + 5.82 * F + 7.02 * N - 33.76 * A) * T *
      Real.exp ((31140 - 23896 * C - 46356 * F - 39159 * N + 68833 * A) / T) / 10) := by
  have hP : get (riboudDict x) "PO2.5" = cations x "P2O5" "PO2.5" := by
    unfold get cations
    rw [lookup_riboudDict, if_neg (c := _ = "FeO1.5".toList ∧ _) (by rintro ⟨h, -⟩; exact absurd h (by decide)),
      if_neg (c := _ = "BO1.5".toList ∧ _) (by rintro ⟨h, -⟩; exact absurd h (by decide))]
    cases h : x.lookup "P2O5".toList with
    | none => rw [if_neg (by simp)]; exact get_entry x "PO2.5"
    | some v => rw [if_pos (by simp)]; rfl
  have hFe : get (riboudDict x) "FeO1.5" = cations x "Fe2O3" "FeO1.5" := by
    unfold get cations
    rw [lookup_riboudDict, if_neg (c := _ = "PO2.5".toList ∧ _) (by rintro ⟨h, -⟩; exact absurd h (by decide)),
      if_neg (c := _ = "BO1.5".toList ∧ _) (by rintro ⟨h, -⟩; exact absurd h (by decide))]
    cases h : x.lookup "Fe2O3".toList with
    | none => rw [if_neg (by simp)]; exact get_entry x "FeO1.5"
    | some v => rw [if_pos (by simp)]; rfl
  have hB : get (riboudDict x) "BO1.5" = cations x "B2O3" "BO1.5" := by
    unfold get cations
    rw [lookup_riboudDict, if_neg (c := _ = "PO2.5".toList ∧ _) (by rintro ⟨h, -⟩; exact absurd h (by decide)),
      if_neg (c := _ = "FeO1.5".toList ∧ _) (by rintro ⟨h, -⟩; exact absurd h (by decide))]
    cases h : x.lookup "B2O3".toList with
    | none => rw [if_neg (by simp)]; exact get_entry x "BO1.5"
    | some v => rw [if_pos (by simp)]; rfl
  have g : ∀ c ∈ riboudOxides, get (riboudDict x) c = entry x c := fun c hc => (riboudDict_get hc).trans (get_entry x c)
  have s2 : sumOf (riboudDict x) cCaO = limes x := by
    simp only [sumOf, cCaO, List.map_cons, List.map_nil, List.sum_cons, List.sum_nil, hFe, hB, g "CaO" (by decide), g "MgO" (by decide),
      g "FeO" (by decide), g "MnO" (by decide), limes]
    ring
  have s3 : sumOf (riboudDict x) ["Al2O3"] = entry x "Al2O3" := by simp [sumOf, g "Al2O3" (by decide)]
  have s4 : sumOf (riboudDict x) ["CaF2"] = entry x "CaF2" := by simp [sumOf, g "CaF2" (by decide)]
  have s5 : sumOf (riboudDict x) ["Na2O", "K2O"] = alkalis x := by simp [sumOf, g "Na2O" (by decide), g "K2O" (by decide), alkalis]
  have s1 : sumOf (riboudDict x) cSiO2 = formers x := by
    simp only [sumOf, cSiO2, List.map_cons, List.map_nil, List.sum_cons, List.sum_nil, hP, g "SiO2" (by decide), g "TiO2" (by decide),
      g "ZrO2" (by decide), formers]
    ring
  have st : sumOf (riboudDict x) cAll = t := by
    rw [ht, ← s1, ← s2, ← s3, ← s4, ← s5]
    simp only [sumOf, cAll, List.map_append, List.sum_append]
  rw [riboudTx_eq]
  unfold riboud
  simp only
  rw [st, if_neg h0, s2, s3, s4, s5, if_neg hT, ← hC, ← hA, ← hF, ← hN]

example : (riboudTx (tx 1600 [("SiO2".toList, 3 / 10), ("CaO".toList, 1 / 5), ("P2O5".toList, 1 / 4)])).1 =
    .ok (Real.exp (-17.51 + 1.73 * (1 / 5) + 5.82 * 0 + 7.02 * 0 - 33.76 * 0) * 1600 *
      Real.exp ((31140 - 23896 * (1 / 5) - 46356 * 0 - 39159 * 0 + 68833 * 0) / 1600) / 10) := by
  refine C84_riboud_formula (t := 1) (by norm_num) (by decide +kernel) (by norm_num) ?_ ?_ ?_ ?_
  · rw [show limes [("SiO2".toList, 3 / 10), ("CaO".toList, 1 / 5), ("P2O5".toList, 1 / 4)] / 1 = 1 / 5 by decide +kernel]; norm_num
  · rw [show entry [("SiO2".toList, 3 / 10), ("CaO".toList, 1 / 5), ("P2O5".toList, 1 / 4)] "Al2O3" / 1 = 0 by decide +kernel]; norm_num
  · rw [show entry [("SiO2".toList, 3 / 10), ("CaO".toList, 1 / 5), ("P2O5".toList, 1 / 4)] "CaF2" / 1 = 0 by decide +kernel]; norm_num
  · rw [show alkalis [("SiO2".toList, 3 / 10), ("CaO".toList, 1 / 5), ("P2O5".toList, 1 / 4)] / 1 = 0 by decide +kernel]; norm_num

end Auxi.Phys.Props
