import Verif.ThermoAmounts
import Verif.Props.CoalStream

/-!
# Properties C97 and C98: amounts and assays of thermo packages and streams
-/
namespace Auxi.Thermo.Props
open Auxi Auxi.Thermo Auxi.Thermo.Spec
open Auxi.Chem (indexOf)

/-- The molar mass of a compound as the stoichiometry module reports it; 0 if the call fails. -/
noncomputable def molar (c : Str) : ℝ := match Stoich.molarMass c with
  | .ok w => (w : ℝ)
  | .error _ => 0

/-- All compounds of the material have a molar mass other than zero. -/
def Weighed (m : Material) : Prop := ∀ c ∈ m.compounds, molar c ≠ 0

theorem amountOf_eq {c : Str} (h : molar c ≠ 0) (x : ℝ) : amountOf c (some x) = .ok (some (x / molar c)) := by
  unfold amountOf molar at *
  split at h
  · rename_i w hw
    rw [hw]
    dsimp only
    change Except.ok (if (w : ℝ) = 0 then none else some (x / (w : ℝ))) = _
    rw [if_neg h]
  · exact (h rfl).elim

theorem compoundAmount_rep {p : Package} {g : Str → ℝ} (hr : Rep p.mat p.masses g) {c : Str} (hc : c ∈ p.mat.compounds) (hw : molar c ≠ 0) :
    p.compoundAmount c = .ok (some (g c / molar c)) := by
  unfold Package.compoundAmount
  rw [hr.entry hc]
  exact amountOf_eq hw _

theorem amountLoop_rep {p : Package} {g : Str → ℝ} (hr : Rep p.mat p.masses g) (hw : Weighed p.mat) (cs : List Str) (hcs : ∀ c ∈ cs, c ∈ p.mat.compounds) (acc : ℝ) :
    p.amountLoop cs (some acc) = .ok (some (acc + (cs.map (fun c => g c / molar c)).sum)) := by
  induction cs generalizing acc with
  | nil => simp [Package.amountLoop]
  | cons c cs ih =>
    unfold Package.amountLoop
    rw [compoundAmount_rep hr (hcs c (by simp)) (hw c (hcs c (by simp)))]
    dsimp only
    change p.amountLoop cs (some (acc + g c / molar c)) = _
    rw [ih (fun c hc => hcs c (by simp [hc]))]
    simp only [List.map_cons, List.sum_cons]
    rw [add_assoc]

theorem amountsLoop_rep {m : Material} (hn : m.compounds.Nodup) (hw : Weighed m) (cs : List Str) (hcs : ∀ c ∈ cs, c ∈ m.compounds) (hd : cs.Nodup) (a : List V) (g : Str → ℝ)
    (hr : Rep m a g) : ∃ b, amountsLoop m cs a = .ok b ∧ Rep m b (fun c => if c ∈ cs then g c / molar c else g c) := by
  induction cs generalizing a g with
  | nil => exact ⟨a, rfl, by simpa using hr⟩
  | cons c cs ih =>
    obtain ⟨i, i1, i2⟩ := index_mem (hcs c (by simp))
    unfold amountsLoop
    rw [i1]
    dsimp only
    rw [hr.at i2]
    dsimp only
    rw [amountOf_eq (hw c (hcs c (by simp)))]
    dsimp only
    obtain ⟨b, b1, b2⟩ := ih (fun c hc => hcs c (by simp [hc])) (List.nodup_cons.1 hd).2 _ _ (hr.set hn i2 (g c / molar c))
    refine ⟨b, b1, ?_⟩
    have : (fun d => if d ∈ cs then Function.update g c (g c / molar c) d / molar d else Function.update g c (g c / molar c) d) =
        (fun d => if d ∈ c :: cs then g d / molar d else g d) := by
      funext d
      have hnc := (List.nodup_cons.1 hd).1
      by_cases hdc : d = c
      · subst hdc
        rw [if_neg hnc, if_pos (by simp), Function.update_self]
      · rw [Function.update_of_ne hdc]
        by_cases hdm : d ∈ cs
        · rw [if_pos hdm, if_pos (by simp [hdm])]
        · rw [if_neg hdm, if_neg (by simp [hdc, hdm])]
    rw [this] at b2
    exact b2

/-- **C97 (one compound).** The amount of a compound, times its molar mass, is its mass. -/
theorem C97_compound (p : Package) (hp : Sound p) (c : Str) (hc : c ∈ p.mat.compounds) (hw : molar c ≠ 0) :
    ∃ n : ℝ, p.compoundAmount c = .ok (some n) ∧ n * molar c = content p c :=
  ⟨_, compoundAmount_rep hp.rep hc hw, div_mul_cancel₀ _ hw⟩

/-- **C97 (total).** The amount of a package is the sum of its compounds' masses, each divided by the molar mass. -/
theorem C97_total (p : Package) (hp : Sound p) (hw : Weighed p.mat) : p.amount = .ok (some (p.mat.compounds.map (fun c => content p c / molar c)).sum) := by
  unfold Package.amount
  rw [amountLoop_rep hp.rep hw _ (fun _ h => h), zero_add]

/-- **C97 (list).** The list of amounts has, in the order of the compounds, what `get_compound_amount` gives for each. -/
theorem C97_list (p : Package) (hp : Sound p) (hw : Weighed p.mat) : ∃ l, p.compoundAmounts = .ok l ∧ l.length = p.mat.compounds.length ∧
    ∀ (i : ℕ) (c : Str), p.mat.compounds[i]? = some c → ∃ n, l[i]? = some n ∧ p.compoundAmount c = .ok n := by
  obtain ⟨l, h1, h2⟩ := amountsLoop_rep hp.distinct hw p.mat.compounds (fun _ h => h) hp.distinct p.masses _ hp.rep
  refine ⟨l, h1, by rw [h2]; simp, ?_⟩
  intro i c hi
  have hc : c ∈ p.mat.compounds := List.mem_of_getElem? hi
  refine ⟨some (content p c / molar c), ?_, compoundAmount_rep hp.rep hc (hw c hc)⟩
  rw [h2, List.map_map, List.getElem?_map, hi]
  simp [hc]

theorem amount_rep {p : Package} {g : Str → ℝ} (hr : Rep p.mat p.masses g) (hw : Weighed p.mat) : p.amount = .ok (some (p.mat.compounds.map (fun c => g c / molar c)).sum) := by
  unfold Package.amount
  rw [amountLoop_rep hr hw _ (fun _ h => h), zero_add]

/-- **C97 (mixing).** Amounts add up when packages are mixed. -/
theorem C97_mixing (db : Db) (p q r : Package) (hp : Sound p) (hq : Sound q) (hm : q.mat = p.mat) (hw : Weighed p.mat) (h : p.add db (.pkg q) = .ok r) :
    ∃ a b : ℝ, p.amount = .ok (some a) ∧ q.amount = .ok (some b) ∧ r.amount = .ok (some (a + b)) := by
  have hq' : Rep p.mat q.masses (content q) := hm ▸ hq.rep
  have hl : p.masses.length = q.masses.length := by
    rw [show p.masses = _ from hp.rep, show q.masses = _ from hq']; simp
  obtain ⟨r1, r2, _⟩ := add_same_eq hm hl h
  obtain ⟨s, hs, hs'⟩ := hp.rep.add hq'
  have es : s = r.masses := by
    unfold arrAdd at hs
    rw [if_pos hl] at hs
    rw [r2]; exact (Except.ok.inj hs).symm
  rw [es, ← r1] at hs'
  refine ⟨_, _, C97_total p hp hw, C97_total q hq (hm ▸ hw), ?_⟩
  rw [amount_rep hs' (r1 ▸ hw), r1, hm, ← List.sum_map_add]
  congr 2
  refine congrArg List.sum (List.map_congr_left fun c _ => ?_)
  rw [add_div]

/-- **C97 (splitting).** Amounts add up when a package is split. -/
theorem C97_splitting (db : Db) (p part rest : Package) (x : ℝ) (hp : Sound p) (h0 : totalMass p ≠ 0) (hw : Weighed p.mat)
    (h : p.extract db (.num true (some x)) = (.ok part, rest)) :
    ∃ a b : ℝ, rest.amount = .ok (some a) ∧ part.amount = .ok (some b) ∧ p.amount = .ok (some (a + b)) ∧ ∃ n, p.amount = .ok (some n) ∧ b * totalMass p = x * n := by
  change p.extractMass db (some x) = _ at h
  unfold Package.extractMass at h
  split at h
  · cases h
  · dsimp only at h
    have hfr : vdiv (some x) p.mass = some (x / totalMass p) := by
      rw [totalMass_rep hp]; exact if_neg h0
    rw [hfr] at h
    split at h
    · cases h
    · rename_i r hn
      have e1 : part.mat = p.mat ∧ part.masses = p.masses.map (fun y => vmul y (some (x / totalMass p))) := by
        have hr : r = part := by
          unfold settle at h
          split at h
          · cases h
          · cases h; rfl
        rw [← hr]
        unfold newPackage at hn
        dsimp only at hn
        split at hn
        · split at hn
          · cases hn
          · cases hn; exact ⟨rfl, rfl⟩
        · cases hn; exact ⟨rfl, rfl⟩
      have e2 : rest.mat = p.mat ∧ rest.masses = p.masses.map (fun y => vmul y (vsub (some 1) (some (x / totalMass p)))) := by
        unfold settle Package.setT at h
        dsimp only at h
        split at h
        · cases h
        · rename_i p' heq
          split at heq
          · cases heq
          · cases heq; cases h; exact ⟨rfl, rfl⟩
      have r1 : Rep part.mat part.masses (fun c => content p c * (x / totalMass p)) := by
        rw [e1.1, e1.2]; exact hp.rep.scale _
      have r2 : Rep rest.mat rest.masses (fun c => content p c * (1 - x / totalMass p)) := by
        rw [e2.1, e2.2]; exact hp.rep.scale _
      have k : ∀ f : ℝ, (p.mat.compounds.map (fun c => content p c * f / molar c)).sum = (p.mat.compounds.map (fun c => content p c / molar c)).sum * f := by
        intro f
        rw [← List.sum_map_mul_right]
        exact congrArg List.sum (List.map_congr_left fun c _ => by ring)
      refine ⟨_, _, amount_rep r2 (e2.1 ▸ hw), amount_rep r1 (e1.1 ▸ hw), ?_, _, C97_total p hp hw, ?_⟩
      · rw [C97_total p hp hw, e1.1, e2.1, k, k]
        congr 2; ring
      · rw [e1.1, k]
        field_simp

theorem afrLoop_pkg (s : Stream) (cs : List Str) (acc : V) : s.afrLoop cs acc = (toPkg s).amountLoop cs acc := by
  induction cs generalizing acc with
  | nil => rfl
  | cons c cs ih =>
    unfold Stream.afrLoop Package.amountLoop
    rw [show s.compoundAfr c = (toPkg s).compoundAmount c from rfl]
    cases (toPkg s).compoundAmount c with
    | error e => rfl
    | ok n => exact ih _

/-- **C97 (streams).** The amount flow rates of a stream, coal or not, are its mass flow rates divided by the molar masses. -/
theorem C97_stream (s : Stream) (hd : s.mat.compounds.Nodup) (hf : ∃ ms : List ℝ, s.mfrs = ms.map some ∧ ms.length = s.mat.compounds.length) (hw : Weighed s.mat) :
    (∀ c ∈ s.mat.compounds, ∃ n : ℝ, s.compoundAfr c = .ok (some n) ∧ n * molar c = flow s c) ∧
    s.afr = .ok (some (s.mat.compounds.map (fun c => flow s c / molar c)).sum) ∧
    ∃ l, s.compoundAfrs = .ok l ∧ l.length = s.mat.compounds.length ∧ ∀ (i : ℕ) (c : Str), s.mat.compounds[i]? = some c → ∃ n, l[i]? = some n ∧ s.compoundAfr c = .ok n := by
  obtain ⟨ms, h1, h2⟩ := hf
  obtain ⟨g, hg⟩ := rep_of_list hd h1 h2
  have hr : Rep (toPkg s).mat (toPkg s).masses g := hg
  have hfl : ∀ c ∈ s.mat.compounds, flow s c = g c := fun c hc => Rep.content (p := toPkg s) hr hc
  refine ⟨?_, ?_, ?_⟩
  · intro c hc
    refine ⟨_, compoundAmount_rep hr hc (hw c hc), ?_⟩
    rw [div_mul_cancel₀ _ (hw c hc), hfl c hc]
  · unfold Stream.afr
    rw [afrLoop_pkg, amountLoop_rep hr hw s.mat.compounds (fun _ h => h), zero_add]
    congr 2
    exact congrArg List.sum (List.map_congr_left fun c hc => by rw [hfl c hc])
  · obtain ⟨l, k1, k2⟩ := amountsLoop_rep hd hw s.mat.compounds (fun _ h => h) hd s.mfrs _ hg
    refine ⟨l, k1, by rw [k2]; simp, ?_⟩
    intro i c hi
    have hc : c ∈ s.mat.compounds := List.mem_of_getElem? hi
    refine ⟨some (g c / molar c), ?_, compoundAmount_rep hr hc (hw c hc)⟩
    rw [k2, List.map_map, List.getElem?_map, hi]
    simp [hc]

/-! ## C98: assays -/

theorem assay_rep {m : Material} {a : List V} {g : Str → ℝ} (hr : Rep m a g) (h0 : (m.compounds.map g).sum ≠ 0) :
    a.map (fun x => vdiv x (vsum a)) = m.compounds.map (fun c => some (g c / (m.compounds.map g).sum)) := by
  rw [hr.sum, show a = (m.compounds.map g).map some from hr, List.map_map, List.map_map]
  refine List.map_congr_left fun c _ => ?_
  change (if (m.compounds.map g).sum = 0 then none else some (g c / (m.compounds.map g).sum)) = _
  rw [if_neg h0]

/-- **C98 (packages).** The assay of a package of non-zero mass lists the mass fractions of its compounds; they sum to one. -/
theorem C98_package (p : Package) (hp : Sound p) (h0 : totalMass p ≠ 0) : ∃ f : List ℝ, p.assay = f.map some ∧ f.sum = 1 ∧
    ∀ (i : ℕ) (c : Str), p.mat.compounds[i]? = some c → ∃ x, f[i]? = some x ∧ x * totalMass p = content p c := by
  refine ⟨p.mat.compounds.map (fun c => content p c / totalMass p), ?_, ?_, ?_⟩
  · unfold Package.assay
    rw [assay_rep hp.rep h0, List.map_map]
    rfl
  · have : (fun c => content p c / totalMass p) = (fun c => content p c * (totalMass p)⁻¹) := by funext c; rw [div_eq_mul_inv]
    rw [this, List.sum_map_mul_right]
    exact mul_inv_cancel₀ h0
  · intro i c hi
    rw [List.getElem?_map, hi]
    exact ⟨_, rfl, div_mul_cancel₀ _ h0⟩

/-- **C98 (streams).** The same for a stream of non-zero flow rate, coal or not. -/
theorem C98_stream (s : Stream) (hd : s.mat.compounds.Nodup) (hf : ∃ ms : List ℝ, s.mfrs = ms.map some ∧ ms.length = s.mat.compounds.length) (h0 : totalFlow s ≠ 0) :
    ∃ f : List ℝ, s.assay = f.map some ∧ f.sum = 1 ∧
    ∀ (i : ℕ) (c : Str), s.mat.compounds[i]? = some c → ∃ x, f[i]? = some x ∧ x * totalFlow s = flow s c := by
  obtain ⟨ms, h1, h2⟩ := hf
  obtain ⟨g, hg⟩ := rep_of_list hd h1 h2
  have hfl : ∀ c ∈ s.mat.compounds, flow s c = g c := fun c hc => Rep.content (p := toPkg s) hg hc
  have hg' : Rep s.mat s.mfrs (flow s) := by
    change s.mfrs = _
    rw [show s.mfrs = _ from hg, List.map_map, List.map_map]
    exact List.map_congr_left fun c hc => by simp [hfl c hc]
  refine ⟨s.mat.compounds.map (fun c => flow s c / totalFlow s), ?_, ?_, ?_⟩
  · unfold Stream.assay
    rw [assay_rep hg' h0, List.map_map]
    rfl
  · have : (fun c => flow s c / totalFlow s) = (fun c => flow s c * (totalFlow s)⁻¹) := by funext c; rw [div_eq_mul_inv]
    rw [this, List.sum_map_mul_right]
    exact mul_inv_cancel₀ h0
  · intro i c hi
    rw [List.getElem?_map, hi]
    exact ⟨_, rfl, div_mul_cancel₀ _ h0⟩

/-! ## Examples -/

/-- Two kilograms of carbon and `x` of water at `t` °C. -/
noncomputable def pEx (x t : ℝ) : Package := ⟨mWet, [some 2, some x], some 1, some t, some 0, false, none⟩
theorem pEx_sound (x t : ℝ) : Sound (pEx x t) := ⟨by simp [pEx, mWet], by simp only [pEx, mWet]; decide +kernel, ⟨[2, x], rfl, rfl⟩, ⟨t, rfl⟩, rfl⟩
theorem molar_C : molar "C[S]".toList = 12.0107 := by
  unfold molar
  rw [show Stoich.molarMass "C[S]".toList = .ok (120107 / 10000) by decide +kernel]
  norm_num
theorem molar_H2O : molar "H2O[L]".toList = 18.01528 := by
  unfold molar
  rw [show Stoich.molarMass "H2O[L]".toList = .ok (1801528 / 100000) by decide +kernel]
  norm_num
theorem weighed_mWet : Weighed mWet := by
  intro c hc
  simp only [mWet, List.mem_cons, List.not_mem_nil, or_false] at hc
  rcases hc with rfl | rfl
  · rw [molar_C]; norm_num
  · rw [molar_H2O]; norm_num
theorem pEx_total (x t : ℝ) : totalMass (pEx x t) = 2 + x := by
  have h := (pEx_sound x t).rep.sum
  change some (0 + 2 + x) = some (totalMass (pEx x t)) at h
  rw [zero_add] at h
  exact (Option.some.inj h).symm

example : ∃ n : ℝ, (pEx 3 25).compoundAmount "C[S]".toList = .ok (some n) ∧ n * 12.0107 = content (pEx 3 25) "C[S]".toList := by
  rw [← molar_C]
  exact C97_compound _ (pEx_sound 3 25) _ (by simp [pEx, mWet]) (weighed_mWet _ (by simp [mWet]))
example : (∃ v, (pEx 3 25).amount = .ok (some v)) ∧ ∃ l, (pEx 3 25).compoundAmounts = .ok l ∧ l.length = 2 := by
  obtain ⟨l, h1, h2, _⟩ := C97_list _ (pEx_sound 3 25) weighed_mWet
  exact ⟨⟨_, C97_total _ (pEx_sound 3 25) weighed_mWet⟩, l, h1, h2⟩
example : ∃ r, ∃ a b : ℝ, (pEx 3 100).add db2 (.pkg (pEx 1 20)) = .ok r ∧ (pEx 3 100).amount = .ok (some a) ∧ (pEx 1 20).amount = .ok (some b) ∧ r.amount = .ok (some (a + b)) := by
  obtain ⟨r, h, _⟩ := C60_same db2 _ _ (pEx_sound 3 100) (pEx_sound 1 20) rfl wetData.known
  obtain ⟨a, b, h1, h2, h3⟩ := C97_mixing db2 _ _ r (pEx_sound 3 100) (pEx_sound 1 20) rfl weighed_mWet h
  exact ⟨r, a, b, h, h1, h2, h3⟩
example : ∃ part rest, ∃ a b : ℝ, (pEx 3 25).extract db2 (.num true (some 1)) = (.ok part, rest) ∧ rest.amount = .ok (some a) ∧ part.amount = .ok (some b) ∧
    (pEx 3 25).amount = .ok (some (a + b)) := by
  have hrep : Rep (pEx 3 25).mat (pEx 3 25).masses (content (pEx 3 25)) := (pEx_sound 3 25).rep
  have hcont : ∀ c ∈ mWet.compounds, content (pEx 3 25) c = if c = "C[S]".toList then 2 else 3 := by
    have := hrep
    change [some (2:ℝ), some 3] = [some (content (pEx 3 25) "C[S]".toList), some (content (pEx 3 25) "H2O[L]".toList)] at this
    injection this with h1 h2
    injection h2 with h2 _
    intro c hc
    simp only [mWet, List.mem_cons, List.not_mem_nil, or_false] at hc
    rcases hc with rfl | rfl
    · rw [if_pos rfl]; exact (Option.some.inj h1).symm
    · rw [if_neg (by decide)]; exact (Option.some.inj h2).symm
  have hnn : NonNeg (pEx 3 25) := by
    intro c
    by_cases hc : c ∈ mWet.compounds
    · rw [hcont c hc]; split <;> norm_num
    · rw [content_absent (p := pEx 3 25) hc]
  have hcons : Consistent db2 (pEx 3 25) := by
    refine ⟨25, rfl, ?_⟩
    have : enthalpyAt db2 (pEx 3 25) 25 = 0 := by
      have h0 : ∀ c ∈ mWet.compounds, content (pEx 3 25) c * unitH db2 c 25 = 0 := by
        intro c hc
        simp only [mWet, List.mem_cons, List.not_mem_nil, or_false] at hc
        rcases hc with rfl | rfl
        · rw [unit_C, mul_zero]
        · rw [unit_H2O, mul_zero]
      unfold enthalpyAt
      rw [List.map_congr_left (l := (pEx 3 25).mat.compounds) h0]
      simp
    rw [this]; rfl
  obtain ⟨part, rest, h, _⟩ := C61_mass db2 _ (pEx_sound 3 25) hnn hcons wetData.known 1 (by norm_num) (by rw [pEx_total]; norm_num) (by rw [pEx_total]; norm_num)
  obtain ⟨a, b, h1, h2, h3, _⟩ := C97_splitting db2 _ part rest 1 (pEx_sound 3 25) (by rw [pEx_total]; norm_num) weighed_mWet h
  exact ⟨part, rest, a, b, h, h1, h2, h3⟩
example : ∃ f : List ℝ, (pEx 3 25).assay = f.map some ∧ f.sum = 1 := by
  obtain ⟨f, h1, h2, _⟩ := C98_package _ (pEx_sound 3 25) (by rw [pEx_total]; norm_num)
  exact ⟨f, h1, h2⟩

example : (⟨mWet, [some 1, some 2], some 1, some 25, some 0, true, none, none⟩ : Stream).afr = .ok (some (1 / 12.0107 + (2 / 18.01528 + 0))) := by
  have hrep : Rep mWet [some 1, some 2] (fun c => if c = "C[S]".toList then 1 else 2) := by
    change [some (1:ℝ), some 2] = [some (if "C[S]".toList = "C[S]".toList then 1 else 2), some (if "H2O[L]".toList = "C[S]".toList then 1 else 2)]
    rw [if_pos rfl, if_neg (by decide)]
  have h := (C97_stream (⟨mWet, [some 1, some 2], some 1, some 25, some 0, true, none, none⟩ : Stream) wetData.distinct ⟨[1, 2], rfl, rfl⟩ weighed_mWet).2.1
  rw [h]
  have hc : ∀ c ∈ mWet.compounds, flow (⟨mWet, [some 1, some 2], some 1, some 25, some 0, true, none, none⟩ : Stream) c = if c = "C[S]".toList then 1 else 2 :=
    fun c hc => Rep.content (p := toPkg ⟨mWet, [some 1, some 2], some 1, some 25, some 0, true, none, none⟩) hrep hc
  congr 2
  rw [List.map_congr_left (l := mWet.compounds) (fun c h => by rw [hc c h])]
  simp only [mWet, List.map_cons, List.map_nil, List.sum_cons, List.sum_nil]
  rw [if_pos trivial, if_neg (by decide), molar_C, molar_H2O]
example : ∃ f : List ℝ, (⟨mWet, [some 2, some 3], some 1, some 25, some 0, true, none, none⟩ : Stream).assay = f.map some ∧ f.sum = 1 := by
  obtain ⟨f, h1, h2, _⟩ := C98_stream (⟨mWet, [some 2, some 3], some 1, some 25, some 0, true, none, none⟩ : Stream) wetData.distinct ⟨[2, 3], rfl, rfl⟩ (by
    change totalMass (pEx 3 25) ≠ 0
    rw [pEx_total]; norm_num)
  exact ⟨f, h1, h2⟩

end Auxi.Thermo.Props
