import Verif.Spec.Thermo
import Verif.Proofs.Chem
import Verif.Props.ThermoChem
import Mathlib.Algebra.BigOperators.Ring.List
import Mathlib.Algebra.Order.BigOperators.Group.List

/-!
# Lemmas about thermo packages
-/
namespace Auxi.Thermo
open Auxi.Thermo.Spec
open Auxi.Chem (indexOf indexOf_mem indexOf_some indexOf_none indexOf_nodup)

/-! ### The enthalpy function -/

theorem phase_H_defined {p : ThermoChem.Phase} {T T' h : ℝ} (hh : p.H T = .ok h) : ∃ h', p.H T' = .ok h' := by
  by_cases hr : p.records = []
  · exfalso
    unfold ThermoChem.Phase.H at hh
    rw [hr] at hh
    simp [ThermoChem.sortRecords, ThermoChem.hLoop] at hh
  · exact (ThermoChem.Props.C71_defined p T' hr).1

theorem H_defined {db : Db} {c : Str} {T m h : ℝ} (hh : ThermoChem.H db c T m = .ok h) (T' : ℝ) : ∃ u, ∀ m', ThermoChem.H db c T' m' = .ok (u * m') := by
  rcases ThermoChem.Props.C73_linear_of ThermoChem.Phase.H db c T' with h1 | ⟨e, h1⟩
  · exact h1
  · exfalso
    have he := h1 m
    unfold ThermoChem.H ThermoChem.evaluate at hh
    unfold ThermoChem.evaluate at he
    cases hs : ThermoChem.splitCompound c with
    | error e => rw [hs] at hh; cases hh
    | ok fp =>
      obtain ⟨f, ph⟩ := fp
      rw [hs] at hh he
      dsimp only at hh he
      cases hd : db.lookup f with
      | none => rw [hd] at hh; cases hh
      | some cc =>
        rw [hd] at hh he
        dsimp only [ThermoChem.Compound.prop] at hh he
        cases hp : cc.phases.lookup ph with
        | none => rw [hp] at hh; cases hh
        | some p =>
          rw [hp] at hh he
          dsimp only at hh he
          cases hH : p.H (T + 273.15) with
          | error e => rw [hH] at hh; cases hh
          | ok x =>
            obtain ⟨x', hx'⟩ := phase_H_defined (T' := T' + 273.15) hH
            rw [hH] at hh
            rw [hx'] at he
            dsimp only [ThermoChem.finalise] at hh he
            split at hh
            · cases hh
            · rename_i hne; rw [if_neg hne] at he; cases he

theorem H_known {db : Db} {m : Material} (hk : Known db m) {c : Str} (hc : c ∈ m.compounds) (T x : ℝ) :
    ThermoChem.H db c T x = .ok (x * unitH db c T) := by
  obtain ⟨h, hh⟩ := hk c hc
  obtain ⟨u, hu⟩ := H_defined hh T
  have : unitH db c T = u := by unfold unitH; rw [hu 1]; simp
  rw [hu x, this, mul_comm]

theorem thermoH_known {db : Db} {m : Material} (hk : Known db m) {c : Str} (hc : c ∈ m.compounds) (T x : ℝ) :
    thermoH db c (some T) (some x) = .ok (some (x * unitH db c T)) := by
  unfold thermoH
  simp only [Option.getD_some]
  rw [H_known hk hc]

theorem thermoH_defined {db : Db} {m : Material} (hk : Known db m) {c : Str} (hc : c ∈ m.compounds) (T x : V) : ∃ v, thermoH db c T x = .ok v := by
  unfold thermoH
  rw [H_known hk hc]
  exact ⟨_, rfl⟩

/-! ### Arrays -/

theorem vsum_some (l : List ℝ) (a : ℝ) : (l.map some).foldl vadd (some a) = some (a + l.sum) := by
  induction l generalizing a with
  | nil => simp
  | cons x l ih => simp only [List.map_cons, List.foldl_cons, List.sum_cons]; rw [show vadd (some a) (some x) = some (a + x) from rfl, ih]; congr 1; ring

theorem vsum_map (l : List ℝ) : vsum (l.map some) = some l.sum := by unfold vsum; rw [vsum_some]; simp

/-- The array holds `g c` for each compound `c`. -/
def Rep (m : Material) (a : List V) (g : Str → ℝ) : Prop := a = (m.compounds.map g).map some

theorem Rep.entry {m : Material} {a : List V} {g : Str → ℝ} (h : Rep m a g) {c : Str} (hc : c ∈ m.compounds) : entry m a c = .ok (some (g c)) := by
  obtain ⟨i, hi, hlt⟩ := indexOf_mem hc
  have := indexOf_some hi
  unfold Thermo.entry Material.index
  rw [hi, h]
  simp [this]

theorem Rep.content {p : Package} {g : Str → ℝ} (h : Rep p.mat p.masses g) {c : Str} (hc : c ∈ p.mat.compounds) : content p c = g c := by
  unfold Spec.content Package.compoundMass
  rw [if_pos hc, h.entry hc]

theorem content_absent {p : Package} {c : Str} (hc : c ∉ p.mat.compounds) : content p c = 0 := by
  unfold content Package.compoundMass
  rw [if_neg hc]

theorem rep_of_list {m : Material} {a : List V} {ms : List ℝ} (hn : m.compounds.Nodup) (ha : a = ms.map some) (hl : ms.length = m.compounds.length) :
    ∃ g, Rep m a g := by
  refine ⟨fun c => ((indexOf m.compounds c).bind (ms[·]?)).getD 0, ?_⟩
  unfold Rep
  rw [ha]
  congr 1
  refine List.ext_getElem? (fun i => ?_)
  rw [List.getElem?_map]
  by_cases hi : i < m.compounds.length
  · have h1 : m.compounds[i]? = some m.compounds[i] := List.getElem?_eq_getElem hi
    have h2 : ms[i]? = some ms[i] := List.getElem?_eq_getElem (hl ▸ hi)
    rw [h1, Option.map_some, indexOf_nodup hn h1]
    simp [h2]
  · rw [List.getElem?_eq_none (by omega), List.getElem?_eq_none (by omega)]; rfl

theorem _root_.Auxi.Thermo.Spec.Sound.rep {p : Package} (h : Sound p) : Rep p.mat p.masses (content p) := by
  obtain ⟨ms, h1, h2⟩ := h.finite
  obtain ⟨g, hg⟩ := rep_of_list h.distinct h1 h2
  unfold Rep at hg ⊢
  rw [hg]
  congr 1
  exact List.map_congr_left (fun c hc => (Rep.content (p := p) hg hc).symm)

theorem Rep.sound {p : Package} {g : Str → ℝ} (h : Rep p.mat p.masses g) (h0 : p.mat.compounds ≠ []) (h1 : p.mat.compounds.Nodup)
    (h2 : ∃ t, p.T = some t) (h3 : p.isCoal = false) : Sound p :=
  ⟨h0, h1, ⟨_, h, by simp⟩, h2, h3⟩

theorem Rep.sum {m : Material} {a : List V} {g : Str → ℝ} (h : Rep m a g) : vsum a = some (m.compounds.map g).sum := by rw [h, vsum_map]

theorem Rep.add {m : Material} {a b : List V} {g k : Str → ℝ} (ha : Rep m a g) (hb : Rep m b k) :
    ∃ s, arrAdd a b = .ok s ∧ Rep m s (fun c => g c + k c) := by
  unfold arrAdd
  rw [if_pos (by rw [ha, hb]; simp)]
  refine ⟨_, rfl, ?_⟩
  unfold Rep
  rw [ha, hb]
  generalize m.compounds = l
  induction l with
  | nil => rfl
  | cons c l ih => simp only [List.map_cons, List.zipWith_cons_cons, ih]; rfl

theorem Rep.scale {m : Material} {a : List V} {g : Str → ℝ} (h : Rep m a g) (k : ℝ) : Rep m (a.map (fun x => vmul x (some k))) (fun c => g c * k) := by
  unfold Rep
  rw [h]
  simp [List.map_map, Function.comp_def, vmul]

theorem map_set_update {l : List Str} (hn : l.Nodup) {c : Str} {i : ℕ} (hi : indexOf l c = some i) (g : Str → ℝ) (v : ℝ) :
    (l.map g).set i v = l.map (Function.update g c v) := by
  have h1 := indexOf_some hi
  refine List.ext_getElem? (fun j => ?_)
  rw [List.getElem?_set, List.getElem?_map, List.getElem?_map, List.length_map]
  by_cases hj : i = j
  · subst hj
    have : i < l.length := by
      by_contra hc
      rw [List.getElem?_eq_none (by omega)] at h1; cases h1
    rw [if_pos rfl, if_pos this, h1]
    simp
  · rw [if_neg hj]
    cases hl : l[j]? with
    | none => rfl
    | some d =>
      have : d ≠ c := by
        rintro rfl
        have := indexOf_nodup hn hl
        rw [hi] at this
        exact hj (Option.some.inj this)
      simp [Function.update_of_ne this]

theorem Rep.set {m : Material} {a : List V} {g : Str → ℝ} (hn : m.compounds.Nodup) (h : Rep m a g) {c : Str} {i : ℕ} (hi : indexOf m.compounds c = some i) (v : ℝ) :
    Rep m (a.set i (some v)) (Function.update g c v) := by
  unfold Rep
  rw [h, ← List.map_set, map_set_update hn hi]

theorem Rep.at {m : Material} {a : List V} {g : Str → ℝ} (h : Rep m a g) {c : Str} {i : ℕ} (hi : indexOf m.compounds c = some i) : a[i]? = some (some (g c)) := by
  rw [h]; simp [indexOf_some hi]

theorem Rep.empty (m : Material) : Rep m m.emptyAssay (fun _ => 0) := by
  unfold Rep Material.emptyAssay
  simp only [List.map_map]
  refine (List.eq_replicate_iff.2 ⟨by simp, ?_⟩).symm
  intro b hb
  simp at hb
  exact hb.2.symm

theorem index_mem {m : Material} {c : Str} (hc : c ∈ m.compounds) : ∃ i, m.index c = .ok i ∧ indexOf m.compounds c = some i := by
  obtain ⟨i, hi, _⟩ := indexOf_mem hc
  exact ⟨i, by unfold Material.index; rw [hi], hi⟩

/-! ### Enthalpy of the contents -/

theorem hLoop_eq {db : Db} {m : Material} (hk : Known db m) {a : List V} {g : Str → ℝ} (h : Rep m a g) (t : ℝ) (cs : List Str) (hcs : ∀ c ∈ cs, c ∈ m.compounds) (acc : ℝ) :
    hLoop db m a (some t) cs (some acc) = .ok (some (acc + (cs.map (fun c => g c * unitH db c t)).sum)) := by
  induction cs generalizing acc with
  | nil => simp [hLoop]
  | cons c cs ih =>
    unfold hLoop
    rw [h.entry (hcs c (by simp)), ]
    dsimp only
    rw [thermoH_known hk (hcs c (by simp))]
    dsimp only
    rw [show vadd (some acc) (some (g c * unitH db c t)) = some (acc + g c * unitH db c t) from rfl, ih (fun d hd => hcs d (by simp [hd]))]
    simp only [List.map_cons, List.sum_cons]
    congr 2; ring

theorem hLoop_defined {db : Db} {m : Material} (hk : Known db m) {a : List V} {g : Str → ℝ} (h : Rep m a g) (T : V) (cs : List Str) (hcs : ∀ c ∈ cs, c ∈ m.compounds) (acc : V) :
    ∃ v, hLoop db m a T cs acc = .ok v := by
  induction cs generalizing acc with
  | nil => exact ⟨_, rfl⟩
  | cons c cs ih =>
    unfold hLoop
    rw [h.entry (hcs c (by simp)), ]
    dsimp only
    obtain ⟨v, hv⟩ := thermoH_defined hk (hcs c (by simp)) T (some (g c))
    rw [hv]
    exact ih (fun d hd => hcs d (by simp [hd])) _

/-- The enthalpy of given contents. -/
noncomputable def hOf (db : Db) (m : Material) (g : Str → ℝ) (t : ℝ) : ℝ := (m.compounds.map (fun c => g c * unitH db c t)).sum

theorem hOf_congr {db : Db} {m : Material} {g k : Str → ℝ} (h : ∀ c ∈ m.compounds, g c = k c) (t : ℝ) : hOf db m g t = hOf db m k t := by
  unfold hOf; rw [List.map_congr_left (fun c hc => by rw [h c hc])]

theorem hOf_add (db : Db) (m : Material) (g k : Str → ℝ) (t : ℝ) : hOf db m (fun c => g c + k c) t = hOf db m g t + hOf db m k t := by
  unfold hOf
  rw [← List.sum_map_add]
  congr 1
  exact List.map_congr_left (fun c _ => by ring)

theorem hOf_scale (db : Db) (m : Material) (g : Str → ℝ) (k t : ℝ) : hOf db m (fun c => g c * k) t = hOf db m g t * k := by
  unfold hOf
  rw [← List.sum_map_mul_right]
  congr 1
  exact List.map_congr_left (fun c _ => by ring)

theorem hOf_zero (db : Db) (m : Material) (t : ℝ) : hOf db m (fun _ => 0) t = 0 := by unfold hOf; simp

theorem sum_update {l : List Str} (hn : l.Nodup) {c : Str} (hc : c ∈ l) (g u : Str → ℝ) (v : ℝ) :
    (l.map (fun d => Function.update g c v d * u d)).sum = (l.map (fun d => g d * u d)).sum + (v - g c) * u c := by
  induction l with
  | nil => cases hc
  | cons a l ih =>
    simp only [List.map_cons, List.sum_cons]
    rw [List.nodup_cons] at hn
    by_cases hac : a = c
    · subst hac
      have : (l.map (fun d => Function.update g a v d * u d)) = l.map (fun d => g d * u d) :=
        List.map_congr_left (fun d hd => by rw [Function.update_of_ne (by rintro rfl; exact hn.1 hd)])
      rw [this, Function.update_self]; ring
    · rw [ih hn.2 (by rcases List.mem_cons.1 hc with h | h; exacts [absurd h.symm hac, h]), Function.update_of_ne hac]; ring

theorem hOf_update {db : Db} {m : Material} (hn : m.compounds.Nodup) {c : Str} (hc : c ∈ m.compounds) (g : Str → ℝ) (v t : ℝ) :
    hOf db m (Function.update g c v) t = hOf db m g t + (v - g c) * unitH db c t := sum_update hn hc g _ v

theorem enthalpyAt_hOf {db : Db} {p : Package} {g : Str → ℝ} (h : Rep p.mat p.masses g) (t : ℝ) : enthalpyAt db p t = hOf db p.mat g t :=
  hOf_congr (fun _ hc => h.content hc) t

theorem calcH_rep {db : Db} {p : Package} (hk : Known db p.mat) (hc : p.isCoal = false) {g : Str → ℝ} (h : Rep p.mat p.masses g) (t : ℝ) :
    calcH db p (some t) = .ok (some (hOf db p.mat g t)) := by
  unfold calcH
  rw [hc, if_neg (by simp), hLoop_eq hk h t _ (fun _ h => h), zero_add]; rfl

theorem calcH_defined {db : Db} {p : Package} (hk : Known db p.mat) (hc : p.isCoal = false) {g : Str → ℝ} (h : Rep p.mat p.masses g) (T : V) :
    ∃ v, calcH db p T = .ok v := by
  unfold calcH
  rw [hc, if_neg (by simp)]
  exact hLoop_defined hk h T _ (fun _ h => h) _

/-! ### The temperature solver never raises on sound packages -/

theorem secantLoop_defined {f : V → Res V} (hf : ∀ x, ∃ v, f x = .ok v) (H : V) (n : ℕ) (x0 y0 x1 y1 : V) : ∃ t, secantLoop false f H n x0 y0 x1 y1 = .ok t := by
  induction n generalizing x0 y0 x1 y1 with
  | zero => exact ⟨_, rfl⟩
  | succ n ih =>
    unfold secantLoop
    rw [if_neg (by simp)]
    obtain ⟨v, hv⟩ := hf (secantStep x0 y0 x1 y1)
    dsimp only
    rw [hv]
    dsimp only
    split
    · exact ⟨_, rfl⟩
    · exact ih _ _ _ _

theorem calcT_defined {f : V → Res V} (hf : ∀ x, ∃ v, f x = .ok v) (T H : V) : ∃ t, calcT false f T H = .ok t := by
  unfold calcT
  obtain ⟨v, hv⟩ := hf T
  obtain ⟨w, hw⟩ := hf (vadd T (some 10))
  rw [hv]
  dsimp only
  rw [hw]
  exact secantLoop_defined hf H _ _ _ _ _

theorem setH_defined {db : Db} {p : Package} (hk : Known db p.mat) (h0 : p.mat.compounds ≠ []) (hc : p.isCoal = false) {g : Str → ℝ} (h : Rep p.mat p.masses g) (H : V) :
    ∃ t, calcT false (calcH db { p with H := H }) p.T H = .ok t ∧ p.setH db H = (.ok (), { p with H := H, T := t }) := by
  obtain ⟨t, ht⟩ := calcT_defined (f := calcH db { p with H := H }) (fun x => calcH_defined (p := { p with H := H }) hk hc h x) p.T H
  refine ⟨t, ht, ?_⟩
  unfold Package.setH
  have : p.mat.compounds.isEmpty = false := by cases hl : p.mat.compounds with
    | nil => exact absurd hl h0
    | cons => rfl
  dsimp only
  rw [this, ht]

theorem setT_rep {db : Db} {p : Package} (hk : Known db p.mat) (hc : p.isCoal = false) {g : Str → ℝ} (h : Rep p.mat p.masses g) (t : ℝ) :
    p.setT db (some t) = (.ok (), { p with T := some t, H := some (hOf db p.mat g t) }) := by
  unfold Package.setT
  dsimp only
  rw [calcH_rep (p := { p with T := some t }) hk hc h t]

/-! ### Construction -/

/-- The constructor on finite masses: if the total is positive the enthalpy is computed; if there is no mass it is zero. -/
theorem newPackage_rep {db : Db} {m : Material} (hk : Known db m) {a : List V} {g : Str → ℝ} (h : Rep m a g) (P : V) (t : ℝ) (HHV : Option V) :
    newPackage db m a P (some t) false HHV =
      .ok ⟨m, a, P, some t, some (if 0 < (m.compounds.map g).sum then hOf db m g t else 0), false, HHV⟩ := by
  unfold newPackage
  dsimp only
  unfold Package.mass
  rw [h.sum]
  by_cases hp : 0 < (m.compounds.map g).sum
  · rw [if_pos hp]
    rw [if_pos (show vgt (some (m.compounds.map g).sum) (some 0) from hp), calcH_rep (p := ⟨m, a, P, some t, some 0, false, HHV⟩) hk rfl h t]
  · rw [if_neg hp, if_neg (show ¬ vgt (some (m.compounds.map g).sum) (some 0) from hp)]

theorem sum_zero_of_nonneg {l : List Str} {g : Str → ℝ} (h : ∀ c ∈ l, 0 ≤ g c) (hs : ¬ 0 < (l.map g).sum) : ∀ c ∈ l, g c = 0 := by
  induction l with
  | nil => simp
  | cons a l ih =>
    simp only [List.map_cons, List.sum_cons] at hs
    have h1 : 0 ≤ (l.map g).sum := List.sum_nonneg (by intro x hx; rw [List.mem_map] at hx; obtain ⟨c, hc, rfl⟩ := hx; exact h c (by simp [hc]))
    have h2 := h a (by simp)
    intro c hc
    rcases List.mem_cons.1 hc with rfl | hc
    · linarith
    · exact ih (fun d hd => h d (by simp [hd])) (by linarith) c hc

theorem newPackage_nonneg {db : Db} {m : Material} (hk : Known db m) {a : List V} {g : Str → ℝ} (h : Rep m a g) (hg : ∀ c ∈ m.compounds, 0 ≤ g c) (P : V) (t : ℝ) (HHV : Option V) :
    newPackage db m a P (some t) false HHV = .ok ⟨m, a, P, some t, some (hOf db m g t), false, HHV⟩ := by
  rw [newPackage_rep hk h]
  by_cases hp : 0 < (m.compounds.map g).sum
  · rw [if_pos hp]
  · rw [if_neg hp]
    have := sum_zero_of_nonneg hg hp
    rw [hOf_congr (k := fun _ => 0) this, hOf_zero]

theorem createEmpty {db : Db} {m : Material} (hk : Known db m) (P : V) (t : ℝ) (b : Bool) (x : V) :
    m.createPackage db none x P (some t) b = .ok ⟨m, m.emptyAssay, P, some t, some 0, false, none⟩ := by
  unfold Material.createPackage
  dsimp only
  rw [newPackage_nonneg hk (Rep.empty m) (fun _ _ => le_rfl), hOf_zero]

/-! ### Adding a compound -/

theorem addTuple_rep {db : Db} {p : Package} (hk : Known db p.mat) (hn : p.mat.compounds.Nodup) {g : Str → ℝ} (h : Rep p.mat p.masses g)
    {t : ℝ} (ht : p.T = some t) {c : Str} (hc : c ∈ p.mat.compounds) (x : ℝ) :
    ∃ ms, p.addTuple db c (some x) = .ok { p with masses := ms, H := vadd p.H (some (x * unitH db c t)) } ∧
      Rep p.mat ms (Function.update g c (g c + x)) := by
  obtain ⟨i, h1, h2⟩ := index_mem hc
  refine ⟨_, ?_, h.set hn h2 (g c + x)⟩
  unfold Package.addTuple bumpAt
  rw [h1]
  dsimp only
  rw [ht, thermoH_known hk hc]
  dsimp only
  rw [h.at h2]
  rfl

theorem addTuple_absent {db : Db} {p : Package} {c : Str} (hc : c ∉ p.mat.compounds) (x : V) : p.addTuple db c x = .error .valueError := by
  unfold Package.addTuple Material.index
  rw [indexOf_none hc]

end Auxi.Thermo
