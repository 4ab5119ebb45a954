import Verif.PhysProps
import Mathlib.Analysis.Calculus.Deriv.Inv
import Mathlib.Analysis.Calculus.Deriv.Mul
import Mathlib.Data.List.Perm.Basic
import Mathlib.Tactic.FieldSimp
import Mathlib.Tactic.Positivity

/-!
# Properties C81 (for models that validate their states), C82 and C93

A state is what a caller passes as keyword arguments; Python sees to it that no keyword is given twice (`Keywords`).
-/
namespace Auxi.Phys.Props
open Auxi Auxi.Phys
open Classical

/-- No keyword is given twice. -/
def Keywords (st : State) : Prop := (st.map (·.1)).Nodup

/-- A state that gives exactly the named entries. -/
def Gives (st : State) (names : List String) : Prop := (st.map (·.1)).Perm (names.map String.toList)

/-! ## Validation -/

theorem mem_of_lookup {α : Type} {st : List (Str × α)} {k : Str} {v : α} (h : st.lookup k = some v) : (k, v) ∈ st := by
  induction st with
  | nil => simp at h
  | cons e l ih =>
    obtain ⟨k', v'⟩ := e
    rw [List.lookup_cons] at h
    by_cases hk : k = k'
    · subst hk; simp at h; subst h; exact List.mem_cons_self
    · have : (k == k') = false := by simpa using hk
      rw [this] at h
      exact List.mem_cons_of_mem _ (ih h)

theorem lookup_of_mem {α : Type} {st : List (Str × α)} (hn : (st.map (·.1)).Nodup) {k : Str} {v : α} (h : (k, v) ∈ st) : st.lookup k = some v := by
  induction st with
  | nil => cases h
  | cons e l ih =>
    obtain ⟨k', v'⟩ := e
    rw [List.map_cons, List.nodup_cons] at hn
    rw [List.lookup_cons]
    rcases List.mem_cons.1 h with h | h
    · cases h; simp
    · have hne : k ≠ k' := by intro hk; exact hn.1 (List.mem_map.2 ⟨_, h, hk⟩)
      have : (k == k') = false := by simpa using hne
      rw [this]; exact ih hn.2 h

theorem mem_keys_iff {α : Type} {st : List (Str × α)} {k : Str} : k ∈ st.map (·.1) ↔ ∃ v, st.lookup k = some v := by
  induction st with
  | nil => simp
  | cons e l ih =>
    obtain ⟨k', v'⟩ := e
    rw [List.lookup_cons, List.map_cons, List.mem_cons]
    by_cases hk : k = k'
    · subst hk; simp
    · have : (k == k') = false := by simpa using hk
      rw [this]; simp only [hk, false_or]; exact ih

/-- The validator accepts exactly the states whose keywords are those of the schema, with acceptable values. -/
theorem validates_iff {sc : Schema} (hs : (sc.map (·.1)).Nodup) {st : State} (hn : Keywords st) :
    validates sc st ↔ (st.map (·.1)).Perm (sc.map (·.1)) ∧ ∀ k r, (k, r) ∈ sc → ∃ v, st.lookup k = some v ∧ r.accepts v := by
  constructor
  · rintro ⟨h1, h2⟩
    refine ⟨(List.perm_ext_iff_of_nodup hn hs).2 fun k => ⟨fun hk => ?_, h2 k⟩, fun k r hr => ?_⟩
    · obtain ⟨kv, hkv, rfl⟩ := List.mem_map.1 hk
      obtain ⟨r, hr, -⟩ := h1 kv hkv
      exact mem_keys_iff.2 ⟨r, hr⟩
    · obtain ⟨v, hv⟩ := mem_keys_iff.1 (h2 k (List.mem_map.2 ⟨_, hr, rfl⟩))
      obtain ⟨r', hr', ha⟩ := h1 _ (mem_of_lookup hv)
      rw [lookup_of_mem hs hr] at hr'
      cases hr'
      exact ⟨v, hv, ha⟩
  · rintro ⟨hp, h⟩
    refine ⟨fun kv hkv => ?_, fun k hk => hp.mem_iff.2 hk⟩
    have hk : kv.1 ∈ sc.map (·.1) := hp.mem_iff.1 (List.mem_map.2 ⟨_, hkv, rfl⟩)
    obtain ⟨⟨k, r⟩, hr, hkr⟩ := List.mem_map.1 hk
    simp only at hkr
    subst hkr
    obtain ⟨v, hv, ha⟩ := h _ r hr
    rw [lookup_of_mem hn hkv] at hv
    cases hv
    exact ⟨r, lookup_of_mem hs hr, ha⟩

theorem accepts_number {lo : ℝ} {hi : Option ℝ} {v : Val} : (Rule.number lo hi).accepts v ↔ ∃ x, v = .num x ∧ lo ≤ x ∧ ∀ m, hi = some m → x ≤ m := by
  cases v <;> simp [Rule.accepts]

theorem validT {lo : ℝ} {hi : Option ℝ} {st : State} (hn : Keywords st) :
    validates [("T".toList, .number lo hi)] st ↔ Gives st ["T"] ∧ ∃ T, st.lookup "T".toList = some (.num T) ∧ lo ≤ T ∧ ∀ m, hi = some m → T ≤ m := by
  rw [validates_iff (by simp) hn]
  refine and_congr Iff.rfl ⟨fun h => ?_, fun h k r hr => ?_⟩
  · obtain ⟨v, hv, ha⟩ := h _ _ List.mem_cons_self
    obtain ⟨x, rfl, hx⟩ := accepts_number.1 ha
    exact ⟨x, hv, hx⟩
  · simp only [List.mem_singleton, Prod.mk.injEq] at hr
    obtain ⟨rfl, rfl⟩ := hr
    obtain ⟨x, hv, hx⟩ := h
    exact ⟨_, hv, accepts_number.2 ⟨x, rfl, hx⟩⟩

theorem validTP {st : State} (hn : Keywords st) :
    validates schemaTP st ↔ Gives st ["T", "P"] ∧ ∃ T P, st.lookup "T".toList = some (.num T) ∧ st.lookup "P".toList = some (.num P) ∧ 0 ≤ T ∧ 0 ≤ P := by
  unfold schemaTP
  rw [validates_iff (by decide) hn]
  refine and_congr Iff.rfl ⟨fun h => ?_, fun h k r hr => ?_⟩
  · obtain ⟨v, hv, ha⟩ := h "T".toList _ List.mem_cons_self
    obtain ⟨x, rfl, hx⟩ := accepts_number.1 ha
    obtain ⟨w, hw, hb⟩ := h "P".toList _ (List.mem_cons_of_mem _ List.mem_cons_self)
    obtain ⟨y, rfl, hy⟩ := accepts_number.1 hb
    exact ⟨x, y, hv, hw, hx.1, hy.1⟩
  · obtain ⟨x, y, hv, hw, hx, hy⟩ := h
    simp only [List.mem_cons, Prod.mk.injEq, List.not_mem_nil, or_false] at hr
    rcases hr with ⟨rfl, rfl⟩ | ⟨rfl, rfl⟩
    · exact ⟨_, hv, accepts_number.2 ⟨x, rfl, hx, by simp⟩⟩
    · exact ⟨_, hw, accepts_number.2 ⟨y, rfl, hy, by simp⟩⟩

theorem validTPx {st : State} (hn : Keywords st) :
    validates schemaTPx st ↔ Gives st ["T", "P", "x"] ∧ ∃ T P d, st.lookup "T".toList = some (.num T) ∧ st.lookup "P".toList = some (.num P) ∧
      st.lookup "x".toList = some (.dict d) ∧ 0 ≤ T ∧ 0 ≤ P := by
  unfold schemaTPx
  rw [validates_iff (by decide) hn]
  refine and_congr Iff.rfl ⟨fun h => ?_, fun h k r hr => ?_⟩
  · obtain ⟨v, hv, ha⟩ := h "T".toList _ List.mem_cons_self
    obtain ⟨x, rfl, hx⟩ := accepts_number.1 ha
    obtain ⟨w, hw, hb⟩ := h "P".toList _ (List.mem_cons_of_mem _ List.mem_cons_self)
    obtain ⟨y, rfl, hy⟩ := accepts_number.1 hb
    obtain ⟨u, hu, hc⟩ := h "x".toList _ (List.mem_cons_of_mem _ (List.mem_cons_of_mem _ List.mem_cons_self))
    cases u <;> simp only [Rule.accepts] at hc
    exact ⟨x, y, _, hv, hw, hu, hx.1, hy.1⟩
  · obtain ⟨x, y, d, hv, hw, hu, hx, hy⟩ := h
    simp only [List.mem_cons, Prod.mk.injEq, List.not_mem_nil, or_false] at hr
    rcases hr with ⟨rfl, rfl⟩ | ⟨rfl, rfl⟩ | ⟨rfl, rfl⟩
    · exact ⟨_, hv, accepts_number.2 ⟨x, rfl, hx, by simp⟩⟩
    · exact ⟨_, hw, accepts_number.2 ⟨y, rfl, hy, by simp⟩⟩
    · exact ⟨_, hu, trivial⟩

/-- **C81** (thermal expansion of an ideal gas): a value is returned exactly for the states that give a positive temperature and nothing else. -/
theorem C81_betaT {st : State} (hn : Keywords st) :
    (∃ v, betaT st = .ok v) ↔ Gives st ["T"] ∧ ∃ T, st.lookup "T".toList = some (.num T) ∧ 0 < T := by
  unfold betaT validate schemaT
  by_cases h : validates [("T".toList, .number 0 none)] st
  · rw [if_pos h]
    obtain ⟨hg, T, hT, h0, -⟩ := (validT hn).1 h
    simp only [getNum, hT]
    unfold pydiv
    by_cases hz : T = 0
    · rw [if_pos hz]
      refine ⟨(by rintro ⟨v, hv⟩; cases hv), ?_⟩
      rintro ⟨-, T', e, h'⟩
      cases e; exact absurd hz (ne_of_gt h')
    · rw [if_neg hz]
      exact ⟨fun _ => ⟨hg, T, rfl, lt_of_le_of_ne h0 (Ne.symm hz)⟩, fun _ => ⟨_, rfl⟩⟩
  · rw [if_neg h]
    refine ⟨(by rintro ⟨v, hv⟩; cases hv), ?_⟩
    rintro ⟨hg, T, hT, h0⟩
    exact absurd ((validT hn).2 ⟨hg, T, hT, h0.le, by simp⟩) h

/-- **C81** (density of an ideal gas at a fixed pressure). -/
theorem C81_rhoT (M P : ℝ) {st : State} (hn : Keywords st) :
    (∃ v, rhoT M P st = .ok v) ↔ Gives st ["T"] ∧ ∃ T, st.lookup "T".toList = some (.num T) ∧ 0 < T := by
  unfold rhoT validate schemaT
  by_cases h : validates [("T".toList, .number 0 none)] st
  · rw [if_pos h]
    obtain ⟨hg, T, hT, h0, -⟩ := (validT hn).1 h
    simp only [getNum, hT]
    unfold pydiv
    by_cases hz : T = 0
    · rw [if_pos hz]
      refine ⟨(by rintro ⟨v, hv⟩; cases hv), ?_⟩
      rintro ⟨-, T', e, h'⟩
      cases e; exact absurd hz (ne_of_gt h')
    · rw [if_neg hz]
      exact ⟨fun _ => ⟨hg, T, rfl, lt_of_le_of_ne h0 (Ne.symm hz)⟩, fun _ => ⟨_, rfl⟩⟩
  · rw [if_neg h]
    refine ⟨(by rintro ⟨v, hv⟩; cases hv), ?_⟩
    rintro ⟨hg, T, hT, h0⟩
    exact absurd ((validT hn).2 ⟨hg, T, hT, h0.le, by simp⟩) h

/-- **C81** (density of an ideal gas): a value is returned exactly for the states that give a positive temperature, a pressure that is not negative, and
nothing else. -/
theorem C81_rhoTP (M : ℝ) {st : State} (hn : Keywords st) :
    (∃ v, rhoTP M st = .ok v) ↔
      Gives st ["T", "P"] ∧ ∃ T P, st.lookup "T".toList = some (.num T) ∧ st.lookup "P".toList = some (.num P) ∧ 0 < T ∧ 0 ≤ P := by
  unfold rhoTP validate
  by_cases h : validates schemaTP st
  · rw [if_pos h]
    obtain ⟨hg, T, P, hT, hP, h0, h1⟩ := (validTP hn).1 h
    simp only [getNum, hT, hP]
    unfold pydiv
    by_cases hz : T = 0
    · rw [if_pos hz]
      refine ⟨(by rintro ⟨v, hv⟩; cases hv), ?_⟩
      rintro ⟨-, T', P', e, -, h', -⟩
      cases e; exact absurd hz (ne_of_gt h')
    · rw [if_neg hz]
      exact ⟨fun _ => ⟨hg, T, P, rfl, rfl, lt_of_le_of_ne h0 (Ne.symm hz), h1⟩, fun _ => ⟨_, rfl⟩⟩
  · rw [if_neg h]
    refine ⟨(by rintro ⟨v, hv⟩; cases hv), ?_⟩
    rintro ⟨hg, T, P, hT, hP, h0, h1⟩
    exact absurd ((validTP hn).2 ⟨hg, T, P, hT, hP, h0.le, h1⟩) h

/-- The compounds of a composition all have molar masses. -/
def Weighed (d : Stoich.CDict) : Prop := ∀ e ∈ d, ∃ w, Stoich.molarMass e.1 = .ok w

theorem averageMass_defined (d : Stoich.CDict) (acc : ℝ) : (∃ m, averageMass d acc = .ok m) ↔ Weighed d := by
  induction d generalizing acc with
  | nil => exact ⟨fun _ e he => (by cases he), fun _ => ⟨acc, rfl⟩⟩
  | cons e l ih =>
    obtain ⟨c, x⟩ := e
    unfold averageMass
    cases hm : Stoich.molarMass c with
    | error e =>
      refine ⟨(by rintro ⟨m, h⟩; cases h), fun h => ?_⟩
      obtain ⟨w, hw⟩ := h _ List.mem_cons_self
      rw [hm] at hw; cases hw
    | ok w =>
      simp only
      rw [ih]
      refine ⟨fun h e he => ?_, fun h e he => h e (List.mem_cons_of_mem _ he)⟩
      rcases List.mem_cons.1 he with rfl | he
      · exact ⟨w, hm⟩
      · exact h e he

/-- **C81** (density of a mixture of ideal gases): a value is returned exactly for the states that give a positive temperature, a pressure that is not
negative, a composition whose compounds have molar masses, and nothing else. -/
theorem C81_rhoTPx {st : State} (hn : Keywords st) :
    (∃ v, rhoTPx st = .ok v) ↔
      Gives st ["T", "P", "x"] ∧ ∃ T P d, st.lookup "T".toList = some (.num T) ∧ st.lookup "P".toList = some (.num P) ∧
        st.lookup "x".toList = some (.dict d) ∧ 0 < T ∧ 0 ≤ P ∧ Weighed d := by
  unfold rhoTPx validate
  by_cases h : validates schemaTPx st
  · rw [if_pos h]
    obtain ⟨hg, T, P, d, hT, hP, hd, h0, h1⟩ := (validTPx hn).1 h
    simp only [getNum, getDict, hT, hP, hd]
    cases hm : averageMass d 0 with
    | error e =>
      refine ⟨(by rintro ⟨v, hv⟩; cases hv), ?_⟩
      rintro ⟨-, T', P', d', -, -, e, -, -, hw⟩
      cases e
      obtain ⟨m, h⟩ := (averageMass_defined d 0).2 hw
      rw [hm] at h; cases h
    | ok m =>
      have hw : Weighed d := (averageMass_defined d 0).1 ⟨m, hm⟩
      simp only
      unfold pydiv
      by_cases hz : T = 0
      · rw [if_pos hz]
        refine ⟨(by rintro ⟨v, hv⟩; cases hv), ?_⟩
        rintro ⟨-, T', P', d', e, -, -, h', -⟩
        cases e; exact absurd hz (ne_of_gt h')
      · rw [if_neg hz]
        exact ⟨fun _ => ⟨hg, T, P, d, rfl, rfl, rfl, lt_of_le_of_ne h0 (Ne.symm hz), h1, hw⟩, fun _ => ⟨_, rfl⟩⟩
  · rw [if_neg h]
    refine ⟨(by rintro ⟨v, hv⟩; cases hv), ?_⟩
    rintro ⟨hg, T, P, d, hT, hP, hd, h0, h1, -⟩
    exact absurd ((validTPx hn).2 ⟨hg, T, P, d, hT, hP, hd, h0.le, h1⟩) h

/-- The value of a polynomial whose coefficients are listed from highest to lowest power. -/
noncomputable def polynomialAt : List ℝ → ℝ → ℝ
  | [], _ => 0
  | c :: cs, x => c * x ^ cs.length + polynomialAt cs x

theorem polyval_eq (cs : List ℝ) (x : ℝ) : polyval cs x = polynomialAt cs x := by
  have h : ∀ (cs : List ℝ) (acc : ℝ), cs.foldl (fun a c => a * x + c) acc = acc * x ^ cs.length + polynomialAt cs x := by
    intro cs
    induction cs with
    | nil => intro acc; simp [polynomialAt]
    | cons c cs ih => intro acc; rw [List.foldl_cons, ih, polynomialAt, List.length_cons]; ring
  unfold polyval
  rw [h]; ring

/-- **C81** (polynomial models): the polynomial's value is returned exactly for the states that give a temperature within the model's limits and nothing else;
every other state is refused with a validation error. -/
theorem C81_polynomial (p : Poly) {st : State} (hn : Keywords st) :
    ((Gives st ["T"] ∧ ∃ T, st.lookup "T".toList = some (.num T) ∧ p.tmin ≤ T ∧ ∀ m, p.tmax = some m → T ≤ m) ∧
      ∀ T, st.lookup "T".toList = some (.num T) → p.calculate st = .ok (polynomialAt p.coeffs T)) ∨
    ((¬ (Gives st ["T"] ∧ ∃ T, st.lookup "T".toList = some (.num T) ∧ p.tmin ≤ T ∧ ∀ m, p.tmax = some m → T ≤ m)) ∧ p.calculate st = .error .exception) := by
  unfold Poly.calculate validate
  by_cases h : validates [("T".toList, .number p.tmin p.tmax)] st
  · left
    rw [if_pos h]
    refine ⟨(validT hn).1 h, fun T hT => ?_⟩
    simp only [getNum, hT, polyval_eq]
  · right
    rw [if_neg h]
    exact ⟨fun h' => h ((validT hn).2 h'), rfl⟩

/-- **C81** (what is raised): the validated ideal gas models refuse a state with a validation error, save that a temperature of exactly zero passes the
validation and is refused by the division, and that a compound without a molar mass is refused by the search for it. -/
theorem C81_refusal {st : State} (hn : Keywords st) :
    (∀ e, betaT st = .error e → e = .exception ∨ (e = .zeroDivisionError ∧ st.lookup "T".toList = some (.num 0))) ∧
    (∀ M P e, rhoT M P st = .error e → e = .exception ∨ (e = .zeroDivisionError ∧ st.lookup "T".toList = some (.num 0))) ∧
    (∀ M e, rhoTP M st = .error e → e = .exception ∨ (e = .zeroDivisionError ∧ st.lookup "T".toList = some (.num 0))) ∧
    (∀ e, rhoTPx st = .error e → e = .exception ∨ (e = .zeroDivisionError ∧ st.lookup "T".toList = some (.num 0)) ∨
      ∃ d, st.lookup "x".toList = some (.dict d) ∧ ¬ Weighed d) := by
  have hT : ∀ a, ∀ e, (match (if validates schemaT st then Except.ok () else Except.error PyErr.exception : Res Unit) with
      | .error e => .error e
      | .ok _ => match getNum st "T".toList with
        | .error e => .error e
        | .ok T => pydiv a T : Res ℝ) = .error e → e = .exception ∨ (e = .zeroDivisionError ∧ st.lookup "T".toList = some (.num 0)) := by
    intro a e he
    by_cases h : validates schemaT st
    · rw [if_pos h] at he
      obtain ⟨-, T, hT, -⟩ := (validT (lo := 0) (hi := none) hn).1 h
      simp only [getNum, hT, pydiv] at he
      split at he
      · next hz => subst hz; cases he; exact Or.inr ⟨rfl, hT⟩
      · cases he
    · rw [if_neg h] at he; cases he; exact Or.inl rfl
  refine ⟨fun e he => hT 1 e he, fun M P e he => hT _ e he, fun M e he => ?_, fun e he => ?_⟩
  · unfold rhoTP validate at he
    by_cases h : validates schemaTP st
    · rw [if_pos h] at he
      obtain ⟨-, T, P, hT, hP, -⟩ := (validTP hn).1 h
      simp only [getNum, hT, hP, pydiv] at he
      split at he
      · next hz => subst hz; cases he; exact Or.inr ⟨rfl, hT⟩
      · cases he
    · rw [if_neg h] at he; cases he; exact Or.inl rfl
  · unfold rhoTPx validate at he
    by_cases h : validates schemaTPx st
    · rw [if_pos h] at he
      obtain ⟨-, T, P, d, hT, hP, hd, -⟩ := (validTPx hn).1 h
      simp only [getNum, getDict, hT, hP, hd, pydiv] at he
      cases hm : averageMass d 0 with
      | error e' =>
        refine Or.inr (Or.inr ⟨d, hd, fun hw => ?_⟩)
        obtain ⟨m, h⟩ := (averageMass_defined d 0).2 hw
        rw [hm] at h; cases h
      | ok m =>
        rw [hm] at he
        simp only at he
        split at he
        · next hz => subst hz; cases he; exact Or.inr (Or.inl ⟨rfl, hT⟩)
        · cases he
    · rw [if_neg h] at he; cases he; exact Or.inl rfl

/-- A state that is accepted, and one that is refused for an entry the schema does not have. -/
example : ∃ v, rhoTP 28.97 [("P".toList, .num 101325), ("T".toList, .num 300)] = .ok v := by
  rw [C81_rhoTP _ (by unfold Keywords; simp)]
  refine ⟨List.Perm.swap _ _ _, 300, 101325, by simp [List.lookup], by simp [List.lookup], by norm_num, by norm_num⟩
example : ¬ ∃ v, rhoTP 28.97 [("P".toList, .num 101325), ("T".toList, .num 300), ("x".toList, .other)] = .ok v := by
  rw [C81_rhoTP _ (by unfold Keywords; simp)]
  rintro ⟨h, -⟩
  exact absurd h.length_eq (by simp)

/-! ## C82 -/

/-- **C82** (ideal gas law): density is molar mass times pressure over the gas constant and temperature. -/
theorem C82_density {M T P : ℝ} (hT : 0 < T) (hP : 0 ≤ P) :
    rhoTP M [("T".toList, .num T), ("P".toList, .num P)] = .ok (M / 1000 * P / (8.314462618 * T)) := by
  have hv : validates schemaTP [("T".toList, .num T), ("P".toList, .num P)] :=
    (validTP (by unfold Keywords; simp)).2 ⟨List.Perm.refl _, T, P, by simp [List.lookup], by simp [List.lookup], hT.le, hP⟩
  unfold rhoTP validate
  rw [if_pos hv]
  have h1 : getNum [("T".toList, .num T), ("P".toList, .num P)] "P".toList = .ok P := by simp [getNum, List.lookup]
  have h2 : getNum [("T".toList, .num T), ("P".toList, .num P)] "T".toList = .ok T := by simp [getNum, List.lookup]
  rw [h1, h2]
  simp only
  unfold pydiv R
  rw [if_neg hT.ne', div_div]

/-- **C82** (order of the keywords): it does not matter in which order temperature and pressure are given. -/
theorem C82_order (M : ℝ) (a b : Val) :
    rhoTP M [("T".toList, a), ("P".toList, b)] = rhoTP M [("P".toList, b), ("T".toList, a)] := by
  have hv : validates schemaTP [("T".toList, a), ("P".toList, b)] ↔ validates schemaTP [("P".toList, b), ("T".toList, a)] := by
    unfold validates; simp only [List.mem_cons, List.map_cons]; constructor <;> (rintro ⟨h1, h2⟩; refine ⟨fun kv h => h1 kv (by tauto), fun k h => by have := h2 k h; tauto⟩)
  unfold rhoTP validate
  have h1 : getNum [("T".toList, a), ("P".toList, b)] "P".toList = getNum [("P".toList, b), ("T".toList, a)] "P".toList := by simp [getNum, List.lookup]
  have h2 : getNum [("T".toList, a), ("P".toList, b)] "T".toList = getNum [("P".toList, b), ("T".toList, a)] "T".toList := by simp [getNum, List.lookup]
  rw [h1, h2]
  by_cases h : validates schemaTP [("T".toList, a), ("P".toList, b)]
  · rw [if_pos h, if_pos (hv.1 h)]
  · rw [if_neg h, if_neg (fun h' => h (hv.2 h'))]

/-- **C82** (proportional to pressure): a pressure `k` times as high gives a density `k` times as high. -/
theorem C82_pressure {M T P k r : ℝ} (hk : 0 ≤ k) (h : rhoTP M [("T".toList, .num T), ("P".toList, .num P)] = .ok r) :
    rhoTP M [("T".toList, .num T), ("P".toList, .num (k * P))] = .ok (k * r) := by
  obtain ⟨-, T', P', e1, e2, hT, hP⟩ := (C81_rhoTP M (by unfold Keywords; simp)).1 ⟨r, h⟩
  have e1 : T = T' := by simpa [List.lookup] using e1
  have e2 : P = P' := by simpa [List.lookup] using e2
  subst e1; subst e2
  rw [C82_density hT hP] at h
  rw [C82_density hT (mul_nonneg hk hP)]
  have h : _ = r := Except.ok.inj h
  rw [← h]; congr 1; ring

/-- **C82** (inversely proportional to temperature). -/
theorem C82_temperature {M T P k r : ℝ} (hk : 0 < k) (h : rhoTP M [("T".toList, .num T), ("P".toList, .num P)] = .ok r) :
    rhoTP M [("T".toList, .num (k * T)), ("P".toList, .num P)] = .ok (r / k) := by
  obtain ⟨-, T', P', e1, e2, hT, hP⟩ := (C81_rhoTP M (by unfold Keywords; simp)).1 ⟨r, h⟩
  have e1 : T = T' := by simpa [List.lookup] using e1
  have e2 : P = P' := by simpa [List.lookup] using e2
  subst e1; subst e2
  rw [C82_density hT hP] at h
  rw [C82_density (mul_pos hk hT) hP]
  have h : _ = r := Except.ok.inj h
  rw [← h]; congr 1
  have := hT.ne'; have := hk.ne'
  field_simp

/-- **C82** (a fixed pressure): the model created for a pressure gives what the general one gives at that pressure, for every value passed as temperature. -/
theorem C82_fixed_pressure (M : ℝ) {P : ℝ} (hP : 0 ≤ P) (v : Val) :
    rhoT M P [("T".toList, v)] = rhoTP M [("T".toList, v), ("P".toList, .num P)] := by
  have hv : validates schemaT [("T".toList, v)] ↔ validates schemaTP [("T".toList, v), ("P".toList, .num P)] := by
    rw [validTP (by unfold Keywords; simp)]
    refine (validT (by unfold Keywords; simp)).trans ?_
    constructor
    · rintro ⟨-, T, hT, h0, -⟩
      exact ⟨List.Perm.refl _, T, P, by simpa [List.lookup] using hT, by simp [List.lookup], h0, hP⟩
    · rintro ⟨-, T, P', hT, -, h0, -⟩
      exact ⟨List.Perm.refl _, T, by simpa [List.lookup] using hT, h0, by simp⟩
  unfold rhoT rhoTP validate
  have h1 : getNum [("T".toList, v), ("P".toList, .num P)] "P".toList = .ok P := by simp [getNum, List.lookup]
  have h2 : getNum [("T".toList, v), ("P".toList, .num P)] "T".toList = getNum [("T".toList, v)] "T".toList := by simp [getNum, List.lookup]
  rw [h1, h2]
  by_cases h : validates schemaT [("T".toList, v)]
  · rw [if_pos h, if_pos (hv.1 h)]
  · rw [if_neg h, if_neg (fun h' => h (hv.2 h'))]

/-- **C82** (thermal expansion): wherever the density model gives `ρ(T)` at a fixed pressure, and the expansion model gives `β` at `T`, the derivative of `ρ` at
`T` is `-β ρ(T)`. -/
theorem C82_expansion {M P : ℝ} {ρ : ℝ → ℝ} (hρ : ∀ T, 0 < T → rhoTP M [("T".toList, .num T), ("P".toList, .num P)] = .ok (ρ T)) {T β : ℝ}
    (hβ : betaT [("T".toList, .num T)] = .ok β) : HasDerivAt ρ (-(β * ρ T)) T := by
  obtain ⟨-, T', e, hT⟩ := (C81_betaT (by unfold Keywords; simp)).1 ⟨β, hβ⟩
  have e : T = T' := by simpa [List.lookup] using e
  subst e
  obtain ⟨-, -, P', -, e2, -, hP⟩ := (C81_rhoTP M (by unfold Keywords; simp)).1 ⟨_, hρ T hT⟩
  have e2 : P = P' := by simpa [List.lookup] using e2
  subst e2
  have hb : β = 1 / T := by
    have hv : validates schemaT [("T".toList, .num T)] :=
      (validT (by unfold Keywords; simp)).2 ⟨List.Perm.refl _, T, by simp [List.lookup], hT.le, by simp⟩
    have h2 : getNum [("T".toList, .num T)] "T".toList = .ok T := by simp [getNum, List.lookup]
    unfold betaT validate at hβ
    rw [if_pos hv, h2] at hβ
    simp only [pydiv] at hβ
    rw [if_neg hT.ne'] at hβ
    exact (Except.ok.inj hβ).symm
  have hr : ∀ t, 0 < t → ρ t = M / 1000 * P / 8.314462618 * t⁻¹ := by
    intro t ht
    have := hρ t ht
    rw [C82_density ht hP] at this
    rw [← Except.ok.inj this, ← div_div, div_eq_mul_inv _ t]
  have hd := (hasDerivAt_inv hT.ne').const_mul (M / 1000 * P / 8.314462618)
  have he : ρ =ᶠ[nhds T] fun t => M / 1000 * P / 8.314462618 * t⁻¹ := by
    filter_upwards [lt_mem_nhds hT] with t ht using hr t ht
  refine (hd.congr_of_eventuallyEq he).congr_deriv ?_
  rw [hb, hr T hT]
  have := hT.ne'
  field_simp

theorem averageMass_eq (d : Stoich.CDict) (M : Str → ℚ) (hM : ∀ e ∈ d, Stoich.molarMass e.1 = .ok (M e.1)) (acc : ℝ) :
    averageMass d acc = .ok (acc + (d.map (fun e => (e.2 : ℝ) * (M e.1 : ℝ))).sum) := by
  induction d generalizing acc with
  | nil => simp [averageMass]
  | cons e l ih =>
    obtain ⟨c, x⟩ := e
    unfold averageMass
    rw [hM _ List.mem_cons_self]
    simp only
    rw [ih (fun e he => hM e (List.mem_cons_of_mem _ he))]
    simp only [List.map_cons, List.sum_cons]
    congr 1; ring

/-- **C82** (mixtures): the density of a mixture is the sum of the pure densities at its temperature and pressure, each times its mole fraction. -/
theorem C82_mixture {T P : ℝ} {d : Stoich.CDict} {M : Str → ℚ} (hM : ∀ e ∈ d, Stoich.molarMass e.1 = .ok (M e.1)) {ρ : Str → ℝ} (hT : 0 < T) (hP : 0 ≤ P)
    (hρ : ∀ e ∈ d, rhoTP (M e.1) [("T".toList, .num T), ("P".toList, .num P)] = .ok (ρ e.1)) :
    rhoTPx [("T".toList, .num T), ("P".toList, .num P), ("x".toList, .dict d)] = .ok (d.map (fun e => (e.2 : ℝ) * ρ e.1)).sum := by
  have hv : validates schemaTPx [("T".toList, .num T), ("P".toList, .num P), ("x".toList, .dict d)] :=
    (validTPx (by unfold Keywords; simp)).2 ⟨List.Perm.refl _, T, P, d, by simp [List.lookup], by simp [List.lookup], by simp [List.lookup], hT.le, hP⟩
  have h1 : getNum [("T".toList, .num T), ("P".toList, .num P), ("x".toList, .dict d)] "P".toList = .ok P := by simp [getNum, List.lookup]
  have h2 : getNum [("T".toList, .num T), ("P".toList, .num P), ("x".toList, .dict d)] "T".toList = .ok T := by simp [getNum, List.lookup]
  have h3 : getDict [("T".toList, .num T), ("P".toList, .num P), ("x".toList, .dict d)] "x".toList = .ok d := by simp [getDict, List.lookup]
  unfold rhoTPx validate
  rw [if_pos hv, h1, h2, h3]
  simp only
  rw [averageMass_eq d M hM]
  simp only [pydiv]
  rw [if_neg hT.ne']
  congr 1
  have hs : ∀ l : Stoich.CDict, (∀ e ∈ l, e ∈ d) → (l.map (fun e => (e.2 : ℝ) * ρ e.1)).sum = (l.map (fun e => (e.2 : ℝ) * (M e.1 : ℝ))).sum * (1 / 1000 * P / R / T) := by
    intro l
    induction l with
    | nil => intro _; simp
    | cons e l ih =>
      intro hl
      have he := hρ e (hl e List.mem_cons_self)
      rw [C82_density hT hP] at he
      rw [List.map_cons, List.sum_cons, List.map_cons, List.sum_cons, ih (fun e he => hl e (List.mem_cons_of_mem _ he)), ← Except.ok.inj he]
      unfold R
      rw [← div_div]; ring
  rw [hs d (fun _ h => h)]; ring

/-- **C82** (pure gas): a mixture of one gas has the density of that gas. -/
theorem C82_pure {T P r : ℝ} {c : Str} {M : ℚ} (hM : Stoich.molarMass c = .ok M)
    (h : rhoTP M [("T".toList, .num T), ("P".toList, .num P)] = .ok r) :
    rhoTPx [("T".toList, .num T), ("P".toList, .num P), ("x".toList, .dict [(c, 1)])] = .ok r := by
  obtain ⟨-, T', P', e1, e2, hT, hP⟩ := (C81_rhoTP _ (by unfold Keywords; simp)).1 ⟨r, h⟩
  have e1 : T = T' := by simpa [List.lookup] using e1
  have e2 : P = P' := by simpa [List.lookup] using e2
  subst e1; subst e2
  rw [C82_mixture (M := fun _ => M) (ρ := fun _ => r) (by simpa using hM) hT hP (by simpa using h)]
  simp

/-- A concrete case: carbon dioxide. -/
example : ∃ r, rhoTP ((440095 : ℚ) / 10000 : ℚ) [("T".toList, .num 298.15), ("P".toList, .num 101325)] = .ok r ∧
    rhoTPx [("T".toList, .num 298.15), ("P".toList, .num 101325), ("x".toList, .dict [("CO2".toList, 1)])] = .ok r := by
  have hM : Stoich.molarMass "CO2".toList = .ok (440095 / 10000) := by decide +kernel
  have h := C82_density (M := ((440095 : ℚ) / 10000 : ℚ)) (T := 298.15) (P := 101325) (by norm_num) (by norm_num)
  exact ⟨_, h, C82_pure hM h⟩

/-! ## C93 -/

/-- **C93** (negative): a material created without property models, as the signature allows, cannot be created. -/
theorem C93_default_violated : Mat.new none = .error .typeError := rfl

/-- **C93** (thermal diffusivity): without a model of its own it is conductivity over density over heat capacity. -/
theorem C93_alpha {m : Mat} {st : State} {k rho cp : ℝ} (ha : m.alpha = none) (hk : prop m.k st = .ok k) (hr : prop m.rho st = .ok rho)
    (hc : prop m.Cp st = .ok cp) (h0 : rho ≠ 0) (h1 : cp ≠ 0) : m.getAlpha st = .ok (k / (rho * cp)) := by
  unfold Mat.getAlpha
  rw [ha, hk, hr, hc]
  simp only [pydiv, if_neg h0, if_neg h1, div_div]

/-- **C93** (kinematic viscosity): without a model of its own it is dynamic viscosity over density. -/
theorem C93_nu {m : Mat} {st : State} {mu rho : ℝ} (ha : m.nu = none) (hk : prop m.mu st = .ok mu) (hr : prop m.rho st = .ok rho)
    (h0 : rho ≠ 0) : m.getNu st = .ok (mu / rho) := by
  unfold Mat.getNu
  rw [ha, hk, hr]
  simp only [pydiv, if_neg h0]

/-- **C93** (a model given is used): whatever the other models are. -/
theorem C93_given (m : Mat) (f : State → Res ℝ) (st : State) :
    ({ m with alpha := some f } : Mat).getAlpha st = f st ∧ ({ m with nu := some f } : Mat).getNu st = f st := ⟨rfl, rfl⟩

/-- **C93** (no model): a property that has neither a model nor what its default needs is refused. -/
theorem C93_missing (m : Mat) (st : State) :
    (m.mu = none → m.nu = none → m.getNu st = .error .exception) ∧ (m.k = none → m.alpha = none → m.getAlpha st = .error .exception) := by
  refine ⟨fun h1 h2 => ?_, fun h1 h2 => ?_⟩
  · unfold Mat.getNu; rw [h1, h2]; rfl
  · unfold Mat.getAlpha; rw [h1, h2]; rfl

/-- The Prandtl number of a gas material, from its derived properties: `ν/α = μ Cp / k`. -/
theorem C93_prandtl {m : Mat} {st : State} {k rho cp mu a n : ℝ} (ha : m.alpha = none) (hn : m.nu = none) (hk : prop m.k st = .ok k)
    (hr : prop m.rho st = .ok rho) (hc : prop m.Cp st = .ok cp) (hm : prop m.mu st = .ok mu) (hk0 : k ≠ 0) (hA : m.getAlpha st = .ok a)
    (hN : m.getNu st = .ok n) : n / a = mu * cp / k := by
  unfold Mat.getAlpha at hA
  unfold Mat.getNu at hN
  rw [ha, hk, hr, hc] at hA
  rw [hn, hm, hr] at hN
  simp only [pydiv] at hA hN
  by_cases h0 : rho = 0
  · rw [if_pos h0] at hN; cases hN
  rw [if_neg h0] at hA hN
  simp only at hA
  by_cases h1 : cp = 0
  · rw [if_pos h1] at hA; cases hA
  rw [if_neg h1] at hA
  rw [← Except.ok.inj hA, ← Except.ok.inj hN]
  field_simp

/-- The hypotheses are met by a material with constant models. -/
example : ∃ m : Mat, ∃ a n, m.alpha = none ∧ m.nu = none ∧ m.getAlpha [] = .ok a ∧ m.getNu [] = .ok n ∧ n / a = 2 * 5 / 3 := by
  refine ⟨⟨none, none, some fun _ => .ok 5, some fun _ => .ok 3, some fun _ => .ok 2, none, some fun _ => .ok 4⟩, _, _, rfl, rfl,
    C93_alpha rfl rfl rfl rfl (by norm_num) (by norm_num), C93_nu rfl rfl rfl (by norm_num), by norm_num⟩

end Auxi.Phys.Props
