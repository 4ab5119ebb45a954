import Verif.Proofs.BusinessRun
import Mathlib.Data.Int.DivMod
import Mathlib.Tactic.LinearCombination

namespace Auxi.Business
open Spec Time Calendar Ledger

/-! ## Counting executions -/

theorem ediv_succ_of_dvd {k n : Int} (hk : 0 < k) (h : k ∣ n + 1) : (n + 1) / k = n / k + 1 ∧ n + 1 = k * (n / k + 1) := by
  obtain ⟨q, hq⟩ := h
  have h1 : (n + 1) / k = q := by rw [hq]; exact Int.mul_ediv_cancel_left q (by omega)
  have h2 : n / k = q - 1 := by
    have : n = k * (q - 1) + (k - 1) := by rw [Int.mul_sub, Int.mul_one]; omega
    rw [this, Int.mul_add_ediv_left _ _ (by omega)]
    have : (k - 1) / k = 0 := Int.ediv_eq_zero_of_lt (by omega) (by omega)
    omega
  refine ⟨by omega, ?_⟩
  rw [h2, hq]; congr 1; omega

theorem ediv_succ_of_not_dvd {k n : Int} (hk : 0 < k) (h : ¬ k ∣ n + 1) : (n + 1) / k = n / k := by
  have h1 := Int.emod_add_mul_ediv (n + 1) k
  have h2 := Int.emod_nonneg (n + 1) (by omega : k ≠ 0)
  have h3 := Int.emod_lt_of_pos (n + 1) hk
  have h4 : (n + 1) % k ≠ 0 := fun e => h (Int.dvd_of_emod_eq_zero e)
  have : n = k * ((n + 1) / k) + ((n + 1) % k - 1) := by omega
  have e : n / k = (n + 1) / k := by
    conv_lhs => rw [this]
    rw [Int.mul_add_ediv_left _ _ (by omega)]
    have : ((n + 1) % k - 1) / k = 0 := Int.ediv_eq_zero_of_lt (by omega) (by omega)
    omega
  exact e.symm

/-- Number of multiples of the interval that fit the window. -/
theorem count_scheduled (a : Activity) (hk : 0 < a.interval) (n : Nat) (h0 : 0 ≤ a.startIx) :
    (((List.range n).filter (fun i => a.meetsBase i)).length : Int) =
      max 0 (min ((a.endIx + 1) / a.interval - 1) (n / a.interval) - (a.startIx + a.interval) / a.interval + 1) := by
  generalize hk' : a.interval = k at hk ⊢
  generalize hs : (a.startIx + k) / k = lo
  generalize he : (a.endIx + 1) / k - 1 = E
  have hlo : 1 ≤ lo := by
    rw [← hs]; rw [Int.le_ediv_iff_mul_le hk]; omega
  induction n with
  | zero => simp; omega
  | succ n ih =>
    rw [List.range_succ, List.filter_append, List.length_append]
    push_cast
    rw [ih]
    by_cases hd : k ∣ (n : Int) + 1
    · obtain ⟨e1, e2⟩ := ediv_succ_of_dvd hk hd
      rw [e1]
      generalize hq : (n : Int) / k = q at *
      have hmeet : a.meetsBase n = true ↔ lo ≤ q + 1 ∧ q + 1 ≤ E := by
        rw [meetsBase_iff]; unfold Scheduled
        rw [hk']
        have c1 : a.startIx ≤ n ↔ lo ≤ q + 1 := by
          rw [← hs]
          rw [show (a.startIx + k) / k ≤ q + 1 ↔ (a.startIx + k) / k < q + 1 + 1 by omega]
          rw [Int.ediv_lt_iff_lt_mul hk]
          rw [show (q + 1 + 1) * k = k * (q + 1) + k by ring, ← e2]
          omega
        have c2 : n + k ≤ a.endIx ↔ q + 1 ≤ E := by
          rw [← he]
          rw [show q + 1 ≤ (a.endIx + 1) / k - 1 ↔ q + 2 ≤ (a.endIx + 1) / k by omega]
          rw [Int.le_ediv_iff_mul_le hk]
          rw [show (q + 2) * k = k * (q + 1) + k by ring, ← e2]
          omega
        rw [c1, c2]
        constructor
        · rintro ⟨_, h⟩; exact h
        · intro h; exact ⟨Or.inr hd, h⟩
      by_cases hm : a.meetsBase n = true
      · have := hmeet.1 hm
        simp [hm]; omega
      · have : ¬ (lo ≤ q + 1 ∧ q + 1 ≤ E) := fun h => hm (hmeet.2 h)
        simp [hm]; omega
    · rw [ediv_succ_of_not_dvd hk hd]
      have hm : ¬ a.meetsBase n = true := by
        rw [meetsBase_iff]; rintro ⟨h | h, _⟩
        · omega
        · rw [hk'] at h; exact hd h
      simp [hm]

/-! ## First period after a datetime -/

theorem firstAfter_some {clk : Clock} {t : Int} {n i : Nat} (h : firstAfter clk t n = some i) :
    i < n ∧ clk.atIx i > t ∧ ∀ j : Nat, j < i → clk.atIx j ≤ t := by
  unfold firstAfter at h
  rw [List.find?_range_eq_some] at h
  obtain ⟨h1, h2, h3⟩ := h
  simp at h1 h2 h3
  exact ⟨h2, h1, h3⟩

theorem firstAfter_none {clk : Clock} {t : Int} {n : Nat} : firstAfter clk t n = none ↔ ∀ j : Nat, j < n → clk.atIx j ≤ t := by
  unfold firstAfter
  rw [List.find?_range_eq_none]
  simp

theorem firstAfter_eq {clk : Clock} {t : Int} {n i : Nat} (h1 : i < n) (h2 : clk.atIx i > t) (h3 : ∀ j : Nat, j < i → clk.atIx j ≤ t) :
    firstAfter clk t n = some i := by
  unfold firstAfter
  rw [List.find?_range_eq_some]
  simp
  exact ⟨h2, h1, h3⟩

theorem atIx_strict (c : Clock) {i j : Int} (h : i < j) : c.atIx i < c.atIx j := by
  unfold Clock.atIx
  cases c.duration <;> simp only [dayUs]
  case month => exact addMonths_strictMono _ h
  case year => rw [addYears_eq, addYears_eq]; exact addMonths_strictMono _ (by omega)
  all_goals omega

theorem atIx_le (c : Clock) {i j : Int} (h : i ≤ j) : c.atIx i ≤ c.atIx j := by
  by_cases e : i = j
  · rw [e]
  · exact Int.le_of_lt (atIx_strict c (by omega))

/-! ## Absorption without loan hypotheses -/

theorem run_prepare (clk c : Clock) (n : Nat) (a : Activity) : (a.run clk).1.prepare c n = a.prepare c n := by
  unfold Activity.run
  split
  · rfl
  · split
    · rfl
    · rename_i hk
      split
      · unfold Activity.prepare; simp [Kind.reset, hk, Activity.prepStart, Activity.prepCount, Activity.prepEnd]
      · unfold Activity.prepare; simp [Kind.reset, hk, Activity.prepStart, Activity.prepCount, Activity.prepEnd]

theorem runActivities_prepare (clk c : Clock) (n : Nat) (as : List Activity) :
    (runActivities clk as).1.map (Activity.prepare c n) = as.map (Activity.prepare c n) := by
  induction as with
  | nil => rfl
  | cons a as ih => simp [runActivities, run_prepare, ih]

mutual
theorem comp_run_prepare (clk c : Clock) (n : Nat) : ∀ x : Component, (x.run clk).1.prepare c n = x.prepare c n
  | ⟨nm, d, pp, p, cs, as⟩ => by
    simp only [Component.run, Component.prepare, runActivities_prepare, comps_run_prepare clk c n cs]
theorem comps_run_prepare (clk c : Clock) (n : Nat) : ∀ cs : List Component,
    prepareComponents c n (runComponents clk cs).1 = prepareComponents c n cs
  | [] => rfl
  | x :: cs => by simp only [runComponents, prepareComponents, comp_run_prepare clk c n x, comps_run_prepare clk c n cs]
end

theorem prepare_idem (clk : Clock) (n : Nat) (a : Activity) : (a.prepare clk n).prepare clk n = a.prepare clk n := by
  have := prepare_absorb clk n 0 a
  rwa [stateAt_zero_prepare] at this

mutual
theorem comp_prepare_idem (clk : Clock) (n : Nat) : ∀ x : Component, (x.prepare clk n).prepare clk n = x.prepare clk n
  | ⟨nm, d, pp, p, cs, as⟩ => by
    simp only [Component.prepare, comps_prepare_idem clk n cs, List.map_map]
    congr 1
    exact List.map_congr_left (fun a _ => prepare_idem clk n a)
theorem comps_prepare_idem (clk : Clock) (n : Nat) : ∀ cs : List Component,
    prepareComponents clk n (prepareComponents clk n cs) = prepareComponents clk n cs
  | [] => rfl
  | x :: cs => by simp only [prepareComponents, comp_prepare_idem clk n x, comps_prepare_idem clk n cs]
end

theorem entity_run_frame {clk c : Clock} {n : Nat} {e e' : Entity} (h : e.run clk = .ok e') :
    SameStatic e e' ∧ prepareComponents c n e'.components = prepareComponents c n e.components := by
  unfold Entity.run at h
  split at h
  · simp at h; subst h; exact ⟨SameStatic.refl _, rfl⟩
  · simp only at h
    obtain ⟨g1, _, g3, _⟩ := yearEnd_frame h
    refine ⟨g3, ?_⟩
    rw [g1]; exact comps_run_prepare clk c n e.components

theorem entLoop_frame {c : Clock} {n : Nat} (k : Nat) : ∀ (clk : Clock) (e e' : Entity), entLoop k clk e = .ok e' →
    SameStatic e e' ∧ prepareComponents c n e'.components = prepareComponents c n e.components := by
  induction k with
  | zero => intro clk e e' h; simp [entLoop] at h; subst h; exact ⟨SameStatic.refl _, rfl⟩
  | succ k ih =>
    intro clk e e' h
    simp only [entLoop] at h
    split at h
    · simp at h
    · rename_i e1 h1
      obtain ⟨a1, a2⟩ := entity_run_frame (c := c) (n := n) h1
      obtain ⟨b1, b2⟩ := ih _ _ _ h
      exact ⟨a1.trans b1, b2.trans a2⟩

theorem entity_absorb' (clk : Clock) (n k : Nat) (e e' : Entity) (h : entLoop k clk (e.prepare clk n) = .ok e') :
    e'.prepare clk n = e.prepare clk n := by
  obtain ⟨⟨s1, s2, s3, s4, s5, s6⟩, hc⟩ := entLoop_frame (c := clk) (n := n) k clk _ e' h
  simp only [Entity.prepare] at hc s1 s2 s3 s4
  rw [comps_prepare_idem] at hc
  unfold Entity.prepare
  rw [hc, s1, s2, s3, s4]

/-! ## Loans -/

theorem outstanding_closed {A rate p : ℚ} {n : Nat} (hr : rate / 12 ≠ 0) (hp1 : (1 + rate / 12) ^ n ≠ 1)
    (hb : (1 + rate / 12) ≠ 0)
    (hp : p = A * (rate / 12) / (1 - 1 / (1 + rate / 12) ^ n)) (j : Nat) :
    outstanding A rate p j = A * ((1 + rate / 12) ^ n - (1 + rate / 12) ^ j) / ((1 + rate / 12) ^ n - 1) := by
  generalize hR : rate / 12 = r at *
  have hq : (1 + r) ^ n ≠ 0 := pow_ne_zero _ hb
  have hd : (1 + r) ^ n - 1 ≠ 0 := sub_ne_zero.2 hp1
  have hp' : p = A * r * (1 + r) ^ n / ((1 + r) ^ n - 1) := by
    rw [hp, div_eq_div_iff _ hd]
    · field_simp
    · have : 1 - 1 / (1 + r) ^ n = ((1 + r) ^ n - 1) / (1 + r) ^ n := by field_simp
      rw [this]; exact div_ne_zero hd hq
  induction j with
  | zero => simp [outstanding]; field_simp
  | succ j ih =>
    rw [outstanding, hR, ih, hp', pow_succ]
    field_simp
    ring

end Auxi.Business
