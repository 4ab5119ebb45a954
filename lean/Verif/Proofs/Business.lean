import Mathlib.Tactic.Ring
import Mathlib.Tactic.Linarith
import Mathlib.Tactic.FieldSimp
import Verif.Spec.Business
import Verif.Proofs.Calendar

namespace Auxi.Business
open Spec Time Calendar Ledger

theorem meetsBase_iff (a : Activity) (ix : Nat) : a.meetsBase ix = true ↔ Scheduled a ix := by
  unfold Activity.meetsBase Scheduled
  by_cases h0 : a.interval = 0
  · simp [h0]
  · by_cases hd : a.interval ∣ (ix : Int) + 1
    · have : ((ix : Int) + 1) % a.interval = 0 := Int.emod_eq_zero_of_dvd hd
      simp [h0, hd, this]
    · have : ((ix : Int) + 1) % a.interval ≠ 0 := fun h => hd (Int.dvd_of_emod_eq_zero h)
      simp [h0, hd, this]

/-! ## Activity state along a run -/

/-- the state of a prepared activity before period `i` -/
def stateAt (i : Nat) (a : Activity) : Activity :=
  { a with kind := match a.kind with
    | .basic am d c => .basic am d c
    | .loan b l t am r p d _ _ =>
      .loan b l t am r p d (execsBefore a i * a.interval) (outstanding am r p (execsBefore a i - 1)) }

theorem meets_iff (a : Activity) (ix : Nat) : a.meets ix = true ↔ Due a ix := by
  unfold Activity.meets Due Active
  rw [Bool.and_eq_true, meetsBase_iff]
  cases a.kind <;> simp

theorem due_meets (a : Activity) (ix : Nat) : decide (Due a ix) = a.meets ix := by
  rw [Bool.eq_iff_iff, decide_eq_true_iff, meets_iff]

theorem meets_stateAt (i k : Nat) (a : Activity) : (stateAt i a).meets k = a.meets k := by
  unfold stateAt Activity.meets Activity.meetsBase
  cases a.kind <;> rfl

theorem execsBefore_succ (a : Activity) (i : Nat) :
    execsBefore a (i + 1) = execsBefore a i + (if a.meets i then 1 else 0) := by
  unfold execsBefore
  rw [List.range_succ, List.filter_append, List.length_append]
  congr 1
  have hd := due_meets a i
  by_cases h : a.meets i <;> simp [h] at hd ⊢ <;> simp [hd]

theorem txName_stateAt (i : Nat) (a : Activity) : (stateAt i a).txName = a.description.getD a.name := rfl

theorem activity_run (clk : Clock) (i : Nat) (a : Activity)
    (hl : ∀ b l t am r p d m lf, a.kind = .loan b l t am r p d m lf → a.interval ≠ 0) :
    (stateAt i a).run (clockAt clk i) = (stateAt (i + 1) a, txsAt clk a i) := by
  have hm : (stateAt i a).meets (clockAt clk i).ix = a.meets i := meets_stateAt i i a
  unfold Activity.run
  rw [hm]
  have hs := execsBefore_succ a i
  have hdu := due_meets a i
  cases hmi : a.meets i with
  | false =>
    rw [hmi, decide_eq_false_iff_not] at hdu
    simp only [hmi, Bool.false_eq_true, if_false, Nat.add_zero] at hs
    simp only [if_true, txsAt, hdu, if_false, Prod.mk.injEq, and_true]
    unfold stateAt; rw [hs]
  | true =>
    rw [hmi, decide_eq_true_iff] at hdu
    simp only [hmi, if_true] at hs
    simp only [Bool.true_eq_false, if_false]
    cases hk : a.kind with
    | basic am d c =>
      simp only [stateAt, hk, txsAt, hdu, if_true]
      rfl
    | loan b l t am r p d m lf =>
      have hi := hl b l t am r p d m lf hk
      simp only [stateAt, hk]
      cases hj : execsBefore a i with
      | zero =>
        rw [hj] at hs
        simp only [txsAt, hdu, if_true, hk, hj, Nat.cast_zero, zero_mul, hs, outstanding, zero_add, Nat.cast_one, one_mul,
          Nat.zero_sub, Nat.sub_self]
        rfl
      | succ j =>
        rw [hj] at hs
        have hne : ((j + 1 : Nat) : Int) * a.interval ≠ 0 := by
          apply Int.mul_ne_zero _ hi; omega
        rw [if_neg hne]
        simp only [txsAt, hdu, if_true, hk, hj, hs]
        have e1 : ((j + 1 : Nat) : Int) * a.interval + a.interval = ((j + 1 + 1 : Nat) : Int) * a.interval := by
          push_cast; ring
        have e2 : outstanding am r p (j + 1 - 1) + (outstanding am r p (j + 1 - 1) * r / 12 - p) =
            outstanding am r p (j + 1 + 1 - 1) := by
          simp only [Nat.add_sub_cancel, outstanding]; ring
        rw [e1, e2]
        rfl

/-! ## Lifting to components -/

mutual
def compStateAt (i : Nat) : Component → Component
  | ⟨n, d, pp, p, cs, as⟩ => ⟨n, d, pp, p, compsStateAt i cs, as.map (stateAt i)⟩
def compsStateAt (i : Nat) : List Component → List Component
  | [] => []
  | c :: cs => compStateAt i c :: compsStateAt i cs
end

theorem runActivities_eq (clk : Clock) (i : Nat) (as : List Activity) (h : LoansOk as) :
    runActivities (clockAt clk i) (as.map (stateAt i)) =
      (as.map (stateAt (i + 1)), as.flatMap (fun a => txsAt clk a i)) := by
  induction as with
  | nil => rfl
  | cons a as ih =>
    have h1 := activity_run clk i a (h a (by simp))
    have h2 := ih (fun x hx => h x (by simp [hx]))
    simp only [List.map_cons, runActivities, h1, h2, List.flatMap_cons]

mutual
theorem comp_run (clk : Clock) (i : Nat) : ∀ (c : Component), LoansOk (activitiesOf c) →
    (compStateAt i c).run (clockAt clk i) =
      (compStateAt (i + 1) c, (activitiesOf c).flatMap (fun a => txsAt clk a i))
  | ⟨n, d, pp, p, cs, as⟩, h => by
    have h1 := comps_run clk i cs (fun a ha => h a (by simp [activitiesOf, ha]))
    have h2 := runActivities_eq clk i as (fun a ha => h a (by simp [activitiesOf, ha]))
    simp only [compStateAt, Component.run, h1, h2, activitiesOf, List.flatMap_append]
theorem comps_run (clk : Clock) (i : Nat) : ∀ (cs : List Component), LoansOk (activitiesOfList cs) →
    runComponents (clockAt clk i) (compsStateAt i cs) =
      (compsStateAt (i + 1) cs, (activitiesOfList cs).flatMap (fun a => txsAt clk a i))
  | [], _ => rfl
  | c :: cs, h => by
    have h1 := comp_run clk i c (fun a ha => h a (by simp [activitiesOfList, ha]))
    have h2 := comps_run clk i cs (fun a ha => h a (by simp [activitiesOfList, ha]))
    simp only [compsStateAt, runComponents, h1, h2, activitiesOfList, List.flatMap_append]
end

/-! ## Prepared components are in state 0 -/

theorem execsBefore_zero (a : Activity) : execsBefore a 0 = 0 := rfl

theorem stateAt_zero_prepare (clk : Clock) (n : Nat) (a : Activity) : stateAt 0 (a.prepare clk n) = a.prepare clk n := by
  unfold stateAt
  cases h : a.kind <;> simp [Activity.prepare, h, Kind.reset, execsBefore_zero, outstanding]

mutual
theorem compState_zero (clk : Clock) (n : Nat) : ∀ c : Component, compStateAt 0 (c.prepare clk n) = c.prepare clk n
  | ⟨nm, d, pp, p, cs, as⟩ => by
    simp only [Component.prepare, compStateAt, comps_zero clk n cs, List.map_map]
    congr 1
    exact List.map_congr_left (fun a _ => stateAt_zero_prepare clk n a)
theorem comps_zero (clk : Clock) (n : Nat) : ∀ cs : List Component,
    compsStateAt 0 (prepareComponents clk n cs) = prepareComponents clk n cs
  | [] => rfl
  | c :: cs => by simp only [prepareComponents, compsStateAt, compState_zero clk n c, comps_zero clk n cs]
end

mutual
theorem activitiesOf_prepare (clk : Clock) (n : Nat) : ∀ c : Component,
    activitiesOf (c.prepare clk n) = (activitiesOf c).map (Activity.prepare clk n)
  | ⟨nm, d, pp, p, cs, as⟩ => by
    simp only [Component.prepare, activitiesOf, activitiesOfList_prepare clk n cs, List.map_append]
theorem activitiesOfList_prepare (clk : Clock) (n : Nat) : ∀ cs : List Component,
    activitiesOfList (prepareComponents clk n cs) = (activitiesOfList cs).map (Activity.prepare clk n)
  | [] => rfl
  | c :: cs => by
    simp only [prepareComponents, activitiesOfList, activitiesOf_prepare clk n c, activitiesOfList_prepare clk n cs, List.map_append]
end

theorem loansOk_prepare (clk : Clock) (n : Nat) (as : List Activity) (h : LoansOk as) :
    LoansOk (as.map (Activity.prepare clk n)) := by
  intro a ha b l i am r p d m lf hk
  simp only [List.mem_map] at ha
  obtain ⟨a0, ha0, rfl⟩ := ha
  cases hk0 : a0.kind with
  | basic => simp [Activity.prepare, hk0, Kind.reset] at hk
  | loan b' l' i' am' r' p' d' m' lf' => exact h a0 ha0 _ _ _ _ _ _ _ _ _ hk0

/-! ## Idempotence of preparation -/

theorem prepare_absorb (clk : Clock) (n i : Nat) (a : Activity) :
    (stateAt i (a.prepare clk n)).prepare clk n = a.prepare clk n := by
  have hs : (stateAt i (a.prepare clk n)).prepStart clk n = a.prepStart clk n := by
    have hne : a.prepStart clk n ≠ -1 := by
      unfold Activity.prepStart; simp only; split <;> omega
    have key : ∀ b : Activity, b.startIx ≠ -1 → b.prepStart clk n = b.startIx := fun b hb => by
      simp [Activity.prepStart, hb]
    exact key _ hne
  have hc : (stateAt i (a.prepare clk n)).prepCount clk n = a.prepCount clk n := by
    show (if a.prepCount clk n = -1 ∧ a.stop ≠ dtMax then
      (match firstAfter clk a.stop n with
        | some k => (k : Int) - (stateAt i (a.prepare clk n)).prepStart clk n | none => a.prepCount clk n)
      else a.prepCount clk n) = _
    rw [hs]
    unfold Activity.prepCount
    by_cases h1 : a.periodCount = -1 ∧ a.stop ≠ dtMax
    · simp only [h1, ne_eq, not_false_eq_true, and_self, if_true, and_true]
      cases hf : firstAfter clk a.stop n <;> simp
    · simp only [h1, if_false]
  have he : (stateAt i (a.prepare clk n)).prepEnd clk n = a.prepEnd clk n := by
    unfold Activity.prepEnd; rw [hs, hc]
  have hk : (stateAt i (a.prepare clk n)).kind.reset = a.kind.reset := by
    unfold stateAt
    cases h : a.kind <;> simp [Activity.prepare, h, Kind.reset]
  unfold Activity.prepare at *
  rw [hs, hc, he, hk]
  simp [stateAt]

mutual
theorem comp_absorb (clk : Clock) (n i : Nat) : ∀ c : Component,
    (compStateAt i (c.prepare clk n)).prepare clk n = c.prepare clk n
  | ⟨nm, d, pp, p, cs, as⟩ => by
    simp only [Component.prepare, compStateAt, comps_absorb clk n i cs, List.map_map]
    congr 1
    exact List.map_congr_left (fun a _ => prepare_absorb clk n i a)
theorem comps_absorb (clk : Clock) (n i : Nat) : ∀ cs : List Component,
    prepareComponents clk n (compsStateAt i (prepareComponents clk n cs)) = prepareComponents clk n cs
  | [] => rfl
  | c :: cs => by simp only [prepareComponents, compsStateAt, comp_absorb clk n i c, comps_absorb clk n i cs]
end

end Auxi.Business
