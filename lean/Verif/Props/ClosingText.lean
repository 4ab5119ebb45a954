import Verif.Props.Run
import Verif.Props.YearEnd

/-! # C29: what a closing transaction says about itself -/
namespace Auxi.Business.Props
open Auxi Auxi.Business Auxi.Business.Spec Time Calendar Ledger

/-- A closing transaction of an entity with this chart and path says which of its two accounts it settles; the one that settles the income summary against the retained earnings says so. -/
def Says (ch : Chart) (path : Str) (t : Tx) : Prop :=
  t.source = path ∧ t.closingDt = false ∧ t.description = some t.name ∧
  ((∃ p, (t.dt = p ∨ t.cr = p) ∧ t.name = "Settle the '".toList ++ p ++ "' Account".toList) ∨
    ((t.dt = ch.incSum ∧ t.cr = ch.retEarn ∨ t.dt = ch.retEarn ∧ t.cr = ch.incSum) ∧
      t.name = "Settle the '".toList ++ ch.incSum ++ "' Account, adjust Retained Earnings accordingly.".toList))

theorem closingTxs_says (c : Chart) (src : Str) (date : Int) (w : WriteOff) : ∀ t ∈ closingTxs c src date w, Says c src t := by
  have g : ∀ d : Dict Ref, ∀ t ∈ grossClosings c src date d, Says c src t := by
    intro d
    induction d with
    | nil => simp [grossClosings]
    | cons e d ih =>
      obtain ⟨acc, am⟩ := e
      intro t ht
      simp only [grossClosings, List.mem_append] at ht
      rcases ht with ht | ht
      · split at ht
        · simp at ht; subst ht; exact ⟨rfl, rfl, rfl, .inl ⟨acc.path, .inr rfl, rfl⟩⟩
        · split at ht
          · simp at ht; subst ht; exact ⟨rfl, rfl, rfl, .inl ⟨acc.path, .inl rfl, rfl⟩⟩
          · simp at ht
      · exact ih t ht
  have i : ∀ d : Dict Ref, ∀ t ∈ incClosings c src date d, Says c src t := by
    intro d
    induction d with
    | nil => simp [incClosings]
    | cons e d ih =>
      obtain ⟨acc, am⟩ := e
      intro t ht
      simp only [incClosings, List.mem_append] at ht
      rcases ht with ht | ht
      · split at ht
        · split at ht
          · simp at ht; subst ht; exact ⟨rfl, rfl, rfl, .inl ⟨acc.path, .inr rfl, rfl⟩⟩
          · simp at ht; subst ht; exact ⟨rfl, rfl, rfl, .inl ⟨acc.path, .inl rfl, rfl⟩⟩
        · split at ht
          · split at ht
            · simp at ht; subst ht; exact ⟨rfl, rfl, rfl, .inl ⟨acc.path, .inl rfl, rfl⟩⟩
            · simp at ht; subst ht; exact ⟨rfl, rfl, rfl, .inl ⟨acc.path, .inr rfl, rfl⟩⟩
          · simp at ht
      · exact ih t ht
  intro t ht
  simp only [closingTxs, List.mem_append] at ht
  rcases ht with ((ht | ht) | ht) | ht
  · exact g _ t ht
  · exact i _ t ht
  · unfold grossSettle at ht
    split at ht
    · simp at ht; subst ht; exact ⟨rfl, rfl, rfl, .inl ⟨c.grossProf, .inl rfl, rfl⟩⟩
    · split at ht
      · simp at ht; subst ht; exact ⟨rfl, rfl, rfl, .inl ⟨c.grossProf, .inr rfl, rfl⟩⟩
      · simp at ht
  · unfold retainedClosings at ht
    split at ht
    · simp at ht; subst ht; exact ⟨rfl, rfl, rfl, .inr ⟨.inl ⟨rfl, rfl⟩, rfl⟩⟩
    · split at ht
      · simp at ht; subst ht; exact ⟨rfl, rfl, rfl, .inr ⟨.inr ⟨rfl, rfl⟩, rfl⟩⟩
      · simp at ht

theorem activity_open (clk : Clock) (a : Activity) : ∀ t ∈ (a.run clk).2, t.closingCr = false := by
  intro t ht
  unfold Activity.run at ht
  split at ht
  · simp at ht
  · split at ht
    · simp at ht; subst ht; rfl
    · split at ht
      · simp at ht; subst ht; rfl
      · simp at ht; rcases ht with rfl | rfl <;> rfl

theorem activities_open (clk : Clock) : ∀ as : List Activity, ∀ t ∈ (runActivities clk as).2, t.closingCr = false
  | [] => by intro t ht; simp [runActivities] at ht
  | a :: as => by
    intro t ht
    simp only [runActivities, List.mem_append] at ht
    exact ht.elim (activity_open clk a t) (activities_open clk as t)

mutual
theorem component_open (clk : Clock) : ∀ c : Component, ∀ t ∈ (c.run clk).2, t.closingCr = false
  | ⟨nm, d, pp, p, cs, as⟩ => by
    intro t ht
    simp only [Component.run, List.mem_append] at ht
    exact ht.elim (components_open clk cs t) (activities_open clk as t)
theorem components_open (clk : Clock) : ∀ cs : List Component, ∀ t ∈ (runComponents clk cs).2, t.closingCr = false
  | [] => by intro t ht; simp [runComponents] at ht
  | c :: cs => by
    intro t ht
    simp only [runComponents, List.mem_append] at ht
    exact ht.elim (component_open clk c t) (components_open clk cs t)
end

theorem run_says {clk : Clock} {e e' : Entity} (h : e.run clk = .ok e') (hs : ∀ t ∈ e.transactions, t.closingCr = true → Says e.chart e.path t) :
    e'.chart = e.chart ∧ e'.path = e.path ∧ ∀ t ∈ e'.transactions, t.closingCr = true → Says e.chart e.path t := by
  unfold Entity.run at h
  split at h
  · cases h; exact ⟨rfl, rfl, hs⟩
  · dsimp only at h
    have ho : ∀ t ∈ e.transactions ++ (runComponents clk e.components).2, t.closingCr = true → Says e.chart e.path t := by
      intro t ht hc
      rcases List.mem_append.1 ht with ht | ht
      · exact hs t ht hc
      · rw [components_open clk e.components t ht] at hc; cases hc
    unfold Entity.yearEnd at h
    split at h
    · split at h
      · cases h
      · cases h
        refine ⟨rfl, rfl, fun t ht hc => ?_⟩
        rcases List.mem_append.1 ht with ht | ht
        · exact ho t ht hc
        · exact closingTxs_says _ _ _ _ t ht
    · cases h; exact ⟨rfl, rfl, ho⟩

/-- **C29 (what it says).** In a run, every closing transaction bears the path of its entity and names the account it settles, which is one of its two accounts. -/
theorem C29_says (clk : Clock) (n : Nat) (e e' : Entity) (h : runEntityFor clk n e = .ok e') (t : Tx) (ht : t ∈ e'.transactions) (hc : t.closingCr = true) : Says e.chart e.path t := by
  have key : ∀ (l : List ℕ) (a b : Entity), l.foldlM (fun e i => e.run (clockAt clk i)) a = .ok b → (∀ t ∈ a.transactions, t.closingCr = true → Says a.chart a.path t) →
      b.chart = a.chart ∧ b.path = a.path ∧ ∀ t ∈ b.transactions, t.closingCr = true → Says a.chart a.path t := by
    intro l
    induction l with
    | nil => intro a b hb ha; cases hb; exact ⟨rfl, rfl, ha⟩
    | cons i l ih =>
      intro a b hb ha
      rw [List.foldlM_cons] at hb
      cases hr : a.run (clockAt clk i) with
      | error x => rw [hr] at hb; cases hb
      | ok m =>
        rw [hr] at hb
        obtain ⟨m1, m2, m3⟩ := run_says hr ha
        obtain ⟨b1, b2, b3⟩ := ih m b hb (by rw [m1, m2]; exact m3)
        rw [m1, m2] at b3
        exact ⟨b1.trans m1, b2.trans m2, b3⟩
  exact (key _ _ _ h (by intro t ht; simp [Entity.prepare] at ht)).2.2 t ht hc

/-- The closing transactions of a run of fourteen months: the accounts settled at the first year end are sales and interest, then the gross profit and the income summary. -/
example : ((ledgerOf (runEntityFor clkM 14 ent0)).filter (·.closingCr)).map (·.name) = ["Settle the 'Sales/Ore' Account".toList, "Settle the 'Expense/Interest' Account".toList,
    "Settle the 'Unallocated Income Statement/Gross Profit' Account".toList,
    "Settle the 'Unallocated Income Statement/Income Summary' Account, adjust Retained Earnings accordingly.".toList] := by
  decide +kernel

end Auxi.Business.Props
