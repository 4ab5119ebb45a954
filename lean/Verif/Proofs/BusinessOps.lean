import Verif.Spec.BusinessOps
import Verif.Proofs.Ledger
import Verif.Props.Run
import Verif.Proofs.RunState

namespace Auxi.Business
open Spec Ledger Time

/-- Path and account invariant of an activity below path `p`. -/
def ActWF (s : Structure) (p : Str) (a : Activity) : Prop :=
  a.parentPath = p ∧ a.path = p ++ '/' :: a.name ∧
    ∀ n ∈ a.referencedAccounts, (Ledger.Spec.walk s.accounts (Ledger.Spec.segments n)).isSome

inductive CompWF (s : Structure) : Str → Component → Prop
  | mk {p : Str} {c : Component} (h1 : c.parentPath = p) (h2 : c.path = p ++ '/' :: c.name)
      (h3 : ∀ d ∈ c.components, CompWF s c.path d) (h4 : ∀ a ∈ c.activities, ActWF s c.path a) : CompWF s p c

/-- Only the accounts. -/
inductive CompAcc (s : Structure) : Component → Prop
  | mk {c : Component} (h3 : ∀ d ∈ c.components, CompAcc s d)
      (h4 : ∀ a ∈ c.activities, ∀ n ∈ a.referencedAccounts, (Ledger.Spec.walk s.accounts (Ledger.Spec.segments n)).isSome) :
      CompAcc s c

theorem CompWF.acc {s : Structure} {p : Str} {c : Component} (h : CompWF s p c) : CompAcc s c := by
  induction h with
  | mk _ _ _ h4 ih => exact .mk ih (fun a ha => (h4 a ha).2.2)

mutual
theorem setParent_wf (s : Structure) (p : Str) : ∀ c : Component, CompAcc s c → CompWF s p (c.setParentPath p)
  | ⟨n, d, pp, pa, cs, as⟩, h => by
    cases h with | mk h3 h4 =>
    refine .mk (by simp [Component.setParentPath]) (by simp [Component.setParentPath]) ?_ ?_
    · simp only [Component.setParentPath]; exact updateComps_wf s _ cs h3
    · simp only [Component.setParentPath, List.mem_map]
      rintro a ⟨b, hb, rfl⟩
      exact ⟨rfl, rfl, h4 b hb⟩
theorem updateComps_wf (s : Structure) (p : Str) : ∀ l : List Component, (∀ c ∈ l, CompAcc s c) →
    ∀ c ∈ updateComponents p l, CompWF s p c
  | [], _ => by simp [updateComponents]
  | c :: cs, h => by
    intro x hx
    simp only [updateComponents, List.mem_cons] at hx
    rcases hx with rfl | hx
    · exact setParent_wf s p c (h c (by simp))
    · exact updateComps_wf s p cs (fun y hy => h y (by simp [hy])) x hx
end

theorem compWF_rename {s : Structure} {p n : Str} {c : Component} (h : CompWF s p c) : CompWF s p (c.rename n) := by
  cases h with | mk h1 h2 h3 h4 =>
  refine .mk h1 (by simp [Component.rename, h1]) ?_ ?_
  · exact updateComps_wf s _ c.components (fun d hd => (h3 d hd).acc)
  · simp only [Component.rename, List.mem_map]
    rintro a ⟨b, hb, rfl⟩
    exact ⟨rfl, rfl, (h4 b hb).2.2⟩

theorem compWF_new (s : Structure) (p n : Str) (d : Option Str) : CompWF s p ((Component.new n d).setParentPath p) :=
  setParent_wf s p _ (.mk (by simp [Component.new]) (by simp [Component.new]))

theorem compWF_create {s : Structure} {p n : Str} {d : Option Str} {c : Component} (h : CompWF s p c) :
    CompWF s p (c.createComponent n d) := by
  cases h with | mk h1 h2 h3 h4 =>
  refine .mk h1 h2 ?_ h4
  intro x hx
  simp only [Component.createComponent, List.mem_append, List.mem_singleton] at hx
  rcases hx with hx | rfl
  · exact h3 x hx
  · exact compWF_new s _ n d

theorem mem_removeComp {n : Str} {l : List Component} {x : Component} (h : x ∈ removeComp n l) : x ∈ l := by
  unfold removeComp at h
  split at h
  · exact List.mem_of_mem_eraseIdx h
  · exact h

theorem compWF_remove {s : Structure} {p n : Str} {c : Component} (h : CompWF s p c) :
    CompWF s p (c.removeComponent n) := by
  cases h with | mk h1 h2 h3 h4 =>
  exact .mk h1 h2 (fun x hx => h3 x (mem_removeComp hx)) h4

theorem addActivity_ok {s : Structure} {a : Activity} {c c' : Component} :
    c.addActivity s a = .ok c' ↔
      (∀ n ∈ a.referencedAccounts, (Ledger.Spec.walk s.accounts (Ledger.Spec.segments n)).isSome) ∧
      c' = { c with activities := c.activities ++ [{ a with parentPath := c.path, path := c.path ++ '/' :: a.name }] } := by
  rw [← validate_iff]
  unfold Component.addActivity
  cases hv : s.validateAccountNames a.referencedAccounts with
  | error e => simp
  | ok u => simp [Activity.setParentPath, eq_comm]

theorem compWF_add {s : Structure} {p : Str} {a : Activity} {c : Component} (h : CompWF s p c) :
    CompWF s p (c.addActivity! s a) := by
  unfold Component.addActivity!
  split
  · rename_i c' hc
    rw [addActivity_ok] at hc
    obtain ⟨hv, rfl⟩ := hc
    cases h with | mk h1 h2 h3 h4 =>
    refine .mk h1 h2 h3 ?_
    intro x hx
    simp only [List.mem_append, List.mem_singleton] at hx
    rcases hx with hx | rfl
    · exact h4 x hx
    · exact ⟨rfl, rfl, hv⟩
  · exact h

theorem compWF_renameAct {s : Structure} {p n : Str} {k : Nat} {c : Component} (h : CompWF s p c) :
    CompWF s p { c with activities := c.activities.modify k (Activity.rename n) } := by
  cases h with | mk h1 h2 h3 h4 =>
  refine .mk h1 h2 h3 ?_
  intro x hx
  rcases mem_modify hx with hx | ⟨y, hy, rfl⟩
  · exact h4 x hx
  · obtain ⟨g1, g2, g3⟩ := h4 y hy
    exact ⟨g1, by simp [Activity.rename, g1], g3⟩

theorem compWF_modAt {s : Structure} {f : Component → Component} (hf : ∀ p c, CompWF s p c → CompWF s p (f c)) :
    ∀ (pos : List Nat) (p : Str) (c : Component), CompWF s p c → CompWF s p (c.modAt f pos) := by
  intro pos
  induction pos with
  | nil => intro p c h; exact hf p c h
  | cons i pos ih =>
    intro p c h
    cases h with | mk h1 h2 h3 h4 =>
    refine .mk h1 h2 ?_ h4
    intro x hx
    rcases mem_modify hx with hx | ⟨y, hy, rfl⟩
    · exact h3 x hx
    · exact ih _ y (h3 y hy)

def EntWF (e : Entity) : Prop := e.path = e.parentPath ++ '/' :: e.name ∧ ∀ c ∈ e.components, CompWF e.chart.str e.path c

theorem entWF_modComp {e : Entity} {f : Component → Component}
    (hf : ∀ p c, CompWF e.chart.str p c → CompWF e.chart.str p (f c)) (i : Nat) (pos : List Nat) (h : EntWF e) :
    EntWF (e.modComp f i pos) := by
  refine ⟨h.1, ?_⟩
  intro x hx
  rcases mem_modify hx with hx | ⟨y, hy, rfl⟩
  · exact h.2 x hx
  · exact compWF_modAt hf pos _ y (h.2 y hy)

/-! ### running keeps the tree -/

theorem actWF_prepare {s : Structure} {p : Str} {a : Activity} (clk : Clock) (n : Nat) (h : ActWF s p a) :
    ActWF s p (a.prepare clk n) := by
  refine ⟨h.1, h.2.1, ?_⟩
  have : (a.prepare clk n).referencedAccounts = a.referencedAccounts := by
    unfold Activity.referencedAccounts Activity.prepare Kind.reset
    cases a.kind <;> rfl
  rw [this]; exact h.2.2

theorem actWF_run {s : Structure} {p : Str} {a : Activity} (clk : Clock) (h : ActWF s p a) :
    ActWF s p (a.run clk).1 := by
  obtain ⟨h1, h2, h3⟩ := h
  unfold Activity.run
  split
  · exact ⟨h1, h2, h3⟩
  · unfold Activity.referencedAccounts at h3
    split
    · refine ⟨h1, h2, ?_⟩
      unfold Activity.referencedAccounts
      simp_all
    · rename_i hk
      rw [hk] at h3
      split
      · exact ⟨h1, h2, h3⟩
      · exact ⟨h1, h2, h3⟩

mutual
theorem compWF_prepare {s : Structure} (clk : Clock) (n : Nat) : ∀ (p : Str) (c : Component), CompWF s p c → CompWF s p (c.prepare clk n)
  | p, ⟨nm, d, pp, pa, cs, as⟩, h => by
    cases h with | mk h1 h2 h3 h4 =>
    refine .mk h1 h2 (compsWF_prepare clk n _ cs h3) ?_
    simp only [Component.prepare, List.mem_map]
    rintro a ⟨b, hb, rfl⟩
    exact actWF_prepare clk n (h4 b hb)
theorem compsWF_prepare {s : Structure} (clk : Clock) (n : Nat) : ∀ (p : Str) (l : List Component), (∀ c ∈ l, CompWF s p c) →
    ∀ c ∈ prepareComponents clk n l, CompWF s p c
  | p, [], _ => by simp [prepareComponents]
  | p, c :: cs, h => by
    intro x hx
    simp only [prepareComponents, List.mem_cons] at hx
    rcases hx with rfl | hx
    · exact compWF_prepare clk n p c (h c (by simp))
    · exact compsWF_prepare clk n p cs (fun y hy => h y (by simp [hy])) x hx
end

theorem runActs_wf {s : Structure} (clk : Clock) (p : Str) (l : List Activity) (h : ∀ a ∈ l, ActWF s p a) :
    ∀ a ∈ (runActivities clk l).1, ActWF s p a := by
  induction l with
  | nil => simp [runActivities]
  | cons a l ih =>
    intro x hx
    simp only [runActivities, List.mem_cons] at hx
    rcases hx with rfl | hx
    · exact actWF_run clk (h a (by simp))
    · exact ih (fun y hy => h y (by simp [hy])) x hx

mutual
theorem compWF_run {s : Structure} (clk : Clock) : ∀ (p : Str) (c : Component), CompWF s p c → CompWF s p (c.run clk).1
  | p, ⟨nm, d, pp, pa, cs, as⟩, h => by
    cases h with | mk h1 h2 h3 h4 =>
    exact .mk h1 h2 (compsWF_run clk _ cs h3) (runActs_wf clk _ as h4)
theorem compsWF_run {s : Structure} (clk : Clock) : ∀ (p : Str) (l : List Component), (∀ c ∈ l, CompWF s p c) →
    ∀ c ∈ (runComponents clk l).1, CompWF s p c
  | p, [], _ => by simp [runComponents]
  | p, c :: cs, h => by
    intro x hx
    simp only [runComponents, List.mem_cons] at hx
    rcases hx with rfl | hx
    · exact compWF_run clk p c (h c (by simp))
    · exact compsWF_run clk p cs (fun y hy => h y (by simp [hy])) x hx
end

theorem entWF_prepare {e : Entity} (clk : Clock) (n : Nat) (h : EntWF e) : EntWF (e.prepare clk n) :=
  ⟨h.1, compsWF_prepare clk n _ _ h.2⟩

/-- What a run keeps of an entity. -/
def Same (e e' : Entity) : Prop := e'.name = e.name ∧ e'.parentPath = e.parentPath ∧ e'.path = e.path ∧ e'.chart = e.chart

theorem yearEnd_same {clk : Clock} {e e' : Entity} (h : e.yearEnd clk = .ok e') :
    Same e e' ∧ e'.components = e.components := by
  unfold Entity.yearEnd at h
  split at h
  · split at h
    · cases h
    · simp only [Except.ok.injEq] at h; subst h; exact ⟨⟨rfl, rfl, rfl, rfl⟩, rfl⟩
  · simp only [Except.ok.injEq] at h; subst h; exact ⟨⟨rfl, rfl, rfl, rfl⟩, rfl⟩

theorem entRun_keep {clk : Clock} {e e' : Entity} (h : e.run clk = .ok e') : Same e e' ∧ (EntWF e → EntWF e') := by
  unfold Entity.run at h
  split at h
  · simp only [Except.ok.injEq] at h; subst h; exact ⟨⟨rfl, rfl, rfl, rfl⟩, id⟩
  · obtain ⟨⟨s1, s2, s3, s4⟩, s5⟩ := yearEnd_same h
    refine ⟨⟨s1, s2, s3, s4⟩, fun hw => ⟨by rw [s1, s2, s3]; exact hw.1, ?_⟩⟩
    rw [s5, s4, s3]
    exact compsWF_run clk _ _ hw.2

/-! ### also when the run raises -/

theorem setStart_wf {s : Structure} {p : Str} {a : Activity} (r : Option Nat) (h : ActWF s p a) :
    ActWF s p (RunState.setStart a r) := h

theorem setStop_wf {s : Structure} {p : Str} {a : Activity} (n : Nat) (r : Option Nat) (h : ActWF s p a) :
    ActWF s p (RunState.setStop n a r) := by
  refine ⟨h.1, h.2.1, ?_⟩
  have : (RunState.setStop n a r).referencedAccounts = a.referencedAccounts := by
    unfold Activity.referencedAccounts RunState.setStop Kind.reset
    cases a.kind <;> rfl
  rw [this]; exact h.2.2

theorem prepareActivity_wf {s : Structure} {p : Str} {a : Activity} (clk : Clock) (n : Nat) (h : ActWF s p a) :
    ActWF s p (RunState.prepareActivity clk n a).val := by
  unfold RunState.prepareActivity
  split
  · exact h
  · split
    · exact setStart_wf _ h
    · exact setStop_wf n _ (setStart_wf _ h)

theorem each_all {α : Type} {P : α → Prop} {f : α → RunState.Out α} (hf : ∀ a, P a → P (f a).val) (l : List α)
    (h : ∀ a ∈ l, P a) : ∀ a ∈ (RunState.each f l).val, P a := by
  induction l with
  | nil => simp [RunState.each]
  | cons a l ih =>
    have h1 := hf a (h a (by simp))
    have h2 := ih (fun x hx => h x (by simp [hx]))
    intro x hx
    unfold RunState.each at hx
    split at hx
    · rename_i hr
      rw [hr] at h1
      simp only [List.mem_cons] at hx
      rcases hx with rfl | hx
      · exact h1
      · exact h x (by simp [hx])
    · rename_i hr
      rw [hr] at h1
      simp only [List.mem_cons] at hx
      rcases hx with rfl | hx
      · exact h1
      · exact h2 x hx

mutual
theorem prepareComponent_wf {s : Structure} (clk : Clock) (n : Nat) : ∀ (p : Str) (c : Component), CompWF s p c →
    CompWF s p (RunState.prepareComponent clk n c).val
  | p, ⟨nm, d, pp, pa, cs, as⟩, h => by
    cases h with | mk h1 h2 h3 h4 =>
    have k := prepareComponents_wf (s := s) clk n _ cs h3
    unfold RunState.prepareComponent
    split
    · rename_i hr; rw [hr] at k; exact .mk h1 h2 k h4
    · rename_i hr; rw [hr] at k
      exact .mk h1 h2 k (each_all (fun a ha => prepareActivity_wf clk n ha) as h4)
theorem prepareComponents_wf {s : Structure} (clk : Clock) (n : Nat) : ∀ (p : Str) (l : List Component), (∀ c ∈ l, CompWF s p c) →
    ∀ c ∈ (RunState.prepareComponents clk n l).val, CompWF s p c
  | p, [], _ => by simp [RunState.prepareComponents]
  | p, c :: cs, h => by
    have k1 := prepareComponent_wf (s := s) clk n p c (h c (by simp))
    have k2 := prepareComponents_wf (s := s) clk n p cs (fun y hy => h y (by simp [hy]))
    intro x hx
    unfold RunState.prepareComponents at hx
    split at hx
    · rename_i hr; rw [hr] at k1
      simp only [List.mem_cons] at hx
      rcases hx with rfl | hx
      · exact k1
      · exact h x (by simp [hx])
    · rename_i hr; rw [hr] at k1
      simp only [List.mem_cons] at hx
      rcases hx with rfl | hx
      · exact k1
      · exact k2 x hx
end

theorem runActivity_wf {s : Structure} {p : Str} {a : Activity} (clk : Clock) (h : ActWF s p a) :
    ActWF s p (RunState.runActivity clk a).val.1 := by
  unfold RunState.runActivity
  split
  · exact h
  · split
    · exact h
    · exact actWF_run clk h

theorem runActivities_wf {s : Structure} {p : Str} (clk : Clock) (l : List Activity) (h : ∀ a ∈ l, ActWF s p a) :
    ∀ a ∈ (RunState.runActivities clk l).val.1, ActWF s p a := by
  induction l with
  | nil => simp [RunState.runActivities]
  | cons a l ih =>
    have h1 := runActivity_wf clk (h a (by simp))
    have h2 := ih (fun x hx => h x (by simp [hx]))
    intro x hx
    unfold RunState.runActivities at hx
    split at hx
    · rename_i hr; rw [hr] at h1
      simp only [List.mem_cons] at hx
      rcases hx with rfl | hx
      · exact h1
      · exact h x (by simp [hx])
    · rename_i hr; rw [hr] at h1
      simp only [List.mem_cons] at hx
      rcases hx with rfl | hx
      · exact h1
      · exact h2 x hx

mutual
theorem runComponent_wf {s : Structure} (clk : Clock) : ∀ (p : Str) (c : Component), CompWF s p c →
    CompWF s p (RunState.runComponent clk c).val.1
  | p, ⟨nm, d, pp, pa, cs, as⟩, h => by
    cases h with | mk h1 h2 h3 h4 =>
    have k := runComponents_wf (s := s) clk _ cs h3
    unfold RunState.runComponent
    split
    · rename_i hr; rw [hr] at k; exact .mk h1 h2 k h4
    · rename_i hr; rw [hr] at k
      exact .mk h1 h2 k (runActivities_wf clk as h4)
theorem runComponents_wf {s : Structure} (clk : Clock) : ∀ (p : Str) (l : List Component), (∀ c ∈ l, CompWF s p c) →
    ∀ c ∈ (RunState.runComponents clk l).val.1, CompWF s p c
  | p, [], _ => by simp [RunState.runComponents]
  | p, c :: cs, h => by
    have k1 := runComponent_wf (s := s) clk p c (h c (by simp))
    have k2 := runComponents_wf (s := s) clk p cs (fun y hy => h y (by simp [hy]))
    intro x hx
    unfold RunState.runComponents at hx
    split at hx
    · rename_i hr; rw [hr] at k1
      simp only [List.mem_cons] at hx
      rcases hx with rfl | hx
      · exact k1
      · exact h x (by simp [hx])
    · rename_i hr; rw [hr] at k1
      simp only [List.mem_cons] at hx
      rcases hx with rfl | hx
      · exact k1
      · exact k2 x hx
end

theorem prepareEntity_keep (clk : Clock) (n : Nat) (e : Entity) :
    Same e (RunState.prepareEntity clk n e).val ∧ (EntWF e → EntWF (RunState.prepareEntity clk n e).val) := by
  unfold RunState.prepareEntity
  split
  · exact ⟨⟨rfl, rfl, rfl, rfl⟩, id⟩
  · split
    · exact ⟨⟨rfl, rfl, rfl, rfl⟩, id⟩
    · exact ⟨⟨rfl, rfl, rfl, rfl⟩, fun h => ⟨h.1, prepareComponents_wf clk n _ _ h.2⟩⟩

theorem yearEnd_keep (clk : Clock) (e : Entity) :
    Same e (RunState.yearEnd clk e).val ∧ (RunState.yearEnd clk e).val.components = e.components := by
  unfold RunState.yearEnd
  split
  · exact ⟨⟨rfl, rfl, rfl, rfl⟩, rfl⟩
  · split
    · split
      · exact ⟨⟨rfl, rfl, rfl, rfl⟩, rfl⟩
      · split
        · exact ⟨⟨rfl, rfl, rfl, rfl⟩, rfl⟩
        · split <;> exact ⟨⟨rfl, rfl, rfl, rfl⟩, rfl⟩
    · exact ⟨⟨rfl, rfl, rfl, rfl⟩, rfl⟩

theorem runEntity_keep (clk : Clock) (e : Entity) :
    Same e (RunState.runEntity clk e).val ∧ (EntWF e → EntWF (RunState.runEntity clk e).val) := by
  unfold RunState.runEntity
  split
  · exact ⟨⟨rfl, rfl, rfl, rfl⟩, id⟩
  · dsimp only
    have hw : EntWF e → EntWF { e with components := (RunState.runComponents clk e.components).val.1, transactions := e.transactions ++ (RunState.runComponents clk e.components).val.2 } :=
      fun h => ⟨h.1, runComponents_wf clk _ _ h.2⟩
    split
    · exact ⟨⟨rfl, rfl, rfl, rfl⟩, hw⟩
    · obtain ⟨⟨s1, s2, s3, s4⟩, s5⟩ := yearEnd_keep clk { e with components := (RunState.runComponents clk e.components).val.1, transactions := e.transactions ++ (RunState.runComponents clk e.components).val.2 }
      refine ⟨⟨s1, s2, s3, s4⟩, fun h => ⟨by rw [s1, s2, s3]; exact h.1, ?_⟩⟩
      rw [s5, s4, s3]
      exact (hw h).2

/-- What a run keeps of an entity, from its state before. -/
def Keeps (e e' : Entity) : Prop := Same e e' ∧ (EntWF e → EntWF e')

theorem Keeps.trans {a b c : Entity} (h : Keeps a b) (h' : Keeps b c) : Keeps a c := by
  refine ⟨⟨?_, ?_, ?_, ?_⟩, fun w => h'.2 (h.2 w)⟩
  · rw [h'.1.1, h.1.1]
  · rw [h'.1.2.1, h.1.2.1]
  · rw [h'.1.2.2.1, h.1.2.2.1]
  · rw [h'.1.2.2.2, h.1.2.2.2]

theorem keep_refl (l : List Entity) : List.Forall₂ Keeps l l := by
  induction l with
  | nil => exact .nil
  | cons e l ih => exact .cons ⟨⟨rfl, rfl, rfl, rfl⟩, id⟩ ih

theorem keep_run (m : Model) : (RunState.runModel m).val.name = m.name ∧
    List.Forall₂ Keeps m.entities (RunState.runModel m).val.entities := by
  have h1 : List.Forall₂ Keeps m.entities (RunState.prepareModel m).val.entities :=
    RunState.each_forall₂ (keep_refl _) (fun a _ a' h => h.trans (prepareEntity_keep _ _ a'))
  unfold RunState.runModel
  split
  · rename_i hr; rw [hr] at h1
    have : (RunState.prepareModel m).val.name = m.name := rfl
    rw [hr] at this
    exact ⟨this, h1⟩
  · rename_i hr; rw [hr] at h1
    have : (RunState.prepareModel m).val.name = m.name := rfl
    rw [hr] at this
    exact ⟨this, RunState.runLoop_forall₂ (fun a _ a' clk h => h.trans (runEntity_keep clk a')) _ _ _ h1⟩

theorem forall₂_mem {α β} {R : α → β → Prop} {l : List α} {l' : List β} (h : List.Forall₂ R l l') {y : β} (hy : y ∈ l') :
    ∃ x ∈ l, R x y := by
  induction h with
  | nil => simp at hy
  | cons hh _ ih =>
    simp only [List.mem_cons] at hy
    rcases hy with rfl | hy
    · exact ⟨_, by simp, hh⟩
    · obtain ⟨x, hx, hr⟩ := ih hy; exact ⟨x, by simp [hx], hr⟩

theorem entWF_modEntity {m : Model} {j : Nat} {f : Entity → Entity} (hf : ∀ e, EntWF e → EntWF (f e))
    (h : ∀ e ∈ m.entities, EntWF e) : ∀ e ∈ (m.modEntity j f).entities, EntWF e := by
  intro x hx
  rcases mem_modify hx with hx | ⟨y, hy, rfl⟩
  · exact h x hx
  · exact hf y (h y hy)

theorem entWF_setParent {e : Entity} (v : Str) (h : EntWF e) : EntWF (e.setParentPath v) :=
  ⟨rfl, updateComps_wf _ _ _ (fun c hc => (h.2 c hc).acc)⟩

theorem entWF_op (m : Model) (op : Op) (h : ∀ e ∈ m.entities, EntWF e) : ∀ e ∈ (op.apply m).entities, EntWF e := by
  cases op with
  | renameModel n =>
    intro x hx
    simp only [Op.apply, Model.rename, List.mem_map] at hx
    obtain ⟨e, he, rfl⟩ := hx
    exact entWF_setParent n (h e he)
  | createEntity n c =>
    intro x hx
    simp only [Op.apply, Model.createEntity, List.mem_append, List.mem_singleton] at hx
    rcases hx with hx | rfl
    · exact h x hx
    · exact ⟨rfl, by simp [Entity.new]⟩
  | removeEntity n =>
    intro x hx
    simp only [Op.apply, Model.removeEntity] at hx
    split at hx
    · exact h x (List.mem_of_mem_eraseIdx hx)
    · exact h x hx
  | renameEntity j n =>
    exact entWF_modEntity (fun e he => ⟨rfl, updateComps_wf _ _ _ (fun c hc => (he.2 c hc).acc)⟩) h
  | createTop j n d =>
    refine entWF_modEntity (fun e he => ⟨he.1, ?_⟩) h
    intro x hx
    simp only [Entity.createComponent, List.mem_append, List.mem_singleton] at hx
    rcases hx with hx | rfl
    · exact he.2 x hx
    · exact compWF_new _ _ n d
  | removeTop j n => exact entWF_modEntity (fun e he => ⟨he.1, fun x hx => he.2 x (mem_removeComp hx)⟩) h
  | createComponent j i p n d => exact entWF_modEntity (fun e he => entWF_modComp (fun _ _ h => compWF_create h) i p he) h
  | removeComponent j i p n => exact entWF_modEntity (fun e he => entWF_modComp (fun _ _ h => compWF_remove h) i p he) h
  | renameComponent j i p n => exact entWF_modEntity (fun e he => entWF_modComp (fun _ _ h => compWF_rename h) i p he) h
  | addActivity j i p a => exact entWF_modEntity (fun e he => entWF_modComp (fun _ _ h => compWF_add h) i p he) h
  | renameActivity j i p k n => exact entWF_modEntity (fun e he => entWF_modComp (fun _ _ h => compWF_renameAct h) i p he) h
  | run =>
    intro x hx
    obtain ⟨e, he, hr⟩ := forall₂_mem (keep_run m).2 hx
    exact hr.2 (h e he)

theorem entWF_ops (ops : List Op) : ∀ m : Model, (∀ e ∈ m.entities, EntWF e) → ∀ e ∈ (ops.foldl Op.apply m).entities, EntWF e := by
  induction ops with
  | nil => intro m h; exact h
  | cons op ops ih => intro m h; exact ih _ (entWF_op m op h)

theorem compWF_names {s : Structure} (pos : List Nat) : ∀ (p : Str) (l : List Component), (∀ c ∈ l, CompWF s p c) →
    ∀ names c, namesTo l pos = some (names, c) → c.path = p ++ slashed names ∧ ∀ a ∈ c.activities, ActWF s c.path a := by
  induction pos with
  | nil => intro p l h names c hc; simp [namesTo] at hc
  | cons i pos ih =>
    intro p l h names c hc
    cases pos with
    | nil =>
      simp only [namesTo, Option.map_eq_some_iff, Prod.mk.injEq] at hc
      obtain ⟨d, hd, rfl, rfl⟩ := hc
      cases h d (List.mem_of_getElem? hd) with | mk h1 h2 h3 h4 =>
      exact ⟨by simp [slashed, h2], h4⟩
    | cons j pos =>
      simp only [namesTo] at hc
      split at hc
      · cases hc
      · rename_i d hd
        simp only [Option.map_eq_some_iff, Prod.mk.injEq] at hc
        obtain ⟨⟨ns, x⟩, hx, rfl, rfl⟩ := hc
        cases h d (List.mem_of_getElem? hd) with | mk h1 h2 h3 h4 =>
        obtain ⟨g1, g2⟩ := ih _ _ h3 ns x hx
        exact ⟨by rw [g1, h2]; simp [slashed], g2⟩

/-! ### entity parent paths -/

theorem parent_op (v : Str) (m : Model) (op : Op) (hk : KeepsEntities op) (hn : m.name = v)
    (h : ∀ e ∈ m.entities, e.parentPath = v) : (op.apply m).name = v ∧ ∀ e ∈ (op.apply m).entities, e.parentPath = v := by
  have mod : ∀ (j : Nat) (f : Entity → Entity), (∀ e, (f e).parentPath = e.parentPath) →
      (m.modEntity j f).name = v ∧ ∀ e ∈ (m.modEntity j f).entities, e.parentPath = v := by
    intro j f hf
    refine ⟨hn, fun x hx => ?_⟩
    rcases mem_modify hx with hx | ⟨y, hy, rfl⟩
    · exact h x hx
    · rw [hf]; exact h y hy
  cases op with
  | renameModel n => exact hk.elim
  | createEntity n c => exact hk.elim
  | removeEntity n =>
    refine ⟨hn, fun x hx => ?_⟩
    simp only [Op.apply, Model.removeEntity] at hx
    split at hx
    · exact h x (List.mem_of_mem_eraseIdx hx)
    · exact h x hx
  | run =>
    obtain ⟨k1, k2⟩ := keep_run m
    refine ⟨k1.trans hn, fun x hx => ?_⟩
    obtain ⟨e, he, hr⟩ := forall₂_mem k2 hx
    rw [hr.1.2.1]; exact h e he
  | _ => exact mod _ _ (fun _ => rfl)

theorem parent_ops (v : Str) (ops : List Op) : ∀ m : Model, (∀ op ∈ ops, KeepsEntities op) → m.name = v →
    (∀ e ∈ m.entities, e.parentPath = v) → (ops.foldl Op.apply m).name = v ∧ ∀ e ∈ (ops.foldl Op.apply m).entities, e.parentPath = v := by
  induction ops with
  | nil => intro m _ h1 h2; exact ⟨h1, h2⟩
  | cons op ops ih =>
    intro m hk h1 h2
    obtain ⟨g1, g2⟩ := parent_op v m op (hk op (by simp)) h1 h2
    exact ih _ (fun o ho => hk o (by simp [ho])) g1 g2

end Auxi.Business
