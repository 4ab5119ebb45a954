import Verif.Lookup
import Verif.Spec.Lookup
import Verif.Props.YearEndTransit

/-! # C156: entities, components and activities are found by name -/
namespace Auxi.Business.Props
open Auxi.Business Auxi.Business.Spec Ledger

theorem split_last {α : Type} (nm : α → Str) (n : Str) (l : List α) :
    (∀ x ∈ l, nm x ≠ n) ∨ ∃ pre c post, l = pre ++ c :: post ∧ nm c = n ∧ ∀ x ∈ post, nm x ≠ n := by
  induction l with
  | nil => left; simp
  | cons a l ih =>
    rcases ih with h | ⟨pre, c, post, h1, h2, h3⟩
    · by_cases ha : nm a = n
      · exact .inr ⟨[], a, l, rfl, ha, h⟩
      · left
        intro x hx
        rcases List.mem_cons.1 hx with rfl | hx
        · exact ha
        · exact h x hx
    · exact .inr ⟨a :: pre, c, post, by rw [h1]; rfl, h2, h3⟩

theorem filter_without {α : Type} (nm : α → Str) {n k : Str} {c : α} {pre post : List α} (hc : nm c = n) (hp : ∀ x ∈ post, nm x ≠ n) :
    (pre ++ post).filter (fun x => nm x = k) = if n = k then ((pre ++ c :: post).filter (fun x => nm x = k)).dropLast else (pre ++ c :: post).filter (fun x => nm x = k) := by
  simp only [List.filter_append, List.filter_cons]
  by_cases h : n = k
  · subst h
    have : post.filter (fun x => decide (nm x = n)) = [] := by
      rw [List.filter_eq_nil_iff]; intro x hx; simpa using hp x hx
    simp [this, hc]
  · have hk : ¬ nm c = k := by rw [hc]; exact h
    simp [h, hk]

theorem filter_absent {α : Type} (nm : α → Str) {n k : Str} {l : List α} (h : ∀ x ∈ l, nm x ≠ n) :
    l.filter (fun x => nm x = k) = if n = k then (l.filter (fun x => nm x = k)).dropLast else l.filter (fun x => nm x = k) := by
  split
  · next hk =>
    subst hk
    have : l.filter (fun x => decide (nm x = n)) = [] := by
      rw [List.filter_eq_nil_iff]; intro x hx; simpa using h x hx
    rw [this]; rfl
  · rfl

theorem removeComp_pile (n k : Str) (l : List Component) :
    (removeComp n l).filter (fun x => x.name = k) = if n = k then (l.filter (fun x => x.name = k)).dropLast else l.filter (fun x => x.name = k) := by
  rcases split_last Component.name n l with h | ⟨pre, c, post, h1, h2, h3⟩
  · have : removeComp n l = l := by simp only [removeComp, lastComp_none h]
    rw [this]
    exact filter_absent Component.name h
  · rw [h1, removeComp_split h2 h3]
    exact filter_without Component.name h2 h3

theorem removeEntity_pile (n k : Str) (m : Model) :
    (m.removeEntity n).entities.filter (fun x => x.name = k) = if n = k then (m.entities.filter (fun x => x.name = k)).dropLast else m.entities.filter (fun x => x.name = k) := by
  rcases split_last Entity.name n m.entities with h | ⟨pre, c, post, h1, h2, h3⟩
  · rw [(C130_entity m n).2 h]
    exact filter_absent Entity.name h
  · rw [(C130_entity m n).1 pre c post h1 h2 h3, h1]
    exact filter_without Entity.name h2 h3

theorem firstNamed_found {α δ : Type} (nm : α → Str) (f : α → δ) (n : Str) (l : List α) : (firstNamed nm n l).map f = found ((l.filter (fun x => nm x = n)).map f) := by
  unfold firstNamed
  cases l.filter (fun x => decide (nm x = n)) <;> rfl

/-- a creation or removal of a component of an entity -/
def entityStep (e : Entity) : Step (Option Str) → Entity
  | .create n d => e.createComponent n d
  | .remove n => e.removeComponent n

/-- a creation or removal of a sub component of a component -/
def componentStep (c : Component) : Step (Option Str) → Component
  | .create n d => c.createComponent n d
  | .remove n => c.removeComponent n

/-- a creation or removal of an entity of a model -/
def modelStep (m : Model) : Step Chart → Model
  | .create n c => m.createEntity n c
  | .remove n => m.removeEntity n

/-- the components standing under a name, by their descriptions -/
def pileOf (n : Str) (l : List Component) : List (Option Str) := (l.filter (fun x => x.name = n)).map Component.description

theorem filter_create (n k : Str) (d : Option Str) (p : Str) (l : List Component) :
    pileOf n (l ++ [(Component.new k d).setParentPath p]) = if k = n then pileOf n l ++ [d] else pileOf n l := by
  unfold pileOf
  have h1 : ((Component.new k d).setParentPath p).name = k := rfl
  have h2 : ((Component.new k d).setParentPath p).description = d := rfl
  rw [List.filter_append, List.map_append]
  split
  · next h => rw [List.filter_cons_of_pos (by simpa [h1] using h)]; simp [h2]
  · next h => rw [List.filter_cons_of_neg (by simpa [h1] using h)]; simp

theorem pile_remove (n k : Str) (l : List Component) : pileOf n (removeComp k l) = if k = n then (pileOf n l).dropLast else pileOf n l := by
  unfold pileOf
  rw [removeComp_pile]
  split
  · rw [List.map_dropLast]
  · rfl

/-- **C156.** After any history of creating and removing components of an entity, what an entity has under a name is the pile of that name, and looking the name up gives its bottom, or `IndexError` if it is empty. -/
theorem C156_entity (e : Entity) (steps : List (Step (Option Str))) (n : Str) :
    pileOf n (steps.foldl entityStep e).components = pileAfter n (pileOf n e.components) steps ∧
    ((steps.foldl entityStep e).getItem n).map Component.description = found (pileAfter n (pileOf n e.components) steps) := by
  have h : pileOf n (steps.foldl entityStep e).components = pileAfter n (pileOf n e.components) steps := by
    induction steps generalizing e with
    | nil => rfl
    | cons s ss ih =>
      rw [List.foldl_cons, ih]
      unfold pileAfter
      rw [List.foldl_cons]
      congr 1
      cases s with
      | create k d => exact filter_create n k d e.path e.components
      | remove k => exact pile_remove n k e.components
  refine ⟨h, ?_⟩
  rw [← h]
  exact firstNamed_found Component.name Component.description n _

/-- **C156.** The same for the sub components of a component. -/
theorem C156_component (c : Component) (steps : List (Step (Option Str))) (n : Str) :
    pileOf n (steps.foldl componentStep c).components = pileAfter n (pileOf n c.components) steps ∧
    ((steps.foldl componentStep c).getComponent n).map Component.description = found (pileAfter n (pileOf n c.components) steps) := by
  have h : pileOf n (steps.foldl componentStep c).components = pileAfter n (pileOf n c.components) steps := by
    induction steps generalizing c with
    | nil => rfl
    | cons s ss ih =>
      rw [List.foldl_cons, ih]
      unfold pileAfter
      rw [List.foldl_cons]
      congr 1
      cases s with
      | create k d => exact filter_create n k d c.path c.components
      | remove k => exact pile_remove n k c.components
  refine ⟨h, ?_⟩
  rw [← h]
  exact firstNamed_found Component.name Component.description n _

/-- **C156.** The same for the entities of a model (told apart by their charts of accounts). -/
theorem C156_model (m : Model) (steps : List (Step Chart)) (n : Str) :
    ((steps.foldl modelStep m).entities.filter (fun e => e.name = n)).map Entity.chart = pileAfter n ((m.entities.filter (fun e => e.name = n)).map Entity.chart) steps ∧
    ((steps.foldl modelStep m).getItem n).map Entity.chart = found (pileAfter n ((m.entities.filter (fun e => e.name = n)).map Entity.chart) steps) := by
  have h : ((steps.foldl modelStep m).entities.filter (fun e => e.name = n)).map Entity.chart = pileAfter n ((m.entities.filter (fun e => e.name = n)).map Entity.chart) steps := by
    induction steps generalizing m with
    | nil => rfl
    | cons s ss ih =>
      rw [List.foldl_cons, ih]
      unfold pileAfter
      rw [List.foldl_cons]
      congr 1
      cases s with
      | create k d =>
        change ((m.entities ++ [Entity.new k d]).filter (fun e => e.name = n)).map Entity.chart = if k = n then _ else _
        have h1 : (Entity.new k d).name = k := rfl
        have h2 : (Entity.new k d).chart = d := rfl
        rw [List.filter_append, List.map_append]
        split
        · next h => rw [List.filter_cons_of_pos (by simpa [h1] using h)]; simp [h2]
        · next h => rw [List.filter_cons_of_neg (by simpa [h1] using h)]; simp
      | remove k =>
        change ((m.removeEntity k).entities.filter (fun e => e.name = n)).map Entity.chart = if k = n then _ else _
        rw [removeEntity_pile]
        split
        · rw [List.map_dropLast]
        · rfl
  refine ⟨h, ?_⟩
  rw [← h]
  exact firstNamed_found Entity.name Entity.chart n _

/-- **C156.** What is created under a new name is what this name gives; what an earlier name gives, it still gives. -/
theorem C156_created (e : Entity) (n : Str) (d : Option Str) :
    (∀ c, e.getItem n ≠ .ok c) → (e.createComponent n d).getItem n = .ok ((Component.new n d).setParentPath e.path) := by
  intro h
  unfold Entity.getItem firstNamed at h ⊢
  have h0 : e.components.filter (fun x => decide (x.name = n)) = [] := by
    cases hf : e.components.filter (fun x => decide (x.name = n)) with
    | nil => rfl
    | cons c cs => rw [hf] at h; exact absurd rfl (h c)
  have h1 : ((Component.new n d).setParentPath e.path).name = n := rfl
  have h2 : (e.createComponent n d).components = e.components ++ [(Component.new n d).setParentPath e.path] := rfl
  rw [h2, List.filter_append, h0, List.nil_append, List.filter_cons_of_pos (by simpa using h1)]

theorem firstNamed_append {α : Type} (nm : α → Str) (n : Str) (l r : List α) (x : α) (h : firstNamed nm n l = .ok x) : firstNamed nm n (l ++ r) = .ok x := by
  unfold firstNamed at h ⊢
  rw [List.filter_append]
  cases hf : l.filter (fun x => decide (nm x = n)) with
  | nil => rw [hf] at h; cases h
  | cons c cs => rw [hf] at h; exact h

/-- **C156.** Nothing that was found is found no more because something is created or an activity added. -/
theorem C156_kept (e : Entity) (c c' : Component) (m : Model) (s : Structure) (a : Activity) (n k : Str) (d : Option Str) (ch : Chart) (hc : c.addActivity s a = .ok c') :
    (∀ x, e.getItem n = .ok x → (e.createComponent k d).getItem n = .ok x) ∧ (∀ x, c.getComponent n = .ok x → (c.createComponent k d).getComponent n = .ok x) ∧
    (∀ x, m.getItem n = .ok x → (m.createEntity k ch).getItem n = .ok x) ∧ (∀ x, c.getActivity n = .ok x → c'.getActivity n = .ok x) ∧
    ((∀ x, c.getActivity a.name ≠ .ok x) → c'.getActivity a.name = .ok (a.setParentPath c.path)) := by
  have hc' : c' = { c with activities := c.activities ++ [a.setParentPath c.path] } := by
    unfold Component.addActivity at hc
    split at hc
    · cases hc
    · cases hc; rfl
  refine ⟨fun x h => firstNamed_append _ _ _ _ _ h, fun x h => firstNamed_append _ _ _ _ _ h, fun x h => firstNamed_append _ _ _ _ _ h, fun x h => ?_, fun h => ?_⟩
  · rw [hc']; exact firstNamed_append _ _ _ _ _ h
  · rw [hc']
    unfold Component.getActivity firstNamed at h ⊢
    have h0 : c.activities.filter (fun x => decide (x.name = a.name)) = [] := by
      cases hf : c.activities.filter (fun x => decide (x.name = a.name)) with
      | nil => rfl
      | cons c cs => rw [hf] at h; exact absurd rfl (h c)
    dsimp only
    rw [List.filter_append, h0, List.nil_append, List.filter_cons_of_pos (by simp [Activity.setParentPath])]

/-- **C156.** A component renamed through its entity (`e[old].name = new`) is found under its new name, if nothing stands there before it. -/
theorem C156_renamed (l : List Component) (pre post : List Component) (c : Component) (old new : Str) (hl : l = pre ++ c :: post) (h1 : c.name = old) (h2 : ∀ x ∈ pre, x.name ≠ old)
    (h3 : ∀ x ∈ pre, x.name ≠ new) :
    firstNamed Component.name old l = .ok c ∧ firstNamed Component.name new (pre ++ c.rename new :: post) = .ok (c.rename new) := by
  have e1 : ∀ k : Str, (∀ x ∈ pre, x.name ≠ k) → pre.filter (fun x => decide (x.name = k)) = [] := by
    intro k hk
    rw [List.filter_eq_nil_iff]; intro x hx; simpa using hk x hx
  have hr : (c.rename new).name = new := rfl
  unfold firstNamed
  subst hl
  rw [List.filter_append, List.filter_append, e1 old h2, e1 new h3, List.nil_append, List.nil_append, List.filter_cons_of_pos (by simpa using h1), List.filter_cons_of_pos (by simpa using hr)]
  exact ⟨rfl, rfl⟩

/-- **C156 (violated).** What was just created under a name that is taken is not what this name gives: the name gives the earlier one for good, and removing the name removes the new one. -/
theorem C156_taken_violated (e : Entity) (n : Str) (d : Option Str) (c : Component) (h : e.getItem n = .ok c) :
    (e.createComponent n d).getItem n = .ok c ∧ ((e.createComponent n d).removeComponent n).getItem n = .ok c := by
  refine ⟨firstNamed_append _ _ _ _ _ h, ?_⟩
  have hn : ((Component.new n d).setParentPath e.path).name = n := rfl
  have := (C130_entity_component (e.createComponent n d) n).1 e.components _ [] rfl hn (by simp)
  rw [this]
  unfold Entity.getItem
  rw [List.append_nil]
  exact h

/-! ## Cases -/

/-- an entity on which components A, B, A are created, A, A, A removed, and A created again -/
def steps0 : List (Step (Option Str)) :=
  [.create "A".toList (some "1".toList), .create "B".toList (some "2".toList), .create "A".toList (some "3".toList), .remove "A".toList, .remove "A".toList, .remove "A".toList, .create "A".toList (some "4".toList)]

example : ((steps0.foldl entityStep ent0).getItem "A".toList).map Component.description = .ok (some "4".toList) ∧
    ((steps0.foldl entityStep ent0).getItem "B".toList).map Component.description = .ok (some "2".toList) ∧
    ((steps0.foldl entityStep ent0).getItem "C".toList).map Component.description = .error .indexError := by
  refine ⟨?_, ?_, ?_⟩ <;> rw [(C156_entity ent0 steps0 _).2] <;> decide +kernel

example : ∃ c, (ent0.createComponent "New".toList none).getItem "New".toList = .ok c :=
  ⟨_, C156_created ent0 "New".toList none (by
    have h : (ent0.getItem "New".toList).map Component.description = .error .indexError := by decide +kernel
    intro c hc
    rw [hc] at h; cases h)⟩

example : ((mod0.createEntity "Empty".toList chart0).getItem "Empty".toList).map (fun e => e.chart.str.name) = .ok "GL2".toList := by decide +kernel

example : ∃ c c', Component.addActivity chart0.str actB c = .ok c' ∧ ∀ x, c.getActivity actB.name ≠ .ok x := by
  have h : ((Component.new "X".toList none).addActivity chart0.str actB).isOk = true := by decide +kernel
  cases hc : (Component.new "X".toList none).addActivity chart0.str actB with
  | error e => rw [hc] at h; cases h
  | ok c' =>
    refine ⟨Component.new "X".toList none, c', hc, ?_⟩
    intro x hx; cases hx

end Auxi.Business.Props
