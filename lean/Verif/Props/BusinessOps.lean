import Verif.Proofs.BusinessOps

/-!
# Properties C30, C31, C38: the component tree of a model
-/
namespace Auxi.Business.Props
open Auxi.Business Auxi.Business.Spec Ledger Time

/-- **C30.** After any history of calls on a model (creations, removals, renames at any depth, activities added and
renamed, runs, also runs that raised), the path of each component is the path of its entity followed by the slash separated names on the way
to it, and the path of each activity is that of its component followed by `/` and its name. -/
theorem C30_paths (nm : Str) (clk : Clock) (n : Nat) (ops : List Op) (e : Entity)
    (he : e ∈ (runModelOps nm clk n ops).entities) :
    e.path = e.parentPath ++ '/' :: e.name ∧
    ∀ pos names c, namesTo e.components pos = some (names, c) →
      c.path = e.path ++ slashed names ∧ ∀ a ∈ c.activities, a.path = c.path ++ '/' :: a.name := by
  have h := entWF_ops ops (Model.new nm clk n) (by simp [Model.new]) e he
  refine ⟨h.1, fun pos names c hc => ?_⟩
  obtain ⟨g1, g2⟩ := compWF_names pos _ _ h.2 names c hc
  exact ⟨g1, fun a ha => (g2 a ha).2.1⟩

/-- A history: entity, component, sub component, then renames at three levels. -/
def opsEx : List Op :=
  [.createEntity "E".toList chart0, .createTop 0 "A".toList none, .createComponent 0 0 [] "B".toList none,
   .renameComponent 0 0 [] "A2".toList, .renameEntity 0 "E2".toList, .renameModel "M2".toList, .run]

example : ((runModelOps "M".toList clkM 1 opsEx).entities.map (fun e =>
    (namesTo e.components [0, 0]).map (fun r => r.2.path))) = [some "M2/E2/A2/B".toList] := by decide +kernel

/-- **C31.** `add_activity` succeeds exactly when every account the activity refers to exists; it then appends the
activity, filed under the component's path, and changes nothing else. -/
theorem C31_add_activity (s : Structure) (a : Activity) (c c' : Component) :
    c.addActivity s a = .ok c' ↔
      (∀ n ∈ a.referencedAccounts, ∃ acc, Ledger.Spec.walk s.accounts (Ledger.Spec.segments n) = some acc) ∧
      c' = { c with activities := c.activities ++ [{ a with parentPath := c.path, path := c.path ++ '/' :: a.name }] } := by
  rw [addActivity_ok]; simp [Option.isSome_iff_exists]

/-- **C31 (histories).** In every reachable model, every activity anywhere in an entity refers only to accounts that
exist in the entity's general ledger structure. -/
theorem C31_history (nm : Str) (clk : Clock) (n : Nat) (ops : List Op) (e : Entity)
    (he : e ∈ (runModelOps nm clk n ops).entities) (pos : List Nat) (names : List Str) (c : Component)
    (hc : namesTo e.components pos = some (names, c)) (a : Activity) (ha : a ∈ c.activities) :
    ∀ acc ∈ a.referencedAccounts, ∃ x, Ledger.Spec.walk e.chart.str.accounts (Ledger.Spec.segments acc) = some x := by
  have h := entWF_ops ops (Model.new nm clk n) (by simp [Model.new]) e he
  intro acc hacc
  exact Option.isSome_iff_exists.1 (((compWF_names pos _ _ h.2 names c hc).2 a ha).2.2 acc hacc)

example (c : Component) : ∃ c', c.addActivity (Structure.new []) (newBasic "Sell".toList "Bank/Default".toList "Sales".toList 1 0 0 1 none) = .ok c' := by
  refine ⟨_, (addActivity_ok.2 ⟨?_, rfl⟩)⟩
  show ∀ n ∈ ["Bank/Default".toList, "Sales".toList], (Ledger.Spec.walk defaultAccounts (Ledger.Spec.segments n)).isSome
  decide

/-- **C38 is false of the code.** A newly created entity's path does not start with the model's name. -/
theorem C38_new_entity_path : ¬ ∀ (nm : Str) (clk : Clock) (n : Nat) (ops : List Op),
    ∀ e ∈ (runModelOps nm clk n ops).entities, e.path = (runModelOps nm clk n ops).name ++ '/' :: e.name := by
  intro h
  have := h "M".toList clkM 1 [.createEntity "E".toList chart0] _ (List.mem_singleton.2 rfl)
  revert this; decide

/-- **C38 (what holds).** The path is right once the model has been renamed, until further entities are created:
after any history, a rename, and any history without further entity creations, every entity's path is the model's
name, a slash and the entity's name. -/
theorem C38_after_rename_partial (nm : Str) (clk : Clock) (n : Nat) (before after : List Op) (v : Str)
    (hk : ∀ op ∈ after, KeepsEntities op) :
    let m := runModelOps nm clk n (before ++ .renameModel v :: after)
    m.name = v ∧ ∀ e ∈ m.entities, e.path = v ++ '/' :: e.name := by
  intro m
  have hm : m = after.foldl Op.apply ((runModelOps nm clk n before).rename v) := by
    show (before ++ .renameModel v :: after).foldl Op.apply _ = _
    rw [List.foldl_append]; rfl
  have h1 := parent_ops v after ((runModelOps nm clk n before).rename v) hk rfl (by
    intro e he
    simp only [Model.rename, List.mem_map] at he
    obtain ⟨x, _, rfl⟩ := he; rfl)
  rw [← hm] at h1
  refine ⟨h1.1, fun e he => ?_⟩
  have h2 := (C30_paths nm clk n (before ++ .renameModel v :: after) e he).1
  rw [h2, h1.2 e he]

example : (∀ op ∈ [Op.run], KeepsEntities op) ∧
    ((runModelOps "M".toList clkM 1 ([.createEntity "E".toList chart0] ++ .renameModel "N".toList :: [.run])).entities.map
      Entity.path) = ["N/E".toList] := by
  constructor
  · simp [KeepsEntities]
  · decide +kernel

/-- **C38 (complement).** A created entity has the path `/name` until then. -/
theorem C38_created_partial (m : Model) (n : Str) (c : Chart) :
    ∃ e, (m.createEntity n c).entities = m.entities ++ [e] ∧ e.path = '/' :: n := ⟨_, rfl, rfl⟩

end Auxi.Business.Props
