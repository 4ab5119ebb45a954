import Verif.Modelling

/-! # C144: projects, variables and models keep what they are given -/
namespace Auxi.Modelling.Props
open Auxi Auxi.Modelling

/-- A project has the name and description it was given, and nothing else. -/
theorem C144_project {α : Type} (n d : Val α) : newProject n d = .ok [("name".toList, n), ("description".toList, d)] := rfl

/-- A variable has what it was given, and calling it returns its value. -/
theorem C144_variable {α : Type} (n v u c d : Val α) : ∃ o, newVariable n v u c d = .ok o ∧ callVariable o = .ok v ∧
    o.lookup "name".toList = some n ∧ o.lookup "description".toList = some d ∧ o.lookup "units".toList = some u ∧ o.lookup "category".toList = some c ∧ o.lookup "value".toList = some v ∧ o.length = 5 :=
  ⟨[("name".toList, n), ("description".toList, d), ("category".toList, c), ("value".toList, v), ("units".toList, u)], rfl, rfl, rfl, rfl, rfl, rfl, rfl, rfl⟩

/-- Calling a variable returns the value it was last given. -/
theorem C144_assigned {α : Type} (n v u c d w : Val α) : ∀ o, newVariable n v u c d = .ok o → callVariable (setAttr o "value".toList w) = .ok w := by
  intro o h
  have e : o = [("name".toList, n), ("description".toList, d), ("category".toList, c), ("value".toList, v), ("units".toList, u)] := (Except.ok.inj h).symm
  rw [e]
  rfl

example : ∃ o, newVariable (α := Nat) (.given 1) (.given 2) .none .none .none = .ok o := ⟨_, rfl⟩

/-- Giving an attribute of any object a value makes it that value and leaves every other attribute as it is. -/
theorem C144_keeps {α : Type} (o : Attrs α) (n k : Str) (w : Val α) : (setAttr o n w).lookup k = if k = n then some w else o.lookup k := by
  unfold setAttr
  by_cases hn : n ∈ o.map (·.1)
  · rw [if_pos hn]
    induction o with
    | nil => cases hn
    | cons e o ih =>
      obtain ⟨a, v⟩ := e
      by_cases ha : a = n
      · subst ha
        simp only [List.map_cons, if_true, List.lookup]
        by_cases hk : k = a
        · simp only [hk, beq_self_eq_true, if_true]
        · have hb : (k == a) = false := by simpa using hk
          simp only [hb, hk, if_false]
          by_cases ho : a ∈ o.map (·.1)
          · have := ih ho
            rwa [if_neg hk] at this
          · have : o.map (fun e => if e.1 = a then (a, w) else e) = o := by
              refine (List.map_congr_left (g := id) fun e he => ?_).trans (List.map_id o)
              rw [if_neg]
              · rfl
              · intro h
                exact ho (List.mem_map.2 ⟨e, he, h⟩)
            rw [this]
      · have hn' : n ∈ o.map (·.1) := by
          rcases List.mem_cons.1 hn with h | h
          · exact absurd h.symm ha
          · exact h
        simp only [List.map_cons, ha, if_false, List.lookup]
        by_cases hk : k = a
        · have hb : (k == a) = true := by simpa using hk
          subst hk
          simp only [beq_self_eq_true, ha, if_false]
        · have hb : (k == a) = false := by simpa using hk
          simp only [hb]
          exact ih hn'
  · rw [if_neg hn, List.lookup_append]
    by_cases hk : k = n
    · subst hk
      have : o.lookup k = none := by
        rw [List.lookup_eq_none_iff]
        intro e he
        have : k ≠ e.1 := by
          intro h
          exact hn (List.mem_map.2 ⟨e, he, h.symm⟩)
        simpa using this
      rw [this, if_pos rfl]
      simp [List.lookup]
    · have hb : (k == n) = false := by simpa using hk
      rw [if_neg hk]
      simp [List.lookup, hb]

/-- After any sequence of assignments an attribute has the value it was given last, and the value it had if it was given none. -/
theorem C144_last {α : Type} (ws : List (Str × Val α)) (o : Attrs α) (k : Str) :
    (ws.foldl (fun o e => setAttr o e.1 e.2) o).lookup k = match (ws.reverse.find? (fun e => e.1 == k)) with
      | some e => some e.2
      | none => o.lookup k := by
  induction ws generalizing o with
  | nil => rfl
  | cons e ws ih =>
    rw [List.foldl_cons, ih, List.reverse_cons, List.find?_append]
    cases h : ws.reverse.find? (fun e => e.1 == k) with
    | some x => rfl
    | none =>
      simp only [Option.none_or]
      by_cases hk : e.1 = k
      · have hb : (e.1 == k) = true := by simpa using hk
        simp [List.find?, C144_keeps, hk]
      · have hb : (e.1 == k) = false := by simpa using hk
        simp only [List.find?, hb, C144_keeps, if_neg (Ne.symm hk)]

example : (([("value".toList, .given 7), ("units".toList, .given 8), ("value".toList, .given 9)] : List (Str × Val Nat)).foldl (fun o e => setAttr o e.1 e.2)
    [("name".toList, .given 1), ("value".toList, .given 2)]).lookup "value".toList = some (.given 9) := by rw [C144_last]; rfl

/-- Each kind of process model has its name, its description and its own empty parameters and variables. -/
theorem C144_models {α : Type} (n d : Val α) : ∃ o, newModel n d = .ok o ∧ newSteadyState n d = .ok o ∧ newDynamic n d = .ok o ∧
    o = [("name".toList, n), ("description".toList, d), ("parameters".toList, .part "Parameters".toList), ("input_variables".toList, .part "InputVariables".toList), ("output_variables".toList, .part "OutputVariables".toList)] :=
  ⟨_, rfl, rfl, rfl, rfl⟩

/-- A variable group cannot be made: its constructor raises `TypeError` whatever it is given. -/
theorem C144_group_violated {α : Type} (n v u c d : Val α) : newVariableGroup n v u c d = .error .typeError := rfl

end Auxi.Modelling.Props
