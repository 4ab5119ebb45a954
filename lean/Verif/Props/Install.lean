import Verif.Spec.Install
import Mathlib.Data.List.Infix

/-! # C162: what is installed -/
namespace Auxi.Install.Props
open Auxi.Install Spec

/-- **C162 (patterns).** The match of names is what it should be. -/
theorem C162_glob (p s : Str) : glob p s = true ↔ Fits p s := by
  induction p generalizing s with
  | nil =>
    rw [glob.eq_def]
    dsimp only
    rw [List.isEmpty_iff]
    constructor
    · rintro rfl; exact .nil
    · intro h; cases h; rfl
  | cons c p ih =>
    rw [glob.eq_def]
    dsimp only
    split
    · next hc =>
      subst hc
      rw [List.any_eq_true]
      constructor
      · rintro ⟨t, h1, h2⟩
        obtain ⟨a, rfl⟩ := (List.mem_tails _ _).1 h1
        exact .star a p t ((ih t).1 h2)
      · intro h
        cases h with
        | star t _ s h => exact ⟨s, (List.mem_tails _ _).2 ⟨t, rfl⟩, (ih s).2 h⟩
        | char _ _ _ hc _ => exact absurd rfl hc
    · next hc =>
      cases s with
      | nil =>
        constructor
        · intro h; exact absurd h (by simp)
        · intro h
          generalize hs : ([] : Str) = s at h
          cases h with
          | star => exact absurd rfl hc
          | char => cases hs
      | cons d t =>
        dsimp only
        rw [Bool.and_eq_true, decide_eq_true_iff, ih t]
        constructor
        · rintro ⟨rfl, h⟩; exact .char _ p t hc h
        · intro h
          generalize hs : d :: t = s at h
          cases h with
          | star => exact absurd rfl hc
          | char _ _ _ _ h => cases hs; exact ⟨rfl, h⟩

example : Fits "igg-*-rho.json".toList "igg-air-rho.json".toList := (C162_glob _ _).1 (by decide +kernel)

theorem name_fits (p n : Str) : nameMatches p n = true ↔ Fits p n ∧ (Visible n ∨ ¬ Visible p) := by
  unfold nameMatches Visible
  rw [Bool.and_eq_true, C162_glob, Bool.or_eq_true, decide_eq_true_iff, decide_eq_true_iff, not_not]

theorem path_fits (q : List Str) (r : Path) : pathMatches q r = true ↔ PathFits q r := by
  unfold PathFits
  induction q generalizing r with
  | nil =>
    cases r with
    | nil => simp [pathMatches]
    | cons n r => exact ⟨fun h => by simp [pathMatches] at h, fun h => by cases h⟩
  | cons p q ih =>
    cases r with
    | nil => exact ⟨fun h => by simp [pathMatches] at h, fun h => by cases h⟩
    | cons n r => simp [pathMatches, ih, name_fits]

theorem fits_py (n : Str) : Fits "*.py".toList n ↔ ∃ m, n = m ++ ".py".toList := by
  have e : "*.py".toList = ['*', '.', 'p', 'y'] := rfl
  have e' : ".py".toList = ['.', 'p', 'y'] := rfl
  rw [e, e']
  constructor
  · intro h
    cases h with
    | star t _ s h =>
      refine ⟨t, ?_⟩
      cases h with
      | char _ _ _ _ h =>
        cases h with
        | char _ _ _ _ h =>
          cases h with
          | char _ _ _ _ h => cases h; rfl
    | char _ _ _ hc _ => exact absurd rfl hc
  · rintro ⟨m, rfl⟩
    exact .star m _ _ (.char _ _ _ (by decide) (.char _ _ _ (by decide) (.char _ _ _ (by decide) .nil)))

theorem module_iff (p f : Path) (hf : f ≠ []) : isModule p f = true ↔ ∃ n, f = modulePath p n ∧ Visible (n ++ ".py".toList) := by
  unfold isModule modulePath
  rw [Bool.and_eq_true, decide_eq_true_iff, name_fits, fits_py]
  have hl : f.getLastD [] = f.getLast hf := by rw [List.getLastD_eq_getLast?, List.getLast?_eq_some_getLast hf]; rfl
  rw [hl]
  constructor
  · rintro ⟨rfl, ⟨n, hn⟩, hv⟩
    refine ⟨n, by rw [← hn, List.dropLast_append_getLast], ?_⟩
    rw [← hn]
    exact hv.resolve_right (fun h => h (by unfold Visible; decide))
  · rintro ⟨n, rfl, hv⟩
    simp only [List.dropLast_concat, List.getLast_concat, true_and]
    exact ⟨⟨n, rfl⟩, Or.inl hv⟩

/-- **C162 (installed).** Of every tree exactly the files are installed that belong to a listed package. -/
theorem C162_installed (s : Setup) (tree : List Path) (f : Path) (hf : f ≠ []) : f ∈ install s tree ↔ f ∈ tree ∧ Listed s f := by
  unfold install Listed
  rw [List.mem_filter, List.any_eq_true]
  have hd : ∀ p, isData s p f = true ↔ ∃ e ∈ s.data, e.1 = p ∧ ∃ q ∈ e.2, ∃ r, f = p ++ r ∧ PathFits q r := by
    intro p
    unfold isData
    rw [Bool.and_eq_true, List.isPrefixOf_iff_prefix, List.any_eq_true]
    constructor
    · rintro ⟨⟨r, rfl⟩, e, he, h⟩
      rw [Bool.and_eq_true, decide_eq_true_iff, List.any_eq_true] at h
      obtain ⟨h1, q, hq, h2⟩ := h
      rw [List.drop_left, path_fits] at h2
      exact ⟨e, he, h1, q, hq, r, rfl, h2⟩
    · rintro ⟨e, he, h1, q, hq, r, rfl, h2⟩
      refine ⟨List.prefix_append p r, e, he, ?_⟩
      rw [Bool.and_eq_true, decide_eq_true_iff, List.any_eq_true]
      exact ⟨h1, q, hq, by rw [List.drop_left, path_fits]; exact h2⟩
  constructor
  · rintro ⟨ht, p, hp, h⟩
    refine ⟨ht, ?_⟩
    rcases Bool.or_eq_true _ _ ▸ h with h | h
    · exact Or.inl ⟨p, hp, (module_iff p f hf).1 h⟩
    · exact Or.inr ⟨p, hp, (hd p).1 h⟩
  · rintro ⟨ht, ⟨p, hp, h⟩ | ⟨p, hp, h⟩⟩
    · exact ⟨ht, p, hp, by rw [(module_iff p f hf).2 h]; rfl⟩
    · exact ⟨ht, p, hp, by rw [(hd p).2 h, Bool.or_true]⟩

/-- **C162 (modules).** If every directory with modules is a listed package, every module that can be imported from the tree can be imported once installed. -/
theorem C162_modules (s : Setup) (tree : List Path) (h : ∀ d n, modulePath d n ∈ tree → d ∈ s.packages) (m : Path) (hv : Visible (m.getLastD [] ++ ".py".toList)) (hi : found tree m = true) : found (install s tree) m = true := by
  unfold found at hi ⊢
  rw [Bool.or_eq_true, decide_eq_true_iff, decide_eq_true_iff] at hi ⊢
  rcases hi with hi | hi
  · exact Or.inl ((C162_installed s tree _ (by simp)).2 ⟨hi, Or.inl ⟨m.dropLast, h _ _ hi, _, rfl, hv⟩⟩)
  · have : m ++ ["__init__.py".toList] = modulePath m "__init__".toList := rfl
    rw [this] at hi ⊢
    exact Or.inr ((C162_installed s tree _ (by unfold modulePath; simp)).2 ⟨hi, Or.inl ⟨m, h _ _ hi, _, rfl, by unfold Visible; decide⟩⟩)

/-- two packages of a small tree -/
example : let s : Setup := ⟨["auxi", "auxi.core"].map (fun s => split '.' s.toList), []⟩
    let tree : List Path := [["auxi".toList, "__init__.py".toList], ["auxi".toList, "core".toList, "time.py".toList]]
    (∀ f ∈ tree, f.dropLast ∈ s.packages) ∧ found tree ["auxi".toList, "core".toList, "time".toList] = true ∧ found (install s tree) ["auxi".toList, "core".toList, "time".toList] = true ∧
      found (install ⟨s.packages.take 1, []⟩ tree) ["auxi".toList, "core".toList, "time".toList] = false := by decide +kernel

/-- **C162 (shipped).** Of every tree the modules of the twelve packages and the data of the compounds are installed, whatever their names. -/
theorem C162_shipped (tree : List Path) (n : Str) (hn : Visible (n ++ ".py".toList)) (hn' : Visible (n ++ ".json".toList)) :
    (∀ p ∈ shipped.packages, modulePath p n ∈ tree → modulePath p n ∈ install shipped tree) ∧
    (∀ d ∈ ["rao".toList, "nist".toList], split '/' "auxi/tools/chemistry/data".toList ++ [d, n ++ ".json".toList] ∈ tree → split '/' "auxi/tools/chemistry/data".toList ++ [d, n ++ ".json".toList] ∈ install shipped tree) := by
  refine ⟨fun p hp ht => (C162_installed _ _ _ (by unfold modulePath; simp)).2 ⟨ht, Or.inl ⟨p, hp, n, rfl, hn⟩⟩, fun d hd ht => (C162_installed _ _ _ (by simp)).2 ⟨ht, Or.inr ?_⟩⟩
  have hj : Fits "*.json".toList (n ++ ".json".toList) := .star n _ _ ((C162_glob _ _).1 (by decide +kernel))
  refine ⟨split '.' "auxi.tools.chemistry".toList, by decide +kernel, (split '.' "auxi.tools.chemistry".toList, ["data/*.json", "data/rao/*.json", "data/nist/*.json"].map (fun q => split '/' q.toList)), by decide +kernel, rfl,
    ["data".toList, d, "*.json".toList], ?_, ["data".toList, d, n ++ ".json".toList], ?_, ?_⟩
  · simp only [List.mem_cons, List.not_mem_nil, or_false] at hd
    rcases hd with rfl | rfl <;> decide +kernel
  · have : split '/' "auxi/tools/chemistry/data".toList = split '.' "auxi.tools.chemistry".toList ++ ["data".toList] := by decide +kernel
    rw [this, List.append_assoc]; rfl
  · have hdd : nameMatches d d = true := by
      simp only [List.mem_cons, List.not_mem_nil, or_false] at hd
      rcases hd with rfl | rfl <;> decide +kernel
    exact .cons ((name_fits _ _).1 (by decide +kernel)) (.cons ((name_fits _ _).1 hdd) (.cons ⟨hj, Or.inl hn'⟩ .nil))

/-- **C162 (violated).** Whatever else is in the tree, the correlations for pressure drop are not installed, so `import auxi.tools.transportphenomena.fluidflow.pressuredrop` fails after an installation; and neither is the
bibliography, which `auxi.core.bibliography`, itself installed, reads when it is imported. -/
theorem C162_shipped_violated (tree : List Path) :
    found (install shipped tree) (split '.' "auxi.tools.transportphenomena.fluidflow.pressuredrop".toList) = false ∧
    split '/' "auxi/core/data/bibliography.bib".toList ∉ install shipped tree ∧
    (split '/' "auxi/core/bibliography.py".toList ∈ tree → split '/' "auxi/core/bibliography.py".toList ∈ install shipped tree) := by
  refine ⟨?_, ?_, ?_⟩
  · unfold found install
    rw [Bool.or_eq_false_iff, decide_eq_false_iff_not, decide_eq_false_iff_not, List.mem_filter, List.mem_filter]
    exact ⟨fun h => absurd h.2 (by decide +kernel), fun h => absurd h.2 (by decide +kernel)⟩
  · unfold install
    rw [List.mem_filter]
    exact fun h => absurd h.2 (by decide +kernel)
  · unfold install
    rw [List.mem_filter]
    exact fun h => ⟨h, by decide +kernel⟩

end Auxi.Install.Props
