import Verif.Proofs.Paths

/-! # C142: paths relative to a module -/
namespace Auxi.Paths.Props
open Auxi Auxi.Paths Auxi.Paths.Spec Auxi.Ledger.Spec

theorem abspath_rooted {cwd p : Str} (h : Rooted p) : abspath cwd p = absolute (along [] p) := by
  have h0 := h
  obtain ⟨r, hr, -⟩ := h0
  unfold abspath
  rw [if_pos (by rw [hr]; rfl), normpath_rooted h]

theorem rooted_slash {p : Str} (h : Rooted p) : '/' ∈ p := by obtain ⟨r, rfl, -⟩ := h; simp

/-- The path returned for a module file and a relative target is the absolute path reached by walking from the directory of the module file along the target: `.` stays, `..` goes up, anything else goes down. -/
theorem C142_path (cwd module target : Str) (hm : Rooted module) (ht : target.head? ≠ some '/') :
    relativeToModule cwd module target = absolute (along (directoryOf module) target) := by
  unfold relativeToModule
  rw [abspath_rooted (join_rooted (dirname_rooted hm) ht)]
  have hne : dirname module ≠ [] := by obtain ⟨r, hr, -⟩ := dirname_rooted hm; rw [hr]; simp
  rw [along_join [] _ _ ht hne, along_dirname module (rooted_slash hm)]

example : Rooted "/usr/lib/auxi/tools/x.py".toList ∧ "../data/./a.json".toList.head? ≠ some '/' ∧ relativeToModule "/home".toList "/usr/lib/auxi/tools/x.py".toList "../data/./a.json".toList = "/usr/lib/auxi/data/a.json".toList := by
  refine ⟨⟨"usr/lib/auxi/tools/x.py".toList, by decide +kernel, by decide +kernel⟩, by decide +kernel, by decide +kernel⟩

/-- The working directory plays no part when the module's path is absolute. -/
theorem C142_cwd (cwd cwd' module target : Str) (hm : Rooted module) : relativeToModule cwd module target = relativeToModule cwd' module target := by
  unfold relativeToModule abspath
  have : (join (dirname module) target).head? = some '/' := by
    unfold join
    obtain ⟨r, hr, -⟩ := dirname_rooted hm
    split
    · assumption
    · rw [hr]; split <;> rfl
  rw [if_pos this, if_pos this]

/-- The path returned has no empty component, no `.` and no `..`. -/
theorem C142_normal (cwd module target : Str) (hm : Rooted module) (ht : target.head? ≠ some '/') :
    ∃ names, relativeToModule cwd module target = absolute names ∧ Plain names := by
  refine ⟨_, C142_path cwd module target hm ht, along_plain _ ?_⟩
  rw [← along_dirname module (rooted_slash hm)]
  exact along_plain _ (by intro n hn; simp at hn)

theorem goes_prefix : ∀ (cs dir : List Str), "..".toList ∉ cs → dir <+: cs.foldl go dir := by
  intro cs
  induction cs with
  | nil => intro dir _; exact List.prefix_refl _
  | cons c cs ih =>
    intro dir h
    simp only [List.mem_cons, not_or] at h
    refine List.IsPrefix.trans ?_ (ih (go dir c) h.2)
    unfold go
    split
    · exact List.prefix_refl _
    · split
      · exact List.prefix_refl _
      · rw [if_neg (Ne.symm h.1)]; exact List.prefix_append _ _

/-- A target without `..` stays in or below the directory of the module. -/
theorem C142_below (cwd module target : Str) (hm : Rooted module) (ht : target.head? ≠ some '/') (hp : NoParent target) :
    ∃ below, relativeToModule cwd module target = absolute (directoryOf module ++ below) := by
  obtain ⟨b, hb⟩ := goes_prefix (segments target) (directoryOf module) hp
  exact ⟨b, by rw [C142_path cwd module target hm ht, hb]; rfl⟩

/-- An absolute target is returned for every module. -/
theorem C142_absolute (cwd module target : Str) (ht : Rooted target) : relativeToModule cwd module target = absolute (along [] target) := by
  have h0 := ht
  obtain ⟨r, hr, -⟩ := h0
  unfold relativeToModule join
  rw [if_pos (by rw [hr]; rfl), abspath_rooted ht]

theorem segments_absolute : ∀ (l : List Str), l ≠ [] → (∀ n ∈ l, '/' ∉ n) → segments (joinSlash l) = l := by
  intro l
  induction l with
  | nil => intro h; exact absurd rfl h
  | cons a l ih =>
    intro _ h
    cases l with
    | nil => exact segments_plain (h a (by simp))
    | cons b l =>
      show segments (a ++ '/' :: joinSlash (b :: l)) = _
      rw [segments_append, segments_plain (h a (by simp)), ih (by simp) (fun n hn => h n (by simp [hn]))]
      rfl

theorem goes_plain : ∀ (l dir : List Str), Plain l → l.foldl go dir = dir ++ l := by
  intro l
  induction l with
  | nil => intro dir _; simp
  | cons a l ih =>
    intro dir h
    obtain ⟨h1, h2, h3, -⟩ := h a (by simp)
    rw [List.foldl_cons, ih _ (fun n hn => h n (by simp [hn]))]
    have e1 : ".".toList = ['.'] := rfl
    have e2 : "..".toList = ['.', '.'] := rfl
    unfold go
    rw [if_neg h1, e1, if_neg h2, e2, if_neg h3]
    simp

theorem along_absolute {l : List Str} (h : Plain l) : along [] (absolute l) = l := by
  cases l with
  | nil => rfl
  | cons a l =>
    have : absolute (a :: l) = [] ++ '/' :: joinSlash (a :: l) := rfl
    rw [this, along_append]
    unfold along
    rw [segments_absolute _ (by simp) (fun n hn => (h n hn).2.2.2)]
    simp only [segments, List.foldl_cons, List.foldl_nil]
    rw [show go [] [] = ([] : List Str) from rfl, ← List.foldl_cons, goes_plain _ _ h]
    rfl

theorem rooted_absolute {l : List Str} (h : Plain l) : Rooted (absolute l) := by
  refine ⟨joinSlash l, rfl, ?_⟩
  cases l with
  | nil => simp [joinSlash]
  | cons a l =>
    obtain ⟨h1, -, -, h4⟩ := h a (by simp)
    cases a with
    | nil => exact absurd rfl h1
    | cons c a =>
      have : c ≠ '/' := fun hc => h4 (by simp [hc])
      cases l <;> simpa [joinSlash] using this

/-- The path returned is final: making it absolute again, or giving it as the target for any module, returns it. -/
theorem C142_again (cwd cwd' module module' target : Str) (hm : Rooted module) (ht : target.head? ≠ some '/') :
    abspath cwd' (relativeToModule cwd module target) = relativeToModule cwd module target ∧
      relativeToModule cwd' module' (relativeToModule cwd module target) = relativeToModule cwd module target := by
  obtain ⟨l, h1, h2⟩ := C142_normal cwd module target hm ht
  rw [h1]
  exact ⟨by rw [abspath_rooted (rooted_absolute h2), along_absolute h2], by rw [C142_absolute _ _ _ (rooted_absolute h2), along_absolute h2]⟩

/-- Two targets give the same path exactly when the walks along them end in the same directory or file. -/
theorem C142_same (cwd module t t' : Str) (hm : Rooted module) (ht : t.head? ≠ some '/') (ht' : t'.head? ≠ some '/') :
    relativeToModule cwd module t = relativeToModule cwd module t' ↔ along (directoryOf module) t = along (directoryOf module) t' := by
  rw [C142_path cwd module t hm ht, C142_path cwd module t' hm ht']
  have hd : Plain (directoryOf module) := by
    rw [← along_dirname module (rooted_slash hm)]
    exact along_plain _ (by intro n hn; simp at hn)
  constructor
  · intro h
    have := congrArg (along []) h
    rwa [along_absolute (along_plain t hd), along_absolute (along_plain t' hd)] at this
  · intro h; rw [h]

/-- The default data directory is `data/rao` in the directory of the module, whatever the working directory. -/
theorem C142_data (cwd module : Str) (hm : Rooted module) : defaultDataPath cwd module = absolute (directoryOf module ++ ["data".toList, "rao".toList]) := by
  have := C142_path cwd module "data/rao".toList hm (by decide +kernel)
  refine Eq.trans this ?_
  congr 1
  unfold along
  rw [show segments "data/rao".toList = ["data".toList, "rao".toList] by decide +kernel]
  rw [goes_plain _ _ (by unfold Plain; decide +kernel)]

example : Rooted "/usr/lib/auxi/tools/chemistry/thermochemistry.py".toList ∧ NoParent "data/references.json".toList ∧
    defaultDataPath "/".toList "/usr/lib/auxi/tools/chemistry/thermochemistry.py".toList = "/usr/lib/auxi/tools/chemistry/data/rao".toList := by
  refine ⟨⟨"usr/lib/auxi/tools/chemistry/thermochemistry.py".toList, by decide +kernel, by decide +kernel⟩, by unfold NoParent; decide +kernel, by decide +kernel⟩

/-- A relative module path is taken from the working directory. -/
theorem C142_relative (cwd module target : Str) (hc : Rooted cwd) (hm : module.head? ≠ some '/') (ht : target.head? ≠ some '/') :
    relativeToModule cwd module target = absolute (along (directoryFrom (along [] cwd) module) target) := by
  have h1 : (join (dirname module) target).head? ≠ some '/' := join_relative (dirname_relative hm) ht
  unfold relativeToModule abspath
  rw [if_neg h1, normpath_rooted (join_rooted hc h1), along_join_any _ _ _ h1, along_join_any _ _ _ ht, dirname_from]

example : Rooted "/home/me".toList ∧ "pkg/../m.py".toList.head? ≠ some '/' ∧ relativeToModule "/home/me".toList "pkg/../m.py".toList "data//x".toList = "/home/me/data/x".toList := by
  refine ⟨⟨"home/me".toList, by decide +kernel, by decide +kernel⟩, by decide +kernel, by decide +kernel⟩

/-- When the module's path is relative (a script run by a relative name), the answer changes with the working directory. -/
theorem C142_relative_cwd : ∃ cwd cwd' module target : Str, Rooted cwd ∧ Rooted cwd' ∧ relativeToModule cwd module target ≠ relativeToModule cwd' module target :=
  ⟨"/a".toList, "/b".toList, "m/x.py".toList, "d".toList, ⟨"a".toList, by decide +kernel, by decide +kernel⟩, ⟨"b".toList, by decide +kernel, by decide +kernel⟩, by decide +kernel⟩

theorem initial_other {p : Str} (h : p.head? = some '/') : (TwoSlashes p → initialSlashes p = 2) ∧ (¬ TwoSlashes p → initialSlashes p = 1) := by
  cases p with
  | nil => cases h
  | cons a p =>
    obtain rfl : a = '/' := by simpa using h
    cases p with
    | nil => exact ⟨fun ⟨r, hr, _⟩ => by (cases hr), fun _ => rfl⟩
    | cons b p =>
      by_cases hb : b = '/'
      · subst hb
        cases p with
        | nil => exact ⟨fun _ => rfl, fun h => absurd ⟨[], rfl, by simp⟩ h⟩
        | cons c p =>
          by_cases hc : c = '/'
          · subst hc
            exact ⟨fun ⟨r, hr, h2⟩ => by (simp only [List.cons.injEq, true_and] at hr; subst hr; simp at h2), fun _ => by simp [initialSlashes]⟩
          · exact ⟨fun _ => by simp [initialSlashes, hc], fun h => absurd ⟨c :: p, rfl, by simpa using hc⟩ h⟩
      · refine ⟨fun ⟨r, hr, _⟩ => ?_, fun _ => ?_⟩
        · simp only [List.cons.injEq, true_and] at hr; exact absurd hr.1 hb
        · unfold initialSlashes
          split <;> simp_all

/-- Any path that starts with a slash: the walk from the root, with one slash before it, or two where the path starts with exactly two (as POSIX asks). -/
theorem C142_slashes (cwd p : Str) (h : p.head? = some '/') :
    (TwoSlashes p → abspath cwd p = '/' :: absolute (along [] p)) ∧ (¬ TwoSlashes p → abspath cwd p = absolute (along [] p)) := by
  have key : ∀ k, k ≠ 0 → initialSlashes p = k → abspath cwd p = List.replicate k '/' ++ joinSlash (along [] p) := by
    intro k hk hp
    unfold abspath normpath
    rw [if_pos h, if_neg (by rintro rfl; cases h), hp, Business.splitSlash_eq]
    dsimp only
    rw [(steps_go hk _ _ (by intro n hn; simp at hn) (segments_no_slash p)).1, joined_eq]
    rw [if_neg]
    · rfl
    · cases k with
      | zero => exact absurd rfl hk
      | succ k => simp [List.replicate_succ]
  obtain ⟨h1, h2⟩ := initial_other h
  exact ⟨fun t => key 2 (by decide) (h1 t), fun t => key 1 (by decide) (h2 t)⟩

example : TwoSlashes "//srv//x".toList ∧ ¬ TwoSlashes "///srv/../x".toList ∧ abspath [] "//srv//x".toList = "//srv/x".toList ∧ abspath [] "///srv/../x".toList = "/x".toList := by
  refine ⟨⟨"srv//x".toList, by decide +kernel, by decide +kernel⟩, ?_, by decide +kernel, by decide +kernel⟩
  rintro ⟨r, hr, h⟩
  have : r = "/srv/../x".toList := by
    have h2 : "///srv/../x".toList = '/' :: '/' :: "/srv/../x".toList := by decide +kernel
    rw [h2] at hr
    simpa using hr.symm
  subst this
  revert h
  decide +kernel

end Auxi.Paths.Props
