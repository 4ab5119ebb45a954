import Verif.Spec.Psd
import Mathlib.Algebra.BigOperators.Ring.List
import Mathlib.Data.List.Nodup
import Mathlib.Tactic.Ring
import Mathlib.Tactic.FieldSimp
import Mathlib.Tactic.Linarith

/-!
# Lemmas about psd packages
-/
namespace Auxi.Psd
open Spec

/-! ### `indexOf` -/

theorem indexOf_some {l : List ℚ} {c : ℚ} {i : ℕ} (h : indexOf l c = some i) : l[i]? = some c := by
  induction l generalizing i with
  | nil => simp [indexOf] at h
  | cons a l ih =>
    simp only [indexOf] at h
    split at h
    · rename_i ha; cases h; simp [ha]
    · simp only [Option.map_eq_some_iff] at h
      obtain ⟨j, hj, rfl⟩ := h
      simpa using ih hj

theorem indexOf_isSome {l : List ℚ} {c : ℚ} : (indexOf l c).isSome = true ↔ c ∈ l := by
  induction l with
  | nil => simp [indexOf]
  | cons a l ih =>
    simp only [indexOf]
    split
    · rename_i ha; simp [ha]
    · rename_i ha
      have ha' : ¬ c = a := fun e => ha e.symm
      simp only [Option.isSome_map, ih, List.mem_cons, ha', false_or]

theorem indexOf_mem {l : List ℚ} {c : ℚ} (h : c ∈ l) : ∃ i, indexOf l c = some i ∧ i < l.length := by
  obtain ⟨i, hi⟩ := Option.isSome_iff_exists.1 (indexOf_isSome.2 h)
  have := indexOf_some hi
  exact ⟨i, hi, (List.getElem?_eq_some_iff.1 this).1⟩

theorem indexOf_none {l : List ℚ} {c : ℚ} (h : c ∉ l) : indexOf l c = none := by
  cases hi : indexOf l c with
  | none => rfl
  | some i => exact absurd (indexOf_isSome.1 (by rw [hi]; rfl)) h

theorem indexOf_nodup {l : List ℚ} (h : l.Nodup) {i : ℕ} {c : ℚ} (hi : l[i]? = some c) : indexOf l c = some i := by
  obtain ⟨j, hj, hlt⟩ := indexOf_mem (List.mem_of_getElem? hi)
  have := indexOf_some hj
  rw [hj]
  congr 1
  obtain ⟨a, b⟩ := List.getElem?_eq_some_iff.1 hi
  obtain ⟨a', b'⟩ := List.getElem?_eq_some_iff.1 this
  exact (List.Nodup.getElem_inj_iff h).1 (b'.trans b.symm)

/-! ### Finite arrays -/

/-- An array of finite numbers. -/
def lift (l : List ℚ) : List F64 := l.map F64.fin

@[simp] theorem lift_length (l : List ℚ) : (lift l).length = l.length := by simp [lift]

@[simp] theorem lift_get (l : List ℚ) (i : ℕ) : (lift l)[i]? = (l[i]?).map F64.fin := by simp [lift]

theorem lift_set (l : List ℚ) (i : ℕ) (q : ℚ) : (lift l).set i (.fin q) = lift (l.set i q) := by simp [lift]

theorem lift_inj {l l' : List ℚ} (h : lift l = lift l') : l = l' := by
  induction l generalizing l' with
  | nil => cases l' with
    | nil => rfl
    | cons => simp [lift] at h
  | cons a l ih => cases l' with
    | nil => simp [lift] at h
    | cons b l' =>
      simp only [lift, List.map_cons, List.cons.injEq, F64.fin.injEq] at h
      rw [h.1, ih h.2]

theorem finite_iff {p : Package} : Finite p ↔ ∃ l, p.masses = lift l := by
  constructor
  · intro h
    obtain ⟨m, ms⟩ := p
    unfold Finite at h
    dsimp only at h ⊢
    induction ms with
    | nil => exact ⟨[], rfl⟩
    | cons x ms ih =>
      obtain ⟨q, hq⟩ := h x (by simp)
      obtain ⟨l, hl⟩ := ih (fun y hy => h y (by simp [hy]))
      exact ⟨q :: l, by simp [lift, hq, hl]⟩
  · rintro ⟨l, hl⟩ x hx
    rw [hl] at hx
    simp only [lift, List.mem_map] at hx
    obtain ⟨q, _, rfl⟩ := hx
    exact ⟨q, rfl⟩

theorem sum_aux (l : List ℚ) (a : ℚ) : (lift l).foldl F64.add (.fin a) = .fin (a + l.sum) := by
  induction l generalizing a with
  | nil => simp [lift]
  | cons x l ih =>
    have : (lift (x :: l)).foldl F64.add (.fin a) = (lift l).foldl F64.add (.fin (a + x)) := rfl
    rw [this, ih, List.sum_cons, add_assoc]

theorem sum_lift (l : List ℚ) : sum (lift l) = .fin l.sum := by
  rw [sum, sum_aux, zero_add]

theorem map_mul_lift (l : List ℚ) (k : ℚ) : (lift l).map (·.mul (.fin k)) = lift (l.map (· * k)) := by
  simp only [lift, List.map_map]
  rfl

theorem vadd_lift (l l' : List ℚ) (h : l.length = l'.length) : vadd (lift l) (lift l') = .ok (lift (List.zipWith (· + ·) l l')) := by
  simp only [vadd, lift_length, h, if_true]
  congr 1
  clear h
  induction l generalizing l' with
  | nil => rfl
  | cons a l ih => cases l' with
    | nil => rfl
    | cons b l' =>
      have := ih l'
      simp only [lift, List.map_cons, List.zipWith_cons_cons] at this ⊢
      rw [this]
      rfl

/-! ### Contents -/

theorem content_lift {p : Package} {l : List ℚ} (hl : p.masses = lift l) (c : ℚ) :
    content p c = ((indexOf p.mat.classes c).bind (l[·]?)).getD 0 := by
  unfold content Package.classMass Material.index
  cases indexOf p.mat.classes c with
  | none => rfl
  | some i =>
    simp only [Option.bind_some, hl, lift_get]
    cases h : l[i]? with
    | none => rfl
    | some x => rfl

theorem content_of_index {p : Package} {l : List ℚ} (hl : p.masses = lift l) {c : ℚ} {i : ℕ} (h : indexOf p.mat.classes c = some i) :
    content p c = (l[i]?).getD 0 := by rw [content_lift hl, h]; rfl

theorem content_not_mem {p : Package} {c : ℚ} (h : c ∉ p.mat.classes) : content p c = 0 := by
  simp [content, Package.classMass, Material.index, indexOf_none h]

/-- Changing one mass changes the content of that class only. -/
theorem content_set {m : Material} {l : List ℚ} {c : ℚ} {i : ℕ} (h : indexOf m.classes c = some i) (hi : i < l.length) (y : ℚ) (c' : ℚ) :
    content ⟨m, lift (l.set i y)⟩ c' = if c' = c then y else content ⟨m, lift l⟩ c' := by
  by_cases hc : c' = c
  · subst hc
    rw [content_of_index (p := ⟨m, lift (l.set i y)⟩) rfl h]
    simp [hi]
  · simp only [hc, if_false]
    by_cases hm : c' ∈ m.classes
    · obtain ⟨j, hj, _⟩ := indexOf_mem hm
      rw [content_of_index (p := ⟨m, lift (l.set i y)⟩) rfl hj, content_of_index (p := ⟨m, lift l⟩) rfl hj]
      have : i ≠ j := by
        rintro rfl
        have a := indexOf_some h
        rw [indexOf_some hj] at a
        exact hc (Option.some.inj a)
      simp [List.getElem?_set_ne this]
    · rw [content_not_mem (p := ⟨m, lift l⟩) hm, content_not_mem (p := ⟨m, lift (l.set i y)⟩) hm]

theorem content_scale (m : Material) (l : List ℚ) (k c : ℚ) : content ⟨m, lift (l.map (· * k))⟩ c = content ⟨m, lift l⟩ c * k := by
  rw [content_lift (p := ⟨m, lift (l.map (· * k))⟩) rfl, content_lift (p := ⟨m, lift l⟩) rfl]
  cases indexOf m.classes c with
  | none => simp
  | some i =>
    simp only [Option.bind_some, List.getElem?_map]
    cases l[i]? <;> simp

theorem content_zip (m : Material) (l l' : List ℚ) (h : l.length = l'.length) (c : ℚ) :
    content ⟨m, lift (List.zipWith (· + ·) l l')⟩ c = content ⟨m, lift l⟩ c + content ⟨m, lift l'⟩ c := by
  rw [content_lift (p := ⟨m, lift (List.zipWith (· + ·) l l')⟩) rfl, content_lift (p := ⟨m, lift l⟩) rfl, content_lift (p := ⟨m, lift l'⟩) rfl]
  cases indexOf m.classes c with
  | none => simp
  | some i =>
    simp only [Option.bind_some, List.getElem?_zipWith]
    by_cases hi : i < l.length
    · rw [List.getElem?_eq_getElem hi, List.getElem?_eq_getElem (h ▸ hi)]; simp
    · rw [List.getElem?_eq_none (by omega), List.getElem?_eq_none (by omega)]; simp

/-- The contents in class order are the masses. -/
theorem contents_eq {p : Package} {l : List ℚ} (hl : p.masses = lift l) (hn : Distinct p.mat) (h : Shape p) :
    p.mat.classes.map (content p) = l := by
  have hlen : l.length = p.mat.classes.length := by rw [← h, hl, lift_length]
  apply List.ext_getElem?
  intro i
  simp only [List.getElem?_map]
  cases hc : p.mat.classes[i]? with
  | none =>
    have : l[i]? = none := by
      rw [List.getElem?_eq_none_iff] at hc ⊢
      omega
    simp [this]
  | some c =>
    have hi : i < l.length := by rw [hlen]; exact (List.getElem?_eq_some_iff.1 hc).1
    simp only [Option.map_some]
    rw [content_of_index hl (indexOf_nodup hn hc), List.getElem?_eq_getElem hi]
    simp

theorem mass_lift {p : Package} {l : List ℚ} (hl : p.masses = lift l) : p.mass = .fin l.sum := by
  rw [Package.mass, hl, sum_lift]

theorem mass_eq {p : Package} (hf : Finite p) (hn : Distinct p.mat) (h : Shape p) : p.mass = .fin (total p) := by
  obtain ⟨l, hl⟩ := finite_iff.1 hf
  rw [mass_lift hl, total, contents_eq hl hn h]

theorem classMass_ok {p : Package} {c : ℚ} (hf : Finite p) (h : Shape p) (hc : c ∈ p.mat.classes) : p.classMass c = .ok (.fin (content p c)) := by
  obtain ⟨l, hl⟩ := finite_iff.1 hf
  obtain ⟨i, hi, hlt⟩ := indexOf_mem hc
  have hlt' : i < l.length := by rw [← lift_length, ← hl, h]; exact hlt
  rw [content_of_index hl hi]
  simp [Package.classMass, Material.index, hi, hl, List.getElem?_eq_getElem hlt']

theorem classMass_content {p : Package} {c : ℚ} {x : ℚ} (h : p.classMass c = .ok (.fin x)) : content p c = x := by
  simp [content, h]

theorem classMass_fin {p : Package} {c : ℚ} {x : F64} (hf : Finite p) (h : p.classMass c = .ok x) : x = .fin (content p c) := by
  obtain ⟨l, hl⟩ := finite_iff.1 hf
  have : ∃ q, x = .fin q := by
    unfold Package.classMass at h
    split at h
    · cases h
    · split at h
      · rename_i hy; cases h; exact hf _ (List.mem_of_getElem? hy)
      · cases h
  obtain ⟨q, rfl⟩ := this
  rw [classMass_content h]

/-! ### Adding -/

theorem addTuple_ok {p p' : Package} {c : ℚ} {b : Bool} {x : ℚ} (hf : Finite p) (h : p.addTuple c b (.fin x) = .ok p') :
    b = true ∧ c ∈ p.mat.classes ∧ p'.mat = p.mat ∧ p'.masses.length = p.masses.length ∧ Finite p' ∧
    ∀ c', content p' c' = content p c' + if c' = c then x else 0 := by
  obtain ⟨l, hl⟩ := finite_iff.1 hf
  obtain ⟨m, ms⟩ := p
  dsimp only at hl
  subst hl
  unfold Package.addTuple at h
  split at h
  · rename_i hb
    unfold Material.index at h
    dsimp only at h
    cases hi : indexOf m.classes c with
    | none => rw [hi] at h; cases h
    | some i =>
      rw [hi] at h
      dsimp only at h
      rw [lift_get] at h
      cases hy : l[i]? with
      | none => rw [hy] at h; cases h
      | some y =>
        rw [hy] at h
        simp only [Option.map_some, F64.add] at h
        cases h
        have hlt := (List.getElem?_eq_some_iff.1 hy).1
        refine ⟨hb, indexOf_isSome.1 (by rw [hi]; rfl), rfl, by simp, finite_iff.2 ⟨l.set i (y + x), lift_set _ _ _⟩, fun c' => ?_⟩
        rw [lift_set, content_set hi hlt]
        by_cases hc : c' = c
        · subst hc
          simp only [if_true]
          rw [content_of_index (p := ⟨m, lift l⟩) rfl hi, hy]; rfl
        · simp [hc]
  · cases h

theorem addTuple_succeeds {p : Package} {c : ℚ} {x : F64} (h : Shape p) (hc : c ∈ p.mat.classes) :
    ∃ p', p.addTuple c true x = .ok p' := by
  obtain ⟨i, hi, hlt⟩ := indexOf_mem hc
  have hlt' : i < p.masses.length := by rw [h]; exact hlt
  simp [Package.addTuple, Material.index, hi, List.getElem?_eq_getElem hlt']

theorem addLoop_spec (q : Package) (hq : Finite q) : ∀ (cs : List ℚ) (p : Package) (r : Res Unit) (p' : Package), Finite p → cs.Nodup → q.addLoop cs p = (r, p') →
    p'.mat = p.mat ∧ p'.masses.length = p.masses.length ∧ Finite p' ∧
    ∃ pre post, cs = pre ++ post ∧ (r = .ok () ↔ post = []) ∧ (∀ c ∈ pre, c ∈ p.mat.classes) ∧
      ∀ c, content p' c = content p c + if c ∈ pre then content q c else 0 := by
  intro cs
  induction cs with
  | nil =>
    intro p r p' hf _ h
    cases h
    exact ⟨rfl, rfl, hf, [], [], rfl, by simp, by simp, by simp⟩
  | cons a cs ih =>
    intro p r p' hf hn h
    have fail : ∀ e : PyErr, ((.error e, p) : Res Unit × Package) = (r, p') → p'.mat = p.mat ∧ p'.masses.length = p.masses.length ∧ Finite p' ∧
        ∃ pre post, a :: cs = pre ++ post ∧ (r = .ok () ↔ post = []) ∧ (∀ c ∈ pre, c ∈ p.mat.classes) ∧
          ∀ c, content p' c = content p c + if c ∈ pre then content q c else 0 := by
      intro e he
      cases he
      exact ⟨rfl, rfl, hf, [], a :: cs, rfl, by simp, by simp, by simp⟩
    simp only [Package.addLoop] at h
    split at h
    · exact fail _ h
    · split at h
      · exact fail _ h
      · rename_i x hx
        have hxf := classMass_fin hq hx
        subst hxf
        split at h
        · exact fail _ h
        · rename_i p1 hp1
          obtain ⟨_, t2, t3, t4, t5, t6⟩ := addTuple_ok hf hp1
          simp only [List.nodup_cons] at hn
          obtain ⟨i1, i2, i0, pre, post, i3, i4, i5, i6⟩ := ih p1 r p' t5 hn.2 h
          refine ⟨i1.trans t3, i2.trans t4, i0, a :: pre, post, by rw [i3]; rfl, i4, ?_, ?_⟩
          · intro c hc
            rw [List.mem_cons] at hc
            rcases hc with rfl | hc
            · exact t2
            · rw [← t3]; exact i5 c hc
          · intro c
            rw [i6, t6]
            by_cases hc : c = a
            · subst hc
              have : c ∉ pre := fun hm => hn.1 (by rw [i3]; simp [hm])
              simp [this]
            · simp [hc]

theorem addLoop_succeeds (q : Package) (hq : Shape q) (hqf : Finite q) : ∀ (cs : List ℚ) (p : Package), Shape p →
    (∀ c ∈ cs, c ∈ p.mat.classes ∧ c ∈ q.mat.classes) → ∃ p', q.addLoop cs p = (.ok (), p') := by
  intro cs
  induction cs with
  | nil => intro p _ _; exact ⟨p, rfl⟩
  | cons a cs ih =>
    intro p hp hcs
    have hx := classMass_ok hqf hq (hcs a (by simp)).2
    obtain ⟨p1, hp1⟩ := addTuple_succeeds (x := .fin (content q a)) hp (hcs a (by simp)).1
    have hm : p1.mat = p.mat ∧ p1.masses.length = p.masses.length := by
      unfold Package.addTuple at hp1
      simp only [if_true] at hp1
      split at hp1
      · cases hp1
      · split at hp1
        · cases hp1
        · cases hp1; simp
    obtain ⟨p', hp'⟩ := ih p1 (by unfold Shape; rw [hm.1, hm.2]; exact hp) (fun c hc => by rw [hm.1]; exact hcs c (by simp [hc]))
    refine ⟨p', ?_⟩
    simp [Package.addLoop, (hcs a (by simp)).1, hx, hp1, hp']

/-- A class missing from the receiver makes the loop fail with `TypeError`. -/
theorem addLoop_fails (q : Package) (hq : Shape q) (hqf : Finite q) : ∀ (cs : List ℚ) (p : Package), Shape p →
    (∀ c ∈ cs, c ∈ q.mat.classes) → (∃ c ∈ cs, c ∉ p.mat.classes) → (q.addLoop cs p).1 = .error .typeError := by
  intro cs
  induction cs with
  | nil => intro p _ _ h; simp at h
  | cons a cs ih =>
    intro p hp hcs hex
    simp only [Package.addLoop]
    split
    · rfl
    · rename_i ha
      simp only [not_not] at ha
      have hx := classMass_ok hqf hq (hcs a (by simp))
      obtain ⟨p1, hp1⟩ := addTuple_succeeds (x := .fin (content q a)) hp ha
      have hm : p1.mat = p.mat ∧ p1.masses.length = p.masses.length := by
        unfold Package.addTuple at hp1
        simp only [if_true] at hp1
        split at hp1
        · cases hp1
        · split at hp1
          · cases hp1
          · cases hp1; simp
      rw [hx]
      simp only [hp1]
      refine ih p1 (by unfold Shape; rw [hm.1, hm.2]; exact hp) (fun c hc => hcs c (by simp [hc])) ?_
      obtain ⟨c, hc, hn⟩ := hex
      rw [List.mem_cons] at hc
      rcases hc with rfl | hc
      · exact absurd ha hn
      · exact ⟨c, hc, by rw [hm.1]; exact hn⟩

/-- Sums over two lists of classes when the function vanishes outside the smaller. -/
theorem sum_sub {E F : List ℚ} {f : ℚ → ℚ} (hE : E.Nodup) (hF : F.Nodup) (hs : ∀ c ∈ F, c ∈ E) (h0 : ∀ c, c ∉ F → f c = 0) :
    (E.map f).sum = (F.map f).sum := by
  have hp : (F ++ E.filter (fun c => decide (c ∉ F))).Perm E := by
    rw [List.perm_ext_iff_of_nodup _ hE]
    · intro c
      simp only [List.mem_append, List.mem_filter, decide_eq_true_eq]
      constructor
      · rintro (h | h)
        · exact hs c h
        · exact h.1
      · intro h
        by_cases hc : c ∈ F
        · exact .inl hc
        · exact .inr ⟨h, hc⟩
    · rw [List.nodup_append]
      refine ⟨hF, hE.filter _, ?_⟩
      intro x hx y hy e
      subst e
      simp only [List.mem_filter, decide_eq_true_eq] at hy
      exact hy.2 hx
  rw [← (hp.map f).sum_eq, List.map_append, List.sum_append]
  have : ((E.filter (fun c => decide (c ∉ F))).map f).sum = 0 := by
    apply List.sum_eq_zero
    intro x hx
    rw [List.mem_map] at hx
    obtain ⟨c, hc, rfl⟩ := hx
    simp only [List.mem_filter, decide_eq_true_eq] at hc
    exact h0 c hc.2
  rw [this, add_zero]

end Auxi.Psd
