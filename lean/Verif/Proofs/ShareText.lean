import Verif.Proofs.Share

/-! The text of an object is determined by what can be seen of it: two writers run in step. -/
namespace Auxi.Share
open Json Json.Proofs Persist Persist.Proofs Share.Spec

variable {F : Type}

/-- Corresponding values in two heaps; `R` says which addresses correspond. -/
inductive RV (R : ℕ → ℕ → Prop) : Val F → Val F → Prop
  | none : RV R .none .none
  | bool (b : Bool) : RV R (.bool b) (.bool b)
  | num (x : F) : RV R (.num x) (.num x)
  | str (t : Str) : RV R (.str t) (.str t)
  | ref {a b : ℕ} (h : R a b) : RV R (.ref a) (.ref b)

/-- Corresponding attributes. -/
def RP (R : ℕ → ℕ → Prop) (e e' : Str × Val F) : Prop := e.1 = e'.1 ∧ RV R e.2 e'.2

/-- Corresponding objects. -/
inductive NR (R : ℕ → ℕ → Prop) : Node F → Node F → Prop
  | list {l l' : List (Val F)} (h : List.Forall₂ (RV R) l l') : NR R (.list l) (.list l')
  | inst {c : Str} {l l' : List (Str × Val F)} (h : List.Forall₂ (RP R) (sortKeys l) (sortKeys l')) : NR R (.inst c l) (.inst c l')

/-- Addresses correspond one to one, and so do the objects there. -/
structure Bisim (h h' : Heap F) (R : ℕ → ℕ → Prop) : Prop where
  fwd : ∀ a b b', R a b → R a b' → b = b'
  bwd : ∀ a a' b, R a b → R a' b → a = a'
  node : ∀ a b, R a b → ∃ o o', h[a]? = some o ∧ h'[b]? = some o' ∧ NR R o o'

theorem idxOf?_step {h h' : Heap F} {R : ℕ → ℕ → Prop} (hb : Bisim h h' R) {a b : ℕ} (hab : R a b) : ∀ {s s' : List ℕ}, List.Forall₂ R s s' → s.idxOf? a = s'.idxOf? b
  | _, _, .nil => rfl
  | _, _, .cons (a := x) (b := y) hxy hs => by
    rw [List.idxOf?_cons, List.idxOf?_cons, idxOf?_step hb hab hs]
    by_cases hx : x = a
    · subst hx
      obtain rfl := hb.fwd _ _ _ hab hxy
      simp
    · have hy : y ≠ b := fun e => hx (hb.bwd _ _ _ (e ▸ hxy) hab)
      simp [hx, hy]

/-- Two writers run in step. -/
def InStep (R : ℕ → ℕ → Prop) (f g : Val F → List ℕ → Option (J F × List ℕ)) : Prop :=
  ∀ v v' s s' r, RV R v v' → List.Forall₂ R s s' → f v s = some r → ∃ t, g v' s' = some (r.1, t) ∧ List.Forall₂ R r.2 t

theorem encItems_step {R : ℕ → ℕ → Prop} {f g : Val F → List ℕ → Option (J F × List ℕ)} (hfg : InStep R f g) {l l' : List (Val F)} (hl : List.Forall₂ (RV R) l l') :
    ∀ s s' r, List.Forall₂ R s s' → encItems f l s = some r → ∃ t, encItems g l' s' = some (r.1, t) ∧ List.Forall₂ R r.2 t := by
  induction hl with
  | nil =>
    intro s s' r hs hr
    simp only [encItems, Option.some.injEq] at hr
    subst hr
    exact ⟨s', rfl, hs⟩
  | @cons v v' l l' hv _ ih =>
    intro s s' r hs hr
    simp only [encItems] at hr
    split at hr
    · cases hr
    · rename_i j s1 hj
      split at hr
      · cases hr
      · rename_i js s2 hjs
        simp only [Option.some.injEq] at hr
        subst hr
        obtain ⟨t1, k1, k2⟩ := hfg v v' s s' _ hv hs hj
        obtain ⟨t2, k3, k4⟩ := ih s1 t1 _ k2 hjs
        exact ⟨t2, by simp only [encItems, k1, k3], k4⟩

theorem encPairs_step {R : ℕ → ℕ → Prop} {f g : Val F → List ℕ → Option (J F × List ℕ)} (hfg : InStep R f g) {l l' : List (Str × Val F)} (hl : List.Forall₂ (RP R) l l') :
    ∀ s s' r, List.Forall₂ R s s' → encPairs f l s = some r → ∃ t, encPairs g l' s' = some (r.1, t) ∧ List.Forall₂ R r.2 t := by
  induction hl with
  | nil =>
    intro s s' r hs hr
    simp only [encPairs, Option.some.injEq] at hr
    subst hr
    exact ⟨s', rfl, hs⟩
  | @cons e e' l l' he _ ih =>
    obtain ⟨k, v⟩ := e
    obtain ⟨k', v'⟩ := e'
    obtain ⟨hk, hv⟩ := he
    dsimp only at hk hv
    subst hk
    intro s s' r hs hr
    simp only [encPairs] at hr
    split at hr
    · cases hr
    · rename_i j s1 hj
      split at hr
      · cases hr
      · rename_i js s2 hjs
        simp only [Option.some.injEq] at hr
        subst hr
        obtain ⟨t1, k1, k2⟩ := hfg v v' s s' _ hv hs hj
        obtain ⟨t2, k3, k4⟩ := ih s1 t1 _ k2 hjs
        exact ⟨t2, by simp only [encPairs, k1, k3], k4⟩

theorem forall₂_snoc {R : ℕ → ℕ → Prop} {a b : ℕ} (hab : R a b) {s s' : List ℕ} (h : List.Forall₂ R s s') : List.Forall₂ R (s ++ [a]) (s' ++ [b]) := by
  induction h with
  | nil => exact .cons hab .nil
  | cons h1 _ ih => exact .cons h1 ih

theorem enc_step (I : Ids F) {h h' : Heap F} {R : ℕ → ℕ → Prop} (hb : Bisim h h' R) : ∀ n, InStep R (enc I true h n) (enc I true h' n) := by
  intro n
  induction n with
  | zero =>
    intro v v' s s' r hv hs hr
    cases hv with
    | none => simp only [enc, Option.some.injEq] at hr; subst hr; exact ⟨s', rfl, hs⟩
    | bool b => simp only [enc, Option.some.injEq] at hr; subst hr; exact ⟨s', rfl, hs⟩
    | num x => simp only [enc, Option.some.injEq] at hr; subst hr; exact ⟨s', rfl, hs⟩
    | str t => simp only [enc, Option.some.injEq] at hr; subst hr; exact ⟨s', rfl, hs⟩
    | @ref a b hab =>
      simp only [enc] at hr
      split at hr
      · rename_i i hi
        simp only [Option.some.injEq] at hr
        subst hr
        rw [idxOf?_step hb hab hs] at hi
        exact ⟨s', by simp only [enc, hi], hs⟩
      · cases hr
  | succ n ih =>
    intro v v' s s' r hv hs hr
    cases hv with
    | none => simp only [enc, Option.some.injEq] at hr; subst hr; exact ⟨s', rfl, hs⟩
    | bool b => simp only [enc, Option.some.injEq] at hr; subst hr; exact ⟨s', rfl, hs⟩
    | num x => simp only [enc, Option.some.injEq] at hr; subst hr; exact ⟨s', rfl, hs⟩
    | str t => simp only [enc, Option.some.injEq] at hr; subst hr; exact ⟨s', rfl, hs⟩
    | @ref a b hab =>
      have he := idxOf?_step hb hab hs
      obtain ⟨o, o', h1, h2, h3⟩ := hb.node a b hab
      simp only [enc] at hr ⊢
      rw [← he]
      split at hr
      · simp only [Option.some.injEq] at hr
        subst hr
        exact ⟨s', rfl, hs⟩
      · rw [h1] at hr
        rw [h2]
        cases h3 with
        | @list l l' h3 =>
          dsimp only at hr ⊢
          split at hr
          · cases hr
          · rename_i js t hjs
            simp only [Option.some.injEq] at hr
            subst hr
            obtain ⟨t', k1, k2⟩ := encItems_step ih h3 _ _ _ (forall₂_snoc hab hs) hjs
            exact ⟨t', by rw [k1], k2⟩
        | @inst c l l' h3 =>
          dsimp only [visit] at hr ⊢
          rw [if_pos rfl] at hr ⊢
          split at hr
          · cases hr
          · rename_i js t hjs
            simp only [Option.some.injEq] at hr
            subst hr
            obtain ⟨t', k1, k2⟩ := encPairs_step ih h3 _ _ _ (forall₂_snoc hab hs) hjs
            exact ⟨t', by rw [k1], k2⟩

/-! ## Objects that cannot be told apart correspond -/

theorem follow_append (h : Heap F) : ∀ (p q : List Share.Spec.Step) (v : Val F), follow h (p ++ q) v = (follow h p v).bind (follow h q)
  | [], _, _ => rfl
  | s :: p, q, v => by
    simp only [List.cons_append, follow]
    cases child h s v with
    | none => rfl
    | some w => exact follow_append h p q w

theorem face_some {h : Heap F} {v : Val F} (hv : ∀ a, v = .ref a → a < h.length) : ∃ f, face h v = some f := by
  cases v with
  | ref a =>
    have ha := hv a rfl
    have : h[a]? = some h[a] := List.getElem?_eq_getElem ha
    simp only [face, this]
    cases h[a] with
    | inst c l => exact ⟨_, rfl⟩
    | list l => exact ⟨_, rfl⟩
  | none => exact ⟨_, rfl⟩
  | bool b => exact ⟨_, rfl⟩
  | num x => exact ⟨_, rfl⟩
  | str s => exact ⟨_, rfl⟩

theorem child_part {h : Heap F} {s : Share.Spec.Step} {v w : Val F} (hc : child h s v = some w) : ∃ o ∈ h, w ∈ parts o := by
  cases s with
  | attr k =>
    cases v with
    | ref a =>
      simp only [child] at hc
      split at hc
      · rename_i c l hl
        exact ⟨_, List.mem_of_getElem? hl, List.mem_map.2 ⟨(k, w), mem_of_lookup hc, rfl⟩⟩
      · cases hc
    | _ => cases hc
  | pos i =>
    cases v with
    | ref a =>
      simp only [child] at hc
      split at hc
      · rename_i l hl
        exact ⟨_, List.mem_of_getElem? hl, List.mem_of_getElem? hc⟩
      · cases hc
    | _ => cases hc
where
  mem_of_lookup {k : Str} {w : Val F} {l : List (Str × Val F)} (h : l.lookup k = some w) : (k, w) ∈ l := by
    induction l with
    | nil => cases h
    | cons a l ih =>
      rw [List.lookup_cons] at h
      by_cases hk : k = a.1
      · subst hk
        simp only [beq_self_eq_true, Option.some.injEq] at h
        subst h; simp
      · have hb : (k == a.1) = false := by simpa using hk
        rw [hb] at h
        exact List.mem_cons_of_mem _ (ih h)

theorem follow_valid {h : Heap F} (hh : Sound h) : ∀ (p : List Share.Spec.Step) {v w : Val F}, (∀ a, v = .ref a → a < h.length) → follow h p v = some w → ∀ a, w = .ref a → a < h.length
  | [], _, _, hv, hw, a, ha => by
    simp only [follow, Option.some.injEq] at hw
    exact hv a (hw.trans ha)
  | s :: p, v, w, hv, hw, a, ha => by
    simp only [follow] at hw
    cases hc : child h s v with
    | none => rw [hc] at hw; cases hw
    | some u =>
      rw [hc] at hw
      obtain ⟨o, ho, hu⟩ := child_part hc
      exact follow_valid hh p (fun b hb => hh.closed o ho b (hb ▸ hu)) hw a ha

/-- What is seen along a path exists exactly if the path leads somewhere. -/
theorem look_isSome {h : Heap F} (hh : Sound h) {v : Val F} (hv : ∀ a, v = .ref a → a < h.length) (p : List Share.Spec.Step) : (look h p v).isSome = (follow h p v).isSome := by
  unfold look
  cases hf : follow h p v with
  | none => rfl
  | some w =>
    obtain ⟨f, hface⟩ := face_some (follow_valid hh p hv hf)
    simp only [Option.bind_some, hface, Option.isSome_some]

theorem keys_eq {α β : Type} {l : List (Str × α)} {l' : List (Str × β)} (hn : (l.map (·.1)).Nodup) (hn' : (l'.map (·.1)).Nodup) (hk : ∀ k, k ∈ l.map (·.1) ↔ k ∈ l'.map (·.1)) :
    (sortKeys l).map (·.1) = (sortKeys l').map (·.1) := by
  have p1 := (sortKeys_perm l).map (·.1)
  have p2 := (sortKeys_perm l').map (·.1)
  have hp : ((sortKeys l).map (·.1)).Perm ((sortKeys l').map (·.1)) := p1.trans (((List.perm_ext_iff_of_nodup hn hn').2 hk).trans p2.symm)
  refine hp.eq_of_pairwise (le := fun a b => strLe a b = true) (fun a b _ _ h1 h2 => strLe_antisymm h1 h2) ?_ ?_
  · exact List.pairwise_map.2 (sortKeys_sorted l)
  · exact List.pairwise_map.2 (sortKeys_sorted l')

theorem lookup_nodup {l : List (Str × Val F)} (hn : (l.map (·.1)).Nodup) {e : Str × Val F} (he : e ∈ l) : l.lookup e.1 = some e.2 := by
  induction l with
  | nil => cases he
  | cons a l ih =>
    simp only [List.map_cons, List.nodup_cons] at hn
    rcases List.mem_cons.1 he with rfl | he
    · rw [List.lookup_cons]; simp only [beq_self_eq_true]
    · have hne : e.1 ≠ a.1 := fun h => hn.1 (h ▸ List.mem_map_of_mem he)
      have hb : (e.1 == a.1) = false := by simpa using hne
      rw [List.lookup_cons, hb]
      exact ih hn.2 he

theorem forall₂_of_keys {R : Val F → Val F → Prop} : ∀ {l l' : List (Str × Val F)}, l.map (·.1) = l'.map (·.1) → (∀ e ∈ l, ∀ e' ∈ l', e.1 = e'.1 → R e.2 e'.2) →
    List.Forall₂ (fun e e' => e.1 = e'.1 ∧ R e.2 e'.2) l l'
  | [], [], _, _ => .nil
  | [], _ :: _, h, _ => by simp at h
  | _ :: _, [], h, _ => by simp at h
  | a :: l, b :: l', h, hr => by
    simp only [List.map_cons, List.cons.injEq] at h
    exact .cons ⟨h.1, hr a (by simp) b (by simp) h.1⟩ (forall₂_of_keys h.2 (fun e he e' he' => hr e (by simp [he]) e' (by simp [he'])))

/-- The correspondence of two values that cannot be told apart: reached along the same path. -/
def Both (h : Heap F) (v : Val F) (h' : Heap F) (v' : Val F) (a b : ℕ) : Prop := ∃ p, follow h p v = some (.ref a) ∧ follow h' p v' = some (.ref b)

theorem both_rv {h h' : Heap F} (hh : Sound h) (hh' : Sound h') {v v' : Val F} (hv : ∀ a, v = .ref a → a < h.length) (hv' : ∀ a, v' = .ref a → a < h'.length) (hs : Same h v h' v')
    {p : List Share.Spec.Step} {w w' : Val F} (hw : follow h p v = some w) (hw' : follow h' p v' = some w') : RV (Both h v h' v') w w' := by
  have hl := hs.1 p
  unfold look at hl
  rw [hw, hw'] at hl
  simp only [Option.bind_some] at hl
  have k := follow_valid hh p hv hw
  have k' := follow_valid hh' p hv' hw'
  cases w with
  | ref a =>
    have ha := k a rfl
    obtain ⟨o, h1⟩ : ∃ o, h[a]? = some o := ⟨_, List.getElem?_eq_getElem ha⟩
    cases w' with
    | ref b => exact .ref ⟨p, hw, hw'⟩
    | _ => simp only [face, h1] at hl; cases o <;> cases hl
  | none =>
    cases w' with
    | ref b =>
      obtain ⟨o, h1⟩ : ∃ o, h'[b]? = some o := ⟨_, List.getElem?_eq_getElem (k' b rfl)⟩
      simp only [face, h1] at hl
      cases o <;> cases hl
    | none => exact .none
    | _ => cases hl
  | bool x =>
    cases w' with
    | ref b =>
      obtain ⟨o, h1⟩ : ∃ o, h'[b]? = some o := ⟨_, List.getElem?_eq_getElem (k' b rfl)⟩
      simp only [face, h1] at hl
      cases o <;> cases hl
    | bool y => cases hl; exact .bool _
    | _ => cases hl
  | num x =>
    cases w' with
    | ref b =>
      obtain ⟨o, h1⟩ : ∃ o, h'[b]? = some o := ⟨_, List.getElem?_eq_getElem (k' b rfl)⟩
      simp only [face, h1] at hl
      cases o <;> cases hl
    | num y => cases hl; exact .num _
    | _ => cases hl
  | str x =>
    cases w' with
    | ref b =>
      obtain ⟨o, h1⟩ : ∃ o, h'[b]? = some o := ⟨_, List.getElem?_eq_getElem (k' b rfl)⟩
      simp only [face, h1] at hl
      cases o <;> cases hl
    | str y => cases hl; exact .str _
    | _ => cases hl

theorem step_both {h h' : Heap F} (hh : Sound h) (hh' : Sound h') {v v' : Val F} (hv : ∀ a, v = .ref a → a < h.length) (hv' : ∀ a, v' = .ref a → a < h'.length) (hs : Same h v h' v')
    {p : List Share.Spec.Step} {w w' : Val F} (hw : follow h p v = some w) (hw' : follow h' p v' = some w') (s : Share.Spec.Step) :
    ((child h s w).isSome ↔ (child h' s w').isSome) ∧ ∀ u u', child h s w = some u → child h' s w' = some u' → RV (Both h v h' v') u u' := by
  have e : ∀ (g : Heap F) (x y : Val F), follow g p x = some y → follow g (p ++ [s]) x = child g s y := by
    intro g x y hy
    rw [follow_append, hy]
    simp only [Option.bind_some, follow]
    cases child g s y <;> rfl
  constructor
  · have := look_isSome hh hv (p ++ [s])
    have := look_isSome hh' hv' (p ++ [s])
    have := hs.1 (p ++ [s])
    rw [← e h v w hw, ← e h' v' w' hw']
    simp_all
  · intro u u' hu hu'
    exact both_rv hh hh' hv hv' hs ((e h v w hw).trans hu) ((e h' v' w' hw').trans hu')

theorem bisim_of_same {h h' : Heap F} (hh : Sound h) (hh' : Sound h') {v v' : Val F} (hv : ∀ a, v = .ref a → a < h.length) (hv' : ∀ a, v' = .ref a → a < h'.length) (hs : Same h v h' v') :
    Bisim h h' (Both h v h' v') where
  fwd := by
    rintro a b b' ⟨p, p1, p2⟩ ⟨q, q1, q2⟩
    obtain ⟨x, x1, x2⟩ := (hs.2 p q).2 ⟨a, p1, q1⟩
    rw [p2] at x1
    rw [q2] at x2
    cases x1; cases x2; rfl
  bwd := by
    rintro a a' b ⟨p, p1, p2⟩ ⟨q, q1, q2⟩
    obtain ⟨x, x1, x2⟩ := (hs.2 p q).1 ⟨b, p2, q2⟩
    rw [p1] at x1
    rw [q1] at x2
    cases x1; cases x2; rfl
  node := by
    rintro a b ⟨p, p1, p2⟩
    have ha := follow_valid hh p hv p1 a rfl
    have hb := follow_valid hh' p hv' p2 b rfl
    have h1 : h[a]? = some h[a] := List.getElem?_eq_getElem ha
    have h2 : h'[b]? = some h'[b] := List.getElem?_eq_getElem hb
    have hl := hs.1 p
    unfold look at hl
    rw [p1, p2] at hl
    simp only [Option.bind_some, face, h1, h2] at hl
    refine ⟨_, _, h1, h2, ?_⟩
    have st := step_both hh hh' hv hv' hs p1 p2
    have m1 : h[a] ∈ h := List.getElem_mem ha
    have m2 : h'[b] ∈ h' := List.getElem_mem hb
    generalize ho : h[a] = o at *
    generalize ho' : h'[b] = o' at *
    cases o with
    | list l =>
      cases o' with
      | inst c' l' => cases hl
      | list l' =>
        simp only [Option.some.injEq, Face.list.injEq] at hl
        refine .list (List.forall₂_iff_get.2 ⟨hl.symm, fun i i1 i2 => ?_⟩)
        refine (st (.pos i)).2 _ _ ?_ ?_
        · simp only [child, h1]; exact List.getElem?_eq_getElem i1
        · simp only [child, h2]; exact List.getElem?_eq_getElem i2
    | inst c l =>
      cases o' with
      | list l' => cases hl
      | inst c' l' =>
        simp only [Option.some.injEq, Face.inst.injEq] at hl
        subst hl
        have n1 := hh.distinct _ l m1
        have n2 := hh'.distinct _ l' m2
        have hsome : ∀ (x : List (Str × Val F)), (x.map (·.1)).Nodup → ∀ k, k ∈ x.map (·.1) ↔ (x.lookup k).isSome := by
          intro x hx k
          constructor
          · intro hk
            obtain ⟨e, he, rfl⟩ := List.mem_map.1 hk
            rw [lookup_nodup hx he]; rfl
          · intro hk
            obtain ⟨w, hw⟩ := Option.isSome_iff_exists.1 hk
            exact List.mem_map.2 ⟨_, child_part.mem_of_lookup hw, rfl⟩
        refine .inst (forall₂_of_keys (keys_eq n1 n2 fun k => ?_) fun e he e' he' hk => ?_)
        · rw [hsome l n1, hsome l' n2]
          have := (st (.attr k)).1
          simp only [child, h1, h2] at this
          exact this
        · have me := (sortKeys_perm l).mem_iff.1 he
          have me' := (sortKeys_perm l').mem_iff.1 he'
          refine (st (.attr e.1)).2 _ _ ?_ ?_
          · simp only [child, h1]; exact lookup_nodup n1 me
          · simp only [child, h2]; rw [hk]; exact lookup_nodup n2 me'

theorem text_of_same (I : Ids F) {h h' : Heap F} (hh : Sound h) (hh' : Sound h') {a a' : ℕ} (ha : a < h.length) (ha' : a' < h'.length) (hs : Same h (.ref a) h' (.ref a')) :
    text I true h a = text I true h' a' := by
  obtain ⟨t, m, h1, _⟩ := read_text I true hh (fun _ _ _ => rfl) ha
  obtain ⟨t', m', k1, _⟩ := read_text I true hh' (fun _ _ _ => rfl) ha'
  unfold text at h1 k1
  rw [Option.map_eq_some_iff] at h1 k1
  obtain ⟨r, r1, r2⟩ := h1
  obtain ⟨r', r1', r2'⟩ := k1
  have hv : ∀ x, (Val.ref a : Val F) = .ref x → x < h.length := by intro x hx; cases hx; exact ha
  have hv' : ∀ x, (Val.ref a' : Val F) = .ref x → x < h'.length := by intro x hx; cases hx; exact ha'
  have hb := bisim_of_same hh hh' hv hv' hs
  obtain ⟨s, s1, _⟩ := enc_step I hb h.length _ _ [] [] r (.ref ⟨[], rfl, rfl⟩) .nil r1
  have e1 := enc_le I true h' (le_max_left h.length h'.length) s1
  have e2 := enc_le I true h' (le_max_right h.length h'.length) r1'
  rw [e1] at e2
  simp only [Option.some.injEq] at e2
  unfold text
  rw [r1, r1', ← e2]
  rfl

end Auxi.Share
