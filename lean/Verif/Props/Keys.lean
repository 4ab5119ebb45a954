import Verif.Spec.Keys
import Verif.Props.PrintoutThermo

/-! # C123: an object used as a key is found again -/
namespace Auxi.Keys.Props
open Auxi Auxi.Keys Auxi.Keys.Spec

variable {σ α : Type}

/-- The invariant: every entry has the hash that its key has now. -/
def Inv (hash : Str → ℤ) (text : σ → Res Str) (w : World σ) (d : List (Entry α)) (t : ℕ → Option α) : Prop :=
  (d.map (·.key)).Nodup ∧ (∀ e ∈ d, hashOf hash text w e.key = .ok e.hash ∧ t e.key = some e.value) ∧ ∀ o v, t o = some v → ∃ e ∈ d, e.key = o

theorem hit_iff {h : ℤ} {o : ℕ} {e : Entry α} : hit h o e = true ↔ e.hash = h ∧ e.key = o := by simp [hit]

theorem inv_hit {hash : Str → ℤ} {text : σ → Res Str} {w : World σ} {d : List (Entry α)} {t : ℕ → Option α} (hi : Inv hash text w d t) {o : ℕ} {h : ℤ} (hh : hashOf hash text w o = .ok h)
    {e : Entry α} (he : e ∈ d) : hit h o e = true ↔ e.key = o := by
  rw [hit_iff]
  refine ⟨And.right, fun k => ⟨?_, k⟩⟩
  have := (hi.2.1 e he).1
  rw [k, hh] at this
  cases this; rfl

theorem inv_shows {hash : Str → ℤ} {text : σ → Res Str} {w : World σ} {d : List (Entry α)} {t : ℕ → Option α} (hp : ∀ o, ∃ s, text (w o) = .ok s) (hi : Inv hash text w d t) :
    Shows hash text w d t := by
  have hmem : ∀ o, o ∈ d.map (·.key) ↔ t o ≠ none := by
    intro o
    rw [List.mem_map]
    refine ⟨?_, fun h => ?_⟩
    · rintro ⟨e, he, rfl⟩
      rw [(hi.2.1 e he).2]; simp
    · obtain ⟨v, hv⟩ := Option.ne_none_iff_exists'.1 h
      exact hi.2.2 o v hv
  refine ⟨fun o => ?_, hi.1, hmem⟩
  obtain ⟨s, hs⟩ := hp o
  have hh : hashOf hash text w o = .ok (hash s) := by unfold hashOf; rw [hs]
  unfold get
  rw [hh]
  dsimp only
  cases hf : d.find? (hit (hash s) o) with
  | none =>
    have : t o = none := by
      by_contra hn
      obtain ⟨e, he, hk⟩ := List.mem_map.1 ((hmem o).2 hn)
      exact List.find?_eq_none.1 hf e he ((inv_hit hi hh he).2 hk)
    rw [this]
  | some e =>
    have he := List.mem_of_find?_eq_some hf
    have hk := (inv_hit hi hh he).1 (List.find?_some hf)
    have := (hi.2.1 e he).2
    rw [hk] at this
    rw [this]

theorem any_iff {hash : Str → ℤ} {text : σ → Res Str} {w : World σ} {d : List (Entry α)} {t : ℕ → Option α} (hi : Inv hash text w d t) {o : ℕ} {h : ℤ} (hh : hashOf hash text w o = .ok h) :
    d.any (hit h o) = true ↔ ∃ e ∈ d, e.key = o := by
  rw [List.any_eq_true]
  exact ⟨fun ⟨e, he, k⟩ => ⟨e, he, (inv_hit hi hh he).1 k⟩, fun ⟨e, he, k⟩ => ⟨e, he, (inv_hit hi hh he).2 k⟩⟩

theorem inv_step {hash : Str → ℤ} {text : σ → Res Str} {w : World σ} {d : List (Entry α)} {t : ℕ → Option α} (hp : ∀ o, ∃ s, text (w o) = .ok s) (hi : Inv hash text w d t) (op : Op σ α)
    (hc : ∀ o s, op = .change o s → (text s).map hash = (text (w o)).map hash) :
    Inv hash text (step hash text (w, d) op).1 (step hash text (w, d) op).2 (table t op) := by
  cases op with
  | set o v =>
    obtain ⟨s, hs⟩ := hp o
    have hh : hashOf hash text w o = .ok (hash s) := by unfold hashOf; rw [hs]
    simp only [step, set, hh, table]
    by_cases ha : d.any (hit (hash s) o) = true
    · rw [if_pos ha]
      have hk : ∀ e : Entry α, (if hit (hash s) o e then { e with value := v } else e).key = e.key := by intro e; split <;> rfl
      refine ⟨?_, ?_, ?_⟩
      · rw [List.map_map]
        rw [show ((fun e : Entry α => e.key) ∘ fun e => if hit (hash s) o e then { e with value := v } else e) = (·.key) from funext hk]
        exact hi.1
      · intro e he
        obtain ⟨e', he', rfl⟩ := List.mem_map.1 he
        rw [hk]
        by_cases hit' : hit (hash s) o e' = true
        · rw [if_pos hit']
          have := (inv_hit hi hh he').1 hit'
          exact ⟨(hi.2.1 e' he').1, by rw [this, Function.update_self]⟩
        · rw [if_neg hit']
          exact ⟨(hi.2.1 e' he').1, by rw [Function.update_of_ne (fun k => hit' ((inv_hit hi hh he').2 k))]; exact (hi.2.1 e' he').2⟩
      · intro o' v' h
        have : ∃ e ∈ d, e.key = o' := by
          by_cases k : o' = o
          · subst k; exact (any_iff hi hh).1 ha
          · rw [Function.update_of_ne k] at h; exact hi.2.2 o' v' h
        obtain ⟨e, he, k⟩ := this
        exact ⟨_, List.mem_map_of_mem he, (hk e).trans k⟩
    · rw [if_neg ha]
      have hno : ∀ e ∈ d, e.key ≠ o := fun e he k => ha ((any_iff hi hh).2 ⟨e, he, k⟩)
      refine ⟨?_, ?_, ?_⟩
      · rw [List.map_append]
        refine List.nodup_append.2 ⟨hi.1, by simp, fun a ha' b hb e => ?_⟩
        obtain ⟨x, hx, rfl⟩ := List.mem_map.1 ha'
        simp only [List.map_cons, List.map_nil, List.mem_singleton] at hb
        exact hno x hx (e.trans hb)
      · intro e he
        rcases List.mem_append.1 he with he | he
        · exact ⟨(hi.2.1 e he).1, by rw [Function.update_of_ne (hno e he)]; exact (hi.2.1 e he).2⟩
        · rw [List.mem_singleton] at he
          subst he
          exact ⟨hh, by simp⟩
      · intro o' v' h
        by_cases k : o' = o
        · subst k; exact ⟨_, List.mem_append_right _ (List.mem_singleton.2 rfl), rfl⟩
        · rw [Function.update_of_ne k] at h
          obtain ⟨e, he, k'⟩ := hi.2.2 o' v' h
          exact ⟨e, List.mem_append_left _ he, k'⟩
  | del o =>
    obtain ⟨s, hs⟩ := hp o
    have hh : hashOf hash text w o = .ok (hash s) := by unfold hashOf; rw [hs]
    simp only [step, del, hh, table]
    by_cases ha : d.any (hit (hash s) o) = true
    · rw [if_pos ha]
      have hf : ∀ e, e ∈ d.filter (fun e => !hit (hash s) o e) ↔ e ∈ d ∧ e.key ≠ o := by
        intro e
        rw [List.mem_filter]
        refine and_congr_right fun he => ?_
        have := inv_hit hi hh he
        cases hb : hit (hash s) o e <;> simp [hb] at this ⊢ <;> exact this
      refine ⟨hi.1.sublist (List.Sublist.map _ List.filter_sublist), ?_, ?_⟩
      · intro e he
        obtain ⟨h1, h2⟩ := (hf e).1 he
        exact ⟨(hi.2.1 e h1).1, by rw [Function.update_of_ne h2]; exact (hi.2.1 e h1).2⟩
      · intro o' v' h
        by_cases k : o' = o
        · subst k; rw [Function.update_self] at h; cases h
        · rw [Function.update_of_ne k] at h
          obtain ⟨e, he, k'⟩ := hi.2.2 o' v' h
          exact ⟨e, (hf e).2 ⟨he, k'.symm ▸ k⟩, k'⟩
    · rw [if_neg ha]
      have ht : Function.update t o none = t := by
        rw [Function.update_eq_self_iff]
        by_contra hn
        obtain ⟨v, hv⟩ := Option.ne_none_iff_exists'.1 (Ne.symm hn)
        exact ha ((any_iff hi hh).2 (hi.2.2 o v hv))
      rw [ht]
      exact hi
  | change o s =>
    refine ⟨hi.1, ?_, hi.2.2⟩
    intro e he
    refine ⟨?_, (hi.2.1 e he).2⟩
    rw [← (hi.2.1 e he).1]
    have : ∀ (w : World σ) o, hashOf hash text w o = (text (w o)).map hash := by intro w o; unfold hashOf; cases text (w o) <;> rfl
    rw [this, this]
    simp only [step]
    by_cases k : e.key = o
    · rw [k, Function.update_self]; exact hc o s rfl
    · rw [Function.update_of_ne k]

theorem steady_now {hash : Str → ℤ} {text : σ → Res Str} {w : World σ} {ops : List (Op σ α)} (h : Steady hash text w ops) : ∀ o, ∃ s, text (w o) = .ok s := by
  cases ops with
  | nil => exact h
  | cons op ops => cases op <;> exact h.1

theorem run_inv {hash : Str → ℤ} {text : σ → Res Str} : ∀ (ops : List (Op σ α)) {w : World σ} {d : List (Entry α)} {t : ℕ → Option α}, Steady hash text w ops → Inv hash text w d t →
    (∀ o, ∃ s, text ((run hash text (w, d) ops).1 o) = .ok s) ∧ Inv hash text (run hash text (w, d) ops).1 (run hash text (w, d) ops).2 (ops.foldl table t)
  | [], w, d, t, h, hi => ⟨h, hi⟩
  | op :: ops, w, d, t, h, hi => by
    have hp := steady_now h
    have hw : (∀ o s, op = .change o s → (text s).map hash = (text (w o)).map hash) ∧ Steady hash text (step hash text (w, d) op).1 ops := by
      cases op with
      | set o v => refine ⟨fun _ _ e => (by cases e), ?_⟩; simp only [step]; split <;> exact h.2
      | del o => refine ⟨fun _ _ e => (by cases e), ?_⟩; simp only [step]; split <;> exact h.2
      | change o s => exact ⟨fun _ _ e => by cases e; exact h.2.1, h.2.2⟩
    exact run_inv ops hw.2 (inv_step hp hi op hw.1)

/-- **C123.** In every history in which no change of an object changes its printout (or at least the hash of it), a dictionary with objects as keys is a table from objects to values: `d[o]`
is what was last assigned to `d[o]`, and every key occurs once.  Different objects are different keys, even if they print alike. -/
theorem C123_found (hash : Str → ℤ) (text : σ → Res Str) (w : World σ) (ops : List (Op σ α)) (h : Steady hash text w ops) :
    Shows hash text (run hash text (w, []) ops).1 (run hash text (w, []) ops).2 (after ops) := by
  obtain ⟨h1, h2⟩ := run_inv ops (d := []) (t := fun _ => none) h ⟨by simp, by simp, fun _ _ h => by cases h⟩
  exact inv_shows h1 h2

/-- **C123 (violated).** A key whose printout changes is lost, unless the hashes happen to be equal: `d[o]` raises `KeyError`, `del d[o]` too, and `d[o] = v` makes a second entry for the
same object. -/
theorem C123_lost (hash : Str → ℤ) (text : σ → Res Str) (w : World σ) (o : ℕ) (s : σ) (u v : α) (a b : Str) (ha : text (w o) = .ok a) (hb : text s = .ok b) (hne : hash a ≠ hash b) :
    get hash text (run hash text (w, []) [.set o u, .change o s]).1 (run hash text (w, []) [.set o u, .change o s]).2 o = .error .keyError ∧
    del hash text (run hash text (w, []) [.set o u, .change o s]).1 (run hash text (w, []) [.set o u, .change o s]).2 o = .error .keyError ∧
    (run hash text (w, []) [.set o u, .change o s, .set o v]).2.map (·.key) = [o, o] := by
  have e : run hash text (w, ([] : List (Entry α))) [.set o u, .change o s] = (Function.update w o s, [⟨hash a, o, u⟩]) := by
    simp [run, step, set, hashOf, ha]
  have hh : hashOf hash text (Function.update w o s) o = .ok (hash b) := by unfold hashOf; rw [Function.update_self, hb]
  have hn : hit (hash b) o (⟨hash a, o, u⟩ : Entry α) = false := by simp [hit, hne]
  refine ⟨?_, ?_, ?_⟩
  · rw [e]; simp [get, hh, hn]
  · rw [e]; simp [del, hh, hn]
  · have : run hash text (w, ([] : List (Entry α))) [.set o u, .change o s, .set o v] = step hash text (run hash text (w, []) [.set o u, .change o s]) (.set o v) := rfl
    rw [this, e]
    simp [step, set, hh, hn]

open Auxi.Printout Auxi.Printout.Spec in
/-- **C123 (violated, for chem packages).** Whatever is added to or taken from a package that is a key, the package is lost (unless the hashes of two different texts are equal). -/
theorem C123_chem_violated (hash : Str → ℤ) (num : Chem.Num → Str) (name : Str) (p q : Chem.Package) (o : ℕ) (u : α) (hm : q.mat = p.mat) (hd : p.mat.compounds.Nodup)
    (hl : p.masses.length = p.mat.compounds.length) (hl' : q.masses.length = q.mat.compounds.length) (hname : Plain name) (hc : ∀ c ∈ p.mat.compounds, Plain c)
    (hn : ∀ x, Plain (num x)) (hi : Function.Injective num) (hne : q ≠ p)
    (hh : ∀ a b, chemPackage num name p = .ok a → chemPackage num name q = .ok b → a ≠ b → hash a ≠ hash b) :
    get hash (chemPackage num name) (run hash (chemPackage num name) (fun _ => p, []) [.set o u, .change o q]).1 (run hash (chemPackage num name) (fun _ => p, []) [.set o u, .change o q]).2 o =
      .error .keyError := by
  obtain ⟨a, ha, _⟩ := Printout.Props.C122_chem_package num name p hd hl hname hc hn
  obtain ⟨b, hb, _⟩ := Printout.Props.C122_chem_package num name q (hm ▸ hd) hl' hname (hm ▸ hc) hn
  refine (C123_lost hash _ _ o q u u a b ha hb ?_).1
  refine hh a b ha hb fun e => ?_
  subst e
  exact hne (Printout.Props.C122_chem_determines num name p q hm hd hl hl' hname hc hn hi (ha.trans hb.symm)).symm

open Auxi.Printout Auxi.Thermo.Props in
/-- **C123 (violated, for coal streams).** A coal stream made without a heating value cannot be a key at all. -/
theorem C123_unhashable_violated (hash : Str → ℤ) (sci : Thermo.V → Str) (name : Str) (d : List (Entry α)) : ∃ s : Thermo.Stream,
    Thermo.newStream db2 mCoal [some 1] (some 1) (some 25) true none = .ok s ∧ ∀ o v, set hash (fun s => thermoStream sci name s []) (fun _ => s) d o v = .error .typeError := by
  obtain ⟨s, h1, h2⟩ := Printout.Props.C122_hhv_violated sci name []
  refine ⟨s, h1, fun o v => ?_⟩
  simp only [set, hashOf, h2]

/-! ## Examples -/

/-- A text. -/
def txtEx : Str := "xy".toList
/-- A hash that tells texts of different lengths apart. -/
def hashEx (s : Str) : ℤ := s.length

/-- Two objects with the same text; the second changes to another text of the same hash. -/
example : Shows hashEx (fun s : Str => .ok s) (run hashEx (fun s : Str => .ok s) (fun _ => txtEx, []) [.set 0 'a', .set 1 'b', .change 1 "yx".toList, .set 1 'c', .del 0]).1
    (run hashEx (fun s : Str => .ok s) (fun _ => txtEx, []) [.set 0 'a', .set 1 'b', .change 1 "yx".toList, .set 1 'c', .del 0]).2
    (after [(.set 0 'a' : Op Str Char), .set 1 'b', .change 1 "yx".toList, .set 1 'c', .del 0]) ∧
    after [(.set 0 'a' : Op Str Char), .set 1 'b', .change 1 "yx".toList, .set 1 'c', .del 0] 1 = some 'c' := by
  refine ⟨C123_found _ _ _ _ ?_, by decide⟩
  simp only [Steady]
  exact ⟨fun o => ⟨_, rfl⟩, fun o => ⟨_, rfl⟩, fun o => ⟨_, rfl⟩, by decide, fun o => ⟨_, rfl⟩, fun o => ⟨_, rfl⟩, fun o => ⟨_, rfl⟩⟩

open Auxi.Printout Auxi.Printout.Spec Auxi.Printout.Props Auxi.Printout.Proofs in
/-- Pig iron of 95 and 5 kg, then of 95 and 6 kg. -/
example : get hashEx (chemPackage numEx []) (run hashEx (chemPackage numEx []) (fun _ => ⟨ironEx, [Chem.fl 95, Chem.fl 5]⟩, []) [.set 3 'a', .change 3 ⟨ironEx, [Chem.fl 95, Chem.fl 6]⟩]).1
    (run hashEx (chemPackage numEx []) (fun _ => ⟨ironEx, [Chem.fl 95, Chem.fl 5]⟩, []) [.set 3 'a', .change 3 ⟨ironEx, [Chem.fl 95, Chem.fl 6]⟩]).2 3 = .error .keyError := by
  refine C123_chem_violated hashEx numEx [] ⟨ironEx, [Chem.fl 95, Chem.fl 5]⟩ ⟨ironEx, [Chem.fl 95, Chem.fl 6]⟩ 3 'a' rfl (by decide) rfl rfl (by simp [Plain])
    (by intro c hc; simp only [ironEx, List.mem_cons, List.not_mem_nil, or_false] at hc; rcases hc with rfl | rfl <;> exact plain_txt _ (by decide)) numEx_plain numEx_inj (by decide +kernel) ?_
  intro a b ha hb _
  have e : (chemPackage numEx [] ⟨ironEx, [Chem.fl 95, Chem.fl 5]⟩).map hashEx ≠ (chemPackage numEx [] ⟨ironEx, [Chem.fl 95, Chem.fl 6]⟩).map hashEx := by decide +kernel
  rw [ha, hb] at e
  exact fun h => e (congrArg Except.ok h)

end Auxi.Keys.Props
