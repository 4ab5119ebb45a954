import Verif.Spec.Printout
import Verif.Proofs.Chem
import Verif.Proofs.Psd
import Verif.Proofs.FileFormat

/-! # Lemmas about printouts -/
namespace Auxi.Printout.Proofs
open Auxi Auxi.Printout Auxi.Printout.Spec
open Auxi.FileFormat (strLe)
open Auxi.FileFormat.Spec (Item Items Line Layout Blank)

/-! ## Lines -/

theorem lines_ne (s : Str) : lines s ≠ [] := by
  cases s with
  | nil => simp [lines]
  | cons c s =>
    simp only [lines]
    split
    · simp
    · split <;> simp

theorem lines_line {s : Str} (h : Plain s) (t : Str) : lines (s ++ nl ++ t) = s :: lines t := by
  induction s with
  | nil => simp [lines, nl]
  | cons c s ih =>
    have hc : c ≠ '\n' := fun e => h (by simp [e])
    have := ih (fun e => h (List.mem_cons_of_mem _ e))
    simp only [List.cons_append, lines, if_neg hc]
    rw [this]

theorem lines_lines {ls : List Str} (h : ∀ s ∈ ls, Plain s) (t : Str) : lines ((ls.map (· ++ nl)).flatten ++ t) = ls ++ lines t := by
  induction ls with
  | nil => rfl
  | cons s ls ih =>
    simp only [List.map_cons, List.flatten_cons, List.append_assoc]
    rw [← List.append_assoc, lines_line (h s (by simp)), ih (fun s hs => h s (by simp [hs]))]
    rfl

/-- A text given by its lines. -/
theorem lines_of {ls : List Str} (h : ∀ s ∈ ls, Plain s) {t : Str} (e : t = (ls.map (· ++ nl)).flatten) : lines t = ls ++ [[]] := by
  have := lines_lines h []
  rw [List.append_nil] at this
  rw [e, this]; rfl

theorem body_line {s : Str} (h : Plain s) (t : Str) : body (s ++ nl ++ t) = t := by
  induction s with
  | nil => simp [body, nl]
  | cons c s ih =>
    have hc : c ≠ '\n' := fun e => h (by simp [e])
    have := ih (fun e => h (List.mem_cons_of_mem _ e))
    simp only [body, List.cons_append] at this ⊢
    rw [List.dropWhile_cons_of_pos (by simpa using hc)]
    exact this

theorem plain_append {s t : Str} : Plain (s ++ t) ↔ Plain s ∧ Plain t := by simp [Plain, not_or]
theorem plain_blanks (n : ℕ) : Plain (List.replicate n ' ') := by
  intro h; have := List.eq_of_mem_replicate h; exact absurd this (by decide)
theorem plain_rep {c : Char} (hc : c ≠ '\n') (n : ℕ) : Plain (List.replicate n c) := by
  intro h; exact hc (List.eq_of_mem_replicate h).symm
theorem plain_ljust {n : ℕ} {s : Str} (h : Plain s) : Plain (ljust n s) := plain_append.2 ⟨h, plain_blanks _⟩
theorem plain_rjust {n : ℕ} {s : Str} (h : Plain s) : Plain (rjust n s) := plain_append.2 ⟨plain_blanks _, h⟩
theorem plain_flatten {l : List Str} (h : ∀ s ∈ l, Plain s) : Plain l.flatten := by
  intro hm
  obtain ⟨s, hs, hc⟩ := List.mem_flatten.1 hm
  exact h s hs hc
theorem plain_row {l : List Str} (h : ∀ s ∈ l, Plain s) : Plain (row l) := plain_flatten (by
  intro s hs
  obtain ⟨t, ht, rfl⟩ := List.mem_map.1 hs
  exact plain_ljust (h t ht))

/-! ## Loops -/

theorem cat_ok {α : Type} {f : α → Res Str} {g : α → Str} {l : List α} (h : ∀ x ∈ l, f x = .ok (g x)) : cat f l = .ok (l.map g).flatten := by
  induction l with
  | nil => rfl
  | cons x l ih =>
    simp only [cat, h x (by simp), ih (fun y hy => h y (by simp [hy])), List.map_cons, List.flatten_cons]

theorem cat_zip {α β : Type} {f : α → Res Str} {g : α → β → Str} : ∀ {l : List α} {r : List β}, r.length = l.length →
    (∀ (i : ℕ) (a : α) (b : β), l[i]? = some a → r[i]? = some b → f a = .ok (g a b)) → cat f l = .ok (List.zipWith g l r).flatten
  | [], [], _, _ => rfl
  | a :: l, b :: r, h, hf => by
    have h1 := hf 0 a b rfl rfl
    have h2 := cat_zip (l := l) (r := r) (by simpa using h) (fun i a b ha hb => hf (i + 1) a b (by simpa using ha) (by simpa using hb))
    simp only [cat, h1, h2, List.zipWith_cons_cons, List.flatten_cons]

theorem cat_error {α : Type} {f : α → Res Str} {e : PyErr} {l : List α} {x : α} (hx : x ∈ l) (hf : f x = .error e) (hall : ∀ y ∈ l, ∀ d, f y = .error d → d = e) :
    cat f l = .error e := by
  induction l with
  | nil => cases hx
  | cons y l ih =>
    simp only [cat]
    cases hy : f y with
    | error d => rw [hall y (by simp) d hy]
    | ok s =>
      have hl : x ∈ l := by
        rcases List.mem_cons.1 hx with rfl | h
        · rw [hf] at hy; cases hy
        · exact h
      rw [ih hl (fun z hz => hall z (by simp [hz]))]

theorem map_flatten_snoc {α : Type} (g : α → Str) (l : List α) : (l.map (fun x => g x ++ nl)).flatten = ((l.map g).map (· ++ nl)).flatten := by rw [List.map_map]; rfl

/-! ## Indices -/

/-- The index of the key at a position is the position. -/
def Indexed {κ : Type} (keys : List κ) (index : κ → Res ℕ) : Prop := ∀ (i : ℕ) (k : κ), keys[i]? = some k → index k = .ok i

theorem indexed_chem {m : Chem.Material} (h : m.compounds.Nodup) : Indexed m.compounds m.index := by
  intro i k hk
  simp only [Chem.Material.index, Chem.indexOf_nodup h hk]

theorem indexed_psd {m : Psd.Material} (h : m.classes.Nodup) : Indexed m.classes m.index := by
  intro i k hk
  simp only [Psd.Material.index, Psd.indexOf_nodup h hk]

theorem indexed_thermo {m : Thermo.Material} (h : m.compounds.Nodup) : Indexed m.compounds m.index := by
  intro i k hk
  simp only [Thermo.Material.index, Chem.indexOf_nodup h hk]

/-! ## Packages -/

theorem zipWith_map {α β : Type} (g : α → β → Str) (l : List α) (r : List β) :
    List.zipWith (fun a b => g a b ++ nl) l r = (List.zipWith g l r).map (· ++ nl) := by rw [List.map_zipWith]

theorem massLines_ok {κ α : Type} {w : ℕ} {key : κ → Str} {num : α → Str} {index : κ → Res ℕ} {masses : List α} {keys : List κ} (hi : Indexed keys index)
    (hl : masses.length = keys.length) :
    massLines w key num index masses keys = .ok ((List.zipWith (fun k x => ljust w (key k) ++ num x) keys masses).map (· ++ nl)).flatten := by
  unfold massLines
  rw [cat_zip (g := fun k x => ljust w (key k) ++ num x ++ nl) hl, zipWith_map (fun k x => ljust w (key k) ++ num x)]
  intro i a b ha hb
  simp only [hi i a ha, item, hb]

theorem plain_zip {κ α : Type} {w : ℕ} {key : κ → Str} {num : α → Str} {masses : List α} {keys : List κ} (hk : ∀ k ∈ keys, Plain (key k)) (hn : ∀ x, Plain (num x)) :
    ∀ s ∈ List.zipWith (fun k x => ljust w (key k) ++ num x) keys masses, Plain s := by
  intro s hs
  obtain ⟨k, x, ha, hb, rfl⟩ : ∃ k x, k ∈ keys ∧ x ∈ masses ∧ s = ljust w (key k) ++ num x := by
    rw [List.mem_iff_getElem] at hs
    obtain ⟨i, hi, rfl⟩ := hs
    rw [List.getElem_zipWith]
    exact ⟨_, _, List.getElem_mem _, List.getElem_mem _, rfl⟩
  exact plain_append.2 ⟨plain_ljust (hk k ha), hn x⟩

theorem zip_inj {κ α : Type} {w : ℕ} {key : κ → Str} {num : α → Str} (hn : Function.Injective num) : ∀ {keys : List κ} {a b : List α}, a.length = keys.length → b.length = keys.length →
    List.zipWith (fun k x => ljust w (key k) ++ num x) keys a = List.zipWith (fun k x => ljust w (key k) ++ num x) keys b → a = b
  | [], [], [], _, _, _ => rfl
  | k :: keys, x :: a, y :: b, ha, hb, h => by
    simp only [List.zipWith_cons_cons, List.cons.injEq, List.append_cancel_left_eq] at h
    rw [hn h.1, zip_inj hn (by simpa using ha) (by simpa using hb) h.2]

/-! ## Tables -/

theorem sorted_alphabetical (l : List Str) : Alphabetical (sorted l) l := by
  refine ⟨List.perm_insertionSort _ _, ?_⟩
  have : Std.Total (fun a b : Str => strLe a b = true) := ⟨fun a b => by
    induction a generalizing b with
    | nil => exact Or.inl rfl
    | cons x a ih => cases b with
      | nil => exact Or.inr rfl
      | cons y b =>
        simp only [strLe]
        by_cases h : x.toNat = y.toNat
        · rw [if_pos h, if_pos h.symm]; exact ih b
        · rw [if_neg h, if_neg (fun e => h e.symm)]
          simp only [decide_eq_true_eq]; omega⟩
  have : IsTrans Str (fun a b => strLe a b = true) := ⟨fun a => by
    induction a with
    | nil => intro b c _ _; rfl
    | cons x a ih => intro b c; cases b with
      | nil => intro h; cases h
      | cons y b => cases c with
        | nil => intro _ h; cases h
        | cons z c =>
          simp only [strLe]
          intro h1 h2
          by_cases e1 : x.toNat = y.toNat
          · rw [if_pos e1] at h1
            by_cases e2 : y.toNat = z.toNat
            · rw [if_pos e2] at h2; rw [if_pos (e1.trans e2)]; exact ih b c h1 h2
            · rw [if_neg e2] at h2; rw [if_neg (by omega)]; simp only [decide_eq_true_eq] at *; omega
          · rw [if_neg e1] at h1
            simp only [decide_eq_true_eq] at h1
            by_cases e2 : y.toNat = z.toNat
            · rw [if_neg (by omega)]; simp only [decide_eq_true_eq]; omega
            · rw [if_neg e2] at h2; simp only [decide_eq_true_eq] at h2
              rw [if_neg (by omega)]; simp only [decide_eq_true_eq]; omega⟩
  exact List.pairwise_insertionSort _ _

theorem mem_sorted {l : List Str} {n : Str} : n ∈ sorted l ↔ n ∈ l := (sorted_alphabetical l).1.mem_iff

theorem lookup_mem {α : Type} {d : List (Str × α)} {n : Str} (h : n ∈ d.map (·.1)) : ∃ x, d.lookup n = some x ∧ (n, x) ∈ d := by
  induction d with
  | nil => cases h
  | cons e d ih =>
    obtain ⟨e1, e2⟩ := e
    by_cases he : n = e1
    · refine ⟨e2, by simp [List.lookup_cons, he], by simp [he]⟩
    · have : n ∈ d.map (·.1) := by
        rcases List.mem_cons.1 h with h | h
        · exact absurd h he
        · exact h
      obtain ⟨x, h1, h2⟩ := ih this
      refine ⟨x, by rw [List.lookup_cons, beq_eq_false_iff_ne.2 he]; exact h1, by simp [h2]⟩

theorem dict_mem {α : Type} {d : List (Str × α)} {n : Str} (h : n ∈ d.map (·.1)) : ∃ x, dict d n = .ok x ∧ (n, x) ∈ d := by
  obtain ⟨x, h1, h2⟩ := lookup_mem h
  exact ⟨x, by simp only [dict, h1], h2⟩

theorem filled_dict {κ α : Type} {keys : List κ} {val : Str → κ → α} {assays : List (Str × List α)} (h : Filled keys val assays) {n : Str} (hn : n ∈ assays.map (·.1)) :
    dict assays n = .ok (keys.map (val n)) := by
  obtain ⟨x, h1, h2⟩ := dict_mem hn
  rw [h1]; exact congrArg _ (h.2 _ h2)

theorem tableLines_ok {κ α : Type} {key : κ → Str} {num : α → Str} {index : κ → Res ℕ} {keys : List κ} {val : Str → κ → α} {assays : List (Str × List α)} {names : List Str}
    (hi : Indexed keys index) (hf : Filled keys val assays) (hn : ∀ n ∈ names, n ∈ assays.map (·.1)) :
    tableLines key num index assays names keys = .ok ((keys.map (fun k => row (key k :: names.map (fun n => num (val n k))))).map (· ++ nl)).flatten := by
  unfold tableLines
  rw [cat_ok (g := fun k => row (key k :: names.map (fun n => num (val n k))) ++ nl), map_flatten_snoc]
  intro k hk
  obtain ⟨i, hlt, hik⟩ := List.mem_iff_getElem.1 hk
  have hik' : keys[i]? = some k := by rw [List.getElem?_eq_getElem hlt, hik]
  simp only [hi i k hik']
  rw [cat_ok (g := fun n => ljust 20 (num (val n k)))]
  · simp only [row, List.map_cons, List.map_map, List.flatten_cons]; rfl
  · intro n hn'
    simp only [filled_dict hf (hn n hn'), item, List.getElem?_map, hik']
    rfl

theorem headLine_row (names : List Str) : headLine names = row (txt "Compound" :: names) ++ nl := by
  simp only [headLine, row, List.map_cons, List.flatten_cons]

theorem dictLine_ok {α : Type} {num : α → Str} {label : Str} {d : List (Str × α)} {names : List Str} {val : Str → α} (h : ∀ n ∈ names, d.lookup n = some (val n)) :
    dictLine num label d names = .ok (row (label :: names.map (fun n => num (val n))) ++ nl) := by
  unfold dictLine
  rw [cat_ok (g := fun n => ljust 20 (num (val n)))]
  · simp only [row, List.map_cons, List.map_map, List.flatten_cons]; rfl
  · intro n hn
    simp only [dict, h n hn]

/-! ## Reading a table back -/

theorem blank_replicate (n : ℕ) : Blank (List.replicate n ' ') := fun _ h => Or.inl (List.eq_of_mem_replicate h)

theorem row_items : ∀ {cells : List Str}, cells ≠ [] → (∀ s ∈ cells, Narrow s) → ∃ s b, Items cells s ∧ Blank b ∧ row cells = s ++ b
  | [f], _, h => ⟨f, _, .one (h f (by simp)).1, blank_replicate (20 - f.length), by simp [row, ljust]⟩
  | f :: g :: cells, _, h => by
    obtain ⟨s, b, h1, h2, h3⟩ := row_items (cells := g :: cells) (by simp) (fun s hs => h s (by simp [hs]))
    refine ⟨f ++ List.replicate (20 - f.length) ' ' ++ s, b, ?_, h2, ?_⟩
    · refine .cons (h f (by simp)).1 ?_ (blank_replicate _) h1
      have := (h f (by simp)).2
      intro e
      have := congrArg List.length e
      simp at this; omega
    · have : row (f :: g :: cells) = ljust 20 f ++ row (g :: cells) := by simp [row]
      rw [this, h3]
      simp [ljust]

theorem row_line {cells : List Str} (h0 : cells ≠ []) (h : ∀ s ∈ cells, Narrow s) : Line cells (row cells) := by
  obtain ⟨s, b, h1, h2, h3⟩ := row_items h0 h
  rw [h3]
  exact Line.items (a := []) (fun _ h => by cases h) h1 h2

theorem rows_layout {rows : List (List Str)} (h0 : ∀ r ∈ rows, r ≠ []) (h : ∀ r ∈ rows, ∀ s ∈ r, Narrow s) : Layout rows ((rows.map row).map (· ++ nl)).flatten := by
  induction rows with
  | nil => exact .nil
  | cons r rows ih =>
    simp only [List.map_cons, List.flatten_cons]
    exact .cons (row_line (h0 r (by simp)) (h r (by simp))) (Or.inl rfl) (ih (fun r hr => h0 r (by simp [hr])) (fun r hr => h r (by simp [hr])))

/-! ## The printouts of `thermo` -/

theorem padded_columns (l : List Str) : padded [] l = columns l := by
  have h : ∀ (x : Str) (l : List Str), padded (txt "  ") l ++ [] = (l.map (fun y => txt "  " ++ y)).flatten := by
    intro x l
    induction l with
    | nil => rfl
    | cons y l ih => simp only [padded, List.map_cons, List.flatten_cons, List.append_assoc, List.append_nil] at *; rw [ih]
  cases l with
  | nil => rfl
  | cons x l =>
    have h := h x l
    rw [List.append_nil] at h
    simp only [padded, List.nil_append, h, columns]
    induction l generalizing x with
    | nil => simp [List.intercalate]
    | cons y l ih =>
      have := ih y (by
        clear ih h
        induction l with
        | nil => rfl
        | cons y l ih => simp only [padded, List.map_cons, List.flatten_cons, List.append_assoc] at *; rw [ih])
      simp only [List.map_cons, List.flatten_cons, List.append_assoc] at this ⊢
      rw [this]
      simp [List.intercalate, List.intersperse]

theorem plain_columns {l : List Str} (h : ∀ s ∈ l, Plain s) : Plain (columns l) := by
  rw [← padded_columns]
  have : ∀ (pad : Str), Plain pad → Plain (padded pad l) := by
    induction l with
    | nil => intro _ _; exact List.not_mem_nil
    | cons x l ih =>
      intro pad hp
      exact plain_append.2 ⟨plain_append.2 ⟨hp, h x (by simp)⟩, ih (fun s hs => h s (by simp [hs])) _ (by unfold Plain txt; decide)⟩
  exact this [] List.not_mem_nil

theorem mapRes_ok {α β : Type} {f : α → Res β} {g : α → β} {l : List α} (h : ∀ x ∈ l, f x = .ok (g x)) : Chem.mapRes f l = .ok (l.map g) := by
  induction l with
  | nil => rfl
  | cons x l ih => simp only [Chem.mapRes, h x (by simp), ih (fun y hy => h y (by simp [hy])), List.map_cons]

theorem mapRes_error {α β : Type} {f : α → Res β} {e : PyErr} {l : List α} {x : α} (hx : x ∈ l) (hf : f x = .error e) (hall : ∀ y ∈ l, ∀ d, f y = .error d → d = e) :
    Chem.mapRes f l = .error e := by
  induction l with
  | nil => cases hx
  | cons y l ih =>
    simp only [Chem.mapRes]
    cases hy : f y with
    | error d => rw [hall y (by simp) d hy]
    | ok s =>
      have hl : x ∈ l := by
        rcases List.mem_cons.1 hx with rfl | h
        · rw [hf] at hy; cases hy
        · exact h
      rw [ih hl (fun z hz => hall z (by simp [hz]))]

theorem padLine_ok {label : Str} {f : Str → Res Str} {g : Str → Str} {names : List Str} (h : ∀ n ∈ names, f n = .ok (g n)) :
    padLine label f names = .ok (ljust 20 label ++ columns (names.map g) ++ nl) := by
  simp only [padLine, mapRes_ok h, padded_columns]

end Auxi.Printout.Proofs
