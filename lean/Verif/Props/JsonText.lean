import Verif.Props.Persist

/-!
# Property C114, continued: the layout of the written text, and escapes in the text that is read
-/
namespace Auxi.Persist.Props
open Auxi Persist Persist.Spec Json Json.Proofs Persist.Proofs

/-! ## Layout -/

/-- The text with four more blanks at the start of each line but the first. -/
def nest (s : Str) : Str := s.flatMap (fun c => if c = '\n' then "\n    ".toList else [c])

/-- Parts between brackets: each on a line of its own, indented by four, commas between them. -/
def frame (a b : Char) : List Str → Str
  | [] => [a, b]
  | x :: xs => a :: '\n' :: List.intercalate ",\n".toList ((x :: xs).map (fun t => "    ".toList ++ nest t)) ++ ['\n', b]

theorem nest_append (s t : Str) : nest (s ++ t) = nest s ++ nest t := List.flatMap_append

theorem nest_none {s : Str} (h : ∀ c ∈ s, c ≠ '\n') : nest s = s := by
  induction s with
  | nil => rfl
  | cons c s ih =>
    rw [nest, List.flatMap_cons, if_neg (h c (by simp))]
    exact congrArg (c :: ·) (ih (fun d hd => h d (List.mem_cons_of_mem _ hd)))

theorem nest_cons {c : Char} (h : c ≠ '\n') (s : Str) : nest (c :: s) = c :: nest s := by
  rw [nest, List.flatMap_cons, if_neg h]; rfl

theorem nest_newline (ind : Nat) (s : Str) : nest (newline ind ++ s) = newline (ind + 1) ++ nest s := by
  have hb : ∀ n, nest (List.replicate n ' ') = List.replicate n ' ' := fun n => nest_none (fun c hc => by rw [(List.mem_replicate.1 hc).2]; decide)
  rw [nest_append, newline, nest, List.flatMap_cons, if_pos rfl]
  have := hb (4 * ind)
  rw [nest] at this
  rw [this, newline, show 4 * (ind + 1) = 4 + 4 * ind by omega, List.replicate_add]
  rfl

theorem escape_line (c : Char) : ∀ d ∈ escape c, d ≠ '\n' := by
  have hx : ∀ n, n < 16 → hexDigit n ≠ '\n' := by decide
  have h4 : ∀ n, ∀ d ∈ hex4 n, d ≠ '\n' := by
    intro n d hd
    simp only [hex4, List.mem_cons, List.not_mem_nil, or_false] at hd
    rcases hd with rfl | rfl | rfl | rfl | rfl | rfl
    · decide
    · decide
    all_goals exact hx _ (Nat.mod_lt _ (by decide))
  intro d hd
  unfold escape at hd
  split at hd
  · revert d; decide
  split at hd
  · revert d; decide
  split at hd
  · revert d; decide
  split at hd
  · revert d; decide
  split at hd
  · revert d; decide
  split at hd
  · revert d; decide
  split at hd
  · revert d; decide
  split at hd
  · rename_i h3 _ _ _ _ h
    rw [List.mem_singleton.1 hd]
    assumption
  split at hd
  · exact h4 _ d hd
  · rcases List.mem_append.1 hd with hd | hd
    · exact h4 _ d hd
    · exact h4 _ d hd

theorem quote_line (s : Str) : ∀ c ∈ quote s, c ≠ '\n' := by
  intro c hc
  simp only [quote, List.cons_append, List.mem_cons, List.mem_append, List.mem_flatMap, List.not_mem_nil, or_false] at hc
  rcases hc with rfl | ⟨a, _, h⟩ | rfl
  · decide
  · exact escape_line a c h
  · decide

theorem repr_line {F : Type} (N : Floats F) (x : F) : ∀ c ∈ N.repr x, c ≠ '\n' := by
  rintro c hc rfl
  exact absurd (N.chars x _ hc) (by decide)

mutual
theorem dump_nest {F : Type} (N : Floats F) (ind : Nat) : ∀ j : J F, dump N (ind + 1) j = nest (dump N ind j)
  | .null => by rw [dump, dump]; rfl
  | .bool b => by cases b <;> (rw [dump, dump]; rfl)
  | .num x => by rw [dump, dump, nest_none (repr_line N x)]
  | .str s => by rw [dump, dump, nest_none (quote_line s)]
  | .arr [] => by rw [dump, dump]; rfl
  | .arr (j :: l) => by
    rw [dump, dump, nest_cons (by decide), nest_newline, nest_append, dump_nest N (ind + 1) j, dumpItems_nest N (ind + 1) l, nest_newline]
    rfl
  | .obj [] => by rw [dump, dump]; rfl
  | .obj ((k, j) :: l) => by
    rw [dump, dump, nest_cons (by decide), nest_newline, nest_append, nest_none (quote_line k), nest_cons (by decide), nest_cons (by decide), nest_append, dump_nest N (ind + 1) j,
      dumpPairs_nest N (ind + 1) l, nest_newline]
    rfl
theorem dumpItems_nest {F : Type} (N : Floats F) (ind : Nat) : ∀ (l : List (J F)) (z : Str), nest (dumpItems N ind l z) = dumpItems N (ind + 1) l (nest z)
  | [], z => by rw [dumpItems, dumpItems]
  | j :: l, z => by
    rw [dumpItems, dumpItems, nest_cons (by decide), nest_newline, nest_append, dump_nest N ind j, dumpItems_nest N ind l]
theorem dumpPairs_nest {F : Type} (N : Floats F) (ind : Nat) : ∀ (l : List (Str × J F)) (z : Str), nest (dumpPairs N ind l z) = dumpPairs N (ind + 1) l (nest z)
  | [], z => by rw [dumpPairs, dumpPairs]
  | (k, j) :: l, z => by
    rw [dumpPairs, dumpPairs, nest_cons (by decide), nest_newline, nest_append, nest_none (quote_line k), nest_cons (by decide), nest_cons (by decide), nest_append, dump_nest N ind j,
      dumpPairs_nest N ind l]
end

theorem dumpItems_frame {F : Type} (N : Floats F) (z : Str) : ∀ (l : List (J F)) (t : Str),
    "    ".toList ++ t ++ dumpItems N 1 l z = List.intercalate ",\n".toList (("    ".toList ++ t) :: l.map (fun j => "    ".toList ++ nest (dump N 0 j))) ++ z
  | [], t => by rw [dumpItems]; simp [List.intercalate]
  | j :: l, t => by
    have := dumpItems_frame N z l (nest (dump N 0 j))
    rw [dumpItems, dump_nest N 0 j, List.map_cons, List.intercalate_cons_cons, List.append_assoc, List.append_assoc, List.append_assoc, ← this]
    rfl

theorem dumpPairs_frame {F : Type} (N : Floats F) (z : Str) : ∀ (l : List (Str × J F)) (t : Str),
    "    ".toList ++ t ++ dumpPairs N 1 l z = List.intercalate ",\n".toList (("    ".toList ++ t) :: l.map (fun e => "    ".toList ++ nest (quote e.1 ++ ": ".toList ++ dump N 0 e.2))) ++ z
  | [], t => by rw [dumpPairs]; simp [List.intercalate]
  | (k, j) :: l, t => by
    have := dumpPairs_frame N z l (nest (quote k ++ ": ".toList ++ dump N 0 j))
    rw [dumpPairs, dump_nest N 0 j, List.map_cons, List.intercalate_cons_cons, List.append_assoc, List.append_assoc, List.append_assoc, ← this, nest_append, nest_append, nest_none (quote_line k)]
    simp [newline, nest, List.replicate]

theorem sortedItems_map {F : Type} : ∀ l : List (J F), sortedItems l = l.map sorted
  | [] => by rw [sortedItems]; rfl
  | j :: l => by rw [sortedItems, sortedItems_map l]; rfl

theorem sortedPairs_map {F : Type} : ∀ l : List (Str × J F), sortedPairs l = l.map (fun e => (e.1, sorted e.2))
  | [] => by rw [sortedPairs]; rfl
  | (k, j) :: l => by rw [sortedPairs, sortedPairs_map l]; rfl

theorem insertKey_map {α β : Type} (f : α → β) (e : Str × α) : ∀ l : List (Str × α), insertKey (e.1, f e.2) (l.map (fun e => (e.1, f e.2))) = (insertKey e l).map (fun e => (e.1, f e.2))
  | [] => rfl
  | d :: l => by
    rw [List.map_cons, insertKey, insertKey]
    split
    · rfl
    · rw [insertKey_map f e l]; rfl

theorem sortKeys_map {α β : Type} (f : α → β) : ∀ l : List (Str × α), sortKeys (l.map (fun e => (e.1, f e.2))) = (sortKeys l).map (fun e => (e.1, f e.2))
  | [] => rfl
  | e :: l => by rw [List.map_cons, sortKeys, sortKeys_map f l, insertKey_map f e]; rfl

/-- **C114.** The text of a dictionary: a line for the opening brace, each entry on lines of its own indented by four blanks, with the name, a colon and a blank before the text of its value, a comma
between entries, and a line for the closing brace. -/
theorem C114_layout_object {F : Type} (N : Floats F) (l : List (Str × J F)) :
    dumps N (.obj l) = frame '{' '}' ((sortKeys l).map (fun e => quote e.1 ++ ": ".toList ++ dumps N e.2)) := by
  rw [dumps, sorted, sortedPairs_map, sortKeys_map sorted]
  cases h : sortKeys l with
  | nil => rw [List.map_nil, dump]; rfl
  | cons e r =>
    obtain ⟨k, j⟩ := e
    rw [List.map_cons, List.map_cons, frame, dump]
    dsimp only
    have := dumpPairs_frame N (newline 0 ++ ['}']) (r.map (fun e => (e.1, sorted e.2))) (nest (quote k ++ ": ".toList ++ dump N 0 (sorted j)))
    rw [dump_nest N 0, List.map_map] at *
    simp only [dumps, List.map_map, List.map_cons]
    refine congrArg ('{' :: ·) ?_
    rw [show (0 + 1 : Nat) = 1 from rfl]
    refine Eq.trans ?_ (congrArg ('\n' :: ·) this)
    rw [nest_append, nest_append, nest_none (quote_line k)]
    simp [newline, nest, List.replicate]

/-- **C114.** The text of a list: each item on lines of its own, indented by four blanks. -/
theorem C114_layout_list {F : Type} (N : Floats F) (l : List (J F)) : dumps N (.arr l) = frame '[' ']' (l.map (dumps N)) := by
  rw [dumps, sorted, sortedItems_map]
  cases l with
  | nil => rw [List.map_nil, dump]; rfl
  | cons j r =>
    rw [List.map_cons, List.map_cons, frame, dump]
    have := dumpItems_frame N (newline 0 ++ [']']) (r.map sorted) (nest (dump N 0 (sorted j)))
    rw [dump_nest N 0, List.map_map] at *
    simp only [List.map_map, List.map_cons]
    refine congrArg ('[' :: ·) ?_
    refine Eq.trans ?_ (congrArg ('\n' :: ·) this)
    simp [newline, List.replicate]

example : dumps twoFloats (.obj [("b".toList, .arr [.num true, .null]), ("a".toList, .obj [])]) = "{\n    \"a\": {},\n    \"b\": [\n        -1.5e-07,\n        null\n    ]\n}".toList := by
  rw [C114_layout_object, show sortKeys [("b".toList, J.arr [.num true, .null]), ("a".toList, J.obj [])] = [("a".toList, (J.obj [] : J Bool)), ("b".toList, J.arr [.num true, .null])] from rfl]
  simp only [List.map_cons, List.map_nil, C114_layout_object, C114_layout_list, sortKeys]
  decide

/-! ## Escapes -/

/-- The value of a hexadecimal digit of either case. -/
def hexValue (c : Char) : Option Nat := ("0123456789abcdef".toList.zipIdx ++ "ABCDEF".toList.zipIdx 10).lookup c

theorem unhex_hexValue (c : Char) : unhex c = hexValue c := by
  by_cases h : c.toNat < 128
  · have : ∀ n, n < 128 → unhex (Char.ofNat n) = hexValue (Char.ofNat n) := by decide +kernel
    have := this _ h
    rwa [Char.ofNat_toNat] at this
  · have h1 : unhex c = none := by
      unfold unhex
      rw [if_neg (by omega), if_neg (by omega), if_neg (by omega)]
    have h2 : hexValue c = none := by
      unfold hexValue
      rw [List.lookup_eq_none_iff]
      intro p hp
      have : ∀ p ∈ "0123456789abcdef".toList.zipIdx ++ "ABCDEF".toList.zipIdx 10, p.1.toNat < 128 := by decide
      have := this p hp
      rw [bne_iff_ne]
      rintro rfl
      exact h this
    rw [h1, h2]

/-- A file with one string that is one escape of four characters. -/
def escaped (a b c d : Char) : Str := ['"', '\\', 'u', a, b, c, d, '"']

theorem loads_escaped {F : Type} (N : Floats F) (a b c d : Char) : loads N (escaped a b c d) = match scan ['\\', 'u', a, b, c, d, '"'] .plain [] with
    | none => .error .valueError
    | some (t, r) => if skip r = [] then .ok (.str t) else .error .valueError := by
  rw [loads, escaped, show skip ['"', '\\', 'u', a, b, c, d, '"'] = ['"', '\\', 'u', a, b, c, d, '"'] by simp [skip], show 2 * ['"', '\\', 'u', a, b, c, d, '"'].length + 2 = 17 + 1 from rfl, value, if_pos rfl]
  cases scan ['\\', 'u', a, b, c, d, '"'] .plain [] with
  | none => rfl
  | some x => rfl

/-- **C114.** An escape of four hexadecimal digits is read as the character with that number. -/
theorem C114_escape {F : Type} (N : Floats F) (a b c d : Char) (v w x y : Nat) (ha : hexValue a = some v) (hb : hexValue b = some w) (hc : hexValue c = some x) (hd : hexValue d = some y)
    (hs : ((v * 16 + w) * 16 + x) * 16 + y < 55296 ∨ 57344 ≤ ((v * 16 + w) * 16 + x) * 16 + y) :
    loads N (escaped a b c d) = .ok (.str [Char.ofNat (((v * 16 + w) * 16 + x) * 16 + y)]) := by
  rw [← unhex_hexValue] at ha hb hc hd
  have : scan ['\\', 'u', a, b, c, d, '"'] .plain [] = some ([Char.ofNat (((v * 16 + w) * 16 + x) * 16 + y)], []) := by
    simp only [scan, ha, hb, hc, hd, reduceCtorEq, if_true, if_false, Char.reduceEq, Nat.zero_mul, Nat.zero_add, Nat.reduceLT, Nat.reduceAdd]
    rw [if_neg (by omega), if_neg (by omega)]
    rfl
  rw [loads_escaped, this]
  rfl

/-- **C114.** An escape with a character that is not a hexadecimal digit is refused. -/
theorem C114_escape_refused {F : Type} (N : Floats F) (a b c d : Char) (h : hexValue a = none ∨ hexValue b = none ∨ hexValue c = none ∨ hexValue d = none) :
    loads N (escaped a b c d) = .error .valueError := by
  simp only [← unhex_hexValue] at h
  have : scan ['\\', 'u', a, b, c, d, '"'] .plain [] = none := by
    simp only [scan, reduceCtorEq, if_true, if_false, Char.reduceEq, Nat.zero_mul, Nat.zero_add, Nat.reduceLT, Nat.reduceAdd]
    cases ha : unhex a with
    | none => rfl
    | some v => cases hb : unhex b with
      | none => rfl
      | some w => cases hc : unhex c with
        | none => rfl
        | some x => cases hd : unhex d with
          | none => rfl
          | some y => simp [ha, hb, hc, hd] at h
  rw [loads_escaped, this]

example : loads twoFloats "\"\\u00E9\"".toList = .ok (.str ['é']) := C114_escape twoFloats '0' '0' 'E' '9' 0 0 14 9 (by decide) (by decide) (by decide) (by decide) (by decide)
example : loads twoFloats "\"\\u00:9\"".toList = .error .valueError := C114_escape_refused twoFloats '0' '0' ':' '9' (by decide)

end Auxi.Persist.Props
