import Verif.Csv
import Mathlib.Tactic.Basic
import Mathlib.Data.List.Basic
import Mathlib.Data.List.Nodup

/-! # C112, C113: CSV files -/
namespace Auxi.Csv.Props
open Auxi Auxi.Csv

/-- The line terminators that the code uses. -/
def Terminator (lt : Str) : Prop := lt = "\n".toList ∨ lt = "\r\n".toList

/-- A text that the writer keeps apart from a row end: always, unless the terminator is `\n` and an interpreter before 3.13 meets a carriage return. -/
def Safe (newer : Bool) (lt : Str) (s : Str) : Prop := newer = true ∨ lt = "\r\n".toList ∨ '\r' ∉ s

theorem rows_cons (c : Char) (s : Str) (st : RSt) (p : Bool) : rows (c :: s) st p = rows (c :: s) st false := by
  simp only [rows]

theorem end_comma {st : RSt} (h : st.mode ≠ .inQuoted ∧ st.mode ≠ .eatCrnl) (rest : Str) (p : Bool) :
    rows (',' :: rest) st p = rows rest ⟨.startField, [], st.fields ++ [st.field]⟩ true := by
  obtain ⟨m, f, fs⟩ := st
  cases m <;> simp_all [rows, feed, feedStart, RSt.save]

theorem end_line {lt : Str} (hl : Terminator lt) {st : RSt} (h : st.mode = .startField ∨ st.mode = .inField ∨ st.mode = .quoteInQuoted) (rest : Str) (p : Bool) :
    rows (lt ++ rest) st p = (match rows rest fresh false with
      | .error e => .error e
      | .ok l => .ok ((st.fields ++ [st.field]) :: l)) := by
  obtain ⟨m, f, fs⟩ := st
  rcases hl with rfl | rfl <;> rcases h with h | h | h <;> dsimp only at h <;> subst h <;>
    simp [rows, feed, feedStart, RSt.save, feedEol] <;> rfl

theorem in_field {s : Str} (h : ∀ c ∈ s, c ≠ ',' ∧ c ≠ '\n' ∧ c ≠ '\r') (f : Str) (fs : List Str) (rest : Str) :
    rows (s ++ rest) ⟨.inField, f, fs⟩ true = rows rest ⟨.inField, f ++ s, fs⟩ true := by
  induction s generalizing f with
  | nil => simp
  | cons c s ih =>
    obtain ⟨h1, h2, h3⟩ := h c List.mem_cons_self
    have := ih (fun c hc => h c (List.mem_cons_of_mem _ hc)) (f ++ [c])
    simp only [List.cons_append, rows, feed, h1, h2, h3, or_self, if_false, RSt.add, false_and]
    rw [this]; simp

theorem in_quoted (s : Str) (f : Str) (fs : List Str) (rest : Str) (p : Bool) :
    rows (s.flatMap (fun c => if c = '"' then ['"', '"'] else [c]) ++ '"' :: rest) ⟨.inQuoted, f, fs⟩ p = rows rest ⟨.quoteInQuoted, f ++ s, fs⟩ true := by
  induction s generalizing f p with
  | nil => simp [rows, feed]
  | cons c s ih =>
    by_cases hc : c = '"'
    · subst hc
      simp only [List.flatMap_cons, if_true, List.cons_append, List.nil_append, rows, feed, RSt.add, Char.reduceEq, false_and, or_self, if_false]
      rw [ih]; simp
    · simp only [List.flatMap_cons, if_neg hc, List.cons_append, List.nil_append, rows, feed, RSt.add, feedEol]
      split
      · simp only [reduceCtorEq, if_false]; rw [ih]; simp
      · rw [ih]; simp

theorem esc_cons (c : Char) (s : Str) : quoted (c :: s) = '"' :: ((c :: s).flatMap (fun c => if c = '"' then ['"', '"'] else [c]) ++ ['"']) := rfl

/-- Reading a written field. -/
theorem read_field {newer : Bool} {lt : Str} (hl : Terminator lt) {s : Str} (hs : Safe newer lt s) (only : Bool) {m : Mode} (hm : m = .startRecord ∨ m = .startField)
    (fs : List Str) : ∃ m', (m' = .inField ∨ m' = .quoteInQuoted ∨ (m' = m ∧ s = [] ∧ only = false)) ∧ ∀ (t : Str) (p : Bool), t ≠ [] →
      rows (field newer lt only s ++ t) ⟨m, [], fs⟩ p = rows t ⟨m', s, fs⟩ false := by
  have hcons : ∀ (t : Str) (st : RSt) (p : Bool), t ≠ [] → rows t st p = rows t st false := by
    intro t st p ht
    cases t with
    | nil => exact absurd rfl ht
    | cons c t => exact rows_cons c t st p
  unfold field
  by_cases hq : (s.any (special newer lt) || (only && s.isEmpty)) = true
  · refine ⟨.quoteInQuoted, Or.inr (Or.inl rfl), fun t p ht => ?_⟩
    rw [if_pos hq]
    have e : quoted s ++ t = '"' :: (s.flatMap (fun c => if c = '"' then ['"', '"'] else [c]) ++ '"' :: t) := by simp [quoted]
    rw [e]
    have := in_quoted s [] fs t true
    rcases hm with rfl | rfl <;> simp only [rows, feed, feedStart, Char.reduceEq, or_self, false_and, if_false, if_true] <;> rw [this, List.nil_append] <;>
      exact hcons _ _ _ ht
  · rw [if_neg hq]
    simp only [Bool.or_eq_true, not_or, Bool.and_eq_true, List.any_eq_true, not_exists, not_and] at hq
    obtain ⟨h1, h2⟩ := hq
    have hc : ∀ c ∈ s, c ≠ ',' ∧ c ≠ '\n' ∧ c ≠ '\r' ∧ c ≠ '"' := by
      intro c hc
      have := h1 c hc
      simp only [special, Bool.or_eq_true, not_or, beq_iff_eq, Bool.and_eq_true, List.contains_iff_mem] at this
      obtain ⟨⟨⟨k1, k2⟩, k3⟩, k4⟩ := this
      refine ⟨k1, ?_, ?_, k2⟩
      · rintro rfl; rcases hl with rfl | rfl <;> simp at k3
      · rintro rfl
        rcases hs with rfl | rfl | hs
        · simp at k4
        · simp at k3
        · exact hs hc
    cases s with
    | nil =>
      refine ⟨m, Or.inr (Or.inr ⟨rfl, rfl, ?_⟩), fun t p ht => hcons t _ p ht⟩
      cases only
      · rfl
      · exact absurd rfl (h2 rfl)
    | cons c s =>
      refine ⟨.inField, Or.inl rfl, fun t p ht => ?_⟩
      obtain ⟨k1, k2, k3, k4⟩ := hc c List.mem_cons_self
      have := in_field (fun c' hc' => ⟨(hc c' (List.mem_cons_of_mem _ hc')).1, (hc c' (List.mem_cons_of_mem _ hc')).2.1, (hc c' (List.mem_cons_of_mem _ hc')).2.2.1⟩)
        (s := s) [c] fs t
      rcases hm with rfl | rfl <;> simp only [List.cons_append, rows, feed, feedStart, k1, k2, k3, k4, or_self, false_and, if_false, RSt.add, List.nil_append] <;> rw [this] <;>
        exact hcons _ _ _ ht

theorem lt_ne {lt : Str} (hl : Terminator lt) : lt ≠ [] := by rcases hl with rfl | rfl <;> simp

/-- Reading fields up to the end of the line. -/
theorem read_fields {newer : Bool} {lt : Str} (hl : Terminator lt) {row : List Str} (hs : ∀ s ∈ row, Safe newer lt s) (hr : row ≠ []) {m : Mode}
    (hm : (m = .startRecord ∧ 2 ≤ row.length) ∨ m = .startField) (fs : List Str) (rest : Str) (p : Bool) :
    rows (fields newer lt row ++ (lt ++ rest)) ⟨m, [], fs⟩ p = (match rows rest fresh false with
      | .error e => .error e
      | .ok l => .ok ((fs ++ row) :: l)) := by
  induction row generalizing m fs p with
  | nil => exact absurd rfl hr
  | cons s row ih =>
    obtain ⟨m', hm', h⟩ := read_field hl (hs s List.mem_cons_self) false (m := m) (by rcases hm with h | h; exacts [Or.inl h.1, Or.inr h]) fs
    cases row with
    | nil =>
      have hm2 : m = .startField := by
        rcases hm with h | h
        · have := h.2; simp at this
        · exact h
      have e : fields newer lt [s] = field newer lt false s := rfl
      rw [e, h _ _ (by simp [lt_ne hl]), end_line hl (by rcases hm' with h | h | h; exacts [Or.inr (Or.inl h), Or.inr (Or.inr h), Or.inl (h.1.trans hm2)])]
    | cons s' row =>
      have e : fields newer lt (s :: s' :: row) = field newer lt false s ++ ',' :: fields newer lt (s' :: row) := rfl
      rw [e, List.append_assoc, List.cons_append, h _ _ (by simp), end_comma (by
        rcases hm' with h | h | h
        · rw [h]; simp
        · rw [h]; simp
        · rw [h.1]; rcases hm with h | h
          · rw [h.1]; simp
          · rw [h]; simp)]
      rw [ih (fun s hs' => hs s (List.mem_cons_of_mem _ hs')) (by simp) (Or.inr rfl)]
      simp

/-- Reading a row. -/
theorem read_row {newer : Bool} {lt : Str} (hl : Terminator lt) {row : List Str} (hs : ∀ s ∈ row, Safe newer lt s) (rest : Str) :
    rows (writeRow newer lt row ++ rest) fresh false = (match rows rest fresh false with
      | .error e => .error e
      | .ok l => .ok (row :: l)) := by
  match row, hs with
  | [], _ =>
    rcases hl with rfl | rfl <;> simp [writeRow, fields, rows, fresh, feed, feedEol]
    · rfl
    · rfl
  | [s], hs =>
    obtain ⟨m', hm', h⟩ := read_field hl (hs s List.mem_cons_self) true (m := .startRecord) (Or.inl rfl) []
    have e : writeRow newer lt [s] ++ rest = field newer lt true s ++ (lt ++ rest) := by simp [writeRow]
    rw [e, fresh, h _ _ (by simp [lt_ne hl]), end_line hl (by rcases hm' with h | h | h; exacts [Or.inr (Or.inl h), Or.inr (Or.inr h), absurd h.2.2 (by simp)])]
    rfl
  | s :: s' :: row, hs =>
    have e : writeRow newer lt (s :: s' :: row) ++ rest = fields newer lt (s :: s' :: row) ++ (lt ++ rest) := by simp [writeRow]
    rw [e, fresh, read_fields hl hs (by simp) (Or.inl ⟨rfl, by simp⟩)]
    rfl

theorem read_rows {newer : Bool} {lt : Str} (hl : Terminator lt) {table : List (List Str)} (hs : ∀ row ∈ table, ∀ s ∈ row, Safe newer lt s) (rest : Str) :
    rows (writeRows newer lt table ++ rest) fresh false = (match rows rest fresh false with
      | .error e => .error e
      | .ok l => .ok (table ++ l)) := by
  induction table with
  | nil => simp only [writeRows, List.flatMap_nil, List.nil_append]; cases rows rest fresh false <;> rfl
  | cons row table ih =>
    have e : writeRows newer lt (row :: table) ++ rest = writeRow newer lt row ++ (writeRows newer lt table ++ rest) := by simp [writeRows]
    rw [e, read_row hl (hs row List.mem_cons_self), ih fun r hr => hs r (List.mem_cons_of_mem _ hr)]
    cases rows rest fresh false <;> rfl

/-! ## C112 -/

/-- **C112**: whatever the cells contain (commas, quotes, line breaks, nothing), the file of a report rendered as CSV reads back as the same table; with interpreters before
Python 3.13, if no cell has a carriage return. -/
theorem C112_report_partial (newer : Bool) (path : Str) (table : List (List Str)) (h : newer = true ∨ ∀ row ∈ table, ∀ s ∈ row, '\r' ∉ s) :
    ∃ text, renderCsv newer (some path) table = .file (path ++ ".csv".toList) text ∧ readRows text = .ok table := by
  refine ⟨_, rfl, ?_⟩
  have := read_rows (newer := newer) (lt := "\n".toList) (Or.inl rfl) (table := table)
    (fun r hr s hs => by rcases h with h | h; exacts [Or.inl h, Or.inr (Or.inr (h r hr s hs))]) []
  rw [List.append_nil] at this
  unfold readRows
  rw [this]
  simp [rows, fresh]

/-- A concrete case: names with a comma, a quote and a line break. -/
example : readRows (writeRows false "\n".toList [["Plant, north".toList, "12.5".toList], ["the \"old\" mill".toList, "a\nb".toList], [[]], []]) =
    .ok [["Plant, north".toList, "12.5".toList], ["the \"old\" mill".toList, "a\nb".toList], [[]], []] := by
  obtain ⟨t, h1, h2⟩ := C112_report_partial false [] [["Plant, north".toList, "12.5".toList], ["the \"old\" mill".toList, "a\nb".toList], [[]], []] (Or.inr (by decide))
  cases h1
  exact h2

/-- **C112**: with the terminator `\r\n`, as in the data set templates, every table reads back. -/
theorem C112_template (newer : Bool) (table : List (List Str)) : readRows (writeRows newer "\r\n".toList table) = .ok table := by
  have := read_rows (newer := newer) (lt := "\r\n".toList) (Or.inr rfl) (table := table) (fun r hr s hs => Or.inr (Or.inl rfl)) []
  rw [List.append_nil] at this
  unfold readRows
  rw [this]
  simp [rows, fresh]

/-- **C112**: reports with different tables have different files. -/
theorem C112_distinct_partial (newer : Bool) (path : Option Str) (t t' : List (List Str)) (h : newer = true ∨ ∀ row ∈ t ++ t', ∀ s ∈ row, '\r' ∉ s)
    (he : renderCsv newer path t = renderCsv newer path t') : t = t' := by
  have key : writeRows newer "\n".toList t = writeRows newer "\n".toList t' := by
    cases path with
    | none => simpa [renderCsv] using he
    | some p => simpa [renderCsv] using he
  obtain ⟨x, h1, h2⟩ := C112_report_partial newer [] t (by rcases h with h | h; exacts [Or.inl h, Or.inr fun r hr => h r (List.mem_append_left _ hr)])
  obtain ⟨y, h3, h4⟩ := C112_report_partial newer [] t' (by rcases h with h | h; exacts [Or.inl h, Or.inr fun r hr => h r (List.mem_append_right _ hr)])
  cases h1; cases h3
  rw [key, h4] at h2
  exact (Except.ok.inj h2).symm

/-- **C112 is violated** before Python 3.13: a carriage return in a name is not quoted when the terminator is `\n`, so that the row reads back as two; and two different
tables have the same file. -/
theorem C112_carriage_return_violated : readRows (writeRows false "\n".toList [["a\rb".toList, "1".toList]]) = .ok [["a".toList], ["b".toList, "1".toList]] ∧
    readRows (writeRows true "\n".toList [["a\rb".toList, "1".toList]]) = .ok [["a\rb".toList, "1".toList]] := by decide +kernel

/-! ## C113 -/

/-- **C113**: the reader of data set files accepts every text. -/
theorem C113_reader_total (text : Str) : ∃ l, readRows text = .ok l := by
  have key : ∀ (s : Str) (st : RSt) (p : Bool), (st.mode = .eatCrnl → s.head? = some '\n') → ∃ l, rows s st p = .ok l := by
    intro s
    induction s with
    | nil =>
      intro st p _
      unfold rows
      dsimp only
      generalize (if p = true then feedEol st else st) = st'
      split_ifs <;> exact ⟨_, rfl⟩
    | cons c s ih =>
      intro st p h
      unfold rows
      have hf : ∃ st', feed st c = .ok st' ∧ (st'.mode = .eatCrnl → c = '\n' ∨ c = '\r') := by
        obtain ⟨m, f, fs⟩ := st
        cases m
        all_goals simp only [feed, feedStart, RSt.save, RSt.add]
        case eatCrnl =>
          have : c = '\n' := by simpa using h rfl
          subst this
          exact ⟨_, if_pos (Or.inl rfl), fun _ => Or.inl rfl⟩
        all_goals
          refine ⟨_, rfl, ?_⟩
          split_ifs <;> simp_all
      obtain ⟨st', e, he⟩ := hf
      rw [e]
      dsimp only
      have hs : ∃ l, rows s fresh false = .ok l := ih fresh false (by simp [fresh])
      split
      · split
        · obtain ⟨l, hl⟩ := hs; rw [hl]; exact ⟨_, rfl⟩
        · refine ih _ _ fun hm => ?_
          exfalso
          obtain ⟨m, f, fs⟩ := st'
          cases m <;> simp_all [feedEol, RSt.save]
      · rename_i hn
        refine ih _ _ fun hm => ?_
        rcases he hm with rfl | rfl
        · exact absurd (Or.inl rfl) hn
        · by_contra hh
          exact hn (Or.inr ⟨rfl, hh⟩)
  exact key text fresh false (by simp [fresh])

/-- **C113**: the header of a data set file that a CSV writer has written is read as it was written, whatever it contains and whatever follows. -/
theorem C113_header (newer : Bool) (a b c m d r : Str) (x y z n ds u s : List Str) (rest : List (List Str)) :
    readHeader (writeRows newer "\r\n".toList ((a :: m :: x) :: (b :: d :: y) :: (c :: r :: z) :: n :: ds :: u :: s :: rest)) = .ok ⟨m, d, r, n, ds, u, s⟩ := by
  unfold readHeader
  rw [C112_template]
  rfl

theorem zip_lookup {ks vs : List Str} (hn : ks.Nodup) (hl : ks.length = vs.length) {i : ℕ} (hi : i < ks.length) : zipGet ks vs ks[i] = .ok (vs[i]'(hl ▸ hi)) := by
  have hmem : (ks[i], vs[i]'(hl ▸ hi)) ∈ (ks.zip vs).reverse := by
    rw [List.mem_reverse]
    exact List.mem_iff_getElem.2 ⟨i, by simp [hl] at hi ⊢; omega, by simp⟩
  have hk : (((ks.zip vs).reverse).map (·.1)).Nodup := by
    rw [List.map_reverse, List.nodup_reverse, List.map_fst_zip (by omega)]; exact hn
  have key : ∀ (l : List (Str × Str)), (l.map (·.1)).Nodup → ∀ k v, (k, v) ∈ l → l.lookup k = some v := by
    intro l
    induction l with
    | nil => intro _ k v h; cases h
    | cons e l ih =>
      obtain ⟨k', v'⟩ := e
      intro hn k v h
      rw [List.map_cons, List.nodup_cons] at hn
      rw [List.lookup_cons]
      rcases List.mem_cons.1 h with h2 | h2
      · cases h2; simp
      · have : k ≠ k' := fun hk => hn.1 (List.mem_map.2 ⟨(k, v), h2, hk⟩)
        rw [beq_false_of_ne this]; exact ih hn.2 k v h2
  unfold zipGet
  rw [key _ hk _ _ hmem]

/-- **C113**: in a header with as many names, display symbols and units as symbols, and no symbol twice, each symbol gives its own name, display symbol and units. -/
theorem C113_columns (h : Header) (hn : h.colSymbols.Nodup) (h1 : h.colSymbols.length = h.colNames.length) (h2 : h.colSymbols.length = h.colDisplaySymbols.length)
    (h3 : h.colSymbols.length = h.colUnits.length) (i : ℕ) (hi : i < h.colSymbols.length) :
    h.name h.colSymbols[i] = .ok (h.colNames[i]'(h1 ▸ hi)) ∧ h.displaySymbol h.colSymbols[i] = .ok (h.colDisplaySymbols[i]'(h2 ▸ hi)) ∧
    h.units h.colSymbols[i] = .ok (h.colUnits[i]'(h3 ▸ hi)) :=
  ⟨zip_lookup hn h1 hi, zip_lookup hn h2 hi, zip_lookup hn h3 hi⟩

/-- A concrete case: the columns of the shipped air data set. -/
example : readHeader (writeRows false "\r\n".toList ([["Name".toList, "Air".toList], ["Description".toList, "dry, \"clean\"".toList], ["Reference".toList, [] ],
      ["Temperature".toList, "Density".toList], ["T".toList, "\\rho".toList], ["K".toList, "kg/m3".toList], ["T".toList, "rho".toList], ["300".toList, "1.16".toList]])) =
    .ok ⟨"Air".toList, "dry, \"clean\"".toList, [], ["Temperature".toList, "Density".toList], ["T".toList, "\\rho".toList], ["K".toList, "kg/m3".toList], ["T".toList, "rho".toList]⟩ :=
  C113_header false _ _ _ _ _ _ [] [] [] _ _ _ _ _

example : (Header.mk [] [] [] ["Temperature".toList, "Density".toList] ["T".toList, "\\rho".toList] ["K".toList, "kg/m3".toList] ["T".toList, "rho".toList]).units "rho".toList = .ok "kg/m3".toList :=
  (C113_columns (Header.mk [] [] [] ["Temperature".toList, "Density".toList] ["T".toList, "\\rho".toList] ["K".toList, "kg/m3".toList] ["T".toList, "rho".toList])
    (by decide) rfl rfl rfl 1 (by decide)).2.2

theorem put_lookup (n t : Str) (d : Dir) : (Dir.put n t d).lookup n = some t := by
  unfold Dir.put; rw [List.lookup_cons, beq_self_eq_true]

/-- **C113**: a data set created from a template has the material's name, whatever the name contains, and four columns. -/
theorem C113_template (newer : Bool) (material : Str) (dir : Dir) : ∃ text, (createTemplate newer material dir).lookup ("dataset-".toList ++ lower material ++ ".csv".toList) = some text ∧
    ∃ h, readHeader text = .ok h ∧ h.material = material ∧ h.colSymbols.length = 4 ∧ h.name "T".toList = .ok "Temperature".toList ∧ h.units "T".toList = .ok "K".toList := by
  refine ⟨_, put_lookup _ _ dir, ⟨_, _, _, _, _, _, _⟩, C113_header newer _ _ _ _ _ _ [] [] [] _ _ _ _ _, ?_, ?_, ?_, ?_⟩
  · rfl
  · rfl
  · show zipGet _ _ _ = _; dsimp only; decide +kernel
  · show zipGet _ _ _ = _; dsimp only; decide +kernel

/-- **C113 is violated**: the file name is in lower case, so that the template of cobalt takes the place of that of carbon monoxide. -/
theorem C113_clash_violated (newer : Bool) (dir : Dir) :
    (createTemplate newer "Co".toList (createTemplate newer "CO".toList dir)).lookup "dataset-co.csv".toList = some (writeRows newer "\r\n".toList (templateRows "Co".toList)) ∧
    ∀ e ∈ createTemplate newer "Co".toList (createTemplate newer "CO".toList dir), e.1 = "dataset-co.csv".toList → e.2 ≠ writeRows newer "\r\n".toList (templateRows "CO".toList) := by
  have n1 : "dataset-".toList ++ lower "Co".toList ++ ".csv".toList = "dataset-co.csv".toList := by decide
  constructor
  · unfold createTemplate; rw [n1]; exact put_lookup _ _ _
  · intro e he hn heq
    unfold createTemplate at he
    rw [n1] at he
    rcases List.mem_cons.1 he with h | h
    · rw [h] at heq
      have h1 := C112_template newer (templateRows "Co".toList)
      have h2 := C112_template newer (templateRows "CO".toList)
      dsimp only at heq
      rw [heq, h2] at h1
      exact absurd (Except.ok.inj h1) (by decide)
    · have := List.of_mem_filter h
      simp [hn] at this

/-- **C113**: a file with fewer than seven rows, or without a second cell in one of the first three, is refused. -/
theorem C113_refused (text : Str) (l : List (List Str)) (h : readRows text = .ok l) (hl : l.length < 7 ∨ ∃ i, i < 3 ∧ ∃ row, l[i]? = some row ∧ row.length < 2) :
    ∃ e, readHeader text = .error e := by
  cases hr : readHeader text with
  | error e => exact ⟨e, rfl⟩
  | ok v =>
    exfalso
    unfold readHeader at hr
    rw [h] at hr
    match l with
    | [] => simp [second, bind, Except.bind] at hr
    | r1 :: l =>
      cases k1 : r1[1]? with
      | none => simp [second, bind, Except.bind, k1] at hr
      | some m =>
        match l with
        | [] => simp [second, bind, Except.bind, k1] at hr
        | r2 :: l =>
          cases k2 : r2[1]? with
          | none => simp [second, bind, Except.bind, k1, k2] at hr
          | some m2 =>
            match l with
            | [] => simp [second, bind, Except.bind, k1, k2] at hr
            | r3 :: l =>
              cases k3 : r3[1]? with
              | none => simp [second, bind, Except.bind, k1, k2, k3] at hr
              | some m3 =>
                match l with
                | [] => simp [second, nextRow, bind, Except.bind, k1, k2, k3] at hr
                | [_] => simp [second, nextRow, bind, Except.bind, k1, k2, k3] at hr
                | [_, _] => simp [second, nextRow, bind, Except.bind, k1, k2, k3] at hr
                | [_, _, _] => simp [second, nextRow, bind, Except.bind, k1, k2, k3] at hr
                | a :: b :: c :: d :: l =>
                  have len : ∀ {r : List Str} {s : Str}, r[1]? = some s → ¬ r.length < 2 := fun hk hh => by
                    rw [List.getElem?_eq_none (by omega)] at hk; cases hk
                  rcases hl with hl | ⟨i, hi, row, he, hrow⟩
                  · simp at hl; omega
                  · match i, hi with
                    | 0, _ => simp at he; subst he; exact len k1 hrow
                    | 1, _ => simp at he; subst he; exact len k2 hrow
                    | 2, _ => simp at he; subst he; exact len k3 hrow

example : ∃ e, readHeader "Name,Air\nDescription\n".toList = .error e :=
  C113_refused _ [["Name".toList, "Air".toList], ["Description".toList]] (by decide +kernel) (Or.inl (by decide))

/-- **C113 (which exception).** If the first three rows there are have a second cell, a file with fewer than seven rows
raises `StopIteration` (`exception` in the model); otherwise the first of the three rows without a second cell raises
`IndexError`. -/
theorem C113_refused_how (text : Str) (l : List (List Str)) (h : readRows text = .ok l) :
    ((∀ i row, i < 3 → l[i]? = some row → 2 ≤ row.length) → l.length < 7 → readHeader text = .error .exception) ∧
    ((∃ (i : Nat) (row : List Str), i < 3 ∧ l[i]? = some row ∧ row.length < 2) → readHeader text = .error .indexError) := by
  unfold readHeader
  rw [h]
  have some_of : ∀ {r : List Str}, 2 ≤ r.length → ∃ m, r[1]? = some m := fun {r} hr => ⟨r[1], by simp⟩
  constructor
  · intro hc hl
    match l with
    | [] => rfl
    | r1 :: l =>
      obtain ⟨m1, k1⟩ := some_of (hc 0 r1 (by omega) rfl)
      match l with
      | [] => simp [second, bind, Except.bind, k1]
      | r2 :: l =>
        obtain ⟨m2, k2⟩ := some_of (hc 1 r2 (by omega) rfl)
        match l with
        | [] => simp [second, bind, Except.bind, k1, k2]
        | r3 :: l =>
          obtain ⟨m3, k3⟩ := some_of (hc 2 r3 (by omega) rfl)
          match l with
          | [] => simp [second, nextRow, bind, Except.bind, k1, k2, k3]
          | [_] => simp [second, nextRow, bind, Except.bind, k1, k2, k3]
          | [_, _] => simp [second, nextRow, bind, Except.bind, k1, k2, k3]
          | [_, _, _] => simp [second, nextRow, bind, Except.bind, k1, k2, k3]
          | a :: b :: c :: d :: l => simp at hl; omega
  · rintro ⟨i, row, hi, he, hr⟩
    have none_of : ∀ {r : List Str}, r.length < 2 → r[1]? = none := fun {r} hr => List.getElem?_eq_none (by omega)
    match l with
    | [] => simp at he
    | r1 :: l =>
      cases k1 : r1[1]? with
      | none => simp [second, bind, Except.bind, k1]
      | some m =>
        match l with
        | [] =>
          match i with
          | 0 => simp at he; subst he; rw [none_of hr] at k1; cases k1
          | i + 1 => simp at he
        | r2 :: l =>
          cases k2 : r2[1]? with
          | none => simp [second, bind, Except.bind, k1, k2]
          | some m2 =>
            match l with
            | [] =>
              match i with
              | 0 => simp at he; subst he; rw [none_of hr] at k1; cases k1
              | 1 => simp at he; subst he; rw [none_of hr] at k2; cases k2
              | i + 2 => simp at he
            | r3 :: l =>
              cases k3 : r3[1]? with
              | none => simp [second, bind, Except.bind, k1, k2, k3]
              | some m3 =>
                match i, hi with
                | 0, _ => simp at he; subst he; rw [none_of hr] at k1; cases k1
                | 1, _ => simp at he; subst he; rw [none_of hr] at k2; cases k2
                | 2, _ => simp at he; subst he; rw [none_of hr] at k3; cases k3

example : readHeader "Name,Air\nDescription,x\n".toList = .error .exception ∧
    readHeader "Name,Air\nDescription\n".toList = .error .indexError := by decide +kernel

/-- **C113**: asking for the name, display symbol or units of a symbol that the data set does not have raises `KeyError`. -/
theorem C113_unknown_symbol (h : Header) (s : Str) (hs : s ∉ h.colSymbols) :
    h.name s = .error .keyError ∧ h.displaySymbol s = .error .keyError ∧ h.units s = .error .keyError := by
  have key : ∀ (ks vs : List Str), s ∉ ks → zipGet ks vs s = .error .keyError := by
    intro ks vs hk
    unfold zipGet
    have : (ks.zip vs).reverse.lookup s = none := by
      rw [List.lookup_eq_none_iff]
      intro e he
      rw [List.mem_reverse] at he
      have := (List.of_mem_zip (a := e.1) (b := e.2) he).1
      simp only [bne_iff_ne, ne_eq]
      intro hh
      exact hk (hh ▸ this)
    rw [this]
  exact ⟨key _ _ hs, key _ _ hs, key _ _ hs⟩

example : (Header.mk [] [] [] ["Temperature".toList] ["T".toList] ["K".toList] ["T".toList]).name "rho".toList = .error .keyError :=
  (C113_unknown_symbol _ _ (by decide)).1

/-- **C113 (the template's numbers).** Whatever the material, the rows of a template after the seven of the header are
ten rows of whole numbers written as floats: temperatures from 100 in steps of 50, and three columns counting from 0, 10 and 100. -/
theorem C113_template_data (newer : Bool) (material : Str) : ∃ rows, readRows (writeRows newer "\r\n".toList (templateRows material)) = .ok rows ∧
    rows.drop 7 = [["100.0", "0.0", "10.0", "100.0"], ["150.0", "1.0", "11.0", "101.0"], ["200.0", "2.0", "12.0", "102.0"], ["250.0", "3.0", "13.0", "103.0"],
      ["300.0", "4.0", "14.0", "104.0"], ["350.0", "5.0", "15.0", "105.0"], ["400.0", "6.0", "16.0", "106.0"], ["450.0", "7.0", "17.0", "107.0"],
      ["500.0", "8.0", "18.0", "108.0"], ["550.0", "9.0", "19.0", "109.0"]].map (fun r => r.map String.toList) := by
  refine ⟨_, C112_template newer _, ?_⟩
  have : (templateRows material).drop 7 = (List.range 10).map (fun i => [floatText (100 + i * 50), floatText i, floatText (10 + i), floatText (100 + i)]) := rfl
  rw [this]
  decide +kernel

end Auxi.Csv.Props
