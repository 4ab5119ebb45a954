import Verif.Proofs.FactSage

/-! # Lemmas about the data lines of FactSage files -/
namespace Auxi.FactSage
open Auxi.FileFormat Auxi.FileFormat.Spec Auxi.FactSage.Spec

theorem fix_value {n : Num} (h : n.Temperature) : pyFloat (fix n.text) = .ok n.value := by
  unfold fix
  rcases h with h | h
  · rw [if_neg h.2.1]; exact h.2.2.2
  · rw [if_pos h.1, h.2]; decide +kernel

/-- The terms of a line, as values. -/
def values (ts : List (Num × Num)) : List (ℚ × ℚ) := ts.map (fun t => (t.1.value, t.2.value))

/-- What remains of a line. -/
def clean (symbol : Str) (extra : List Num) (ts : List (Num × Num)) (r : Record) : List Str :=
  symbol :: r.id :: extra.map Num.text ++ ts.flatMap (fun t => [t.1.text, t.2.text]) ++ [fix r.Tmin.text, r.Tmax.text]

theorem tokens_line {symbol : Str} {extra : List Num} {ts : List (Num × Num)} {r : Record} {s : Str} (k : ℕ) (h : Spaced (line symbol extra ts r) s)
    (he : ∀ n ∈ extra, n.Good) (ht : GoodTerms ts) (hr : r.Good) : tokens (s ++ List.replicate k ' ' ++ ['\n']) = clean symbol extra ts r := by
  refine tokens_row (as := r.id :: extra.map Num.text ++ ts.flatMap (fun t => [t.1.text, t.2.text])) k (by simpa [line] using h) ?_ ?_ ?_
  · intro x hx
    simp only [List.cons_append, List.mem_cons, List.mem_append, List.mem_map, List.mem_flatMap, List.not_mem_nil, or_false] at hx
    rcases hx with rfl | ⟨n, hn, rfl⟩ | ⟨t, htm, hx⟩
    · exact hr.id.2
    · exact ⟨(he n hn).2.1, (he n hn).2.2.1⟩
    · have := ht.2 t htm
      rcases hx with rfl | rfl
      · exact ⟨this.1.2.1, this.1.2.2.1⟩
      · exact ⟨this.2.2.1, this.2.2.2.1⟩
  · rcases hr.range.1 with h | h
    · exact h.2.2.1
    · rw [h.1]; decide
  · exact ⟨hr.range.2.2.1, hr.range.2.2.2.1⟩

/-- A new record of an old phase. -/
theorem newRecord_old {symbol : Str} {ts : List (Num × Num)} {r : Record} (ht : GoodTerms ts) (hr : r.Good) :
    newRecord (clean symbol [] ts r) 2 8 = .ok ⟨r.Tmin.value, r.Tmax.value, values ts⟩ := by
  have h1 := fix_value hr.range.1
  have h2 := hr.range.2.2.2.2
  obtain ⟨hl, hg⟩ := ht
  rcases hl with hl | hl
  · obtain ⟨t, rfl⟩ := List.length_eq_one_iff.1 hl
    have := hg t (by simp)
    simp [newRecord, clean, num, terms, term, values, h1, h2, this.1.2.2.2, this.2.2.2.2]
  · obtain ⟨t, u, rfl⟩ := List.length_eq_two.1 hl
    have a := hg t (by simp)
    have b := hg u (by simp)
    simp [newRecord, clean, num, terms, term, values, h1, h2, a.1.2.2.2, a.2.2.2.2, b.1.2.2.2, b.2.2.2.2]

/-- The first record of a new phase. -/
theorem newRecord_new {symbol : Str} {x y : Num} {ts : List (Num × Num)} {r : Record} (ht : GoodTerms ts) (hr : r.Good) :
    newRecord (clean symbol [x, y] ts r) 4 10 = .ok ⟨r.Tmin.value, r.Tmax.value, values ts⟩ := by
  have h1 := fix_value hr.range.1
  have h2 := hr.range.2.2.2.2
  obtain ⟨hl, hg⟩ := ht
  rcases hl with hl | hl
  · obtain ⟨t, rfl⟩ := List.length_eq_one_iff.1 hl
    have := hg t (by simp)
    simp [newRecord, clean, num, terms, term, values, h1, h2, this.1.2.2.2, this.2.2.2.2]
  · obtain ⟨t, u, rfl⟩ := List.length_eq_two.1 hl
    have a := hg t (by simp)
    have b := hg u (by simp)
    simp [newRecord, clean, num, terms, term, values, h1, h2, a.1.2.2.2, a.2.2.2.2, b.1.2.2.2, b.2.2.2.2]

theorem appendTerms_last {x : ℚ} {ts : List (ℚ × ℚ)} {r : RecData} : ∀ (recs : List (ℚ × RecData)), x ∉ recs.map (·.1) →
    appendTerms x ts (recs ++ [(x, r)]) = .ok (recs ++ [(x, { r with terms := r.terms ++ ts })])
  | [], _ => by simp [appendTerms]
  | (y, s) :: recs, h => by
    simp only [List.map_cons, List.mem_cons, not_or] at h
    rw [List.cons_append, appendTerms, if_neg (Ne.symm h.1), appendTerms_last recs h.2]; rfl

/-- Further terms of a record. -/
theorem moreTerms_spec {symbol : Str} {ts : List (Num × Num)} {r : Record} (ht : GoodTerms ts) {x : ℚ} {d : RecData} (recs : List (ℚ × RecData))
    (hx : x ∉ recs.map (·.1)) :
    moreTerms (clean symbol [] ts r) (some x) (recs ++ [(x, d)]) = .ok (recs ++ [(x, { d with terms := d.terms ++ values ts })]) := by
  obtain ⟨hl, hg⟩ := ht
  rcases hl with hl | hl
  · obtain ⟨t, rfl⟩ := List.length_eq_one_iff.1 hl
    have := hg t (by simp)
    simp [moreTerms, clean, num, term, values, this.1.2.2.2, this.2.2.2.2, appendTerms_last recs hx]
  · obtain ⟨t, u, rfl⟩ := List.length_eq_two.1 hl
    have a := hg t (by simp)
    have b := hg u (by simp)
    simp [moreTerms, clean, num, term, values, a.1.2.2.2, a.2.2.2.2, b.1.2.2.2, b.2.2.2.2, appendTerms_last recs hx]

theorem setItem_new {α : Type} {k : Str} {v : α} : ∀ (d : List (Str × α)), k ∉ d.map (·.1) → setItem k v d = d ++ [(k, v)]
  | [], _ => rfl
  | (k', w) :: d, h => by
    simp only [List.map_cons, List.mem_cons, not_or] at h
    rw [setItem, if_neg (Ne.symm h.1), setItem_new d h.2]; rfl

theorem setItem_last {α : Type} {k : Str} {v w : α} : ∀ (d : List (Str × α)), k ∉ d.map (·.1) → setItem k v (d ++ [(k, w)]) = d ++ [(k, v)]
  | [], _ => by simp [setItem]
  | (k', u) :: d, h => by
    simp only [List.map_cons, List.mem_cons, not_or] at h
    rw [List.cons_append, setItem, if_neg (Ne.symm h.1), setItem_last d h.2]; rfl

theorem lookup_last {α : Type} {k : Str} {v : α} : ∀ (d : List (Str × α)), k ∉ d.map (·.1) → (d ++ [(k, v)]).lookup k = some v
  | [], _ => by simp
  | (k', u) :: d, h => by
    simp only [List.map_cons, List.mem_cons, not_or] at h
    rw [List.cons_append, List.lookup_cons, show (k == k') = false from beq_false_of_ne h.1]
    exact lookup_last d h.2

theorem setRecord_new {x : ℚ} {r : RecData} : ∀ (recs : List (ℚ × RecData)), x ∉ recs.map (·.1) → setRecord x r recs = recs ++ [(x, r)]
  | [], _ => rfl
  | (y, s) :: recs, h => by
    simp only [List.map_cons, List.mem_cons, not_or] at h
    rw [setRecord, if_neg (Ne.symm h.1), setRecord_new recs h.2]; rfl

/-- The data lines one after the other. -/
def runRows : List (List Str) → St → Res St
  | [], st => .ok st
  | ts :: rows, st => match dataLine ts st with
    | .error e => .error e
    | .ok st' => runRows rows st'

theorem runRows_append {a b : List (List Str)} {st st' : St} (h : runRows a st = .ok st') : runRows (a ++ b) st = runRows b st' := by
  induction a generalizing st with
  | nil => cases h; rfl
  | cons t a ih =>
    rw [List.cons_append, runRows]
    rw [runRows] at h
    cases hd : dataLine t st with
    | error e => rw [hd] at h; cases h
    | ok s => rw [hd] at h; exact ih h

theorem dataLine_more {ts : List Str} {st : St} {p : PhaseData} {recs : List (ℚ × RecData)} (h1 : ts.headD [] = st.phaseold) (h2 : ts.getD 1 [] = st.recordold)
    (hl : st.phases.lookup st.phaseold = some p) (hm : moreTerms ts st.Tmax p.records = .ok recs) :
    dataLine ts st = .ok ⟨setItem st.phaseold { p with records := recs } st.phases, st.phaseold, st.recordold, st.Tmax⟩ := by
  simp only [dataLine, h1, h2, ne_eq, not_true_eq_false, if_false, hl, hm]

theorem dataLine_record {ts : List Str} {st : St} {p : PhaseData} {r : RecData} (h1 : ts.headD [] = st.phaseold) (h2 : ts.getD 1 [] ≠ st.recordold)
    (hl : st.phases.lookup st.phaseold = some p) (hm : newRecord ts 2 8 = .ok r) :
    dataLine ts st = .ok ⟨setItem st.phaseold { p with records := setRecord r.Tmax r p.records } st.phases, st.phaseold, ts.getD 1 [], some r.Tmax⟩ := by
  simp only [dataLine, h1, h2, ne_eq, not_true_eq_false, not_false_eq_true, if_true, if_false, hl, hm]

theorem dataLine_phase {ts : List Str} {st : St} {dh s : ℚ} {r : RecData} (h1 : ts.headD [] ≠ st.phaseold) (h2 : ts.getD 1 [] ≠ st.recordold)
    (h3 : num ts 2 = .ok dh) (h4 : num ts 3 = .ok s) (hm : newRecord ts 4 10 = .ok r) :
    dataLine ts st = .ok ⟨setItem (ts.headD []) ⟨dh, s, [(r.Tmax, r)]⟩ st.phases, ts.headD [], ts.getD 1 [], some r.Tmax⟩ := by
  simp only [dataLine, h1, h2, ne_eq, not_false_eq_true, if_true, h3, h4, hm]

/-- A new phase whose first record is labelled like the record before it. -/
theorem dataLine_same {ts : List Str} {st : St} {dh s x : ℚ} (h1 : ts.headD [] ≠ st.phaseold) (h2 : ts.getD 1 [] = st.recordold)
    (h3 : num ts 2 = .ok dh) (h4 : num ts 3 = .ok s) (hx : st.Tmax = some x) : dataLine ts st = .error .keyError := by
  have ht : moreTerms ts (some x) [] = .error .keyError := by simp [moreTerms, term, h3, h4, appendTerms]
  simp only [dataLine, h1, h2, ne_eq, not_false_eq_true, not_true_eq_false, if_true, if_false, h3, h4, hx, ht]

/-- The state after some terms of the record `r` of the phase `symbol`. -/
def mid (done : List (Str × PhaseData)) (symbol : Str) (dh s : ℚ) (recs : List (ℚ × RecData)) (r : Record) (l : List (ℚ × ℚ)) : St :=
  ⟨done ++ [(symbol, ⟨dh, s, recs ++ [(r.Tmax.value, ⟨r.Tmin.value, r.Tmax.value, l⟩)]⟩)], symbol, r.id, some r.Tmax.value⟩

/-- The further lines of a record. -/
theorem further_spec {done : List (Str × PhaseData)} {symbol : Str} {dh s : ℚ} {recs : List (ℚ × RecData)} {r : Record} (hs : symbol ∉ done.map (·.1))
    (hx : r.Tmax.value ∉ recs.map (·.1)) : ∀ (more : List (List (Num × Num))) (l : List (ℚ × ℚ)), (∀ ts ∈ more, GoodTerms ts) →
    runRows (more.map (fun ts => clean symbol [] ts r)) (mid done symbol dh s recs r l) = .ok (mid done symbol dh s recs r (l ++ values more.flatten))
  | [], l, _ => by simp [runRows, values]
  | ts :: more, l, h => by
    rw [List.map_cons, runRows]
    have e : dataLine (clean symbol [] ts r) (mid done symbol dh s recs r l) = .ok (mid done symbol dh s recs r (l ++ values ts)) := by
      rw [dataLine_more (p := ⟨dh, s, recs ++ [(r.Tmax.value, ⟨r.Tmin.value, r.Tmax.value, l⟩)]⟩) rfl rfl (lookup_last _ hs)
        (moreTerms_spec (h ts (by simp)) recs hx)]
      change Except.ok (⟨setItem symbol _ (done ++ [(symbol, _)]), symbol, r.id, some r.Tmax.value⟩ : St) = _
      rw [setItem_last _ hs]; rfl
    rw [e]
    dsimp only
    rw [further_spec hs hx more _ (fun t ht => h t (by simp [ht]))]
    simp [values]

/-- A further record of a phase. -/
theorem record_spec {done : List (Str × PhaseData)} {symbol : Str} {dh s : ℚ} {recs : List (ℚ × RecData)} {r r' : Record} {l : List (ℚ × ℚ)}
    (hs : symbol ∉ done.map (·.1)) (hr : r'.Good) (hid : r.id ≠ r'.id)
    (hx : r'.Tmax.value ∉ (recs ++ [(r.Tmax.value, (⟨r.Tmin.value, r.Tmax.value, l⟩ : RecData))]).map (·.1)) :
    runRows (clean symbol [] r'.first r' :: r'.more.map (fun ts => clean symbol [] ts r')) (mid done symbol dh s recs r l) =
      .ok (mid done symbol dh s (recs ++ [(r.Tmax.value, ⟨r.Tmin.value, r.Tmax.value, l⟩)]) r' (values (r'.first ++ r'.more.flatten))) := by
  rw [runRows]
  have e : dataLine (clean symbol [] r'.first r') (mid done symbol dh s recs r l) =
      .ok (mid done symbol dh s (recs ++ [(r.Tmax.value, ⟨r.Tmin.value, r.Tmax.value, l⟩)]) r' (values r'.first)) := by
    rw [dataLine_record (ts := clean symbol [] r'.first r') (st := mid done symbol dh s recs r l)
      (p := ⟨dh, s, recs ++ [(r.Tmax.value, RecData.mk r.Tmin.value r.Tmax.value l)]⟩) (r := ⟨r'.Tmin.value, r'.Tmax.value, values r'.first⟩)
      rfl (Ne.symm hid) (lookup_last done hs) (newRecord_old hr.first hr)]
    change Except.ok (⟨setItem symbol _ (done ++ [(symbol, _)]), symbol, r'.id, some r'.Tmax.value⟩ : St) = _
    rw [setItem_last _ hs]
    dsimp only
    rw [setRecord_new _ hx]; rfl
  rw [e]
  dsimp only
  rw [further_spec hs hx _ _ hr.more]
  simp [values]

/-- The first record of a phase. -/
theorem first_spec {st : St} {p : Phase} (hp : p.Good) (hs : p.symbol ∉ st.phases.map (·.1)) (h1 : p.symbol ≠ st.phaseold) (h2 : p.first.id ≠ st.recordold) :
    runRows (clean p.symbol [p.DH, p.S] p.first.first p.first :: p.first.more.map (fun ts => clean p.symbol [] ts p.first)) st =
      .ok (mid st.phases p.symbol p.DH.value p.S.value [] p.first (values (p.first.first ++ p.first.more.flatten))) := by
  have hr := hp.records p.first (by simp [Phase.records])
  rw [runRows]
  have e : dataLine (clean p.symbol [p.DH, p.S] p.first.first p.first) st = .ok (mid st.phases p.symbol p.DH.value p.S.value [] p.first (values p.first.first)) := by
    rw [dataLine_phase (ts := clean p.symbol [p.DH, p.S] p.first.first p.first) (st := st) h1 h2 (dh := p.DH.value) (s := p.S.value) (by simp [num, clean, hp.numbers.1.2.2.2]) (by simp [num, clean, hp.numbers.2.2.2.2])
      (newRecord_new hr.first hr)]
    change Except.ok (⟨setItem p.symbol _ st.phases, p.symbol, p.first.id, some p.first.Tmax.value⟩ : St) = _
    rw [setItem_new _ hs]
    rfl
  rw [e]
  dsimp only
  rw [further_spec hs (by simp) _ _ hr.more]
  simp [values]


/-! ### All lines of the table -/

/-- The lines of a record that is not the first of its phase, as items. -/
def Record.clean (symbol : Str) (r : Record) : List (List Str) := FactSage.clean symbol [] r.first r :: r.more.map (fun ts => FactSage.clean symbol [] ts r)

/-- The lines of a phase, as items. -/
def Phase.clean (p : Phase) : List (List Str) :=
  (FactSage.clean p.symbol [p.DH, p.S] p.first.first p.first :: p.first.more.map (fun ts => FactSage.clean p.symbol [] ts p.first)) ++
    p.more.flatMap (Record.clean p.symbol)

/-- `rows` are read as `cs`. -/
def Reads (rows cs : List (List Str)) : Prop :=
  List.Forall₂ (fun row c => 2 ≤ c.length ∧ row.head?.bind List.head? ≠ some '_' ∧ ∀ s, Spaced row s → ∀ k, tokens (s ++ List.replicate k ' ' ++ ['\n']) = c) rows cs

theorem Reads.append {a b c d : List (List Str)} (h : Reads a b) (k : Reads c d) : Reads (a ++ c) (b ++ d) := List.rel_append h k

theorem reads_line {symbol : Str} {extra : List Num} {ts : List (Num × Num)} {r : Record} (hs : symbol.head? ≠ some '_')
    (he : ∀ n ∈ extra, n.Good) (ht : GoodTerms ts) (hr : r.Good) : Reads [line symbol extra ts r] [clean symbol extra ts r] := by
  refine .cons ⟨?_, ?_, fun s h k => tokens_line k h he ht hr⟩ .nil
  · simp [clean]
  · simpa [line] using hs

theorem reads_further {symbol : Str} {r : Record} (hs : symbol.head? ≠ some '_') (hr : r.Good) :
    Reads (r.further symbol) (r.more.map (fun ts => clean symbol [] ts r)) := by
  have : ∀ more : List (List (Num × Num)), (∀ ts ∈ more, GoodTerms ts) → Reads (more.map (fun ts => line symbol [] ts r)) (more.map (fun ts => clean symbol [] ts r)) := by
    intro more
    induction more with
    | nil => intro _; exact .nil
    | cons ts more ih => intro h; exact (reads_line hs (by simp) (h ts (by simp)) hr).append (ih (fun t ht => h t (by simp [ht])))
  exact this r.more hr.more

theorem reads_record {symbol : Str} {r : Record} (hs : symbol.head? ≠ some '_') (hr : r.Good) : Reads (r.lines symbol) (Record.clean symbol r) :=
  (reads_line hs (by simp) hr.first hr).append (reads_further hs hr)

theorem reads_phase {p : Phase} (hp : p.Good) : Reads p.lines (Phase.clean p) := by
  have hr := hp.records p.first (by simp [Phase.records])
  have h1 : Reads (line p.symbol [p.DH, p.S] p.first.first p.first :: p.first.further p.symbol)
      (FactSage.clean p.symbol [p.DH, p.S] p.first.first p.first :: p.first.more.map (fun ts => FactSage.clean p.symbol [] ts p.first)) :=
    (reads_line hp.symbol.2 (by simp [hp.numbers.1, hp.numbers.2]) hr.first hr).append (reads_further hp.symbol.2 hr)
  have h2 : ∀ more : List Record, (∀ r ∈ more, r.Good) → Reads (more.flatMap (Record.lines p.symbol)) (more.flatMap (Record.clean p.symbol)) := by
    intro more
    induction more with
    | nil => intro _; exact .nil
    | cons r more ih =>
      intro h
      rw [List.flatMap_cons, List.flatMap_cons]
      exact (reads_record hp.symbol.2 (h r (by simp))).append (ih (fun t ht => h t (by simp [ht])))
  exact h1.append (h2 p.more (fun r hr => hp.records r (by simp [Phase.records, hr])))

theorem reads_phases : ∀ {ps : List Phase}, (∀ p ∈ ps, p.Good) → Reads (ps.flatMap Phase.lines) (ps.flatMap Phase.clean)
  | [], _ => .nil
  | p :: ps, h => by
    rw [List.flatMap_cons, List.flatMap_cons]
    exact (reads_phase (h p (by simp))).append (reads_phases (fun q hq => h q (by simp [hq])))

theorem item_inline {s : Str} (h : Item s) : Inline s := fun c hc => ⟨(isSpace_ne (h.2 c hc)).2.2.1, (isSpace_ne (h.2 c hc)).2.2.2⟩

theorem inline_append {s t : Str} (h : Inline s) (k : Inline t) : Inline (s ++ t) := by
  intro c hc
  rcases List.mem_append.1 hc with hc | hc
  exacts [h c hc, k c hc]

theorem inline_blanks (k : ℕ) : Inline (List.replicate k ' ') := by
  intro c hc
  rw [List.eq_of_mem_replicate hc]; decide

theorem spaced_inline {fs : List Str} {s : Str} (h : Spaced fs s) : Inline s := by
  induction h with
  | one hf => exact item_inline hf
  | cons n hf _ ih => exact inline_append (inline_append (item_inline hf) (inline_blanks (n + 1))) ih

theorem spaced_head {fs : List Str} {s : Str} (h : Spaced fs s) : s.head? = fs.head?.bind List.head? := by
  cases h with
  | one hf => rfl
  | cons n hf _ =>
    obtain ⟨c, t, rfl⟩ := List.exists_cons_of_ne_nil hf.1
    rfl

theorem isRule_of {s : Str} (h : s.head? ≠ some '_') : isRule s = false := by
  unfold isRule
  split
  · simp at h
  · rfl

/-- A line is the first of the lines. -/
theorem lines_of {s : Str} (h : Inline s) (t : Str) : readlines (universal (s ++ '\n' :: t)) = (s ++ ['\n']) :: readlines (universal t) := by
  rw [universal_plain h, universal_cons (by decide), readlines_line h]

/-- The table is read row by row. -/
theorem table_loop {rows : List (List Str)} {t : Str} (h : Table rows t) : ∀ {cs : List (List Str)} {st : St}, Reads rows cs →
    dataLoop (readlines (universal t)) st = runRows cs st := by
  induction h with
  | eof => intro cs st hr; cases hr; rfl
  | rule t =>
    intro cs st hr
    cases hr
    rw [universal_cons (by decide), readlines, if_neg (by decide)]
    split
    · rw [dataLoop, if_pos (by rfl)]; rfl
    · rw [dataLoop, if_pos (by rfl)]; rfl
  | blank k ht ih =>
    intro cs st hr
    rw [lines_of (inline_blanks k), dataLoop, if_neg, if_pos (tokens_blank k), ih hr]
    rw [isRule_of]
    · decide
    · cases k <;> simp [List.replicate_succ]
  | row k hs ht ih =>
    intro cs st hr
    cases hr with
    | cons h1 h2 =>
      rename_i s t rows c cs
      have hin := inline_append (spaced_inline hs) (inline_blanks k)
      have hd : (s ++ List.replicate k ' ' ++ ['\n']).head? ≠ some '_' := by
        have := spaced_head hs
        have hne : s ≠ [] := by cases hs with
          | one hf => exact hf.1
          | cons n hf _ => simp
        obtain ⟨x, y, rfl⟩ := List.exists_cons_of_ne_nil hne
        rw [List.cons_append, List.cons_append, List.head?_cons]
        rw [List.head?_cons] at this
        rw [this]; exact h1.2.1
      rw [lines_of hin, dataLoop, if_neg (by rw [isRule_of hd]; decide), h1.2.2 s hs k, if_neg (by omega), runRows]
      cases dataLine c st with
      | error e => rfl
      | ok st' => exact ih h2

/-! ### All phases -/

/-- The entry of a record. -/
def entry (r : Record) : ℚ × RecData := (r.Tmax.value, r.data)

theorem records_spec {done : List (Str × PhaseData)} {symbol : Str} {dh s : ℚ} (hs : symbol ∉ done.map (·.1)) : ∀ (more : List Record) (recs : List (ℚ × RecData)) (r : Record),
    (∀ r' ∈ more, r'.Good) → List.IsChain (· ≠ ·) (r.id :: more.map Record.id) →
    (recs.map (·.1) ++ (r :: more).map (fun r => r.Tmax.value)).Nodup →
    ∃ T : ℚ, runRows (more.flatMap (Record.clean symbol)) (mid done symbol dh s recs r (values (r.first ++ r.more.flatten))) =
      .ok ⟨done ++ [(symbol, ⟨dh, s, recs ++ (r :: more).map entry⟩)], symbol, (r.id :: more.map Record.id).getLast (by simp), some T⟩
  | [], recs, r, _, _, _ => ⟨r.Tmax.value, rfl⟩
  | r' :: more, recs, r, hg, hc, hn => by
    have hc' := hc
    rw [List.map_cons, List.isChain_cons_cons] at hc'
    have hx : r'.Tmax.value ∉ (recs ++ [(r.Tmax.value, (⟨r.Tmin.value, r.Tmax.value, values (r.first ++ r.more.flatten)⟩ : RecData))]).map (·.1) := by
      intro hm
      rw [List.nodup_append] at hn
      rw [List.map_append, List.mem_append] at hm
      rcases hm with hm | hm
      · exact hn.2.2 _ hm _ (by simp) rfl
      · simp only [List.map_cons, List.map_nil, List.mem_singleton] at hm
        have := hn.2.1
        simp only [List.map_cons, List.nodup_cons, List.mem_cons, not_or] at this
        exact this.1.1 hm.symm
    have e := record_spec (dh := dh) (s := s) (recs := recs) (l := values (r.first ++ r.more.flatten)) hs (hg r' (by simp)) hc'.1 hx
    obtain ⟨T, hT⟩ := records_spec (dh := dh) (s := s) hs more (recs ++ [entry r]) r' (fun q hq => hg q (by simp [hq])) hc'.2 (by simpa [entry] using hn)
    refine ⟨T, ?_⟩
    rw [List.flatMap_cons, runRows_append (a := Record.clean symbol r') e]
    refine Eq.trans hT ?_
    simp

/-- A phase. -/
theorem phase_spec {st : St} {p : Phase} (hp : p.Good) (hs : p.symbol ∉ st.phases.map (·.1)) (h1 : p.symbol ≠ st.phaseold)
    (h2 : List.IsChain (· ≠ ·) (st.recordold :: p.records.map Record.id)) :
    ∃ T : ℚ, runRows (Phase.clean p) st = .ok ⟨st.phases ++ [(p.symbol, ⟨p.DH.value, p.S.value, p.records.map entry⟩)], p.symbol,
      (p.first.id :: p.more.map Record.id).getLast (by simp), some T⟩ := by
  have h2' := h2
  rw [Phase.records, List.map_cons, List.isChain_cons_cons] at h2'
  obtain ⟨T, hT⟩ := records_spec (dh := p.DH.value) (s := p.S.value) hs p.more [] p.first (fun r hr => hp.records r (by simp [Phase.records, hr])) h2'.2
    (show (p.records.map (fun r => r.Tmax.value)).Nodup from hp.ascending.imp (fun h => ne_of_lt h))
  refine ⟨T, ?_⟩
  rw [Phase.clean, runRows_append (first_spec hp hs h1 (Ne.symm h2'.1))]
  exact hT

/-- The phases as first read. -/
def raw (p : Phase) : Str × PhaseData := (p.symbol, ⟨p.DH.value, p.S.value, p.records.map entry⟩)

theorem phases_spec : ∀ (ps : List Phase) (st : St), (∀ p ∈ ps, p.Good) → (st.phases.map (·.1) ++ ps.map Phase.symbol).Nodup → st.phaseold ∉ ps.map Phase.symbol →
    List.IsChain (· ≠ ·) (st.recordold :: ids ps) → ∃ st', runRows (ps.flatMap Phase.clean) st = .ok st' ∧ st'.phases = st.phases ++ ps.map raw
  | [], st, _, _, _, _ => ⟨st, rfl, by simp⟩
  | p :: ps, st, hg, hn, ho, hc => by
    have hn' := hn
    rw [List.nodup_append] at hn'
    have hs : p.symbol ∉ st.phases.map (·.1) := fun hm => hn'.2.2 _ hm _ (by simp) rfl
    rw [ids, List.flatMap_cons] at hc
    change List.IsChain _ (st.recordold :: (p.records.map Record.id ++ ids ps)) at hc
    rw [← List.cons_append, List.isChain_append] at hc
    obtain ⟨T, hT⟩ := phase_spec (st := st) (hg p (by simp)) hs (fun e => ho (by simp [e])) hc.1
    have hid : List.IsChain (· ≠ ·) ((p.first.id :: p.more.map Record.id).getLast (by simp) :: ids ps) := by
      have hl : (st.recordold :: p.records.map Record.id).getLast? = some ((p.first.id :: p.more.map Record.id).getLast (by simp)) := by
        rw [Phase.records, List.map_cons, List.getLast?_cons_cons, List.getLast?_eq_some_getLast (by simp)]
      cases hi : ids ps with
      | nil => exact List.isChain_singleton _
      | cons x l =>
        rw [List.isChain_cons_cons]
        refine ⟨hc.2.2 _ hl _ (by rw [hi]; rfl), ?_⟩
        rw [← hi]; exact hc.2.1
    obtain ⟨st', e, e2⟩ := phases_spec ps ⟨st.phases ++ [(p.symbol, ⟨p.DH.value, p.S.value, p.records.map entry⟩)], p.symbol,
      (p.first.id :: p.more.map Record.id).getLast (by simp), some T⟩ (fun q hq => hg q (by simp [hq])) (by simpa using hn)
      (by have := hn'.2.1; simp only [List.map_cons, List.nodup_cons] at this; exact this.1) hid
    refine ⟨st', ?_, ?_⟩
    · rw [List.flatMap_cons, runRows_append hT]; exact e
    · rw [e2, List.map_cons, raw, List.append_assoc]; rfl

/-- The lowest temperature of ascending records. -/
theorem lowest_ascending {r : Record} {more : List Record} (h : ((r :: more).map (fun r => r.Tmax.value)).Pairwise (· < ·)) :
    lowest ((r :: more).map entry) = .ok r.Tmax.value := by
  rw [List.map_cons, List.pairwise_cons] at h
  have : ∀ l : List (ℚ × RecData), (∀ e ∈ l, r.Tmax.value < e.1) → l.foldl (fun m e => if e.1 < m then e.1 else m) r.Tmax.value = r.Tmax.value := by
    intro l
    induction l with
    | nil => intro _; rfl
    | cons e l ih =>
      intro hl
      rw [List.foldl_cons, if_neg (not_lt.2 (hl e (by simp)).le)]
      exact ih (fun e he => hl e (by simp [he]))
  rw [List.map_cons]
  change Except.ok ((more.map entry).foldl _ r.Tmax.value) = _
  rw [this]
  intro e he
  obtain ⟨q, hq, rfl⟩ := List.mem_map.1 he
  exact h.1 _ (List.mem_map.2 ⟨q, hq, rfl⟩)

theorem start_ascending {p : Phase} (hp : p.Good) : start (raw p).2 = .ok p.data := by
  have ha := hp.ascending
  unfold start
  rw [show (raw p).2.records = (p.first :: p.more).map entry from rfl, lowest_ascending ha]
  dsimp only
  rw [Phase.records, List.map_cons, List.pairwise_cons] at ha
  have hm : (p.more.map entry).map (fun e => if e.1 = p.first.Tmax.value then (e.1, { e.2 with Tmin := 298.15 }) else e) = p.more.map entry := by
    conv_rhs => rw [← List.map_id (p.more.map entry)]
    refine List.map_congr_left (fun e he => ?_)
    obtain ⟨q, hq, rfl⟩ := List.mem_map.1 he
    rw [if_neg]; · rfl
    exact (ne_of_lt (ha.1 _ (List.mem_map.2 ⟨q, hq, rfl⟩))).symm
  rw [List.map_cons, List.map_cons, hm, if_pos (by rfl)]
  rfl

theorem startAll_ascending : ∀ {ps : List Phase}, (∀ p ∈ ps, p.Good) → startAll (ps.map raw) = .ok (ps.map (fun p => (p.symbol, p.data)))
  | [], _ => rfl
  | p :: ps, h => by
    rw [List.map_cons, List.map_cons]
    change (match start (raw p).2 with | Except.error e => Except.error e | Except.ok p' => match startAll (ps.map raw) with
      | Except.error e => Except.error e | Except.ok l' => Except.ok ((p.symbol, p') :: l')) = _
    rw [start_ascending (h p (by simp)), startAll_ascending (fun q hq => h q (by simp [hq]))]

/-! ### The whole file -/

theorem split_at {a : Str} (ha : ∀ c ∈ a, c ≠ ' ') (s : Str) : split (a ++ ' ' :: s) = a :: split s := by
  induction a with
  | nil => rw [List.nil_append, split, if_pos rfl]
  | cons c a ih =>
    rw [List.cons_append, split, if_neg (ha c (by simp)), ih (fun d hd => ha d (by simp [hd]))]

theorem heads_drop {rule table : Str} (hr : Inline rule) : ∀ heads : List Str, (∀ h ∈ heads, Inline h ∧ h.head? ≠ some '_') →
    ((readlines (universal (heads.flatMap (fun h => h ++ ['\n']) ++ ('_' :: rule) ++ '\n' :: table))).dropWhile (fun l => !isRule l)).drop 1 =
      readlines (universal table)
  | [], _ => by
    rw [List.flatMap_nil, List.nil_append, lines_of (s := '_' :: rule) (inline_append (s := ['_']) (by intro c hc; rw [List.mem_singleton.1 hc]; decide) hr), List.dropWhile_cons, if_neg (by simp [isRule])]
    rfl
  | h :: heads, hh => by
    have e : (h :: heads).flatMap (fun h => h ++ ['\n']) ++ ('_' :: rule) ++ '\n' :: table =
        h ++ '\n' :: (heads.flatMap (fun h => h ++ ['\n']) ++ ('_' :: rule) ++ '\n' :: table) := by simp
    rw [e, lines_of (hh h (by simp)).1, List.dropWhile_cons, if_pos, heads_drop hr heads (fun q hq => hh q (by simp [hq]))]
    rw [isRule_of]; · rfl
    cases h with
    | nil => simp
    | cons c h => simpa using (hh (c :: h) (by simp)).2

/-- The formula and the table of a file. -/
theorem read_parts {formula : Str} {rows cs : List (List Str)} {t : Str} (h : FileText formula rows t) (hr : Reads rows cs) :
    readFactSage t = match runRows cs ⟨[], "zz".toList, "0".toList, none⟩ with
      | .error e => .error e
      | .ok st => match startAll st.phases with
        | .error e => .error e
        | .ok phases => .ok ⟨formula, phases⟩ := by
  obtain ⟨a, b, rule, table, heads, rfl, ha, hah, hf, hb, hh, hru, ht⟩ := h
  have hin : Inline (a ++ ' ' :: formula ++ ' ' :: b) :=
    inline_append (inline_append (item_inline ha) (inline_append (inline_blanks 1) (item_inline hf))) (inline_append (inline_blanks 1) hb)
  rw [readFactSage, lines_of hin, readLines]
  have hs : (split (a ++ ' ' :: formula ++ ' ' :: b ++ ['\n']))[1]? = some formula := by
    have e : a ++ ' ' :: formula ++ ' ' :: b ++ ['\n'] = a ++ ' ' :: (formula ++ ' ' :: (b ++ ['\n'])) := by simp
    rw [e, split_at (item_words ha), split_at (item_words hf)]; rfl
  rw [hs]
  dsimp only
  rw [List.dropWhile_cons, if_pos, heads_drop hru heads hh, table_loop ht hr]
  · cases runRows cs ⟨[], "zz".toList, "0".toList, none⟩ <;> rfl
  · rw [isRule_of]; · rfl
    obtain ⟨c, a', rfl⟩ := List.exists_cons_of_ne_nil ha.1
    simpa using hah

end Auxi.FactSage
