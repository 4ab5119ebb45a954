import Verif.Props.Money
import Verif.Props.Csv
import Verif.Props.RunReports

/-!
# Property C151: what the CSV file of a report tells
-/
namespace Auxi.Money.Props
open Auxi Auxi.Money Auxi.Reports Auxi.Reports.Spec Auxi.FileFormat.Spec Auxi.Calendar
open Auxi.FileFormat (pyFloat)
open Auxi.Csv (readRows writeRows)
open Auxi.DateText (getDate)

/-! ## Dates -/

theorem padded_inj {k a b : ℕ} (ha : a < 10 ^ k) (hb : b < 10 ^ k) (h : padded k a = padded k b) : a = b := by
  have := value_padded k a
  rw [h, value_padded, Nat.mod_eq_of_lt ha, Nat.mod_eq_of_lt hb] at this
  exact this.symm

theorem chr_eq {k : ℕ} (h : k < 10) : Nat.digitChar k = DateText.Spec.chr k := by
  have : k = 0 ∨ k = 1 ∨ k = 2 ∨ k = 3 ∨ k = 4 ∨ k = 5 ∨ k = 6 ∨ k = 7 ∨ k = 8 ∨ k = 9 := by omega
  rcases this with rfl | rfl | rfl | rfl | rfl | rfl | rfl | rfl | rfl | rfl <;> rfl

theorem padded2 {x : Int} (h0 : 0 ≤ x) (h1 : x ≤ 99) : padded 2 x.toNat = [DateText.Spec.chr (x / 10), DateText.Spec.chr (x % 10)] := by
  obtain ⟨n, rfl⟩ := Int.eq_ofNat_of_zero_le h0
  simp only [padded, Int.toNat_natCast, List.nil_append, List.cons_append]
  rw [chr_eq (by omega), chr_eq (by omega)]
  congr 2
  omega

theorem padded4 {x : Int} (h0 : 0 ≤ x) (h1 : x ≤ 9999) : padded 4 x.toNat =
    [DateText.Spec.chr (x / 1000), DateText.Spec.chr (x / 100 % 10), DateText.Spec.chr (x / 10 % 10), DateText.Spec.chr (x % 10)] := by
  obtain ⟨n, rfl⟩ := Int.eq_ofNat_of_zero_le h0
  simp only [padded, Int.toNat_natCast, List.nil_append, List.cons_append]
  rw [chr_eq (by omega), chr_eq (by omega), chr_eq (by omega), chr_eq (by omega)]
  have e1 : ((n / 10 / 10 / 10 % 10 : ℕ) : Int) = (n : Int) / 1000 := by omega
  have e2 : ((n / 10 / 10 % 10 : ℕ) : Int) = (n : Int) / 100 % 10 := by omega
  rw [e1, e2]
  congr 3

/-- The day numbers of Python's dates. -/
def InRange : When → Prop
  | .date n => 0 ≤ n ∧ n < 3652059
  | .datetime t => 0 ≤ t ∧ t < 3652059 * 86400000000

theorem day_year {n : Int} (h0 : 0 ≤ n) (h1 : n < 3652059) : 1 ≤ year (n * dayUs) ∧ year (n * dayUs) ≤ 9999 := by
  have hday : n * dayUs / dayUs = n := by unfold dayUs; omega
  have hs := yearOfDay_spec n
  have e : year (n * dayUs) = yearOfDay n := by unfold year; rw [hday]
  rw [e]
  have a0 : daysBeforeYear 1 = 0 := by decide
  have a1 : daysBeforeYear 10000 = 3652059 := by decide
  constructor
  · by_contra hc
    have := hs.2
    by_cases h' : yearOfDay n = 0
    · rw [h'] at this; simp only [zero_add] at this; omega
    · have := year_mono (a := yearOfDay n) (b := 1) (by omega); omega
  · by_contra hc
    have := hs.1
    by_cases h' : yearOfDay n = 10000
    · rw [h'] at this; omega
    · have := year_mono (a := 9999) (b := yearOfDay n) (by omega)
      norm_num at this; omega

theorem isDay_of {n : Int} (h0 : 0 ≤ n) (h1 : n < 3652059) : DateText.Spec.IsDay n (year (n * dayUs)) (month (n * dayUs)) (day (n * dayUs)) := by
  obtain ⟨⟨hm1, hm2, hd1, hd2, _, _⟩, hmk⟩ := fields_valid (n * dayUs)
  obtain ⟨y1, y2⟩ := day_year h0 h1
  refine ⟨y1, y2, hm1, hm2, hd1, hd2, by omega, by omega, ?_⟩
  have ht : timeOfDay (n * dayUs) = 0 := by unfold timeOfDay dayUs; omega
  rw [ht] at hmk
  unfold mkDateTime dayNumber at hmk
  unfold dayUs at *
  omega

theorem dayText_iso {n : Int} (h0 : 0 ≤ n) (h1 : n < 3652059) : dayText n = DateText.Spec.iso (year (n * dayUs)) (month (n * dayUs)) (day (n * dayUs)) := by
  obtain ⟨y1, y2, m1, m2, d1, d2, _⟩ := isDay_of h0 h1
  have := dim_pos (year (n * dayUs)) (month (n * dayUs))
  unfold dayText
  dsimp only
  rw [padded4 (by omega) y2, padded2 (by omega) (by omega), padded2 (by omega) (by omega)]
  rfl

theorem length_dayText (n : Int) : (dayText n).length = 10 := by
  unfold dayText; simp [length_padded]

theorem clockText_inj {a b : ℕ} (ha : a < 86400000000) (hb : b < 86400000000) (h : clockText a = clockText b) : a = b := by
  unfold clockText at h
  obtain ⟨h1, h⟩ := List.append_inj h (by rw [length_padded, length_padded])
  simp only [List.cons.injEq, true_and] at h
  obtain ⟨h2, h⟩ := List.append_inj h (by rw [length_padded, length_padded])
  simp only [List.cons.injEq, true_and] at h
  obtain ⟨h3, h⟩ := List.append_inj h (by rw [length_padded, length_padded])
  have e1 := padded_inj (by norm_num; omega) (by norm_num; omega) h1
  have e2 := padded_inj (by norm_num; omega) (by norm_num; omega) h2
  have e3 := padded_inj (by norm_num; omega) (by norm_num; omega) h3
  have e4 : a % 1000000 = b % 1000000 := by
    by_cases c1 : a % 1000000 = 0 <;> by_cases c2 : b % 1000000 = 0
    · omega
    · rw [if_pos c1, if_neg c2] at h; simp at h
    · rw [if_neg c1, if_pos c2] at h; simp at h
    · rw [if_neg c1, if_neg c2] at h
      simp only [List.cons.injEq, true_and] at h
      exact padded_inj (by norm_num; omega) (by norm_num; omega) h
  omega

/-- **C151 (days).** The date cell of a transaction dated by a day is text that a report accepts as that day. -/
theorem C151_day (n : Int) (h0 : 0 ≤ n) (h1 : n < 3652059) : getDate (.text (whenText (.date n))) = .ok (.date n) := by
  show getDate (.text (dayText n)) = _
  rw [dayText_iso h0 h1]
  exact (DateText.Props.C132_iso _ _ _ _ (isDay_of h0 h1)).1

/-- **C151 (times).** The date cell of a transaction dated by a time begins with text that a report accepts as the day of that time. -/
theorem C151_time (t : Int) (h0 : 0 ≤ t) (h1 : t < 3652059 * 86400000000) :
    getDate (.text ((whenText (.datetime t)).take 10)) = .ok (.date (t / 86400000000)) := by
  have : (whenText (.datetime t)).take 10 = whenText (.date (t / dayUs)) := by
    show (dayText (t / dayUs) ++ ' ' :: clockText (timeOfDay t).toNat).take 10 = dayText (t / dayUs)
    rw [List.take_left' (length_dayText _)]
  rw [this]
  exact C151_day _ (by unfold dayUs; omega) (by unfold dayUs; omega)

/-- **C151 (dates differ).** Different dates and times have different texts. -/
theorem C151_dates (a b : When) (ha : InRange a) (hb : InRange b) (h : whenText a = whenText b) : a = b := by
  cases a with
  | date m => cases b with
    | date n =>
      have h1 := C151_day m ha.1 ha.2
      rw [h, C151_day n hb.1 hb.2] at h1
      simpa using h1.symm
    | datetime t =>
      have := congrArg List.length h
      simp [whenText, length_dayText] at this
  | datetime s => cases b with
    | date n =>
      have := congrArg List.length h
      simp [whenText, length_dayText] at this
    | datetime t =>
      obtain ⟨e1, e2⟩ := List.append_inj h (by rw [length_dayText, length_dayText])
      have h1 := C151_day (s / dayUs) (by have := ha.1; unfold dayUs; omega) (by have := ha.2; unfold dayUs; omega)
      have h2 := C151_day (t / dayUs) (by have := hb.1; unfold dayUs; omega) (by have := hb.2; unfold dayUs; omega)
      rw [show whenText (.date (s / dayUs)) = whenText (.date (t / dayUs)) from e1, h2] at h1
      simp only [Except.ok.injEq, When.date.injEq] at h1
      simp only [List.cons.injEq, true_and] at e2
      have e3 := clockText_inj (by unfold timeOfDay dayUs; omega) (by unfold timeOfDay dayUs; omega) e2
      unfold timeOfDay dayUs at *
      congr 1
      omega

example : whenText (.date 736067) = "2016-04-14".toList ∧ whenText (.datetime (736067 * 86400000000 + 3723000001)) = "2016-04-14 01:02:03.000001".toList ∧
    whenText (.datetime 0) = "0001-01-01 00:00:00".toList := by decide +kernel
example : InRange (.date 736067) ∧ InRange (.datetime (736067 * 86400000000 + 3723000001)) := by unfold InRange; decide

/-! ## No line breaks in numbers and dates -/

theorem no_cr_digits {s : Str} (h : Digits s) : '\r' ∉ s := fun hc => absurd (h _ hc).1 (by decide)

theorem no_cr_padded (k n : ℕ) : '\r' ∉ padded k n := no_cr_digits (padded_digits k n)

theorem no_cr_money (q : ℚ) : '\r' ∉ money q := by
  unfold money
  have h1 := no_cr_digits (toDigits_digits (cents |q| / 100))
  have h2 := no_cr_padded 2 (cents |q| % 100)
  by_cases h : q < 0 <;> simp [h, h1, h2]

theorem no_cr_when (w : When) : '\r' ∉ whenText w := by
  have hd : ∀ n, '\r' ∉ dayText n := by
    intro n; unfold dayText; simp [no_cr_padded]
  cases w with
  | date n => exact hd n
  | datetime t =>
    have hc : ∀ us, '\r' ∉ clockText us := by
      intro us; unfold clockText
      by_cases h : us % 1000000 = 0 <;> simp [h, no_cr_padded]
    simp [whenText, hd, hc]

/-- The texts that a transaction brings into the list. -/
def textsOf (t : RTx) : List Str := [t.source.getD [], t.name, t.dt.getD [], t.cr.getD [], t.description.getD []]

theorem optText (o : Option Str) : cellText (optCell o) = o.getD [] := by cases o <;> rfl

theorem row_texts (t : RTx) : (txRow t (t.source.getD [])).map cellText =
    [whenText t.date, t.source.getD [], if t.name.isSuffixOf (t.source.getD []) then [] else t.name, t.dt.getD [], t.cr.getD [], money t.amount, t.description.getD []] := by
  simp only [txRow, List.map_cons, List.map_nil, optText]
  rfl

/-- The header of the list. -/
def header : List Str := ["Date".toList, "Source".toList, "Tx Name".toList, "Debit Account".toList, "Credit Account".toList, "Amount".toList, "Description".toList]

/-- The last row of the list. -/
def totalRow (q : ℚ) : List Str := [[], [], "Total".toList, [], [], money q, []]

theorem list_texts (l : List RTx) (q : ℚ) :
    texts ([tx "Date", tx "Source", tx "Tx Name", tx "Debit Account", tx "Credit Account", tx "Amount", tx "Description"] :: l.map (fun t => txRow t (t.source.getD [])) ++
        [[tx "", tx "", tx "Total", tx "", tx "", .money q, tx ""]]) =
      header :: l.map (fun t => [whenText t.date, t.source.getD [], if t.name.isSuffixOf (t.source.getD []) then [] else t.name, t.dt.getD [], t.cr.getD [], money t.amount, t.description.getD []]) ++
        [totalRow q] := by
  unfold texts
  rw [List.map_append, List.map_cons, List.map_map]
  congr 1
  congr 1
  apply List.map_congr_left
  intro t _
  exact row_texts t

theorem list_no_cr {newer : Bool} {l : List RTx} (q : ℚ) (h : newer = true ∨ ∀ t ∈ l, ∀ s ∈ textsOf t, '\r' ∉ s) :
    newer = true ∨ ∀ row ∈ (header :: l.map (fun t => [whenText t.date, t.source.getD [], if t.name.isSuffixOf (t.source.getD []) then [] else t.name, t.dt.getD [], t.cr.getD [],
      money t.amount, t.description.getD []]) ++ [totalRow q]), ∀ s ∈ row, '\r' ∉ s := by
  rcases h with h | h
  · exact .inl h
  · right
    intro row hr s hs
    simp only [List.cons_append, List.mem_cons, List.mem_append, List.mem_map, List.not_mem_nil, or_false] at hr
    rcases hr with rfl | ⟨t, ht, rfl⟩ | rfl
    · have : ∀ s ∈ header, '\r' ∉ s := by decide +kernel
      exact this s hs
    · have hT := h t ht
      simp only [textsOf, List.mem_cons, List.not_mem_nil, or_false, forall_eq_or_imp, forall_eq] at hT
      obtain ⟨t1, t2, t3, t4, t5⟩ := hT
      simp only [List.mem_cons, List.not_mem_nil, or_false] at hs
      rcases hs with rfl | rfl | rfl | rfl | rfl | rfl | rfl
      · exact no_cr_when _
      · exact t1
      · split
        · simp
        · exact t2
      · exact t3
      · exact t4
      · exact no_cr_money _
      · exact t5
    · simp only [totalRow, List.mem_cons, List.not_mem_nil, or_false] at hs
      rcases hs with rfl | rfl | rfl | rfl | rfl | rfl | rfl
      all_goals first | exact no_cr_money _ | decide

/-! ## The file of a transaction list -/

/-- What a row of the file says of a transaction: its date, source, name (unless the source ends with it), accounts and description, and its amount to half a cent. -/
structure Says (row : List Str) (t : RTx) : Prop where
  cells : ∃ date name amount, row = [date, t.source.getD [], name, t.dt.getD [], t.cr.getD [], amount, t.description.getD []] ∧
    date = whenText t.date ∧ (name = t.name ∨ name = [] ∧ t.name <:+ t.source.getD []) ∧ ∃ x, pyFloat amount = .ok x ∧ |x - t.amount| ≤ 1 / 200

theorem row_says (t : RTx) :
    Says [whenText t.date, t.source.getD [], if t.name.isSuffixOf (t.source.getD []) then [] else t.name, t.dt.getD [], t.cr.getD [], money t.amount, t.description.getD []] t := by
  refine ⟨_, _, _, rfl, rfl, ?_, _, money_value _, (signed_spec _).1⟩
  split
  · right; exact ⟨rfl, by simpa using ‹t.name.isSuffixOf (t.source.getD []) = true›⟩
  · exact .inl rfl

/-- **C151.** The CSV file of a transaction list reads as a header, a row for each selected transaction in date order that says what the transaction is, and a row with the total to half a cent.
(Before Python 3.13, if no text has a carriage return.) -/
theorem C151_file (newer : Bool) (comp : Str) (start stop : When) (txs : List RTx) (t : Table) (h : transactionList comp start stop txs = .ok t)
    (hcr : newer = true ∨ ∀ t ∈ txs, ∀ s ∈ textsOf t, '\r' ∉ s) :
    ∃ (l : List RTx) (rows : List (List Str)) (total : Str), l.Perm (txs.filter (selected comp start stop)) ∧ l.Pairwise (fun a b => a.date.key ≤ b.date.key) ∧
      readRows (csvText newer t) = .ok (header :: rows ++ [[[], [], "Total".toList, [], [], total, []]]) ∧ List.Forall₂ Says rows l ∧
      ∃ x, pyFloat total = .ok x ∧ |x - (l.map RTx.amount).sum| ≤ 1 / 200 := by
  obtain ⟨l, h1, h2, -, rfl⟩ := Reports.Props.C11_transaction_list comp start stop txs t h
  refine ⟨l, l.map (fun t => [whenText t.date, t.source.getD [], if t.name.isSuffixOf (t.source.getD []) then [] else t.name, t.dt.getD [], t.cr.getD [], money t.amount, t.description.getD []]),
    money (l.map RTx.amount).sum, h1, h2, ?_, ?_, _, money_value _, (signed_spec _).1⟩
  · have hl : newer = true ∨ ∀ t ∈ l, ∀ s ∈ textsOf t, '\r' ∉ s := by
      rcases hcr with hcr | hcr
      · exact .inl hcr
      · exact .inr fun t ht => hcr t (List.mem_of_mem_filter (h1.subset ht))
    obtain ⟨text, e1, e2⟩ := Csv.Props.C112_report_partial newer [] _ (list_no_cr (l.map RTx.amount).sum hl)
    simp only [Csv.renderCsv, Csv.Output.file.injEq] at e1
    unfold csvText
    rw [list_texts, e1.2, e2]
    rfl
  · rw [List.forall₂_map_left_iff]
    exact List.forall₂_same.2 fun t _ => row_says t

/-- The dates, sources, accounts and descriptions of the transactions are the same (an absent one counting as empty), the names as well unless the sources end with them, and the amounts differ by
at most a cent. -/
def Alike (a b : RTx) : Prop :=
  a.date = b.date ∧ a.source.getD [] = b.source.getD [] ∧ a.dt.getD [] = b.dt.getD [] ∧ a.cr.getD [] = b.cr.getD [] ∧ a.description.getD [] = b.description.getD [] ∧
    (a.name = b.name ∨ a.name <:+ a.source.getD [] ∧ b.name <:+ b.source.getD []) ∧ |a.amount - b.amount| ≤ 1 / 100

/-- **C151 (distinct).** Two transaction lists with the same CSV file list as many transactions, pairwise alike. -/
theorem C151_distinct_partial (newer : Bool) (comp comp' : Str) (start stop start' stop' : When) (txs txs' : List RTx) (t t' : Table)
    (h : transactionList comp start stop txs = .ok t) (h' : transactionList comp' start' stop' txs' = .ok t')
    (hcr : newer = true ∨ ∀ t ∈ txs ++ txs', ∀ s ∈ textsOf t, '\r' ∉ s) (hr : ∀ t ∈ txs ++ txs', InRange t.date) (he : csvText newer t = csvText newer t') :
    ∃ l l' : List RTx, l.Perm (txs.filter (selected comp start stop)) ∧ l.Pairwise (fun a b => a.date.key ≤ b.date.key) ∧
      l'.Perm (txs'.filter (selected comp' start' stop')) ∧ l'.Pairwise (fun a b => a.date.key ≤ b.date.key) ∧ List.Forall₂ Alike l l' := by
  have c1 : newer = true ∨ ∀ t ∈ txs, ∀ s ∈ textsOf t, '\r' ∉ s := hcr.imp id fun h t ht => h t (List.mem_append_left _ ht)
  have c2 : newer = true ∨ ∀ t ∈ txs', ∀ s ∈ textsOf t, '\r' ∉ s := hcr.imp id fun h t ht => h t (List.mem_append_right _ ht)
  obtain ⟨l, rows, total, p1, o1, f1, s1, -⟩ := C151_file newer comp start stop txs t h c1
  obtain ⟨l', rows', total', p2, o2, f2, s2, -⟩ := C151_file newer comp' start' stop' txs' t' h' c2
  refine ⟨l, l', p1, o1, p2, o2, ?_⟩
  rw [he, f2] at f1
  simp only [List.cons_append, Except.ok.injEq, List.cons.injEq, true_and] at f1
  have hrows : rows' = rows := (List.append_inj' f1 rfl).1
  subst hrows
  have m1 : ∀ t ∈ l, InRange t.date := fun t ht => hr t (List.mem_append_left _ (List.mem_of_mem_filter (p1.subset ht)))
  have m2 : ∀ t ∈ l', InRange t.date := fun t ht => hr t (List.mem_append_right _ (List.mem_of_mem_filter (p2.subset ht)))
  clear f1 f2 p1 p2 o1 o2
  induction s1 generalizing l' with
  | nil => cases s2; exact .nil
  | @cons row a rows l hs hsl ih =>
    obtain _ | ⟨hb, hbl⟩ := s2
    rename_i b l'
    refine .cons ?_ (ih l' hbl (fun t ht => m1 t (by simp [ht])) (fun t ht => m2 t (by simp [ht])))
    obtain ⟨d, n, am, e, hd, hn, x, hx, hxa⟩ := hs.cells
    obtain ⟨d', n', am', e', hd', hn', x', hx', hxa'⟩ := hb.cells
    rw [e] at e'
    simp only [List.cons.injEq, and_true] at e'
    obtain ⟨rfl, k1, rfl, k2, k3, rfl, k4⟩ := e'
    rw [hx] at hx'
    simp only [Except.ok.injEq] at hx'
    subst hx'
    refine ⟨C151_dates _ _ (m1 _ (by simp)) (m2 _ (by simp)) (hd.symm.trans hd'), k1, k2, k3, k4, ?_, ?_⟩
    · rcases hn with hn | ⟨hn, hs1⟩ <;> rcases hn' with hn' | ⟨hn', hs2⟩
      · exact .inl (hn.symm.trans hn')
      · right; refine ⟨?_, hs2⟩
        rw [← hn, hn']; exact List.nil_suffix
      · right; refine ⟨hs1, ?_⟩
        rw [← hn', hn]; exact List.nil_suffix
      · exact .inr ⟨hs1, hs2⟩
    · obtain ⟨a1, a2⟩ := abs_le.1 hxa
      obtain ⟨b1, b2⟩ := abs_le.1 hxa'
      rw [abs_le]; constructor <;> linarith

/-- A sample with texts that need quoting. -/
def sample : List RTx :=
  [{ name := "Sell, \"cash\"".toList, description := some "two\nlines".toList, date := .datetime (736067 * 86400000000), dt := some "Bank/Default".toList, cr := some "Sales".toList,
     source := some "/E/A".toList, amount := 2 / 3 },
   { name := "A".toList, description := none, date := .datetime (736066 * 86400000000), dt := some "Bank/Default".toList, cr := none, source := some "/E/A".toList, amount := -5 }]

example : (transactionList [] (.datetime 0) (.datetime (736069 * 86400000000)) sample).map (csvText true) =
    .ok ("Date,Source,Tx Name,Debit Account,Credit Account,Amount,Description\n2016-04-13 00:00:00,/E/A,,Bank/Default,,-5.00,\n" ++
      "2016-04-14 00:00:00,/E/A,\"Sell, \"\"cash\"\"\",Bank/Default,Sales,0.67,\"two\nlines\"\n,,Total,,,-4.33,\n").toList := by decide +kernel
example : ∀ t ∈ sample ++ sample, InRange t.date := by
  intro t ht
  simp only [sample, List.cons_append, List.nil_append, List.mem_cons, List.not_mem_nil, or_false] at ht
  rcases ht with rfl | rfl | rfl | rfl <;> (unfold InRange; decide)

/-- **C151 is violated** for the rest: a transaction without an account, without a description or with a name that ends its source has the same file as one with empty texts. -/
theorem C151_distinct_violated :
    let a : RTx := { name := "A".toList, description := none, date := .date 5, dt := none, cr := none, source := some "/E/A".toList, amount := 1 }
    let b : RTx := { name := "E/A".toList, description := some [], date := .date 5, dt := some [], cr := some [], source := some "/E/A".toList, amount := 1001 / 1000 }
    a ≠ b ∧ (transactionList [] (.date 0) (.date 9) [a]).map (csvText true) = (transactionList [] (.date 0) (.date 9) [b]).map (csvText true) := by
  refine ⟨by decide +kernel, by decide +kernel⟩

/-! ## The files of the other reports -/

/-- **C151 (balance sheet).** The last row of the file has the same text for both totals if the revenue and expense accounts net to zero; and if it has, they net to no more than a cent. -/
theorem C151_balance (s : Ledger.Structure) (stop : When) (txs : List RTx) (t : Table) (h : balanceSheet s stop txs = .ok t) :
    ∃ (rows : List (List Str)) (x y : Str), texts t = rows ++ [["Total".toList, x, "Total".toList, [], y]] ∧
      (netCreditOf s isIncome (upTo stop txs) = 0 → x = y) ∧ (x = y → |netCreditOf s isIncome (upTo stop txs)| ≤ 1 / 100) := by
  cases hb : sheetSums s stop txs with
  | error e => rw [balanceSheet, hb] at h; cases h
  | ok b =>
    have ht := Reports.Props.C10_table s stop txs b hb
    rw [h] at ht
    simp only [Except.ok.injEq] at ht
    refine ⟨texts ([tx "Assets", tx " ", tx "Liabilities and Equity", tx "", tx "  "] :: sideBySide (leftPart b) (rightPart b) ++
      [[tx "-----", tx "--------", tx "----------------------", tx "", tx "--------"]]), money (dictSum b.assets), money (dictSum b.liabilities + dictSum b.equity), ?_, ?_, ?_⟩
    · rw [ht]; simp [texts, cellText, tx]
    · intro h0; rw [(Reports.Props.C10_balances_iff s stop txs b hb).2 h0]
    · intro h0; rw [← Reports.Props.C10_balance s stop txs b hb]; exact (C150_same _ _ h0).1

/-- **C151 (any report).** The CSV file of any report reads as the texts of its cells. -/
theorem C151_any (newer : Bool) (t : Table) (h : newer = true ∨ ∀ row ∈ t, ∀ c ∈ row, ∀ s, c = Cell.text s → '\r' ∉ s) : readRows (csvText newer t) = .ok (texts t) := by
  have hh : newer = true ∨ ∀ row ∈ texts t, ∀ s ∈ row, '\r' ∉ s := by
    refine h.imp id fun h => ?_
    intro row hr s hs
    unfold texts at hr
    obtain ⟨r, hrt, rfl⟩ := List.mem_map.1 hr
    obtain ⟨c, hc, rfl⟩ := List.mem_map.1 hs
    cases c with
    | text s => exact h r hrt _ hc s rfl
    | money q => exact no_cr_money q
    | paren q => simp [cellText, no_cr_money]
    | date w => exact no_cr_when w
    | none => simp [cellText]
  obtain ⟨text, e1, e2⟩ := Csv.Props.C112_report_partial newer [] _ hh
  simp only [Csv.renderCsv, Csv.Output.file.injEq] at e1
  unfold csvText
  rw [e1.2, e2]

example : (balanceSheet Reports.Props.gls (.date 8) Reports.Props.txs0).map (fun t => (texts t).getLast?) =
    .ok (some ["Total".toList, "961.00".toList, "Total".toList, [], "1001.00".toList]) := by decide +kernel

open Auxi.Business Auxi.Business.Spec Auxi.Ledger Auxi.LedgerApi Auxi.RunReports.Spec Auxi.RunReports Time in
/-- **C151 (runs).** After the run of a model built as in C141, the transaction list rendered to a CSV file writes one file, which reads as a header, one row per transaction of the ledger, in the
order of time, that says what the transaction is, and the total to half a cent. -/
theorem C151_run (m : Model) (h1 : dtMin ≤ m.clock.start) (h2 : year (m.clock.atIx m.periodCount) ≤ 9998)
    (h : ∀ e ∈ m.entities, Complete e.chart ∧ NoRefunds e ∧ ∀ a ∈ activitiesOfList e.components, ∀ p ∈ a.referencedAccounts, (accountAt e.chart p).isSome)
    (e : Entity) (he : e ∈ (RunState.runModel m).val.entities) (newer : Bool) (out : Style → Table → Str) (hout : out .csv = csvText newer) (path : Str)
    (hcr : newer = true ∨ ∀ t ∈ (glOf e).transactions, ∀ s ∈ textsOf t, '\r' ∉ s) :
    ∃ (text : Str) (l : List RTx) (rows : List (List Str)) (total : Str),
      (glOf e).transactionList out (format := .csv) (path := some path) = .ok ([.write (path ++ ".csv".toList) text], none) ∧
      l.Perm (glOf e).transactions ∧ l.Pairwise (fun a b => a.date.key ≤ b.date.key) ∧
      readRows text = .ok (header :: rows ++ [[[], [], "Total".toList, [], [], total, []]]) ∧ List.Forall₂ Says rows l ∧
      ∃ x, pyFloat total = .ok x ∧ |x - ((glOf e).transactions.map RTx.amount).sum| ≤ 1 / 200 := by
  obtain ⟨⟨l, p1, p2, p3⟩, -, -⟩ := RunReports.Props.C141_reports m h1 h2 h e he out .csv (some path)
  have hl : newer = true ∨ ∀ t ∈ l, ∀ s ∈ textsOf t, '\r' ∉ s := hcr.imp id fun h t ht => h t (p1.subset ht)
  obtain ⟨text, e1, e2⟩ := Csv.Props.C112_report_partial newer [] _ (list_no_cr (((glOf e).transactions.map RTx.amount).sum) hl)
  simp only [Csv.renderCsv, Csv.Output.file.injEq] at e1
  refine ⟨_, l, l.map (fun t => [whenText t.date, t.source.getD [], if t.name.isSuffixOf (t.source.getD []) then [] else t.name, t.dt.getD [], t.cr.getD [], money t.amount,
    t.description.getD []]), money ((glOf e).transactions.map RTx.amount).sum, p3, p1, p2, ?_, ?_, _, money_value _, (signed_spec _).1⟩
  · rw [hout]
    unfold csvText
    rw [list_texts, e1.2, e2]
    rfl
  · rw [List.forall₂_map_left_iff]
    exact List.forall₂_same.2 fun t _ => row_says t

/-- The shipped example meets the conditions on texts; its file has 282 rows. -/
example : (RunState.runModel (Courier.model RunReports.Props.theLoan)).val.entities.flatMap (fun e =>
    (RunReports.Spec.glOf e).transactions.filter (fun t => (textsOf t).any (fun s => s.contains '\r'))) = [] := by decide +kernel
example : (RunState.runModel (Courier.model RunReports.Props.theLoan)).val.entities.flatMap (fun e =>
    (match transactionList [] (.datetime Business.dtMin) (.datetime Business.dtMax) (RunReports.Spec.glOf e).transactions with
      | .ok t => if t.length = 282 then [(texts t)[1]?, (texts t).getLast?] else []
      | .error _ => [])) =
    [some ["2016-03-01 00:00:00".toList, "/CourierZA/Operations/Loan".toList, [], "Bank/Default".toList, "Long Term Borrowing/Loan".toList, "200000.00".toList, "Make a loan".toList],
      some [[], [], "Total".toList, [], [], "4806180.73".toList, []]] := by decide +kernel

end Auxi.Money.Props
