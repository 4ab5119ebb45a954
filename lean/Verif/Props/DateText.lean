import Verif.Spec.DateText
import Verif.Proofs.Calendar
import Verif.Props.Reports

/-! # Property C132: dates given as text -/
namespace Auxi.DateText.Props
open Auxi.DateText.Spec Calendar Reports Auxi

theorem digit_eq (c : Char) : digit? c = if c.isDigit then some ((c.toNat : Int) - 48) else none := by
  unfold digit? Char.isDigit
  have h0 : '0'.toNat = 48 := rfl
  have h9 : '9'.toNat = 57 := rfl
  rw [h0, h9]
  have e1 : (c.val ≥ 48) ↔ 48 ≤ c.toNat := by
    show (48 : UInt32) ≤ c.val ↔ _
    rw [UInt32.le_iff_toNat_le]; rfl
  have e2 : (c.val ≤ 57) ↔ c.toNat ≤ 57 := by
    rw [UInt32.le_iff_toNat_le]; rfl
  by_cases h : 48 ≤ c.toNat ∧ c.toNat ≤ 57
  · rw [if_pos h, if_pos (by simp only [Bool.and_eq_true, decide_eq_true_eq]; exact ⟨e1.2 h.1, e2.2 h.2⟩)]
    congr 1; omega
  · rw [if_neg h, if_neg (by simp only [Bool.and_eq_true, decide_eq_true_eq]; exact fun g => h ⟨e1.1 g.1, e2.1 g.2⟩)]

theorem isDigit_bounds {c : Char} (h : c.isDigit = true) : 0 ≤ (c.toNat : Int) - 48 ∧ (c.toNat : Int) - 48 ≤ 9 := by
  have := digit_eq c
  rw [if_pos h] at this
  unfold digit? at this
  have h0 : '0'.toNat = 48 := rfl
  have h9 : '9'.toNat = 57 := rfl
  rw [h0, h9] at this
  split at this
  · omega
  · simp at this

theorem year4_some {s : Str} {y : Int} {r : Str} : year4 s = some (y, r) ↔
    ∃ ys, s = ys ++ r ∧ Digits ys ∧ ys.length = 4 ∧ number ys = y := by
  constructor
  · intro h
    unfold year4 at h
    split at h
    · rename_i a b c d r'
      simp only [digit_eq] at h
      by_cases ha : a.isDigit = true <;> by_cases hb : b.isDigit = true <;> by_cases hc : c.isDigit = true <;>
        by_cases hd : d.isDigit = true <;> simp [ha, hb, hc, hd] at h
      refine ⟨[a, b, c, d], by simp [h.2], by simp [Digits, ha, hb, hc, hd], rfl, ?_⟩
      simp [number]; omega
    · simp at h
  · rintro ⟨ys, rfl, hd, hl, rfl⟩
    match ys, hl with
    | [a, b, c, d], _ =>
      simp only [Digits, List.mem_cons, List.not_mem_nil, or_false, forall_eq_or_imp, forall_eq] at hd
      obtain ⟨ha, hb, hc, hd⟩ := hd
      simp only [List.cons_append, List.nil_append, year4, digit_eq, ha, hb, hc, hd, if_true, number, List.foldl]
      congr 2; omega

theorem two_some {lo hi : Int} {s : Str} {m : Int} {r : Str} : two lo hi s = some (m, r) ↔
    ∃ ms, s = ms ++ r ∧ Digits ms ∧ ms.length = 2 ∧ number ms = m ∧ lo ≤ m ∧ m ≤ hi := by
  constructor
  · intro h
    unfold two at h
    split at h
    · rename_i a b r'
      simp only [digit_eq] at h
      by_cases ha : a.isDigit = true <;> by_cases hb : b.isDigit = true <;> simp [ha, hb] at h
      refine ⟨[a, b], by simp [h.2.2], by simp [Digits, ha, hb], rfl, ?_, ?_, ?_⟩
      · simp [number]; omega
      · omega
      · omega
    · simp at h
  · rintro ⟨ms, rfl, hd, hl, rfl, h1, h2⟩
    match ms, hl with
    | [a, b], _ =>
      simp only [Digits, List.mem_cons, List.not_mem_nil, or_false, forall_eq_or_imp, forall_eq] at hd
      obtain ⟨ha, hb⟩ := hd
      simp only [number, List.foldl] at h1 h2 ⊢
      simp only [List.cons_append, List.nil_append, two, digit_eq, ha, hb, if_true]
      rw [if_pos (by omega)]; congr 2; omega

theorem one_some {s : Str} {m : Int} {r : Str} : one s = some (m, r) ↔
    ∃ ms, s = ms ++ r ∧ Digits ms ∧ ms.length = 1 ∧ number ms = m ∧ 1 ≤ m := by
  constructor
  · intro h
    unfold one at h
    split at h
    · rename_i a r'
      simp only [digit_eq] at h
      by_cases ha : a.isDigit = true <;> simp [ha] at h
      refine ⟨[a], by simp [h.2.2], by simp [Digits, ha], rfl, ?_, ?_⟩
      · simp [number]; omega
      · omega
    · simp at h
  · rintro ⟨ms, rfl, hd, hl, rfl, h1⟩
    match ms, hl with
    | [a], _ =>
      simp only [Digits, List.mem_cons, List.not_mem_nil, or_false, forall_eq] at hd
      simp only [number, List.foldl] at h1 ⊢
      simp only [List.cons_append, List.nil_append, one, digit_eq, hd, if_true]
      rw [if_pos (by omega)]; congr 2; omega

/-- Two digits are not found where the second character is no digit. -/
theorem two_none_short {lo hi : Int} {a b : Char} {r : Str} (h : b.isDigit = false) : two lo hi (a :: b :: r) = none := by
  simp only [two, digit_eq, h]
  cases a.isDigit <;> rfl

theorem two_none_range {lo hi : Int} {a b : Char} {r : Str} (h : ¬ (lo ≤ number [a, b] ∧ number [a, b] ≤ hi)) : two lo hi (a :: b :: r) = none := by
  cases h' : two lo hi (a :: b :: r) with
  | none => rfl
  | some p =>
    obtain ⟨m, r'⟩ := p
    obtain ⟨ms, e, hd, hl, hn, h1, h2⟩ := two_some.1 h'
    match ms, hl with
    | [x, y], _ =>
      simp only [List.cons_append, List.nil_append, List.cons.injEq] at e
      obtain ⟨rfl, rfl, rfl⟩ := e
      exact absurd ⟨hn ▸ h1, hn ▸ h2⟩ h

theorem two_none_single {lo hi : Int} {a : Char} : two lo hi [a] = none := rfl

theorem number_nonneg : ∀ (s : Str), Digits s → s.length ≤ 2 → 0 ≤ number s ∧ number s ≤ 99 := by
  intro s hd hl
  match s, hl with
  | [], _ => simp [number]
  | [a], _ =>
    have := isDigit_bounds (hd a (by simp)); simp only [number, List.foldl]; omega
  | [a, b], _ =>
    have := isDigit_bounds (hd a (by simp)); have := isDigit_bounds (hd b (by simp)); simp only [number, List.foldl]; omega

theorem month_some {s : Str} {m : Int} {r : Str} : month? s = some (m, '-' :: r) ↔
    ∃ ms, s = ms ++ '-' :: r ∧ Digits ms ∧ (ms.length = 1 ∨ ms.length = 2) ∧ number ms = m ∧ 1 ≤ m ∧ m ≤ 12 := by
  constructor
  · intro h
    unfold month? at h
    rw [Option.or_eq_some_iff, Option.or_eq_some_iff] at h
    rcases h with h | ⟨_, h | ⟨_, h⟩⟩
    · obtain ⟨ms, e, hd, hl, hn, h1, h2⟩ := two_some.1 h
      exact ⟨ms, e, hd, .inr hl, hn, by omega, by omega⟩
    · obtain ⟨ms, e, hd, hl, hn, h1, h2⟩ := two_some.1 h
      exact ⟨ms, e, hd, .inr hl, hn, by omega, by omega⟩
    · obtain ⟨ms, e, hd, hl, hn, h1⟩ := one_some.1 h
      refine ⟨ms, e, hd, .inl hl, hn, h1, ?_⟩
      match ms, hl with
      | [a], _ =>
        have := isDigit_bounds (hd a (by simp)); simp only [number, List.foldl] at hn; omega
  · rintro ⟨ms, rfl, hd, hl, rfl, h1, h2⟩
    unfold month?
    rcases hl with hl | hl
    · match ms, hl with
      | [a], _ =>
        simp only [List.cons_append, List.nil_append]
        rw [two_none_short (by decide), two_none_short (by decide), Option.none_or, Option.none_or]
        exact one_some.2 ⟨[a], rfl, hd, rfl, rfl, h1⟩
    · match ms, hl with
      | [a, b], _ =>
        by_cases h10 : 10 ≤ number [a, b]
        · rw [two_some.2 ⟨[a, b], rfl, hd, rfl, rfl, h10, h2⟩]; rfl
        · have : two 10 12 ([a, b] ++ '-' :: r) = none := two_none_range (by omega)
          rw [this, two_some.2 ⟨[a, b], rfl, hd, rfl, rfl, h1, by omega⟩]; rfl

theorem day_some {s : Str} {d : Int} : day? s = some (d, []) ↔
    (Digits s ∧ (s.length = 1 ∨ s.length = 2) ∧ number s = d ∨ ∃ e : Str, s = ' ' :: e ∧ Digits e ∧ e.length = 1 ∧ number e = d) ∧
      1 ≤ d ∧ d ≤ 31 := by
  constructor
  · intro h
    unfold day? at h
    rw [Option.or_eq_some_iff, Option.or_eq_some_iff, Option.or_eq_some_iff, Option.or_eq_some_iff] at h
    have small : ∀ ms : Str, Digits ms → ms.length = 1 → number ms ≤ 9 := by
      intro ms hd hl
      match ms, hl with
      | [a], _ => have := isDigit_bounds (hd a (by simp)); simp only [number, List.foldl]; omega
    rcases h with h | ⟨_, h | ⟨_, h | ⟨_, h | ⟨_, h⟩⟩⟩⟩
    · obtain ⟨ms, e, hd, hl, hn, h1, h2⟩ := two_some.1 h
      rw [List.append_nil] at e; subst e
      exact ⟨.inl ⟨hd, .inr hl, hn⟩, by omega, by omega⟩
    · obtain ⟨ms, e, hd, hl, hn, h1, h2⟩ := two_some.1 h
      rw [List.append_nil] at e; subst e
      exact ⟨.inl ⟨hd, .inr hl, hn⟩, by omega, by omega⟩
    · obtain ⟨ms, e, hd, hl, hn, h1, h2⟩ := two_some.1 h
      rw [List.append_nil] at e; subst e
      exact ⟨.inl ⟨hd, .inr hl, hn⟩, by omega, by omega⟩
    · obtain ⟨ms, e, hd, hl, hn, h1⟩ := one_some.1 h
      rw [List.append_nil] at e; subst e
      have := small _ hd hl
      exact ⟨.inl ⟨hd, .inl hl, hn⟩, by omega, by omega⟩
    · unfold spaced at h
      split at h
      · obtain ⟨ms, e, hd, hl, hn, h1⟩ := one_some.1 h
        rw [List.append_nil] at e; subst e
        have := small _ hd hl
        exact ⟨.inr ⟨_, rfl, hd, hl, hn⟩, by omega, by omega⟩
      · simp at h
  · rintro ⟨h, h1, h2⟩
    unfold day?
    rcases h with ⟨hd, hl | hl, rfl⟩ | ⟨e, rfl, hd, hl, rfl⟩
    · match s, hl with
      | [a], _ =>
        simp only [two_none_single, Option.none_or]
        rw [one_some.2 ⟨[a], (List.append_nil _).symm, hd, rfl, rfl, h1⟩]; rfl
    · match s, hl with
      | [a, b], _ =>
        by_cases h30 : 30 ≤ number [a, b]
        · rw [two_some.2 ⟨[a, b], (List.append_nil _).symm, hd, rfl, rfl, h30, h2⟩]; rfl
        · rw [two_none_range (lo := 30) (hi := 31) (r := []) (by omega)]
          by_cases h10 : 10 ≤ number [a, b]
          · rw [two_some.2 ⟨[a, b], (List.append_nil _).symm, hd, rfl, rfl, h10, by omega⟩]; rfl
          · rw [two_none_range (lo := 10) (hi := 29) (r := []) (by omega),
              two_some.2 ⟨[a, b], (List.append_nil _).symm, hd, rfl, rfl, h1, by omega⟩]; rfl
    · match e, hl with
      | [a], _ =>
        have hsp : digit? ' ' = none := by decide
        have h2' : ∀ lo hi, two lo hi [' ', a] = none := by intro lo hi; simp [two, hsp]
        have h1' : one [' ', a] = none := by simp [one, hsp]
        rw [h2', h2', h2', h1']
        simp only [Option.none_or, spaced]
        exact one_some.2 ⟨[a], rfl, hd, rfl, rfl, h1⟩

theorem dash_some {s r : Str} : dash s = some r ↔ s = '-' :: r := by
  unfold dash; split <;> simp_all

theorem fields_some {s : Str} {y m d : Int} : fields s = some (y, m, d) ↔
    Written s y m d ∧ 1 ≤ m ∧ m ≤ 12 ∧ 1 ≤ d ∧ d ≤ 31 := by
  unfold fields
  constructor
  · intro h
    simp only [Option.bind_eq_bind, Option.bind_eq_some_iff, Prod.exists] at h
    obtain ⟨y', r1, hy, r2, h2, m', r3, hm, r4, h4, d', r5, hd, h⟩ := h
    split at h
    · rename_i h5
      subst h5
      simp only [Option.some.injEq, Prod.mk.injEq] at h
      obtain ⟨rfl, rfl, rfl⟩ := h
      rw [dash_some] at h2 h4
      subst h2; subst h4
      obtain ⟨ys, rfl, hys⟩ := year4_some.1 hy
      obtain ⟨ms, rfl, hm1, hm2, hm3, hm4, hm5⟩ := month_some.1 hm
      obtain ⟨hd1, hd2, hd3⟩ := day_some.1 hd
      exact ⟨⟨ys, ms, r4, rfl, hys, ⟨hm1, hm2, hm3⟩, hd1⟩, hm4, hm5, hd2, hd3⟩
    · simp at h
  · rintro ⟨⟨ys, ms, ds, rfl, hy, ⟨hm1, hm2, hm3⟩, hd⟩, h1, h2, h3, h4⟩
    rw [year4_some.2 ⟨ys, rfl, hy⟩]
    have hdash : ∀ t : Str, dash ('-' :: t) = some t := fun t => rfl
    simp only [Option.bind_eq_bind, Option.bind_some, hdash]
    rw [month_some.2 ⟨ms, rfl, hm1, hm2, hm3, h1, h2⟩]
    simp only [Option.bind_some, hdash]
    rw [day_some.2 ⟨hd, h3, h4⟩]
    simp

theorem written_year {s : Str} {y m d : Int} (h : Written s y m d) : y ≤ 9999 := by
  obtain ⟨ys, ms, ds, _, ⟨hd, hl, rfl⟩, _⟩ := h
  match ys, hl with
  | [a, b, c, e], _ =>
    have := isDigit_bounds (hd a (by simp)); have := isDigit_bounds (hd b (by simp))
    have := isDigit_bounds (hd c (by simp)); have := isDigit_bounds (hd e (by simp))
    simp only [number, List.foldl]; omega

/-- **C132.** A text is read as a day exactly if it is written `year-month-day` and names a day of the calendar; the day
read is that day. -/
theorem C132_reads (s : Str) (n : Int) :
    getDate (.text s) = .ok (.date n) ↔ ∃ y m d, Written s y m d ∧ IsDay n y m d := by
  have key : getDate (.text s) = .ok (.date n) ↔ strptime s = .ok n := by
    simp only [getDate]; cases strptime s <;> simp
  rw [key]
  unfold strptime
  constructor
  · intro h
    split at h
    · simp at h
    · rename_i y m d hf
      split at h
      · rename_i hv
        obtain ⟨hw, h1, h2, h3, h4⟩ := fields_some.1 hf
        simp only [Except.ok.injEq] at h
        refine ⟨y, m, d, hw, hv.1, written_year hw, h1, h2, h3, hv.2, by omega, by omega, ?_⟩
        rw [← h]; unfold dayNumber; omega
      · simp at h
  · rintro ⟨y, m, d, hw, hy, _, h1, h2, h3, h4, _, _, he⟩
    have := dim_pos y m
    rw [fields_some.2 ⟨hw, h1, h2, h3, by omega⟩]
    dsimp only
    rw [if_pos ⟨hy, h4⟩]
    congr 1; unfold dayNumber; omega

/-- **C132.** Text that is not such a date raises `ValueError`, nothing else. -/
theorem C132_refused (s : Str) (h : ¬ ∃ n y m d, Written s y m d ∧ IsDay n y m d) :
    getDate (.text s) = .error .valueError ∧ activityDate (.text s) = .error .valueError := by
  have key : strptime s = .error .valueError := by
    cases hs : strptime s with
    | ok n =>
      refine absurd ⟨n, (C132_reads s n).1 ?_⟩ h
      simp [getDate, hs]
    | error e =>
      unfold strptime at hs
      split at hs
      · simpa using hs.symm
      · split at hs
        · simp at hs
        · simpa using hs.symm
  simp [getDate, activityDate, key]

example : getDate (.text "2016-04-14".toList) = .ok (.date 736067) ∧ getDate (.text "2016-4-1".toList) = .ok (.date 736054) := by decide +kernel
example : getDate (.text "2016-02-29".toList) = .ok (.date 736022) ∧ getDate (.text "2015-02-29".toList) = .error .valueError := by decide +kernel
example : getDate (.text "14-04-2016".toList) = .error .valueError ∧ getDate (.text "2016-04-14 ".toList) = .error .valueError ∧
    getDate (.text "0000-01-01".toList) = .error .valueError ∧ getDate (.text "2016-13-01".toList) = .error .valueError := by decide +kernel

theorem chr_digit {k : Int} (h0 : 0 ≤ k) (h9 : k ≤ 9) : (chr k).isDigit = true ∧ ((chr k).toNat : Int) - 48 = k := by
  have : k = 0 ∨ k = 1 ∨ k = 2 ∨ k = 3 ∨ k = 4 ∨ k = 5 ∨ k = 6 ∨ k = 7 ∨ k = 8 ∨ k = 9 := by omega
  rcases this with rfl | rfl | rfl | rfl | rfl | rfl | rfl | rfl | rfl | rfl <;> decide

/-- **C132.** What `isoformat()` writes for a day is read as that day: by the reports as a `date`, by an activity as
midnight of it. -/
theorem C132_iso (n y m d : Int) (h : IsDay n y m d) :
    getDate (.text (iso y m d)) = .ok (.date n) ∧ activityDate (.text (iso y m d)) = .ok (.datetime (n * 86400000000)) := by
  have hg : getDate (.text (iso y m d)) = .ok (.date n) := by
    rw [C132_reads]
    refine ⟨y, m, d, ?_, h⟩
    obtain ⟨hy, hy', hm, hm', hd, hd', _⟩ := h
    have := dim_pos y m
    have y1 := chr_digit (k := y / 1000) (by omega) (by omega)
    have y2 := chr_digit (k := y / 100 % 10) (by omega) (by omega)
    have y3 := chr_digit (k := y / 10 % 10) (by omega) (by omega)
    have y4 := chr_digit (k := y % 10) (by omega) (by omega)
    have m1 := chr_digit (k := m / 10) (by omega) (by omega)
    have m2 := chr_digit (k := m % 10) (by omega) (by omega)
    have d1 := chr_digit (k := d / 10) (by omega) (by omega)
    have d2 := chr_digit (k := d % 10) (by omega) (by omega)
    refine ⟨[chr (y / 1000), chr (y / 100 % 10), chr (y / 10 % 10), chr (y % 10)], [chr (m / 10), chr (m % 10)], [chr (d / 10), chr (d % 10)],
      rfl, ⟨?_, rfl, ?_⟩, ⟨?_, .inr rfl, ?_⟩, .inl ⟨?_, .inr rfl, ?_⟩⟩
    · simp [Digits, y1.1, y2.1, y3.1, y4.1]
    · simp only [number, List.foldl, y1.2, y2.2, y3.2, y4.2]; omega
    · simp [Digits, m1.1, m2.1]
    · simp only [number, List.foldl, m1.2, m2.2]; omega
    · simp [Digits, d1.1, d2.1]
    · simp only [number, List.foldl, d1.2, d2.2]; omega
  refine ⟨hg, ?_⟩
  have : strptime (iso y m d) = .ok n := by
    simp only [getDate] at hg
    cases hs : strptime (iso y m d) <;> simp_all
  simp [activityDate, this, dayUs]

example : IsDay 736067 2016 4 14 := by unfold IsDay Time.Spec.IsDate; decide +kernel
example : iso 2016 4 14 = "2016-04-14".toList := by decide

/-- **C132.** Every day a `date` can hold has such a text, and the texts of different days differ. -/
theorem C132_every_day (n : Int) (h0 : 0 ≤ n) (h1 : n < 3652059) :
    ∃ s, getDate (.text s) = .ok (.date n) ∧ ∀ k, getDate (.text s) = .ok (.date k) → k = n := by
  obtain ⟨⟨hm1, hm2, hd1, hd2, _, _⟩, hmk⟩ := fields_valid (n * dayUs)
  have hday : n * dayUs / dayUs = n := by unfold dayUs; omega
  have hy : 1 ≤ year (n * dayUs) ∧ year (n * dayUs) ≤ 9999 := by
    have hs := yearOfDay_spec n
    have e : year (n * dayUs) = yearOfDay n := by unfold year; rw [hday]
    rw [e]
    have a0 : daysBeforeYear 1 = 0 := by decide
    have a1 : daysBeforeYear 10000 = 3652059 := by decide
    constructor
    · by_contra hc
      have := hs.2
      by_cases h' : yearOfDay n = 0
      · rw [h'] at this; simp only [zero_add] at this; omega
      · have := year_mono (a := yearOfDay n) (b := 1) (by omega); omega
    · by_contra hc
      have := hs.1
      by_cases h' : yearOfDay n = 10000
      · rw [h'] at this; omega
      · have := year_mono (a := 9999) (b := yearOfDay n) (by omega)
        norm_num at this; omega
  refine ⟨iso (year (n * dayUs)) (month (n * dayUs)) (day (n * dayUs)), ?_, ?_⟩
  · apply (C132_iso n _ _ _ _).1
    refine ⟨hy.1, hy.2, hm1, hm2, hd1, hd2, by omega, by omega, ?_⟩
    have ht : timeOfDay (n * dayUs) = 0 := by unfold timeOfDay dayUs; omega
    rw [ht] at hmk
    unfold mkDateTime dayNumber at hmk
    unfold dayUs at *
    omega
  · intro k hk
    have : getDate (.text (iso (year (n * dayUs)) (month (n * dayUs)) (day (n * dayUs)))) = .ok (.date n) := by
      apply (C132_iso n _ _ _ _).1
      refine ⟨hy.1, hy.2, hm1, hm2, hd1, hd2, by omega, by omega, ?_⟩
      have ht : timeOfDay (n * dayUs) = 0 := by unfold timeOfDay dayUs; omega
      rw [ht] at hmk
      unfold mkDateTime dayNumber at hmk
      unfold dayUs at *
      omega
    rw [this] at hk
    simpa using hk.symm

/-- **C132.** A date object is used as it is. -/
theorem C132_object (w : When) : getDate (.obj w) = .ok w ∧ activityDate (.obj w) = .ok w := ⟨rfl, rfl⟩

/-- **C132.** A transaction list asked for with two days written as text, over a ledger dated by days, lists the
transactions from the first to the last of these days, both included, in date order, with their total. -/
theorem C132_transaction_list (comp : Str) (a b ya ma da yb mb db : Int) (txs : List RTx)
    (ha : IsDay a ya ma da) (hb : IsDay b yb mb db) (hd : ∀ t ∈ txs, t.source.isSome ∧ t.date.isDate = true) :
    ∃ l : List RTx,
      l.Perm (txs.filter (fun t => comp.isPrefixOf (t.source.getD []) && decide (a ≤ t.date.key) && decide (t.date.key ≤ b))) ∧
      l.Pairwise (fun s t => s.date.key ≤ t.date.key) ∧
      transactionListFrom comp (.text (iso ya ma da)) (.text (iso yb mb db)) txs = .ok (
        [tx "Date", tx "Source", tx "Tx Name", tx "Debit Account", tx "Credit Account", tx "Amount", tx "Description"] ::
        l.map (fun t => txRow t (t.source.getD [])) ++
        [[tx "", tx "", tx "Total", tx "", tx "", .money (l.map RTx.amount).sum, tx ""]]) := by
  obtain ⟨t, ht⟩ := Reports.Props.C11_succeeds comp (.date a) (.date b) txs rfl hd
  obtain ⟨l, h1, h2, _, h4⟩ := Reports.Props.C11_transaction_list comp _ _ txs t ht
  refine ⟨l, ?_, h2, ?_⟩
  · refine h1.trans (List.Perm.of_eq (List.filter_congr fun x hx => ?_))
    obtain ⟨hs, hk⟩ := hd x hx
    obtain ⟨s, hs⟩ := Option.isSome_iff_exists.1 hs
    unfold Reports.Spec.selected
    cases hw : x.date with
    | date k => simp only [hs, Option.getD_some, When.key, Reports.Spec.notAfter, When.le]; rfl
    | datetime k => rw [hw] at hk; simp [When.isDate] at hk
  · simp only [transactionListFrom, (C132_iso a _ _ _ ha).1, (C132_iso b _ _ _ hb).1, ht, h4]

example : (transactionListFrom [] (.text "0001-01-01".toList) (.text "0001-01-08".toList) Reports.Props.txs0).map List.length = .ok 6 := by decide +kernel

/-- **C132.** Balance sheets and income statements asked for with days written as text are those of these days. -/
theorem C132_reports (s : Ledger.Structure) (comp : Str) (a b ya ma da yb mb db : Int) (txs : List RTx)
    (ha : IsDay a ya ma da) (hb : IsDay b yb mb db) :
    balanceSheetTo s (.text (iso yb mb db)) txs = balanceSheet s (.date b) txs ∧
    incomeStatementFrom s comp (.text (iso ya ma da)) (.text (iso yb mb db)) txs = incomeStatement s comp (.date a) (.date b) txs := by
  simp only [balanceSheetTo, incomeStatementFrom, (C132_iso a _ _ _ ha).1, (C132_iso b _ _ _ hb).1, and_self]

/-- **C132.** A report asked for with a text that is no day raises `ValueError`, whatever the ledger holds. -/
theorem C132_report_refused (s : Ledger.Structure) (comp text : Str) (other : Arg) (txs : List RTx)
    (h : ¬ ∃ n y m d, Written text y m d ∧ IsDay n y m d) :
    transactionListFrom comp (.text text) other txs = .error .valueError ∧
    incomeStatementFrom s comp (.text text) other txs = .error .valueError ∧
    balanceSheetTo s (.text text) txs = .error .valueError ∧
    ((∃ w, getDate other = .ok w) → transactionListFrom comp other (.text text) txs = .error .valueError ∧
      incomeStatementFrom s comp other (.text text) txs = .error .valueError) := by
  have := (C132_refused text h).1
  refine ⟨?_, ?_, ?_, ?_⟩
  · simp only [transactionListFrom, this]
  · simp only [incomeStatementFrom, this]
  · simp only [balanceSheetTo, this]
  · rintro ⟨w, hw⟩
    simp only [transactionListFrom, incomeStatementFrom, hw, this, and_self]

example : transactionListFrom [] (.text "2016-02-30".toList) (.obj (.date 5)) [] = .error .valueError := by decide +kernel

end Auxi.DateText.Props
