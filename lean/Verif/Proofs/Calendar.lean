import Verif.Clock

namespace Auxi.Calendar

theorem leap_true {y : Int} (h : isLeap y = true) : y % 4 = 0 ∧ (y % 100 ≠ 0 ∨ y % 400 = 0) := by
  simpa [isLeap] using h

theorem leap_false {y : Int} (h : isLeap y = false) : y % 4 ≠ 0 ∨ (y % 100 = 0 ∧ y % 400 ≠ 0) := by
  simp [isLeap] at h
  by_cases h4 : y % 4 = 0
  · right; have := h (by omega); exact this
  · left; exact h4

theorem year_length (y : Int) : daysBeforeYear (y + 1) = daysBeforeYear y + 365 + (if isLeap y then 1 else 0) := by
  unfold daysBeforeYear
  cases h : isLeap y with
  | true => have := leap_true h; simp; omega
  | false => have := leap_false h; simp; omega

theorem year_mono {a b : Int} (h : a < b) : daysBeforeYear (a + 1) ≤ daysBeforeYear b := by
  unfold daysBeforeYear; omega

theorem yearOfDay_spec (n : Int) : daysBeforeYear (yearOfDay n) ≤ n ∧ n < daysBeforeYear (yearOfDay n + 1) := by
  unfold yearOfDay
  simp only
  generalize h0 : n / 146097 = q400
  generalize h1 : n % 146097 = r400
  have e0 : n = 146097 * q400 + r400 := by omega
  have b0 : 0 ≤ r400 ∧ r400 < 146097 := by omega
  generalize h2 : min (r400 / 36524) 3 = q100
  have e2 : 0 ≤ q100 ∧ q100 ≤ 3 ∧ 36524 * q100 ≤ r400 ∧ (r400 < 36524 * q100 + 36524 ∨ (q100 = 3 ∧ r400 ≤ 36524 * q100 + 36524)) := by omega
  generalize h3 : r400 - 36524 * q100 = r100
  generalize h4 : r100 / 1461 = q4
  generalize h5 : r100 % 1461 = r4
  have e5 : r100 = 1461 * q4 + r4 ∧ 0 ≤ r4 ∧ r4 < 1461 := by omega
  generalize h6 : min (r4 / 365) 3 = q1
  have e6 : 0 ≤ q1 ∧ q1 ≤ 3 ∧ 365 * q1 ≤ r4 ∧ (r4 < 365 * q1 + 365 ∨ (q1 = 3 ∧ r4 ≤ 365 * q1 + 365)) := by omega
  have e4 : 0 ≤ q4 ∧ q4 ≤ 24 := by omega
  unfold daysBeforeYear
  have a4 : (400 * q400 + 100 * q100 + 4 * q4 + q1 + 1 - 1) / 4 = 100 * q400 + 25 * q100 + q4 := by omega
  have a100 : (400 * q400 + 100 * q100 + 4 * q4 + q1 + 1 - 1) / 100 = 4 * q400 + q100 := by omega
  have a400 : (400 * q400 + 100 * q100 + 4 * q4 + q1 + 1 - 1) / 400 = q400 := by omega
  rw [a4, a100, a400]
  constructor
  · omega
  · clear a4 a100 a400 h0 h1 h2 h4 h5 h6
    by_cases c1 : q1 < 3
    · have b4 : (400 * q400 + 100 * q100 + 4 * q4 + q1 + 1 + 1 - 1) / 4 = 100 * q400 + 25 * q100 + q4 := by omega
      have b100 : (400 * q400 + 100 * q100 + 4 * q4 + q1 + 1 + 1 - 1) / 100 = 4 * q400 + q100 := by omega
      have b400 : (400 * q400 + 100 * q100 + 4 * q4 + q1 + 1 + 1 - 1) / 400 = q400 := by omega
      rw [b4, b100, b400]; omega
    · have e : q1 = 3 := by omega
      subst e
      have b4 : (400 * q400 + 100 * q100 + 4 * q4 + 3 + 1 + 1 - 1) / 4 = 100 * q400 + 25 * q100 + q4 + 1 := by omega
      rw [b4]
      by_cases c4 : q4 < 24
      · have b100 : (400 * q400 + 100 * q100 + 4 * q4 + 3 + 1 + 1 - 1) / 100 = 4 * q400 + q100 := by omega
        have b400 : (400 * q400 + 100 * q100 + 4 * q4 + 3 + 1 + 1 - 1) / 400 = q400 := by omega
        rw [b100, b400]; omega
      · have e : q4 = 24 := by omega
        subst e
        have b100 : (400 * q400 + 100 * q100 + 4 * 24 + 3 + 1 + 1 - 1) / 100 = 4 * q400 + q100 + 1 := by omega
        rw [b100]
        by_cases c100 : q100 < 3
        · have b400 : (400 * q400 + 100 * q100 + 4 * 24 + 3 + 1 + 1 - 1) / 400 = q400 := by omega
          rw [b400]; omega
        · have e : q100 = 3 := by omega
          subst e
          have b400 : (400 * q400 + 100 * 3 + 4 * 24 + 3 + 1 + 1 - 1) / 400 = q400 + 1 := by omega
          rw [b400]; omega

theorem yearOfDay_unique {n y : Int} (h1 : daysBeforeYear y ≤ n) (h2 : n < daysBeforeYear (y + 1)) : yearOfDay n = y := by
  have hs := yearOfDay_spec n
  rcases Int.lt_trichotomy (yearOfDay n) y with h | h | h
  · have := year_mono h; omega
  · exact h
  · have := year_mono h; omega

theorem month_cases {m : Int} (h : 1 ≤ m ∧ m ≤ 12) : m = 1 ∨ m = 2 ∨ m = 3 ∨ m = 4 ∨ m = 5 ∨ m = 6 ∨ m = 7 ∨ m = 8 ∨
    m = 9 ∨ m = 10 ∨ m = 11 ∨ m = 12 := by omega

/-- consecutive months are adjacent -/
theorem month_adjacent {y m : Int} (h : 1 ≤ m ∧ m ≤ 11) : daysBeforeMonth y (m + 1) = daysBeforeMonth y m + dim y m := by
  rcases month_cases (m := m) (by omega) with rfl | rfl | rfl | rfl | rfl | rfl | rfl | rfl | rfl | rfl | rfl | rfl <;>
    cases hl : isLeap y <;> simp_all [daysBeforeMonth, dim]

theorem december_end (y : Int) : daysBeforeMonth y 12 + dim y 12 = 365 + (if isLeap y then 1 else 0) := by
  cases hl : isLeap y <;> simp [daysBeforeMonth, dim, hl]

theorem dim_pos (y m : Int) : 28 ≤ dim y m ∧ dim y m ≤ 31 := by
  unfold dim
  split
  · split <;> omega
  · split <;> omega

theorem daysBeforeMonth_values (y : Int) :
    (isLeap y = true ∧ daysBeforeMonth y 1 = 0 ∧ daysBeforeMonth y 2 = 31 ∧ daysBeforeMonth y 3 = 60 ∧ daysBeforeMonth y 4 = 91 ∧ daysBeforeMonth y 5 = 121 ∧
      daysBeforeMonth y 6 = 152 ∧ daysBeforeMonth y 7 = 182 ∧ daysBeforeMonth y 8 = 213 ∧ daysBeforeMonth y 9 = 244 ∧
      daysBeforeMonth y 10 = 274 ∧ daysBeforeMonth y 11 = 305 ∧ daysBeforeMonth y 12 = 335) ∨
    (isLeap y = false ∧ daysBeforeMonth y 1 = 0 ∧ daysBeforeMonth y 2 = 31 ∧ daysBeforeMonth y 3 = 59 ∧ daysBeforeMonth y 4 = 90 ∧ daysBeforeMonth y 5 = 120 ∧
      daysBeforeMonth y 6 = 151 ∧ daysBeforeMonth y 7 = 181 ∧ daysBeforeMonth y 8 = 212 ∧ daysBeforeMonth y 9 = 243 ∧
      daysBeforeMonth y 10 = 273 ∧ daysBeforeMonth y 11 = 304 ∧ daysBeforeMonth y 12 = 334) := by
  cases h : isLeap y
  · right; simp [daysBeforeMonth, h]
  · left; simp [daysBeforeMonth, h]

/-- the search over month starts, on arbitrary increasing breakpoints -/
theorem month_search (s2 s3 s4 s5 s6 s7 s8 s9 s10 s11 s12 r : Int) (f : Int → Int)
    (h1 : f 1 ≤ r) (f2 : f 2 = s2) (f3 : f 3 = s3) (f4 : f 4 = s4) (f5 : f 5 = s5) (f6 : f 6 = s6) (f7 : f 7 = s7)
    (f8 : f 8 = s8) (f9 : f 9 = s9) (f10 : f 10 = s10) (f11 : f 11 = s11) (f12 : f 12 = s12) (f13 : r < f 13) :
    ∃ m, m = (if r < s2 then 1 else if r < s3 then 2 else if r < s4 then 3
      else if r < s5 then 4 else if r < s6 then 5 else if r < s7 then 6
      else if r < s8 then 7 else if r < s9 then 8 else if r < s10 then 9
      else if r < s11 then 10 else if r < s12 then 11 else (12 : Int)) ∧ 1 ≤ m ∧ m ≤ 12 ∧ f m ≤ r ∧ r < f (m + 1) := by
  by_cases c2 : r < s2
  · exact ⟨1, by rw [if_pos c2], by decide, by decide, h1, by simp [f2, c2]⟩
  rw [if_neg c2]
  by_cases c3 : r < s3
  · exact ⟨2, by rw [if_pos c3], by decide, by decide, by omega, by simp [f3, c3]⟩
  rw [if_neg c3]
  by_cases c4 : r < s4
  · exact ⟨3, by rw [if_pos c4], by decide, by decide, by omega, by simp [f4, c4]⟩
  rw [if_neg c4]
  by_cases c5 : r < s5
  · exact ⟨4, by rw [if_pos c5], by decide, by decide, by omega, by simp [f5, c5]⟩
  rw [if_neg c5]
  by_cases c6 : r < s6
  · exact ⟨5, by rw [if_pos c6], by decide, by decide, by omega, by simp [f6, c6]⟩
  rw [if_neg c6]
  by_cases c7 : r < s7
  · exact ⟨6, by rw [if_pos c7], by decide, by decide, by omega, by simp [f7, c7]⟩
  rw [if_neg c7]
  by_cases c8 : r < s8
  · exact ⟨7, by rw [if_pos c8], by decide, by decide, by omega, by simp [f8, c8]⟩
  rw [if_neg c8]
  by_cases c9 : r < s9
  · exact ⟨8, by rw [if_pos c9], by decide, by decide, by omega, by simp [f9, c9]⟩
  rw [if_neg c9]
  by_cases c10 : r < s10
  · exact ⟨9, by rw [if_pos c10], by decide, by decide, by omega, by simp [f10, c10]⟩
  rw [if_neg c10]
  by_cases c11 : r < s11
  · exact ⟨10, by rw [if_pos c11], by decide, by decide, by omega, by simp [f11, c11]⟩
  rw [if_neg c11]
  by_cases c12 : r < s12
  · exact ⟨11, by rw [if_pos c12], by decide, by decide, by omega, by simp [f12, c12]⟩
  rw [if_neg c12]
  exact ⟨12, rfl, by decide, by decide, by omega, by simpa using f13⟩

theorem monthOfDoy_spec {y r : Int} (h0 : 0 ≤ r) (h1 : r < 365 + (if isLeap y then 1 else 0)) :
    1 ≤ monthOfDoy y r ∧ monthOfDoy y r ≤ 12 ∧ daysBeforeMonth y (monthOfDoy y r) ≤ r ∧
      r < daysBeforeMonth y (monthOfDoy y r) + dim y (monthOfDoy y r) := by
  let f : Int → Int := fun m => if m ≤ 12 then daysBeforeMonth y m else daysBeforeMonth y 12 + dim y 12
  have hf : ∀ m, m ≤ 12 → f m = daysBeforeMonth y m := fun m hm => by simp [f, hm]
  obtain ⟨m, hm, g1, g2, g3, g4⟩ := month_search (daysBeforeMonth y 2) (daysBeforeMonth y 3) (daysBeforeMonth y 4)
    (daysBeforeMonth y 5) (daysBeforeMonth y 6) (daysBeforeMonth y 7) (daysBeforeMonth y 8) (daysBeforeMonth y 9)
    (daysBeforeMonth y 10) (daysBeforeMonth y 11) (daysBeforeMonth y 12) r f
    (by rw [hf 1 (by decide)]; simpa [daysBeforeMonth] using h0) (hf _ (by decide)) (hf _ (by decide)) (hf _ (by decide))
    (hf _ (by decide)) (hf _ (by decide)) (hf _ (by decide)) (hf _ (by decide)) (hf _ (by decide)) (hf _ (by decide))
    (hf _ (by decide)) (hf _ (by decide)) (by
      have : f 13 = daysBeforeMonth y 12 + dim y 12 := by simp [f]
      rw [this, december_end]; exact h1)
  have hmm : monthOfDoy y r = m := hm.symm
  rw [hmm]
  refine ⟨g1, g2, by rwa [hf m g2] at g3, ?_⟩
  by_cases e : m = 12
  · subst e
    have : f (12 + 1) = daysBeforeMonth y 12 + dim y 12 := by simp [f]
    rwa [this] at g4
  · rw [hf (m + 1) (by omega), month_adjacent (by omega)] at g4
    exact g4

theorem daysBeforeMonth_mono {y a b : Int} (ha : 1 ≤ a) (hb : b ≤ 12) (h : a < b) :
    daysBeforeMonth y a + dim y a ≤ daysBeforeMonth y b := by
  have : ∀ k : Nat, ∀ b : Int, b = a + 1 + k → b ≤ 12 → daysBeforeMonth y a + dim y a ≤ daysBeforeMonth y b := by
    intro k
    induction k with
    | zero => intro b hb hb2; rw [hb]; simp; rw [month_adjacent (by omega)]; exact Int.le_refl _
    | succ k ih =>
      intro b hb hb2
      have h1 := ih (b - 1) (by omega) (by omega)
      have h2 := month_adjacent (y := y) (m := b - 1) (by omega)
      have h3 := dim_pos y (b - 1)
      have e : b - 1 + 1 = b := by omega
      rw [e] at h2
      omega
  exact this (b - a - 1).toNat b (by omega) hb

theorem monthOfDoy_unique {y m r : Int} (hm : 1 ≤ m ∧ m ≤ 12) (h1 : daysBeforeMonth y m ≤ r)
    (h2 : r < daysBeforeMonth y m + dim y m) : monthOfDoy y r = m := by
  have h0 : 0 ≤ r := by
    have : 0 ≤ daysBeforeMonth y m := by
      by_cases e : m = 1
      · subst e; simp [daysBeforeMonth]
      · have := daysBeforeMonth_mono (y := y) (a := 1) (b := m) (by omega) hm.2 (by omega)
        have e1 : daysBeforeMonth y 1 = 0 := by simp [daysBeforeMonth]
        have := dim_pos y 1; omega
    omega
  have h3 : r < 365 + (if isLeap y then 1 else 0) := by
    rw [← december_end y]
    by_cases e : m = 12
    · subst e; exact h2
    · have := daysBeforeMonth_mono (y := y) (a := m) (b := 12) hm.1 (by omega) (by omega)
      have := dim_pos y 12; omega
  obtain ⟨s1, s2, s3, s4⟩ := monthOfDoy_spec h0 h3
  rcases Int.lt_trichotomy (monthOfDoy y r) m with h | h | h
  · have := daysBeforeMonth_mono (y := y) s1 hm.2 h; omega
  · exact h
  · have := daysBeforeMonth_mono (y := y) hm.1 s2 h; omega

/-- A valid set of calendar fields. -/
def Valid (y m d us : Int) : Prop := 1 ≤ m ∧ m ≤ 12 ∧ 1 ≤ d ∧ d ≤ dim y m ∧ 0 ≤ us ∧ us < dayUs

theorem dayNumber_in_year {y m d us : Int} (h : Valid y m d us) :
    daysBeforeYear y ≤ dayNumber y m d ∧ dayNumber y m d < daysBeforeYear (y + 1) := by
  obtain ⟨h1, h2, h3, h4, _, _⟩ := h
  rw [year_length]
  have e := december_end y
  have hm : 0 ≤ daysBeforeMonth y m := by
    by_cases e : m = 1
    · subst e; simp [daysBeforeMonth]
    · have := daysBeforeMonth_mono (y := y) (a := 1) (b := m) (by omega) h2 (by omega)
      have e1 : daysBeforeMonth y 1 = 0 := by simp [daysBeforeMonth]
      have := dim_pos y 1; omega
  have hM : daysBeforeMonth y m + dim y m ≤ daysBeforeMonth y 12 + dim y 12 := by
    by_cases e : m = 12
    · subst e; exact Int.le_refl _
    · have := daysBeforeMonth_mono (y := y) (a := m) (b := 12) h1 (by omega) (by omega)
      have := dim_pos y 12; omega
  unfold dayNumber
  omega

theorem fields_mk {y m d us : Int} (h : Valid y m d us) :
    year (mkDateTime y m d us) = y ∧ month (mkDateTime y m d us) = m ∧ day (mkDateTime y m d us) = d ∧
      timeOfDay (mkDateTime y m d us) = us := by
  have hy := dayNumber_in_year h
  obtain ⟨h1, h2, h3, h4, h5, h6⟩ := h
  have hd : mkDateTime y m d us / dayUs = dayNumber y m d := by
    unfold mkDateTime; unfold dayUs at *; omega
  have hu : mkDateTime y m d us % dayUs = us := by
    unfold mkDateTime; unfold dayUs at *; omega
  have ey : year (mkDateTime y m d us) = y := by
    unfold year; rw [hd]; exact yearOfDay_unique hy.1 hy.2
  have em : month (mkDateTime y m d us) = m := by
    unfold month; rw [ey, hd]
    apply monthOfDoy_unique ⟨h1, h2⟩ <;> unfold dayNumber <;> omega
  refine ⟨ey, em, ?_, hu⟩
  unfold day; rw [ey, em, hd]; unfold dayNumber; omega

theorem fields_valid (t : DateTime) : Valid (year t) (month t) (day t) (timeOfDay t) ∧
    mkDateTime (year t) (month t) (day t) (timeOfDay t) = t := by
  have hy := yearOfDay_spec (t / dayUs)
  have hyear : yearOfDay (t / dayUs) = year t := rfl
  rw [hyear] at hy
  rw [year_length] at hy
  have hm := monthOfDoy_spec (y := year t) (r := t / dayUs - daysBeforeYear (year t)) (by omega) (by omega)
  have hmonth : monthOfDoy (year t) (t / dayUs - daysBeforeYear (year t)) = month t := rfl
  rw [hmonth] at hm
  have hus : 0 ≤ timeOfDay t ∧ timeOfDay t < dayUs := by unfold timeOfDay dayUs; omega
  refine ⟨⟨hm.1, hm.2.1, ?_, ?_, hus.1, hus.2⟩, ?_⟩
  · unfold day; omega
  · unfold day; omega
  · unfold mkDateTime dayNumber
    have : daysBeforeYear (year t) + daysBeforeMonth (year t) (month t) + (day t - 1) = t / dayUs := by
      unfold day; omega
    rw [this]; unfold timeOfDay dayUs; omega

/-- number of months since year 0 -/
def monthIndex (y m : Int) : Int := y * 12 + (m - 1)

/-- dates in an earlier month are earlier -/
theorem lt_of_monthIndex {y m d us y' m' d' us' : Int} (h : Valid y m d us) (h' : Valid y' m' d' us')
    (hlt : monthIndex y m < monthIndex y' m') : mkDateTime y m d us < mkDateTime y' m' d' us' := by
  have key : dayNumber y m d < dayNumber y' m' d' := by
    have a := dayNumber_in_year h
    have a' := dayNumber_in_year h'
    obtain ⟨h1, h2, h3, h4, _, _⟩ := h
    obtain ⟨h1', h2', h3', h4', _, _⟩ := h'
    unfold monthIndex at hlt
    by_cases e : y = y'
    · subst e
      have := daysBeforeMonth_mono (y := y) (a := m) (b := m') h1 h2' (by omega)
      unfold dayNumber; omega
    · have := year_mono (a := y) (b := y') (by omega)
      omega
  obtain ⟨_, _, _, _, h5, h6⟩ := h
  obtain ⟨_, _, _, _, h5', h6'⟩ := h'
  unfold mkDateTime; unfold dayUs at *; omega

theorem addMonths_valid (t : DateTime) (k : Int) :
    Valid ((year t * 12 + (month t - 1) + k) / 12) ((year t * 12 + (month t - 1) + k) % 12 + 1)
      (min (dim ((year t * 12 + (month t - 1) + k) / 12) ((year t * 12 + (month t - 1) + k) % 12 + 1)) (day t)) (timeOfDay t) := by
  obtain ⟨⟨_, _, h3, h4, h5, h6⟩, _⟩ := fields_valid t
  have := dim_pos ((year t * 12 + (month t - 1) + k) / 12) ((year t * 12 + (month t - 1) + k) % 12 + 1)
  exact ⟨by omega, by omega, by omega, by omega, h5, h6⟩

theorem addYears_valid (t : DateTime) (k : Int) :
    Valid (year t + k) (month t) (min (dim (year t + k) (month t)) (day t)) (timeOfDay t) := by
  obtain ⟨⟨h1, h2, h3, h4, h5, h6⟩, _⟩ := fields_valid t
  have := dim_pos (year t + k) (month t)
  exact ⟨h1, h2, by omega, by omega, h5, h6⟩

theorem addMonths_strictMono (t : DateTime) {j k : Int} (h : j < k) : addMonths t j < addMonths t k := by
  apply lt_of_monthIndex (addMonths_valid t j) (addMonths_valid t k)
  unfold monthIndex; omega

theorem addYears_eq (t : DateTime) (k : Int) : addYears t k = addMonths t (12 * k) := by
  obtain ⟨⟨h1, h2, _⟩, _⟩ := fields_valid t
  unfold addYears addMonths
  have e1 : (year t * 12 + (month t - 1) + 12 * k) / 12 = year t + k := by omega
  have e2 : (year t * 12 + (month t - 1) + 12 * k) % 12 + 1 = month t := by omega
  simp only [e1, e2]

theorem addMonths_zero (t : DateTime) : addMonths t 0 = t := by
  obtain ⟨⟨h1, h2, h3, h4, _⟩, he⟩ := fields_valid t
  unfold addMonths
  have e1 : (year t * 12 + (month t - 1) + 0) / 12 = year t := by omega
  have e2 : (year t * 12 + (month t - 1) + 0) % 12 + 1 = month t := by omega
  simp only [e1, e2]
  rw [show min (dim (year t) (month t)) (day t) = day t by omega]
  exact he

end Auxi.Calendar
