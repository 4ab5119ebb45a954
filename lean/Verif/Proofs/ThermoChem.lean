import Verif.Spec.ThermoChem
import Mathlib.Data.List.Sort
import Mathlib.Analysis.SpecialFunctions.Integrals.Basic
import Mathlib.MeasureTheory.Integral.IntervalIntegral.FundThmCalculus
import Mathlib.MeasureTheory.Integral.IntegrableOn

/-! # Lemmas for C70–C79 -/
namespace Auxi.ThermoChem
open Spec MeasureTheory intervalIntegral Set

/-! ## Sorting -/

theorem insertRecord_perm (r : ℝ × CpRecord) (l : List (ℝ × CpRecord)) : (insertRecord r l).Perm (r :: l) := by
  induction l with
  | nil => exact List.Perm.refl _
  | cons s l ih =>
    unfold insertRecord
    split
    · exact List.Perm.refl _
    · exact (ih.cons s).trans (List.Perm.swap r s l)

theorem sortRecords_perm (l : List (ℝ × CpRecord)) : (sortRecords l).Perm l := by
  induction l with
  | nil => exact List.Perm.refl _
  | cons r l ih => exact (insertRecord_perm r _).trans (ih.cons r)

theorem insertRecord_sorted (r : ℝ × CpRecord) (l : List (ℝ × CpRecord)) (h : l.Pairwise (fun a b => a.1 ≤ b.1)) :
    (insertRecord r l).Pairwise (fun a b => a.1 ≤ b.1) := by
  induction l with
  | nil => simp [insertRecord]
  | cons s l ih =>
    rw [List.pairwise_cons] at h
    unfold insertRecord
    split
    · rename_i hle
      refine List.pairwise_cons.2 ⟨fun b hb => ?_, List.pairwise_cons.2 h⟩
      rcases List.mem_cons.1 hb with rfl | hb
      · exact hle
      · exact hle.trans (h.1 b hb)
    · rename_i hle
      refine List.pairwise_cons.2 ⟨fun b hb => ?_, ih h.2⟩
      have := (insertRecord_perm r l).mem_iff.1 hb
      rcases List.mem_cons.1 this with rfl | hb
      · exact (not_le.1 hle).le
      · exact h.1 b hb

theorem sortRecords_sorted (l : List (ℝ × CpRecord)) : (sortRecords l).Pairwise (fun a b => a.1 ≤ b.1) := by
  induction l with
  | nil => exact List.Pairwise.nil
  | cons r l ih => exact insertRecord_sorted r _ ih

theorem contiguous_gt {a : ℝ} {l : List (ℝ × CpRecord)} (h : Contiguous a l) : ∀ r ∈ l, a < r.1 := by
  induction l generalizing a with
  | nil => simp
  | cons s l ih =>
    obtain ⟨h1, h2, h3, h4⟩ := h
    intro r hr
    rcases List.mem_cons.1 hr with rfl | hr
    · rw [h1]; exact h3
    · exact h3.trans (ih h4 r hr)

theorem contiguous_sorted {a : ℝ} {l : List (ℝ × CpRecord)} (h : Contiguous a l) : l.Pairwise (fun a b => a.1 < b.1) := by
  induction l generalizing a with
  | nil => exact List.Pairwise.nil
  | cons s l ih =>
    obtain ⟨h1, h2, h3, h4⟩ := h
    exact List.pairwise_cons.2 ⟨fun r hr => by rw [h1]; exact contiguous_gt h4 r hr, ih h4⟩

theorem sort_eq {p : Phase} {T0 : ℝ} {l : List (ℝ × CpRecord)} (h : Covers p T0 l) : sortRecords p.records = l := by
  have hs := contiguous_sorted h.contiguous
  have hp : (sortRecords p.records).Perm l := (sortRecords_perm _).trans h.perm.symm
  refine List.Perm.eq_of_pairwise (le := fun a b : ℝ × CpRecord => a.1 ≤ b.1) ?_ (sortRecords_sorted _) (hs.imp (fun h => h.le)) hp
  intro a b ha hb h1 h2
  have ha' := hp.mem_iff.1 ha
  by_contra hne
  rcases List.pairwise_iff_getElem.1 hs with hs'
  obtain ⟨i, hi, rfl⟩ := List.getElem_of_mem ha'
  obtain ⟨j, hj, rfl⟩ := List.getElem_of_mem hb
  rcases lt_trichotomy i j with hij | rfl | hij
  · exact absurd (hs' i j hi hj hij) (not_lt.2 h2)
  · exact hne rfl
  · exact absurd (hs' j i hj hi hij) (not_lt.2 h1)

/-! ## One record -/

theorem foldl_add {α : Type} (f : α → ℝ) (l : List α) (a : ℝ) : l.foldl (fun acc t => acc + f t) a = a + (l.map f).sum := by
  induction l generalizing a with
  | nil => simp
  | cons x l ih => simp [ih, add_assoc]

theorem Cp_sum (r : CpRecord) (T : ℝ) : r.Cp T = (r.terms.map (fun t => t.1 * T ^ t.2)).sum := by
  rw [CpRecord.Cp, foldl_add]; simp

/-- One term of the enthalpy. -/
noncomputable def hTerm (a b : ℝ) (t : ℝ × ℝ) : ℝ :=
  if t.2 = -1 then t.1 * Real.log (b / a) else t.1 * (b ^ (t.2 + 1) - a ^ (t.2 + 1)) / (t.2 + 1)

theorem H_sum (r : CpRecord) (T : ℝ) : r.H T = (r.terms.map (hTerm r.Tmin (r.limit T))).sum := by
  have : (fun (acc : ℝ) (t : ℝ × ℝ) =>
      if t.2 = -1 then acc + t.1 * Real.log (r.limit T / r.Tmin)
      else acc + t.1 * (r.limit T ^ (t.2 + 1) - r.Tmin ^ (t.2 + 1)) / (t.2 + 1)) = fun acc t => acc + hTerm r.Tmin (r.limit T) t := by
    funext acc t; unfold hTerm; split <;> rfl
  rw [CpRecord.H, this, foldl_add]; simp

theorem S_sum (r : CpRecord) (T : ℝ) : r.S T = (r.terms.map (fun t => hTerm r.Tmin (r.limit T) (t.1, t.2 - 1))).sum := by
  have : (fun (acc : ℝ) (t : ℝ × ℝ) =>
      let em := t.2 - 1
      if em = -1 then acc + t.1 * Real.log (r.limit T / r.Tmin)
      else
        let e := em + 1
        acc + t.1 * (r.limit T ^ e - r.Tmin ^ e) / e) = fun acc t => acc + hTerm r.Tmin (r.limit T) (t.1, t.2 - 1) := by
    funext acc t; unfold hTerm; dsimp only; split <;> rfl
  rw [CpRecord.S, this, foldl_add]; simp

theorem not_mem_uIcc {a b : ℝ} (ha : 0 < a) (hb : 0 < b) : (0 : ℝ) ∉ uIcc a b := by
  rw [mem_uIcc]; rintro (⟨h, _⟩ | ⟨h, _⟩) <;> linarith

theorem term_integrable {a b : ℝ} (ha : 0 < a) (hb : 0 < b) (t : ℝ × ℝ) : IntervalIntegrable (fun x => t.1 * x ^ t.2) volume a b :=
  (intervalIntegrable_rpow (Or.inr (not_mem_uIcc ha hb))).const_mul _

theorem hTerm_integral {a b : ℝ} (ha : 0 < a) (hb : 0 < b) (t : ℝ × ℝ) : hTerm a b t = ∫ x in a..b, t.1 * x ^ t.2 := by
  rw [intervalIntegral.integral_const_mul]
  unfold hTerm
  split
  · rename_i h
    rw [← integral_inv_of_pos ha hb]
    congr 1
    refine intervalIntegral.integral_congr (fun x _ => ?_)
    simp only [h, Real.rpow_neg_one]
  · rename_i h
    rw [integral_rpow (Or.inr ⟨h, not_mem_uIcc ha hb⟩), mul_div_assoc]

theorem sum_integral {a b : ℝ} (l : List (ℝ × ℝ)) (f : ℝ × ℝ → ℝ → ℝ) (h : ∀ t ∈ l, IntervalIntegrable (f t) volume a b) :
    IntervalIntegrable (fun x => (l.map (fun t => f t x)).sum) volume a b ∧
    (∫ x in a..b, (l.map (fun t => f t x)).sum) = (l.map (fun t => ∫ x in a..b, f t x)).sum := by
  induction l with
  | nil => simp
  | cons t l ih =>
    obtain ⟨i1, i2⟩ := ih (fun s hs => h s (List.mem_cons_of_mem _ hs))
    have h0 := h t List.mem_cons_self
    simp only [List.map_cons, List.sum_cons]
    exact ⟨h0.add i1, by rw [intervalIntegral.integral_add h0 i1, i2]⟩

theorem Cp_integrable (r : CpRecord) {a b : ℝ} (ha : 0 < a) (hb : 0 < b) : IntervalIntegrable r.Cp volume a b := by
  have := (sum_integral (a := a) (b := b) r.terms (fun t x => t.1 * x ^ t.2) (fun t _ => term_integrable ha hb t)).1
  refine this.congr (fun x _ => (Cp_sum r x).symm)

theorem limit_pos {r : CpRecord} {T : ℝ} (h : 0 < r.Tmax) (hT : 0 < T) : 0 < r.limit T := by
  unfold CpRecord.limit; split <;> assumption

theorem H_integral (r : CpRecord) {T : ℝ} (h0 : 0 < r.Tmin) (h1 : 0 < r.Tmax) (hT : 0 < T) : r.H T = ∫ x in r.Tmin..r.limit T, r.Cp x := by
  have hl := limit_pos h1 hT
  have e : r.Cp = fun x => (r.terms.map (fun t => t.1 * x ^ t.2)).sum := funext (Cp_sum r)
  rw [e, (sum_integral (a := r.Tmin) (b := r.limit T) r.terms (fun t x => t.1 * x ^ t.2) (fun t _ => term_integrable h0 hl t)).2, H_sum]
  exact congrArg List.sum (List.map_congr_left (fun t _ => hTerm_integral h0 hl t))

theorem CpT_sum (r : CpRecord) {x : ℝ} (hx : 0 < x) : r.Cp x / x = (r.terms.map (fun t => t.1 * x ^ (t.2 - 1))).sum := by
  rw [Cp_sum, div_eq_mul_inv, mul_comm, ← List.sum_map_mul_left]
  refine congrArg List.sum (List.map_congr_left (fun t _ => ?_))
  rw [Real.rpow_sub_one hx.ne']; field_simp

theorem CpT_integrable (r : CpRecord) {a b : ℝ} (ha : 0 < a) (hb : 0 < b) : IntervalIntegrable (fun x => r.Cp x / x) volume a b := by
  have := (sum_integral (a := a) (b := b) r.terms (fun t x => t.1 * x ^ (t.2 - 1)) (fun t _ => term_integrable ha hb (t.1, t.2 - 1))).1
  refine this.congr (fun x hx => (CpT_sum r ?_).symm)
  rcases mem_uIoc.1 hx with h | h <;> linarith

theorem S_integral (r : CpRecord) {T : ℝ} (h0 : 0 < r.Tmin) (h1 : 0 < r.Tmax) (hT : 0 < T) : r.S T = ∫ x in r.Tmin..r.limit T, r.Cp x / x := by
  have hl := limit_pos h1 hT
  have e : (∫ x in r.Tmin..r.limit T, r.Cp x / x) = ∫ x in r.Tmin..r.limit T, (r.terms.map (fun t => t.1 * x ^ (t.2 - 1))).sum := by
    refine intervalIntegral.integral_congr (fun x hx => CpT_sum r ?_)
    rcases mem_uIcc.1 hx with h | h <;> linarith
  rw [e, (sum_integral (a := r.Tmin) (b := r.limit T) r.terms (fun t x => t.1 * x ^ (t.2 - 1)) (fun t _ => term_integrable h0 hl (t.1, t.2 - 1))).2, S_sum]
  exact congrArg List.sum (List.map_congr_left (fun t _ => hTerm_integral h0 hl (t.1, t.2 - 1)))

/-! ## Contiguous records -/

/-- The integrand pieced together by the loop of `Phase.Cp`. -/
noncomputable def piece (f : CpRecord → ℝ → ℝ) (g : ℝ × CpRecord → ℝ → ℝ) (l : List (ℝ × CpRecord)) (T : ℝ) : ℝ :=
  match cpLoop T l with
  | some r => f r T
  | none => match l.getLast? with
    | none => 0
    | some r => g r T

/-- The loops of `Phase.H` and `Phase.S`, in general. -/
noncomputable def accLoop (F : CpRecord → ℝ → ℝ) (T : ℝ) : List (ℝ × CpRecord) → ℝ × Bool
  | [] => (0, false)
  | r :: l => open Classical in if T ≤ r.1 then (F r.2 T, true) else (F r.2 T + (accLoop F T l).1, (accLoop F T l).2)

/-- The loop and the extrapolation. -/
noncomputable def total (F : CpRecord → ℝ → ℝ) (E : ℝ × CpRecord → ℝ → ℝ) (l : List (ℝ × CpRecord)) (T : ℝ) : ℝ :=
  match accLoop F T l with
  | (x, true) => x
  | (x, false) => match l.getLast? with
    | none => 0
    | some r => x + E r T

theorem hLoop_acc (T : ℝ) (l : List (ℝ × CpRecord)) (a : ℝ) : hLoop T l a = (a + (accLoop CpRecord.H T l).1, (accLoop CpRecord.H T l).2) := by
  induction l generalizing a with
  | nil => simp [hLoop, accLoop]
  | cons r l ih => unfold hLoop accLoop; split <;> simp [ih, add_assoc]

theorem sLoop_acc (T : ℝ) (l : List (ℝ × CpRecord)) (a : ℝ) : sLoop T l a = (a + (accLoop CpRecord.S T l).1, (accLoop CpRecord.S T l).2) := by
  induction l generalizing a with
  | nil => simp [sLoop, accLoop]
  | cons r l ih => unfold sLoop accLoop; split <;> simp [ih, add_assoc]

theorem gLoop_acc (T : ℝ) (l : List (ℝ × CpRecord)) (a b : ℝ) :
    gLoop T l a b = ((hLoop T l a).1, (sLoop T l b).1, (hLoop T l a).2) ∧ (hLoop T l a).2 = (sLoop T l b).2 := by
  induction l generalizing a b with
  | nil => simp [gLoop, hLoop, sLoop]
  | cons r l ih =>
    unfold gLoop hLoop sLoop
    split
    · simp
    · exact ih _ _

theorem piece_single (f : CpRecord → ℝ → ℝ) (g : ℝ × CpRecord → ℝ → ℝ) (r : ℝ × CpRecord) (T : ℝ) :
    piece f g [r] T = if T < r.1 then f r.2 T else g r T := by
  unfold piece cpLoop
  by_cases h : T < r.1 <;> simp [h, cpLoop]

theorem piece_cons (f : CpRecord → ℝ → ℝ) (g : ℝ × CpRecord → ℝ → ℝ) (r s : ℝ × CpRecord) (l : List (ℝ × CpRecord)) (T : ℝ) :
    piece f g (r :: s :: l) T = if T < r.1 then f r.2 T else piece f g (s :: l) T := by
  by_cases h : T < r.1
  · simp [piece, cpLoop, h]
  · simp only [piece, cpLoop, h, if_false, List.getLast?_cons_cons]

theorem total_single (F : CpRecord → ℝ → ℝ) (E : ℝ × CpRecord → ℝ → ℝ) (r : ℝ × CpRecord) (T : ℝ) :
    total F E [r] T = if T ≤ r.1 then F r.2 T else F r.2 T + E r T := by
  by_cases h : T ≤ r.1 <;> simp [total, accLoop, h]

theorem total_cons (F : CpRecord → ℝ → ℝ) (E : ℝ × CpRecord → ℝ → ℝ) (r s : ℝ × CpRecord) (l : List (ℝ × CpRecord)) (T : ℝ) :
    total F E (r :: s :: l) T = if T ≤ r.1 then F r.2 T else F r.2 T + total F E (s :: l) T := by
  by_cases h : T ≤ r.1
  · simp [total, accLoop, h]
  · simp only [h, if_false]
    unfold total
    rw [accLoop, if_neg h, List.getLast?_cons_cons]
    cases hb : (accLoop F T (s :: l)).2 with
    | true => 
      have : accLoop F T (s :: l) = ((accLoop F T (s :: l)).1, true) := by rw [← hb]
      rw [this]
    | false =>
      have : accLoop F T (s :: l) = ((accLoop F T (s :: l)).1, false) := by rw [← hb]
      rw [this]
      cases hl : (s :: l).getLast? with
      | none => simp at hl
      | some x => simp [add_assoc]

/-- What the code integrates and the integrals it uses, for one kind of property. -/
structure Kind (f : CpRecord → ℝ → ℝ) (g : ℝ × CpRecord → ℝ → ℝ) (F : CpRecord → ℝ → ℝ) (E : ℝ × CpRecord → ℝ → ℝ) : Prop where
  fint : ∀ r a b, 0 < a → 0 < b → IntervalIntegrable (f r) volume a b
  gint : ∀ r a b, 0 < a → 0 < b → IntervalIntegrable (g r) volume a b
  F_eq : ∀ r T, 0 < r.Tmin → 0 < r.Tmax → 0 < T → F r T = ∫ x in r.Tmin..r.limit T, f r x
  E_eq : ∀ (r : ℝ × CpRecord) T, 0 < r.1 → 0 < T → E r T = ∫ x in r.1..T, g r x

theorem if_integrable {f g : ℝ → ℝ} {c a b : ℝ} (hf : IntervalIntegrable f volume a b) (hg : IntervalIntegrable g volume a b) :
    IntervalIntegrable (fun x => if x < c then f x else g x) volume a b := by
  rw [intervalIntegrable_iff] at *
  have := Integrable.piecewise (μ := volume.restrict (uIoc a b)) (s := Iio c) (f := f) (g := g) measurableSet_Iio (Integrable.integrableOn hf)
    (Integrable.integrableOn hg)
  refine this.congr (Filter.Eventually.of_forall (fun x => ?_))
  simp only [Set.piecewise, mem_Iio]

theorem piece_integrable {f g F E} (K : Kind f g F E) (l : List (ℝ × CpRecord)) {a b : ℝ} (ha : 0 < a) (hb : 0 < b) :
    IntervalIntegrable (piece f g l) volume a b := by
  induction l with
  | nil => exact (intervalIntegrable_const (c := (0 : ℝ)) : IntervalIntegrable (fun _ => (0 : ℝ)) volume a b)
  | cons r l ih =>
    cases l with
    | nil =>
      have : piece f g [r] = fun x => if x < r.1 then f r.2 x else g r x := funext (piece_single f g r)
      rw [this]
      exact if_integrable (K.fint _ _ _ ha hb) (K.gint _ _ _ ha hb)
    | cons s l =>
      have : piece f g (r :: s :: l) = fun x => if x < r.1 then f r.2 x else piece f g (s :: l) x := funext (piece_cons f g r s l)
      rw [this]
      exact if_integrable (K.fint _ _ _ ha hb) ih

theorem total_integral {f g F E} (K : Kind f g F E) (l : List (ℝ × CpRecord)) (hne : l ≠ []) {a : ℝ} (ha : 0 < a) (hc : Contiguous a l) {T : ℝ} (hT : 0 < T) :
    total F E l T = ∫ x in a..T, piece f g l x := by
  induction l generalizing a with
  | nil => exact absurd rfl hne
  | cons r l ih =>
    obtain ⟨h1, h2, h3, h4⟩ := hc
    have hmax : 0 < r.2.Tmax := ha.trans h3
    have hmin : 0 < r.2.Tmin := by rw [h2]; exact ha
    have hlt : ∀ x, x < r.1 → piece f g (r :: l) x = f r.2 x := by
      intro x hx; cases l with
      | nil => rw [piece_single, if_pos hx]
      | cons s l => rw [piece_cons, if_pos hx]
    have hF : ∀ b, 0 < b → b ≤ r.1 → F r.2 b = ∫ x in a..b, piece f g (r :: l) x := by
      intro b hb hbr
      rw [K.F_eq _ _ hmin hmax hb, h2]
      have hlim : r.2.limit b = b := by
        unfold CpRecord.limit; split
        · rfl
        · rename_i hn; rw [h1] at hbr; linarith
      rw [hlim]
      refine integral_congr_uIoo (fun x hx => ?_)
      rw [hlt]
      have : x < max a b := hx.2
      rcases lt_max_iff.1 this with h | h
      · rw [h1]; linarith
      · linarith
    have hFge : ∀ b, 0 < b → r.1 ≤ b → F r.2 b = F r.2 r.1 := by
      intro b hb hbr
      rw [K.F_eq _ _ hmin hmax hb, K.F_eq _ _ hmin hmax (by rw [h1]; exact hmax)]
      congr 1
      unfold CpRecord.limit
      rw [if_neg (by rw [h1] at hbr; linarith), if_neg (by rw [h1]; exact lt_irrefl _)]
    have hint : ∀ x y, 0 < x → 0 < y → IntervalIntegrable (piece f g (r :: l)) volume x y := fun x y hx hy => piece_integrable K _ hx hy
    have hr : 0 < r.1 := by rw [h1]; exact hmax
    by_cases hTr : T ≤ r.1
    · have : total F E (r :: l) T = F r.2 T := by
        cases l with
        | nil => rw [total_single, if_pos hTr]
        | cons s l => rw [total_cons, if_pos hTr]
      rw [this]; exact hF T hT hTr
    · have hTr' := not_le.1 hTr
      rw [← integral_add_adjacent_intervals (hint a r.1 ha hr) (hint r.1 T hr hT), ← hF r.1 hr le_rfl, ← hFge T hT hTr'.le]
      cases l with
      | nil =>
        rw [total_single, if_neg hTr, K.E_eq r T hr hT]
        congr 1
        refine integral_congr_uIoo (fun x hx => ?_)
        have : min r.1 T < x := hx.1
        rw [min_eq_left hTr'.le] at this
        rw [piece_single, if_neg this.not_gt]
      | cons s l =>
        rw [total_cons, if_neg hTr, ih (by simp) hmax h4, h1]
        congr 1
        refine integral_congr_uIoo (fun x hx => ?_)
        have : min r.2.Tmax T < x := hx.1
        rw [min_eq_left (by rw [← h1]; exact hTr'.le), ← h1] at this
        rw [piece_cons, if_neg this.not_gt]

/-- The enthalpy. -/
theorem kindH : Kind (fun r x => r.Cp x) (fun r _ => r.2.Cp r.1) CpRecord.H (fun r T => r.2.Cp r.1 * (T - r.1)) where
  fint r a b ha hb := Cp_integrable r ha hb
  gint r a b _ _ := intervalIntegrable_const
  F_eq r T h0 h1 hT := H_integral r h0 h1 hT
  E_eq r T _ _ := by simp [mul_comm]

/-- The entropy. -/
theorem kindS : Kind (fun r x => r.Cp x / x) (fun r x => r.2.Cp r.1 / x) CpRecord.S (fun r T => r.2.Cp r.1 * Real.log (T / r.1)) where
  fint r a b ha hb := CpT_integrable r ha hb
  gint r a b ha hb := by
    simp only [div_eq_mul_inv]
    exact (intervalIntegral.intervalIntegrable_inv (fun x hx => fun h => not_mem_uIcc ha hb (h ▸ hx)) continuousOn_id).const_mul _
  F_eq r T h0 h1 hT := S_integral r h0 h1 hT
  E_eq r T hr hT := by
    simp only [div_eq_mul_inv]
    rw [intervalIntegral.integral_const_mul, integral_inv_of_pos hr hT, div_eq_mul_inv]

theorem piece_S (l : List (ℝ × CpRecord)) (x : ℝ) :
    piece (fun r x => r.Cp x / x) (fun r x => r.2.Cp r.1 / x) l x = piece (fun r x => r.Cp x) (fun r _ => r.2.Cp r.1) l x / x := by
  unfold piece
  split
  · rfl
  · split
    · simp
    · rfl

/-! ## Phases -/

/-- Non-magnetic heat capacity of a list of records. -/
noncomputable def cpOf (l : List (ℝ × CpRecord)) (T : ℝ) : ℝ := piece (fun r x => r.Cp x) (fun r _ => r.2.Cp r.1) l T
/-- Non-magnetic enthalpy increment. -/
noncomputable def hOf (l : List (ℝ × CpRecord)) (T : ℝ) : ℝ := total CpRecord.H (fun r T => r.2.Cp r.1 * (T - r.1)) l T
/-- Non-magnetic entropy increment. -/
noncomputable def sOf (l : List (ℝ × CpRecord)) (T : ℝ) : ℝ := total CpRecord.S (fun r T => r.2.Cp r.1 * Real.log (T / r.1)) l T

theorem phase_Cp {p : Phase} {T0 : ℝ} {l : List (ℝ × CpRecord)} (h : Covers p T0 l) (T : ℝ) : p.Cp T = .ok (cpOf l T + p.CpMag T) := by
  unfold Phase.Cp cpOf piece
  rw [sort_eq h]
  cases cpLoop T l with
  | some r => rfl
  | none =>
    cases hl : l.getLast? with
    | none => exact absurd (List.getLast?_eq_none_iff.1 hl) h.ne
    | some r => rfl

theorem cpLoop_last {a : ℝ} {l : List (ℝ × CpRecord)} (h : Contiguous a l) {r : ℝ × CpRecord} (hr : l.getLast? = some r) : cpLoop r.1 l = none := by
  induction l generalizing a with
  | nil => rfl
  | cons s l ih =>
    obtain ⟨h1, h2, h3, h4⟩ := h
    cases l with
    | nil => simp at hr; subst hr; simp [cpLoop]
    | cons t l =>
      rw [List.getLast?_cons_cons] at hr
      rw [cpLoop, if_neg, ih h4 hr]
      have := contiguous_gt h4 r (List.mem_of_getLast? hr)
      rw [h1]; exact this.not_gt

theorem cpOf_last {a : ℝ} {l : List (ℝ × CpRecord)} (h : Contiguous a l) {r : ℝ × CpRecord} (hr : l.getLast? = some r) : cpOf l r.1 = r.2.Cp r.1 := by
  unfold cpOf piece; rw [cpLoop_last h hr, hr]

theorem loop_top (F : CpRecord → ℝ → ℝ) {a : ℝ} {l : List (ℝ × CpRecord)} (h : Contiguous a l) {r : ℝ × CpRecord} (hr : l.getLast? = some r) (T : ℝ) :
    (accLoop F T l).2 = decide (T ≤ r.1) := by
  induction l generalizing a with
  | nil => simp at hr
  | cons s l ih =>
    obtain ⟨h1, h2, h3, h4⟩ := h
    unfold accLoop
    cases l with
    | nil => simp at hr; subst hr; by_cases hT : T ≤ s.1 <;> simp [hT, accLoop]
    | cons t l =>
      rw [List.getLast?_cons_cons] at hr
      by_cases hT : T ≤ s.1
      · have := contiguous_gt h4 r (List.mem_of_getLast? hr)
        rw [← h1] at this
        simp [hT, hT.trans this.le]
      · simp only [hT, if_false]; exact ih h4 hr

/-- The surplus of the extrapolation for magnetic phases: the magnetic heat capacity at the upper limit is extrapolated although the magnetic terms
are added at the actual temperature as well. -/
noncomputable def surplus (p : Phase) (t : ℝ) (x : ℝ) (T : ℝ) : ℝ := if T ≤ t then 0 else p.CpMag t * x

theorem phase_H {p : Phase} {T0 : ℝ} {l : List (ℝ × CpRecord)} (h : Covers p T0 l) (T : ℝ) :
    p.H T = .ok (p.DHref + hOf l T + p.HMag T + surplus p (top T0 l) (T - top T0 l) T) := by
  unfold Phase.H hOf total
  rw [sort_eq h, hLoop_acc]
  cases hl : l.getLast? with
  | none => exact absurd (List.getLast?_eq_none_iff.1 hl) h.ne
  | some r =>
    have hk : r.1 = top T0 l := by
      have : ∀ (a : ℝ) (l : List (ℝ × CpRecord)), Contiguous a l → ∀ r ∈ l, r.1 = r.2.Tmax := by
        intro a l; induction l generalizing a with
        | nil => simp
        | cons s l ih => intro hc r hr; rcases List.mem_cons.1 hr with rfl | hr; exacts [hc.1, ih _ hc.2.2.2 r hr]
      simp [top, hl, this _ _ h.contiguous r (List.mem_of_getLast? hl)]
    have ht := loop_top CpRecord.H h.contiguous hl T
    dsimp only
    rw [phase_Cp h r.1, cpOf_last h.contiguous hl, ← hk]
    unfold surplus
    cases hb : accLoop CpRecord.H T l with
    | mk x b =>
      rw [hb] at ht
      dsimp only at ht ⊢
      subst ht
      by_cases hT : T ≤ r.1
      · simp [hT]
      · simp only [hT, decide_false, if_false]
        congr 1; ring

theorem phase_S {p : Phase} {T0 : ℝ} {l : List (ℝ × CpRecord)} (h : Covers p T0 l) (T : ℝ) :
    p.S T = .ok (p.Sref + sOf l T + p.SMag T + surplus p (top T0 l) (Real.log (T / top T0 l)) T) := by
  unfold Phase.S sOf total
  rw [sort_eq h, sLoop_acc]
  cases hl : l.getLast? with
  | none => exact absurd (List.getLast?_eq_none_iff.1 hl) h.ne
  | some r =>
    have hk : r.1 = top T0 l := by
      have : ∀ (a : ℝ) (l : List (ℝ × CpRecord)), Contiguous a l → ∀ r ∈ l, r.1 = r.2.Tmax := by
        intro a l; induction l generalizing a with
        | nil => simp
        | cons s l ih => intro hc r hr; rcases List.mem_cons.1 hr with rfl | hr; exacts [hc.1, ih _ hc.2.2.2 r hr]
      simp [top, hl, this _ _ h.contiguous r (List.mem_of_getLast? hl)]
    have ht := loop_top CpRecord.S h.contiguous hl T
    dsimp only
    rw [phase_Cp h r.1, cpOf_last h.contiguous hl, ← hk]
    unfold surplus
    cases hb : accLoop CpRecord.S T l with
    | mk x b =>
      rw [hb] at ht
      dsimp only at ht ⊢
      subst ht
      by_cases hT : T ≤ r.1
      · simp [hT]
      · simp only [hT, decide_false, if_false]
        congr 1; ring

end Auxi.ThermoChem
