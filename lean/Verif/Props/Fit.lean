import Verif.Proofs.Fit
import Mathlib.Tactic.NormNum

/-! # Property C133: models fitted to data -/
namespace Auxi.Fit.Props
open Auxi.Fit Auxi.Fit.Spec Auxi.Fit.Proofs Polynomial Phys Auxi

/-- A procedure that solves the least squares problem exists, so that what is assumed of `np.polyfit` can be met. -/
theorem C133_fit_exists : ∃ fit, LeastSquares fit := by
  classical
  have : ∀ (l : List (ℝ × ℝ)) (n : Nat), ∃ cs : List ℝ, cs.length = n + 1 ∧
      ∀ p : ℝ[X], p.natDegree ≤ n → squares (value cs) l ≤ squares (fun T => p.eval T) l := by
    intro l n
    obtain ⟨p, hp, hm⟩ := exists_nearest n l
    obtain ⟨cs, hl, rfl⟩ := toPoly_surj n p hp
    refine ⟨cs, hl, fun q hq => ?_⟩
    have := hm q hq
    simpa only [eval_toPoly] using this
  choose f h1 h2 using this
  exact ⟨fun xs ys n => f (xs.zip ys) n, fun xs ys n _ _ => ⟨h1 _ _, h2 _ _⟩⟩

theorem call_eq (m : Model) (T : ℝ) (lo hi : ℝ) (cs : List ℝ) (h : m.poly = ⟨cs, lo, some hi⟩) :
    m.call T = if lo ≤ T ∧ T ≤ hi then .ok (value cs T) else .error .exception := by
  unfold Model.call Poly.calculate validate
  rw [h]
  by_cases hv : lo ≤ T ∧ T ≤ hi
  · rw [if_pos hv, if_pos]
    · simp [getNum, List.lookup, polyval_value]
    · refine ⟨?_, by simp⟩
      intro kv hkv
      simp only [List.mem_singleton] at hkv
      subst hkv
      exact ⟨.number lo (some hi), by simp [List.lookup], hv.1, by intro m hm; simp at hm; rw [← hm]; exact hv.2⟩
  · rw [if_neg hv, if_neg]
    rintro ⟨h1, _⟩
    obtain ⟨r, hr, ha⟩ := h1 ("T".toList, .num T) (by simp)
    simp [List.lookup] at hr
    subst hr
    exact hv ⟨ha.1, ha.2 hi rfl⟩

/-- **C133.** A fitted model is described as the data set describes the property, and names the data set. -/
theorem C133_described (fit : List ℝ → List ℝ → Nat → List ℝ) (d : DataSet) (symbol : Str) (degree : Int) (m : Model)
    (h : create fit d symbol degree = .ok m) :
    m.material = d.header.material ∧ m.symbol = symbol ∧ m.datasets = [d.name] ∧ m.references = none ∧
    d.header.name symbol = .ok m.property ∧ d.header.displaySymbol symbol = .ok m.displaySymbol ∧
    d.header.units symbol = .ok m.units := by
  obtain ⟨xs, ys, _, _, _, _, _, _, h⟩ := create_ok h
  exact h

/-- **C133.** A fitted model gives a value at every temperature between the lowest and the highest of the data, and raises
a validation error at every other. -/
theorem C133_range (fit : List ℝ → List ℝ → Nat → List ℝ) (d : DataSet) (symbol : Str) (degree : Int) (m : Model)
    (h : create fit d symbol degree = .ok m) (l : List (ℝ × ℝ)) (hl : rows d symbol = some l) (T : ℝ) :
    ((∃ a ∈ l, ∃ b ∈ l, a.1 ≤ T ∧ T ≤ b.1) → ∃ v, m.call T = .ok v) ∧
    ((∀ a ∈ l, T < a.1) ∨ (∀ a ∈ l, a.1 < T) → m.call T = .error .exception) := by
  obtain ⟨xs, ys, hx, hy, _, hne, hlen, hp, _⟩ := create_ok h
  have el : l = xs.zip ys := by
    unfold rows at hl; rw [hx, hy] at hl; simpa using hl.symm
  have hmem : ∀ x ∈ xs, ∃ a ∈ l, a.1 = x := by
    intro x hx
    have : xs = (xs.zip ys).map Prod.fst := by rw [List.map_fst_zip]; omega
    rw [this, List.mem_map] at hx
    obtain ⟨a, ha, e⟩ := hx
    exact ⟨a, el ▸ ha, e⟩
  have hmem' : ∀ a ∈ l, a.1 ∈ xs := by
    intro a ha; rw [el] at ha; exact (List.of_mem_zip ha).1
  rw [call_eq m T _ _ _ hp]
  obtain ⟨l1, l2⟩ := least_spec xs hne
  obtain ⟨g1, g2⟩ := greatest_spec xs hne
  constructor
  · rintro ⟨a, ha, b, hb, h1, h2⟩
    rw [if_pos ⟨(l2 _ (hmem' a ha)).trans h1, h2.trans (g2 _ (hmem' b hb))⟩]
    exact ⟨_, rfl⟩
  · intro ht
    rw [if_neg]
    rintro ⟨h1, h2⟩
    obtain ⟨a, ha, ea⟩ := hmem _ l1
    obtain ⟨b, hb, eb⟩ := hmem _ g1
    rcases ht with ht | ht
    · have := ht a ha; rw [ea] at this; exact absurd h1 (not_le.2 this)
    · have := ht b hb; rw [eb] at this; exact absurd h2 (not_le.2 this)

/-- **C133.** When the data lie on a polynomial of the degree asked for, the fitted model gives the data back. -/
theorem C133_exact (fit : List ℝ → List ℝ → Nat → List ℝ) (hfit : LeastSquares fit) (d : DataSet) (symbol : Str) (n : Nat) (m : Model)
    (h : create fit d symbol n = .ok m) (l : List (ℝ × ℝ)) (hl : rows d symbol = some l)
    (p : ℝ[X]) (hp : p.natDegree ≤ n) (hdata : ∀ r ∈ l, p.eval r.1 = r.2) :
    ∀ r ∈ l, m.call r.1 = .ok r.2 := by
  obtain ⟨xs, ys, hx, hy, _, hne, hlen, hpoly, _⟩ := create_ok h
  have el : l = xs.zip ys := by
    unfold rows at hl; rw [hx, hy] at hl; simpa using hl.symm
  obtain ⟨_, hmin⟩ := hfit xs ys n hne hlen
  have h0 : squares (fun T => p.eval T) (xs.zip ys) = 0 := by
    unfold squares
    apply List.sum_eq_zero
    intro x hx
    rw [List.mem_map] at hx
    obtain ⟨r, hr, rfl⟩ := hx
    show (eval r.1 p - r.2) ^ 2 = 0
    rw [hdata r (el ▸ hr)]; ring
  have hz := squares_zero _ _ ((hmin p hp).trans h0.le)
  intro r hr
  have hmem : r.1 ∈ xs := by rw [el] at hr; exact (List.of_mem_zip hr).1
  rw [call_eq m r.1 _ _ _ hpoly, if_pos ⟨(least_spec xs hne).2 _ hmem, (greatest_spec xs hne).2 _ hmem⟩]
  simp only [Int.toNat_natCast]
  rw [hz r (el ▸ hr)]

/-- **C133.** When there are more different temperatures than the degree, and the data lie on a polynomial of that degree,
the fitted model is that polynomial over the whole range of the data. -/
theorem C133_recovers (fit : List ℝ → List ℝ → Nat → List ℝ) (hfit : LeastSquares fit) (d : DataSet) (symbol : Str) (n : Nat) (m : Model)
    (h : create fit d symbol n = .ok m) (l : List (ℝ × ℝ)) (hl : rows d symbol = some l) (hd : Distinct (n + 1) l)
    (p : ℝ[X]) (hp : p.natDegree ≤ n) (hdata : ∀ r ∈ l, p.eval r.1 = r.2) (T : ℝ)
    (hT : ∃ a ∈ l, ∃ b ∈ l, a.1 ≤ T ∧ T ≤ b.1) : m.call T = .ok (p.eval T) := by
  obtain ⟨xs, ys, hx, hy, _, hne, hlen, hpoly, _⟩ := create_ok h
  have el : l = xs.zip ys := by
    unfold rows at hl; rw [hx, hy] at hl; simpa using hl.symm
  obtain ⟨hn, _⟩ := hfit xs ys n hne hlen
  have hex := C133_exact fit hfit d symbol n m h l hl p hp hdata
  have e : toPoly (fit xs ys n) = p := by
    apply nearest_unique n l _ _ (natDegree_toPoly _ n (by omega)) hp hd
    intro r hr
    have := hex r hr
    have hmem : r.1 ∈ xs := by rw [el] at hr; exact (List.of_mem_zip hr).1
    rw [call_eq m r.1 _ _ _ hpoly, if_pos ⟨(least_spec xs hne).2 _ hmem, (greatest_spec xs hne).2 _ hmem⟩] at this
    simp only [Int.toNat_natCast, Except.ok.injEq] at this
    rw [eval_toPoly, this, hdata r hr]
  obtain ⟨v, hv⟩ := (C133_range fit d symbol n m h l hl T).1 hT
  rw [hv]
  rw [call_eq m T _ _ _ hpoly] at hv
  split at hv
  · simp only [Int.toNat_natCast, Except.ok.injEq] at hv
    rw [← hv, ← e, eval_toPoly]
  · simp at hv

/-- **C133.** With more different temperatures than the degree the model depends on the rows of the data only, not on their
order nor on how the least squares problem is solved: at every temperature the two calls give the same. -/
theorem C133_order (fit fit' : List ℝ → List ℝ → Nat → List ℝ) (hfit : LeastSquares fit) (hfit' : LeastSquares fit')
    (d d' : DataSet) (symbol : Str) (n : Nat) (m m' : Model)
    (h : create fit d symbol n = .ok m) (h' : create fit' d' symbol n = .ok m')
    (l l' : List (ℝ × ℝ)) (hl : rows d symbol = some l) (hl' : rows d' symbol = some l') (hperm : l.Perm l')
    (hd : Distinct (n + 1) l) (T : ℝ) : m.call T = m'.call T := by
  obtain ⟨xs, ys, hx, hy, _, hne, hlen, hpoly, _⟩ := create_ok h
  obtain ⟨xs', ys', hx', hy', _, hne', hlen', hpoly', _⟩ := create_ok h'
  have el : l = xs.zip ys := by
    unfold rows at hl; rw [hx, hy] at hl; simpa using hl.symm
  have el' : l' = xs'.zip ys' := by
    unfold rows at hl'; rw [hx', hy'] at hl'; simpa using hl'.symm
  obtain ⟨hn, hmin⟩ := hfit xs ys n hne hlen
  obtain ⟨hn', hmin'⟩ := hfit' xs' ys' n hne' hlen'
  have m1 : ∀ r : ℝ[X], r.natDegree ≤ n → squares (fun T => (toPoly (fit xs ys n)).eval T) l ≤ squares (fun T => r.eval T) l := by
    intro r hr; simp only [eval_toPoly]; rw [el]; exact hmin r hr
  have m2 : ∀ r : ℝ[X], r.natDegree ≤ n → squares (fun T => (toPoly (fit' xs' ys' n)).eval T) l ≤ squares (fun T => r.eval T) l := by
    intro r hr; simp only [eval_toPoly]; rw [squares_perm _ hperm, squares_perm _ hperm, el']; exact hmin' r hr
  have d1 := natDegree_toPoly (fit xs ys n) n (by omega)
  have d2 := natDegree_toPoly (fit' xs' ys' n) n (by omega)
  have e := nearest_unique n l _ _ d1 d2 hd (nearest_agree n l _ _ d1 d2 m1 m2)
  have ev : value (fit xs ys n) T = value (fit' xs' ys' n) T := by rw [← eval_toPoly, ← eval_toPoly, e]
  have exs : ∀ x, x ∈ xs ↔ x ∈ xs' := by
    intro x
    have a : xs = l.map Prod.fst := by rw [el, List.map_fst_zip]; omega
    have b : xs' = l'.map Prod.fst := by rw [el', List.map_fst_zip]; omega
    rw [a, b]; exact (hperm.map _).mem_iff
  have ele : least xs = least xs' := le_antisymm ((least_spec xs hne).2 _ ((exs _).2 (least_spec xs' hne').1))
    ((least_spec xs' hne').2 _ ((exs _).1 (least_spec xs hne).1))
  have ege : greatest xs = greatest xs' := le_antisymm ((greatest_spec xs' hne').2 _ ((exs _).1 (greatest_spec xs hne).1))
    ((greatest_spec xs hne).2 _ ((exs _).2 (greatest_spec xs' hne').1))
  rw [call_eq m T _ _ _ hpoly, call_eq m' T _ _ _ hpoly', ele, ege]
  simp only [Int.toNat_natCast, ev]

/-- **C133.** A higher degree is never further from the data. -/
theorem C133_degree (fit : List ℝ → List ℝ → Nat → List ℝ) (hfit : LeastSquares fit) (d : DataSet) (symbol : Str) (n k : Nat) (m m' : Model)
    (h : create fit d symbol n = .ok m) (h' : create fit d symbol k = .ok m') (hnk : n ≤ k)
    (l : List (ℝ × ℝ)) (hl : rows d symbol = some l) (f g : ℝ → ℝ)
    (hf : ∀ r ∈ l, m.call r.1 = .ok (f r.1)) (hg : ∀ r ∈ l, m'.call r.1 = .ok (g r.1)) : squares g l ≤ squares f l := by
  obtain ⟨xs, ys, hx, hy, _, hne, hlen, hpoly, _⟩ := create_ok h
  obtain ⟨xs', ys', hx', hy', _, _, _, hpoly', _⟩ := create_ok h'
  rw [hx] at hx'; rw [hy] at hy'
  simp only [Option.some.injEq] at hx' hy'
  subst hx'; subst hy'
  have el : l = xs.zip ys := by
    unfold rows at hl; rw [hx, hy] at hl; simpa using hl.symm
  obtain ⟨hn, _⟩ := hfit xs ys n hne hlen
  obtain ⟨_, hmin⟩ := hfit xs ys k hne hlen
  have hc : ∀ (cs : List ℝ) (mm : Model) (ff : ℝ → ℝ), mm.poly = ⟨cs, least xs, some (greatest xs)⟩ → (∀ r ∈ l, mm.call r.1 = .ok (ff r.1)) →
      squares ff l = squares (value cs) l := by
    intro cs mm ff hmm hff
    unfold squares
    congr 1
    apply List.map_congr_left
    intro r hr
    have hmem : r.1 ∈ xs := by rw [el] at hr; exact (List.of_mem_zip hr).1
    have := hff r hr
    rw [call_eq mm r.1 _ _ _ hmm, if_pos ⟨(least_spec xs hne).2 _ hmem, (greatest_spec xs hne).2 _ hmem⟩] at this
    simp only [Except.ok.injEq] at this
    rw [this]
  rw [hc _ m f hpoly hf, hc _ m' g hpoly' hg]
  simp only [Int.toNat_natCast]
  have := hmin (toPoly (fit xs ys n)) ((natDegree_toPoly _ n (by omega)).trans hnk)
  simp only [eval_toPoly] at this
  rw [el]; exact this

theorem squares_shift (f : ℝ → ℝ) (e : ℝ) (l : List (ℝ × ℝ)) :
    squares (fun T => f T + e) l = squares f l + 2 * e * (l.map (fun r => f r.1 - r.2)).sum + l.length * e ^ 2 := by
  unfold squares
  induction l with
  | nil => simp
  | cons a l ih =>
    simp only [List.map_cons, List.sum_cons, List.length_cons, Nat.cast_add, Nat.cast_one] at ih ⊢
    rw [ih]; ring

/-- **C133.** A fitted model errs equally in both directions: over the data, model minus value adds up to zero. -/
theorem C133_mean (fit : List ℝ → List ℝ → Nat → List ℝ) (hfit : LeastSquares fit) (d : DataSet) (symbol : Str) (n : Nat) (m : Model)
    (h : create fit d symbol n = .ok m) (l : List (ℝ × ℝ)) (hl : rows d symbol = some l) (f : ℝ → ℝ)
    (hf : ∀ r ∈ l, m.call r.1 = .ok (f r.1)) : (l.map (fun r => f r.1 - r.2)).sum = 0 := by
  obtain ⟨xs, ys, hx, hy, _, hne, hlen, hpoly, _⟩ := create_ok h
  have el : l = xs.zip ys := by
    unfold rows at hl; rw [hx, hy] at hl; simpa using hl.symm
  obtain ⟨hn, hmin⟩ := hfit xs ys n hne hlen
  have hv : ∀ r ∈ l, f r.1 = value (fit xs ys n) r.1 := by
    intro r hr
    have hmem : r.1 ∈ xs := by rw [el] at hr; exact (List.of_mem_zip hr).1
    have := hf r hr
    rw [call_eq m r.1 _ _ _ hpoly, if_pos ⟨(least_spec xs hne).2 _ hmem, (greatest_spec xs hne).2 _ hmem⟩] at this
    simp only [Int.toNat_natCast, Except.ok.injEq] at this
    exact this.symm
  have hs : (l.map (fun r => f r.1 - r.2)).sum = (l.map (fun r => value (fit xs ys n) r.1 - r.2)).sum := by
    congr 1; apply List.map_congr_left; intro r hr; rw [hv r hr]
  rw [hs]
  set s := (l.map (fun r => value (fit xs ys n) r.1 - r.2)).sum with hsdef
  have hlpos : (0 : ℝ) < l.length := by
    have : 0 < l.length := by
      rw [el, List.length_zip]
      have := List.length_pos_of_ne_nil hne
      omega
    exact_mod_cast this
  have key : ∀ e : ℝ, 0 ≤ 2 * e * s + l.length * e ^ 2 := by
    intro e
    have := hmin (toPoly (fit xs ys n) + C e) ((natDegree_add_le _ _).trans (max_le (natDegree_toPoly _ n (by omega)) (by simp)))
    simp only [eval_add, eval_toPoly, eval_C] at this
    rw [← el, squares_shift] at this
    linarith
  have h1 := key (-(s / l.length))
  have h2 : 2 * (-(s / l.length)) * s + l.length * (-(s / l.length)) ^ 2 = - (s ^ 2 / l.length) := by field_simp; ring
  rw [h2] at h1
  have h3 : 0 ≤ s ^ 2 / l.length := by positivity
  have h4 : s ^ 2 / l.length = 0 := by linarith
  rw [div_eq_zero_iff] at h4
  rcases h4 with h4 | h4
  · exact pow_eq_zero_iff (n := 2) (by norm_num) |>.1 h4
  · exact absurd h4 hlpos.ne'

/-- **C133.** What cannot be fitted is refused: a property or temperature column that is not there, a negative degree, no data. -/
theorem C133_refused (fit : List ℝ → List ℝ → Nat → List ℝ) (d : DataSet) (symbol : Str) (degree : Int) :
    (d.data.lookup "T".toList = none ∨ d.data.lookup symbol = none → create fit d symbol degree = .error .keyError) ∧
    (∀ xs ys, d.data.lookup "T".toList = some xs → d.data.lookup symbol = some ys →
      (degree < 0 → create fit d symbol degree = .error .valueError) ∧
      (0 ≤ degree → xs = [] → create fit d symbol degree = .error .typeError)) := by
  constructor
  · intro h
    unfold create DataSet.column
    cases hT : d.data.lookup "T".toList with
    | none => rfl
    | some xs =>
      rcases h with h | h
      · rw [h] at hT; cases hT
      · rw [h]; rfl
  · intro xs ys hx hy
    unfold create DataSet.column polyfit
    rw [hx, hy]
    refine ⟨fun h => ?_, fun h h' => ?_⟩
    · simp [bind, Except.bind, h]
    · simp [bind, Except.bind, not_lt.2 h, h']

/-- **C133 (success).** Everything else can be fitted. -/
theorem C133_succeeds (fit : List ℝ → List ℝ → Nat → List ℝ) (d : DataSet) (symbol : Str) (n : Nat) (xs ys : List ℝ)
    (hx : d.data.lookup "T".toList = some xs) (hy : d.data.lookup symbol = some ys) (hne : xs ≠ []) (hlen : xs.length = ys.length)
    (a b c : Str) (ha : d.header.name symbol = .ok a) (hb : d.header.displaySymbol symbol = .ok b) (hc : d.header.units symbol = .ok c) :
    ∃ m, create fit d symbol n = .ok m := by
  unfold create DataSet.column polyfit
  rw [hx, hy, ha, hb, hc]
  have hn : ¬ ((n : Int) < 0) := by omega
  simp [bind, Except.bind, hne, hlen, hn]

/-- A data set with three rows of a density that falls linearly. -/
noncomputable def sample : DataSet :=
  ⟨"d.csv".toList, ⟨"M".toList, [], [], ["Temperature".toList, "Density".toList], ["T".toList, "\\rho".toList], ["K".toList, "kg/m3".toList], ["T".toList, "rho".toList]⟩,
    [("T".toList, [300, 400, 350]), ("rho".toList, [4, 2, 3])]⟩

/-- The hypotheses of the theorems can be met: the sample can be fitted with a straight line, which gives `3.5` at 325 K. -/
example : ∃ fit m, LeastSquares fit ∧ create fit sample "rho".toList 1 = .ok m ∧ m.call 325 = .ok (7 / 2) := by
  obtain ⟨fit, hfit⟩ := C133_fit_exists
  obtain ⟨m, hm⟩ := C133_succeeds fit sample "rho".toList 1 [300, 400, 350] [4, 2, 3] (by simp [sample, List.lookup]) (by simp [sample, List.lookup]) (by simp) rfl
    "Density".toList "\\rho".toList "kg/m3".toList (by decide) (by decide) (by decide)
  refine ⟨fit, m, hfit, hm, ?_⟩
  have hr : rows sample "rho".toList = some [(300, 4), (400, 2), (350, 3)] := by simp [rows, sample, List.lookup]
  have := C133_recovers fit hfit sample _ 1 m hm _ hr (by
    unfold Distinct
    have : (([(300, 4), (400, 2), (350, 3)] : List (ℝ × ℝ)).map (·.1)).toFinset = {300, 400, 350} := by ext; simp
    rw [this]
    rw [Finset.card_insert_of_notMem (by norm_num), Finset.card_insert_of_notMem (by norm_num), Finset.card_singleton]; norm_num)
    (C (-1 / 50) * X + C 10) (natDegree_linear_le) (by
      intro r hr
      simp only [List.mem_cons, List.not_mem_nil, or_false] at hr
      rcases hr with rfl | rfl | rfl <;> simp <;> norm_num) 325 ⟨(300, 4), by simp, (400, 2), by simp, by norm_num, by norm_num⟩
  rw [this]
  congr 1
  simp; norm_num

end Auxi.Fit.Props
