import Verif.Proofs.ChemFloat

/-!
# C116, C117: chemical packages in floating point

`rnd` is any rounding that satisfies `IEEE rnd u η`; `ieee64` says that Python's floats do, with `u = 2 ** -53` and `η = 2 ** -1075`, and `ieee_exact` that exact arithmetic does.
-/
namespace Auxi.ChemFloat.Props
open Auxi Auxi.Chem Auxi.ChemFloat Auxi.ChemFloat.Spec Auxi.ChemFloat.Proofs Auxi.Rounding

variable {rnd : ℚ → ℚ} {u η : ℚ}

/-! ## Examples -/

/-- A material with a 2 : 15 : 83 assay, as the machine stores it. -/
def matF : Material := ⟨0, ["FeO".toList, "SiO2".toList, "CaO".toList],
  [("A".toList, [fl (rnd64 (2/100)), fl (rnd64 (15/100)), fl (rnd64 (83/100))]), ("B".toList, [fl (rnd64 (55/100)), fl (rnd64 (2/10)), fl (rnd64 (1/10))])], []⟩

/-- Another material with two of its compounds. -/
def matG : Material := ⟨1, ["CaO".toList, "FeO".toList], [], []⟩

/-- A package with masses 0.1, 0.2 and 0.7. -/
def pkgF : Package := ⟨matF, [fl (rnd64 (1/10)), fl (rnd64 (2/10)), fl (rnd64 (7/10))]⟩

/-- A package with masses 0.3 and 0.4. -/
def pkgG : Package := ⟨matG, [fl (rnd64 (3/10)), fl (rnd64 (4/10))]⟩

theorem soundF : Sound rnd64 pkgF := by
  intro x hx
  simp only [pkgF, List.mem_cons, List.not_mem_nil, or_false] at hx
  rcases hx with rfl | rfl | rfl <;> exact ⟨⟨ieee64.idem _, Or.inl rfl⟩, by decide +kernel⟩

theorem soundG : Sound rnd64 pkgG := by
  intro x hx
  simp only [pkgG, List.mem_cons, List.not_mem_nil, or_false] at hx
  rcases hx with rfl | rfl <;> exact ⟨⟨ieee64.idem _, Or.inl rfl⟩, by decide +kernel⟩

/-- The package a call gives. -/
def got : Res Package → Package
  | .ok p => p
  | .error _ => pkgF

/-! ## The same program -/

theorem conv_id (a : Num) : conv id a = a.val := by unfold conv; split <;> rfl

theorem addN_id : addN id = Num.add := by
  funext a b
  unfold addN Num.add
  rw [conv_id, conv_id]
  split
  · next h => rw [h]; rfl
  · next h => rw [Bool.not_eq_true] at h; rw [h]

theorem subN_id : subN id = Num.sub := by
  funext a b
  unfold subN Num.sub
  rw [conv_id, conv_id]
  split
  · next h => rw [h]; rfl
  · next h => rw [Bool.not_eq_true] at h; rw [h]

theorem mulN_id : mulN id = Num.mul := by
  funext a b
  unfold mulN Num.mul
  rw [conv_id, conv_id]
  split
  · next h => rw [h]; rfl
  · next h => rw [Bool.not_eq_true] at h; rw [h]

theorem divN_id : divN id = Num.div := by
  funext a b
  unfold divN Num.div
  rw [conv_id, conv_id]
  split
  · rfl
  · split <;> rfl

theorem addTuple_id (p : Package) (c : Str) (x : Num) : addTuple id p c x = p.addTuple c x := by
  unfold addTuple Package.addTuple; rw [addN_id]; rfl

theorem addLoop_id (q : Package) (cs : List Str) : ∀ p : Package, addLoop id q cs p = q.addLoop cs p := by
  induction cs with
  | nil => intro p; rfl
  | cons c cs ih =>
    intro p
    simp only [addLoop, Package.addLoop, addTuple_id, ih]
    rfl

/-- **C116** Without rounding the functions are those of `Verif.Chem`: what is proved there is what a machine with exact numbers would do. -/
theorem C116_exact (p : Package) (m : Material) (a : Arg) (k : Num) (name : Option Str) (norm : Bool) (c : Str) :
    ChemFloat.extract id p a = p.extract a ∧ ChemFloat.add id p a = p.add a ∧ ChemFloat.addTo id p a = p.addTo a ∧ ChemFloat.mul id p k = p.mul k ∧
    ChemFloat.mass id p = p.mass ∧ ChemFloat.assay id p = p.assay ∧ ChemFloat.compoundFraction id p c = p.compoundFraction c ∧
    ChemFloat.createPackage id m name k norm = m.createPackage name k norm := by
  have hs : pySum id = Chem.pySum := by funext l; unfold pySum Chem.pySum; rw [addN_id]
  have hm : ∀ p : Package, ChemFloat.mass id p = p.mass := fun p => by unfold ChemFloat.mass Package.mass; rw [hs]
  refine ⟨?_, ?_, ?_, ?_, hm p, ?_, ?_, ?_⟩
  · cases a <;> simp only [ChemFloat.extract, Package.extract, hm, divN_id, mulN_id, subN_id] <;> rfl
  · cases a <;> simp only [ChemFloat.add, Package.add, addLoop_id, addTuple_id] <;> rfl
  · cases a <;> simp only [ChemFloat.addTo, Package.addTo, addLoop_id, addTuple_id] <;> rfl
  · simp only [ChemFloat.mul, Package.mul, mulN_id]
  · simp only [ChemFloat.assay, Package.assay, divN_id, hs]
  · simp only [ChemFloat.compoundFraction, Package.compoundFraction, divN_id, hm]; rfl
  · cases name with
    | none => rfl
    | some n =>
      simp only [ChemFloat.createPackage, Material.createPackage, divN_id, mulN_id, hs]
      cases hn : m.assay n with
      | error e =>
        cases norm <;> simp [Material.assayTotal, hn, Except.map]
      | ok l =>
        cases norm <;> simp [Material.assayTotal, hn, Except.map] <;> rfl

/-! ## Extraction -/

theorem at_mul (R : IEEE rnd u η) {p : Package} (hp : Sound rnd p) {m : Material} {f : Num} (hf : Machine rnd f) (i : ℕ) :
    at_ ⟨m, p.masses.map (mulN rnd · f)⟩ i = rnd (at_ p i * f.val) := by
  unfold at_
  simp only [List.map_map, List.getD_eq_getElem?_getD, List.getElem?_map]
  cases hi : p.masses[i]? with
  | none => simp [R.zero]
  | some x => simp [(mulN_machine R (hp x (List.mem_of_getElem? hi)).1 hf).1]

theorem at_sound (R : IEEE rnd u η) {p : Package} (hp : Sound rnd p) (i : ℕ) : 0 ≤ at_ p i ∧ rnd (at_ p i) = at_ p i := by
  unfold at_
  simp only [List.getD_eq_getElem?_getD, List.getElem?_map]
  cases hi : p.masses[i]? with
  | none => simp [R.zero]
  | some x => have := hp x (List.mem_of_getElem? hi); simp [this.1.1, this.2]

theorem sound_mul (R : IEEE rnd u η) {p : Package} (hp : Sound rnd p) {m : Material} {f : Num} (hf : Machine rnd f) (h0 : 0 ≤ f.val) :
    Sound rnd ⟨m, p.masses.map (mulN rnd · f)⟩ := by
  intro x hx
  obtain ⟨y, hy, rfl⟩ := List.mem_map.mp hx
  obtain ⟨e, h⟩ := mulN_machine R (hp y hy).1 hf
  exact ⟨h, by rw [e]; exact R.nonneg (mul_nonneg (hp y hy).2 h0)⟩

theorem sound_set {p : Package} (hp : Sound rnd p) {m : Material} {x : Num} (hx : Machine rnd x ∧ 0 ≤ x.val) (i : ℕ) : Sound rnd ⟨m, p.masses.set i x⟩ := by
  intro y hy
  rcases List.mem_or_eq_of_mem_set hy with h | rfl
  · exact hp y h
  · exact hx

theorem mass_sound (R : IEEE rnd u η) {p : Package} (hp : Sound rnd p) : Machine rnd (mass rnd p) ∧ 0 ≤ (mass rnd p).val :=
  ⟨(pySum_bounds R hp).1, (pySum_bounds R hp).2.1⟩

/-- What `extract(mass)` does, in numbers. -/
theorem extract_num (R : IEEE rnd u η) {p p' r : Package} (hp : Sound rnd p) {x : Num} (hx : rnd x.val = x.val) (h0 : 0 ≤ x.val)
    (h : ChemFloat.extract rnd p (.num x) = (.ok r, p')) : 0 < (mass rnd p).val ∧ x.val ≤ (mass rnd p).val ∧
    ∃ f g : Num, f.val = rnd (x.val / (mass rnd p).val) ∧ g.val = rnd (1 - f.val) ∧ Machine rnd f ∧ Machine rnd g ∧ 0 ≤ f.val ∧ f.val ≤ 1 ∧ 0 ≤ g.val ∧ g.val ≤ 1 ∧
      r = ⟨p.mat, p.masses.map (mulN rnd · f)⟩ ∧ p' = ⟨p.mat, p.masses.map (mulN rnd · g)⟩ := by
  obtain ⟨mM, m0⟩ := mass_sound R hp
  simp only [ChemFloat.extract] at h
  by_cases hf : x.isFloat = true
  · rw [if_pos hf] at h
    by_cases hgt : x.val > (mass rnd p).val
    · rw [if_pos hgt] at h; cases h
    · rw [if_neg hgt] at h
      by_cases hz : (mass rnd p).val = 0
      · have : divN rnd x (mass rnd p) = .error .zeroDivisionError := by unfold divN; rw [if_pos hz]
        rw [this] at h; cases h
      · have mx : Machine rnd x := ⟨hx, Or.inl hf⟩
        rw [divN_machine R mx mM hz] at h
        have M0 : 0 < (mass rnd p).val := lt_of_le_of_ne m0 (Ne.symm hz)
        have f0 : 0 ≤ rnd (x.val / (mass rnd p).val) := R.nonneg (div_nonneg h0 m0)
        have f1 : rnd (x.val / (mass rnd p).val) ≤ 1 := R.le_float R.one (by rw [div_le_one M0]; exact not_lt.mp hgt)
        have mf : Machine rnd ⟨true, rnd (x.val / (mass rnd p).val)⟩ := machine_float (R.idem _)
        have m1 : Machine rnd (fl 1) := machine_float R.one
        obtain ⟨e, mg⟩ := subN_machine R m1 mf
        have e' : (subN rnd (fl 1) ⟨true, rnd (x.val / (mass rnd p).val)⟩).val = rnd (1 - rnd (x.val / (mass rnd p).val)) := e
        refine ⟨M0, not_lt.mp hgt, ⟨true, rnd (x.val / (mass rnd p).val)⟩, subN rnd (fl 1) ⟨true, rnd (x.val / (mass rnd p).val)⟩, rfl, e', mf, mg, f0, f1, ?_, ?_, ?_, ?_⟩
        · rw [e']; exact R.nonneg (by linarith)
        · rw [e']; exact R.le_float R.one (by linarith)
        · cases h; rfl
        · cases h; rfl
  · rw [if_neg hf] at h; cases h

/-- What `extract((compound, mass))` does. -/
theorem extract_tup {p p' r : Package} {c : Str} {x : Num} (h : ChemFloat.extract rnd p (.tup c x) = (.ok r, p')) :
    ∃ i y, x.isFloat = true ∧ p.mat.index c = .ok i ∧ p.masses[i]? = some y ∧ x.val ≤ y.val ∧
      r = ⟨p.mat, (List.replicate p.masses.length (fl 0)).set i x⟩ ∧ p' = ⟨p.mat, p.masses.set i (subN rnd y x)⟩ := by
  simp only [ChemFloat.extract] at h
  by_cases hf : x.isFloat = true
  · rw [if_pos hf] at h
    cases hi : p.mat.index c with
    | error e => rw [hi] at h; cases h
    | ok i =>
      rw [hi] at h
      dsimp only at h
      cases hy : p.masses[i]? with
      | none => rw [hy] at h; cases h
      | some y =>
        rw [hy] at h
        dsimp only at h
        by_cases hgt : x.val > y.val
        · rw [if_pos hgt] at h; cases h
        · rw [if_neg hgt] at h
          cases h
          exact ⟨i, y, hf, rfl, hy, not_lt.mp hgt, rfl, rfl⟩
  · rw [if_neg hf] at h; cases h

/-- What `extract(compound)` does. -/
theorem extract_str {p p' r : Package} {c : Str} (h : ChemFloat.extract rnd p (.str c) = (.ok r, p')) :
    ∃ i y, p.mat.index c = .ok i ∧ p.masses[i]? = some y ∧
      r = ⟨p.mat, (p.masses.map (mulN rnd · (fl 0))).set i y⟩ ∧ p' = ⟨p.mat, p.masses.set i (fl 0)⟩ := by
  simp only [ChemFloat.extract] at h
  cases hi : p.mat.index c with
  | error e => rw [hi] at h; cases h
  | ok i =>
    rw [hi] at h
    dsimp only at h
    cases hy : p.masses[i]? with
    | none => rw [hy] at h; cases h
    | some y =>
      rw [hy] at h
      cases h
      exact ⟨i, y, rfl, hy, rfl, rfl⟩

theorem at_eq {p : Package} {i : ℕ} {y : Num} (h : p.masses[i]? = some y) : at_ p i = y.val := by
  unfold at_; simp [List.getD_eq_getElem?_getD, h]

theorem lt_of_some {p : Package} {i : ℕ} {y : Num} (h : p.masses[i]? = some y) : i < p.masses.length := by
  by_contra hh; rw [List.getElem?_eq_none (not_lt.mp hh)] at h; cases h

theorem at_zeros (m : Material) (n i j : ℕ) (x : Num) (hi : i < n) : at_ ⟨m, (List.replicate n (fl 0)).set i x⟩ j = if j = i then x.val else 0 := by
  have := at_set (p := ⟨m, List.replicate n (fl 0)⟩) (m := m) (i := i) (j := j) (x := x) (by simpa using hi)
  rw [this]
  by_cases h : j = i
  · rw [if_pos h, if_pos h]
  · rw [if_neg h, if_neg h]
    unfold at_
    simp only [List.getD_eq_getElem?_getD, List.getElem?_map, List.getElem?_replicate]
    split <;> simp [fl]

theorem fl0 (R : IEEE rnd u η) : Machine rnd (fl 0) ∧ 0 ≤ (fl 0).val := ⟨machine_float R.zero, le_refl _⟩

/-- **C116** Whatever is extracted, in floating point too: no mass becomes negative, none grows, and the extracted package holds no more of a compound than there was.  Both packages are
again packages of machine numbers, so this holds after any number of extractions. -/
theorem C116_never_negative (R : IEEE rnd u η) (p p' r : Package) (a : Arg) (hp : Sound rnd p) (ha : ArgOk rnd a) (h : ChemFloat.extract rnd p a = (.ok r, p')) :
    Sound rnd r ∧ Sound rnd p' ∧ r.mat = p.mat ∧ p'.mat = p.mat ∧ r.masses.length = p.masses.length ∧ p'.masses.length = p.masses.length ∧
    ∀ i, 0 ≤ at_ r i ∧ at_ r i ≤ at_ p i ∧ 0 ≤ at_ p' i ∧ at_ p' i ≤ at_ p i := by
  have fin : Sound rnd r → Sound rnd p' → r.mat = p.mat → p'.mat = p.mat → r.masses.length = p.masses.length → p'.masses.length = p.masses.length →
      (∀ i, at_ r i ≤ at_ p i ∧ at_ p' i ≤ at_ p i) → Sound rnd r ∧ Sound rnd p' ∧ r.mat = p.mat ∧ p'.mat = p.mat ∧ r.masses.length = p.masses.length ∧
      p'.masses.length = p.masses.length ∧ ∀ i, 0 ≤ at_ r i ∧ at_ r i ≤ at_ p i ∧ 0 ≤ at_ p' i ∧ at_ p' i ≤ at_ p i :=
    fun h1 h2 h3 h4 h5 h6 h7 => ⟨h1, h2, h3, h4, h5, h6, fun i => ⟨(at_sound R h1 i).1, (h7 i).1, (at_sound R h2 i).1, (h7 i).2⟩⟩
  cases a with
  | num x =>
    obtain ⟨-, -, f, g, -, -, mf, mg, f0, f1, g0, g1, rfl, rfl⟩ := extract_num R hp ha.1 ha.2 h
    refine fin (sound_mul R hp mf f0) (sound_mul R hp mg g0) rfl rfl (by simp) (by simp) ?_
    intro i
    obtain ⟨b0, b1⟩ := at_sound R hp i
    rw [at_mul R hp mf, at_mul R hp mg]
    exact ⟨R.le_float b1 (mul_le_of_le_one_right b0 f1), R.le_float b1 (mul_le_of_le_one_right b0 g1)⟩
  | tup c x =>
    obtain ⟨i, y, hf, -, hy, hle, rfl, rfl⟩ := extract_tup h
    have sy := hp y (List.mem_of_getElem? hy)
    have mx : Machine rnd x := ⟨ha.1, Or.inl hf⟩
    obtain ⟨e, ms⟩ := subN_machine R sy.1 mx
    have hlt := lt_of_some hy
    have hr : Sound rnd ⟨p.mat, List.replicate p.masses.length (fl 0)⟩ := fun z hz => by rw [(List.mem_replicate.mp hz).2]; exact fl0 R
    refine fin (sound_set hr ⟨mx, ha.2⟩ i) (sound_set hp ⟨ms, by rw [e]; exact R.nonneg (by linarith)⟩ i) rfl rfl (by simp) (by simp) ?_
    intro j
    rw [at_zeros _ _ _ _ _ hlt, at_set hlt]
    by_cases hj : j = i
    · rw [if_pos hj, if_pos hj, hj, at_eq hy, e]
      exact ⟨hle, R.le_float sy.1.1 (by linarith [ha.2])⟩
    · rw [if_neg hj, if_neg hj]
      exact ⟨(at_sound R hp j).1, le_refl _⟩
  | str c =>
    obtain ⟨i, y, -, hy, rfl, rfl⟩ := extract_str h
    have sy := hp y (List.mem_of_getElem? hy)
    have hlt := lt_of_some hy
    have hz : Sound rnd ⟨p.mat, p.masses.map (mulN rnd · (fl 0))⟩ := sound_mul R hp (fl0 R).1 (fl0 R).2
    refine fin (sound_set hz sy i) (sound_set hp (fl0 R) i) rfl rfl (by simp) (by simp) ?_
    intro j
    rw [at_set (p := ⟨p.mat, p.masses.map (mulN rnd · (fl 0))⟩) (by simpa using hlt), at_set hlt]
    obtain ⟨b0, b1⟩ := at_sound R hp j
    by_cases hj : j = i
    · rw [if_pos hj, if_pos hj, hj, at_eq hy]; exact ⟨le_refl _, sy.2⟩
    · rw [if_neg hj, if_neg hj, at_mul R hp (fl0 R).1]
      refine ⟨?_, le_refl _⟩
      rw [show (fl 0).val = 0 from rfl, mul_zero, R.zero]; exact b0
  | pkg q => cases h
  | other => cases h

example : ∃ r p', ChemFloat.extract rnd64 pkgF (.num (fl (rnd64 (3/10)))) = (.ok r, p') ∧ Sound rnd64 pkgF ∧ ArgOk rnd64 (.num (fl (rnd64 (3/10)))) ∧
    at_ r 1 + at_ p' 1 ≠ at_ pkgF 1 :=
  ⟨got (ChemFloat.extract rnd64 pkgF (.num (fl (rnd64 (3/10))))).1, (ChemFloat.extract rnd64 pkgF (.num (fl (rnd64 (3/10))))).2, by decide +kernel, soundF, ⟨ieee64.idem _, by decide +kernel⟩, by decide +kernel⟩

/-- **C116** Extracting loses or makes next to nothing: of every compound, what is extracted and what is left add up to what there was, up to two roundings.  A compound extracted
by name is moved exactly. -/
theorem C116_conserves (R : IEEE rnd u η) (p p' r : Package) (a : Arg) (hp : Sound rnd p) (ha : ArgOk rnd a) (h : ChemFloat.extract rnd p a = (.ok r, p')) :
    (∀ i, |at_ r i + at_ p' i - at_ p i| ≤ (2 * u + u ^ 2) * at_ p i + 2 * η) ∧ (∀ c, a = .str c → ∀ i, at_ r i + at_ p' i = at_ p i) := by
  have u0 := R.u0
  have η0 := R.η0
  cases a with
  | num x =>
    refine ⟨?_, fun c hc => by cases hc⟩
    obtain ⟨-, -, f, g, -, hg, mf, mg, f0, f1, g0, g1, rfl, rfl⟩ := extract_num R hp ha.1 ha.2 h
    intro i
    obtain ⟨b0, b1⟩ := at_sound R hp i
    rw [at_mul R hp mf, at_mul R hp mg]
    have e1 := R.err (at_ p i * f.val)
    have e2 := R.err (at_ p i * g.val)
    rw [abs_of_nonneg (mul_nonneg b0 f0)] at e1
    rw [abs_of_nonneg (mul_nonneg b0 g0)] at e2
    have e3 := R.sub R.one mf.1
    rw [← hg, abs_of_nonneg (by linarith : (0 : ℚ) ≤ 1 - f.val)] at e3
    rw [abs_le] at e1 e2 e3 ⊢
    generalize hA : at_ p i = A at *
    generalize f.val = F at *
    generalize g.val = G at *
    have t1 : A * G ≤ A * (1 - F) + u * (A * (1 - F)) := by nlinarith [mul_le_mul_of_nonneg_left e3.2 b0]
    have t2 : A * (1 - F) - u * (A * (1 - F)) ≤ A * G := by nlinarith [mul_le_mul_of_nonneg_left e3.1 b0]
    have t3 : u * (A * G) ≤ u * (A * (1 - F) + u * (A * (1 - F))) := mul_le_mul_of_nonneg_left t1 u0
    have t4 : A * (1 - F) ≤ A := by nlinarith
    have t5 : 0 ≤ A * F := mul_nonneg b0 f0
    have t7 : u * (u * (A * (1 - F))) ≤ u * (u * A) := mul_le_mul_of_nonneg_left (mul_le_mul_of_nonneg_left t4 u0) u0
    have t8 : u * (A * (1 - F)) ≤ u * A := mul_le_mul_of_nonneg_left t4 u0
    constructor <;> nlinarith [e1.1, e1.2, e2.1, e2.2]
  | tup c x =>
    refine ⟨?_, fun c hc => by cases hc⟩
    obtain ⟨i, y, hf, -, hy, hle, rfl, rfl⟩ := extract_tup h
    have sy := hp y (List.mem_of_getElem? hy)
    have mx : Machine rnd x := ⟨ha.1, Or.inl hf⟩
    obtain ⟨e, ms⟩ := subN_machine R sy.1 mx
    have hlt := lt_of_some hy
    have x0 : 0 ≤ x.val := ha.2
    intro j
    rw [at_zeros _ _ _ _ _ hlt, at_set hlt]
    obtain ⟨b0, b1⟩ := at_sound R hp j
    by_cases hj : j = i
    · rw [if_pos hj, if_pos hj, hj, at_eq hy, e]
      have e1 := R.sub sy.1.1 mx.1
      rw [abs_of_nonneg (by linarith : 0 ≤ y.val - x.val)] at e1
      rw [show x.val + rnd (y.val - x.val) - y.val = rnd (y.val - x.val) - (y.val - x.val) by ring]
      refine e1.trans ?_
      have : u * (y.val - x.val) ≤ u * y.val := mul_le_mul_of_nonneg_left (by linarith) u0
      nlinarith [mul_nonneg u0 sy.2, mul_nonneg u0 (mul_nonneg u0 sy.2)]
    · rw [if_neg hj, if_neg hj, zero_add, sub_self, abs_zero]
      positivity
  | str c =>
    have key : ∀ i, at_ r i + at_ p' i = at_ p i := by
      obtain ⟨i, y, -, hy, rfl, rfl⟩ := extract_str h
      have hlt := lt_of_some hy
      intro j
      rw [at_set (p := ⟨p.mat, p.masses.map (mulN rnd · (fl 0))⟩) (by simpa using hlt), at_set hlt]
      by_cases hj : j = i
      · rw [if_pos hj, if_pos hj, hj, at_eq hy]; exact add_zero _
      · rw [if_neg hj, if_neg hj, at_mul R hp (fl0 R).1, show (fl 0).val = 0 from rfl, mul_zero, R.zero, zero_add]
    refine ⟨fun i => ?_, fun _ _ => key⟩
    rw [key, sub_self, abs_zero]
    have := (at_sound R hp i).1
    positivity
  | pkg q => cases h
  | other => cases h

/-- The bound for Python's floats is about `2.3e-16` of the mass. -/
example : 2 * pow2 (-53) + pow2 (-53) ^ 2 ≤ 23 / 10 ^ 17 ∧ 2 * pow2 (-1075) ≤ 1 / 10 ^ 323 := by decide +kernel

/-- **C116** Over a history: after any extractions from a package, of which some may fail, all that was extracted and what is left add up to what there was, up to two roundings per extraction. -/
theorem C116_history (R : IEEE rnd u η) (as : List Arg) (ha : ∀ a ∈ as, ArgOk rnd a) : ∀ (p : Package), Sound rnd p →
    ∀ i, at_ (extractAll rnd p as).2 i ≤ at_ p i ∧ 0 ≤ at_ (extractAll rnd p as).2 i ∧
      |(((extractAll rnd p as).1.map (at_ · i)).sum + at_ (extractAll rnd p as).2 i) - at_ p i| ≤ as.length * ((2 * u + u ^ 2) * at_ p i + 2 * η) := by
  have u0 := R.u0
  have η0 := R.η0
  induction as with
  | nil => intro p hp i; simp [extractAll, (at_sound R hp i).1]
  | cons a as ih =>
    intro p hp i
    have ih := ih (fun b hb => ha b (List.mem_cons_of_mem _ hb))
    have p0 := (at_sound R hp i).1
    have hpos : 0 ≤ (2 * u + u ^ 2) * at_ p i + 2 * η := by positivity
    cases he : ChemFloat.extract rnd p a with
    | mk o p' =>
      cases o with
      | error e =>
        have hsame : p' = p := by
          cases a with
          | num x =>
            simp only [ChemFloat.extract] at he
            split_ifs at he
            · cases he; rfl
            · cases hd : divN rnd x (mass rnd p) <;> rw [hd] at he <;> cases he; rfl
            · cases he; rfl
          | tup c x =>
            simp only [ChemFloat.extract] at he
            split_ifs at he
            · cases hi : p.mat.index c with
              | error e => rw [hi] at he; cases he; rfl
              | ok k =>
                rw [hi] at he; dsimp only at he
                cases hy : p.masses[k]? with
                | none => rw [hy] at he; cases he; rfl
                | some y =>
                  rw [hy] at he; dsimp only at he
                  by_cases hgt : x.val > y.val
                  · rw [if_pos hgt] at he; cases he; rfl
                  · rw [if_neg hgt] at he; cases he
            · cases he; rfl
          | str c =>
            simp only [ChemFloat.extract] at he
            cases hi : p.mat.index c with
            | error e => rw [hi] at he; cases he; rfl
            | ok k =>
              rw [hi] at he; dsimp only at he
              cases hy : p.masses[k]? with
              | none => rw [hy] at he; cases he; rfl
              | some y => rw [hy] at he; cases he
          | pkg q => cases he; rfl
          | other => cases he; rfl
        have e1 : extractAll rnd p (a :: as) = extractAll rnd p as := by simp only [extractAll, he, hsame]
        rw [e1]
        obtain ⟨h1, h2, h3⟩ := ih p hp i
        refine ⟨h1, h2, h3.trans ?_⟩
        rw [List.length_cons]; push_cast
        nlinarith
      | ok r =>
        have e1 : extractAll rnd p (a :: as) = (r :: (extractAll rnd p' as).1, (extractAll rnd p' as).2) := by simp only [extractAll, he]
        have haa := ha a List.mem_cons_self
        obtain ⟨-, sp', -, -, -, -, hb⟩ := C116_never_negative R p p' r a hp haa he
        have hc := (C116_conserves R p p' r a hp haa he).1 i
        obtain ⟨h1, h2, h3⟩ := ih p' sp' i
        rw [e1]
        refine ⟨h1.trans (hb i).2.2.2, h2, ?_⟩
        simp only [List.map_cons, List.sum_cons, List.length_cons]
        push_cast
        have le : (as.length : ℚ) * ((2 * u + u ^ 2) * at_ p' i + 2 * η) ≤ as.length * ((2 * u + u ^ 2) * at_ p i + 2 * η) := by
          apply mul_le_mul_of_nonneg_left _ (Nat.cast_nonneg _)
          have : (2 * u + u ^ 2) * at_ p' i ≤ (2 * u + u ^ 2) * at_ p i := mul_le_mul_of_nonneg_left (hb i).2.2.2 (by positivity)
          linarith
        rw [abs_le] at hc h3 ⊢
        constructor <;> nlinarith [hc.1, hc.2, h3.1, h3.2]

example : Sound rnd64 pkgF ∧ (∀ a ∈ [Arg.num (fl (rnd64 (3/10))), .num (fl 100), .str "SiO2".toList, .tup "CaO".toList (fl (rnd64 (1/10)))], ArgOk rnd64 a) ∧
    (extractAll rnd64 pkgF [Arg.num (fl (rnd64 (3/10))), .num (fl 100), .str "SiO2".toList, .tup "CaO".toList (fl (rnd64 (1/10)))]).1.length = 3 := by
  refine ⟨soundF, ?_, by decide +kernel⟩
  intro a ha
  simp only [List.mem_cons, List.not_mem_nil, or_false] at ha
  rcases ha with rfl | rfl | rfl | rfl
  · exact ⟨ieee64.idem _, by decide +kernel⟩
  · exact ⟨by decide +kernel, by decide +kernel⟩
  · trivial
  · exact ⟨ieee64.idem _, by decide +kernel⟩

/-- **C116** `get_mass` is the sum of the masses up to one rounding per compound. -/
theorem C116_get_mass (R : IEEE rnd u η) (p : Package) (hp : Sound rnd p) (hn : p.masses.length * u < 1) :
    |(mass rnd p).val - total p| ≤ γ u p.masses.length * total p ∧ ∀ x ∈ p.masses, x.val ≤ (mass rnd p).val := by
  obtain ⟨-, -, lo, hi⟩ := pySum_bounds R hp
  have u0 := R.u0
  have b1 := one_sub_pow u0 R.u1 p.masses.length
  have b2 := one_add_pow u0 R.u1 p.masses.length
  have S0 : 0 ≤ total p := List.sum_nonneg (by
    intro y hy
    obtain ⟨z, hz, rfl⟩ := List.mem_map.mp hy
    exact (hp z hz).2)
  refine ⟨?_, (le_foldl R p.masses (int 0) (machine_zero R) (le_refl _) hp).2⟩
  change |(pySum rnd p.masses).val - total p| ≤ _
  have D : 0 < 1 - (p.masses.length : ℚ) * u := by linarith
  have N : 0 ≤ (p.masses.length : ℚ) * u := mul_nonneg (Nat.cast_nonneg _) u0
  have g1 : 1 + γ u p.masses.length = 1 / (1 - p.masses.length * u) := by unfold γ; field_simp; ring
  have g2 : (p.masses.length : ℚ) * u ≤ γ u p.masses.length := by unfold γ; rw [le_div_iff₀ D]; nlinarith
  have g3 : (1 + u) ^ p.masses.length ≤ 1 + γ u p.masses.length := by rw [g1, le_div_iff₀ D]; exact b2
  have e : total p = (p.masses.map Num.val).sum := rfl
  rw [← e] at lo hi
  rw [abs_le]
  constructor
  · nlinarith [mul_le_mul_of_nonneg_right b1 S0, mul_le_mul_of_nonneg_right g2 S0]
  · nlinarith [mul_le_mul_of_nonneg_right g3 S0]

example : Sound rnd64 pkgF ∧ (pkgF.masses.length : ℚ) * pow2 (-53) < 1 ∧ (mass rnd64 pkgF).val ≠ total pkgF := ⟨soundF, by decide +kernel, by decide +kernel⟩

/-- **C116** The extracted package has the requested mass, up to one rounding per compound and two more. -/
theorem C116_requested (R : IEEE rnd u η) (p p' r : Package) (x : Num) (hp : Sound rnd p) (ha : ArgOk rnd (.num x)) (hn : (p.masses.length + 2 : ℕ) * u < 1)
    (h : ChemFloat.extract rnd p (.num x) = (.ok r, p')) :
    |total r - x.val| ≤ γ u (p.masses.length + 2) * x.val + η * ((1 + u) * total p + p.masses.length) := by
  have u0 := R.u0
  have u1 := R.u1
  have η0 := R.η0
  obtain ⟨M0, hle, f, g, hf, -, mf, -, f0, f1, -, -, rfl, -⟩ := extract_num R hp ha.1 ha.2 h
  obtain ⟨-, -, lo, hi⟩ := pySum_bounds R hp
  have S0 : 0 ≤ total p := List.sum_nonneg (by
    intro y hy
    obtain ⟨z, hz, rfl⟩ := List.mem_map.mp hy
    exact (hp z hz).2)
  have et : total ⟨p.mat, p.masses.map (mulN rnd · f)⟩ = (p.masses.map fun x => rnd (x.val * f.val)).sum := by
    unfold total
    rw [List.map_map]
    congr 1
    apply List.map_congr_left
    intro y hy
    exact (mulN_machine R (hp y hy).1 mf).1
  obtain ⟨s1, s2⟩ := sum_mul R hp f0
  rw [← et] at s1 s2
  obtain ⟨q1, q2⟩ := quotient_bounds R hn ha.2 M0 lo hi
  have fb := R.bounds (div_nonneg ha.2 M0.le)
  rw [← hf] at fb
  change _ ≤ x.val + _ at q1
  have e : (p.masses.map Num.val).sum = total p := rfl
  rw [e] at s1 s2 q1 q2
  have t1 : (1 + u) * f.val * total p ≤ (1 + u) * ((1 + u) * (x.val / (mass rnd p).val) + η) * total p :=
    mul_le_mul_of_nonneg_right (mul_le_mul_of_nonneg_left fb.2 (by linarith)) S0
  have t2 : (1 - u) * ((1 - u) * (x.val / (mass rnd p).val) - η) * total p ≤ (1 - u) * f.val * total p :=
    mul_le_mul_of_nonneg_right (mul_le_mul_of_nonneg_left fb.1 (by linarith)) S0
  have t3 : 0 ≤ u * η * total p := mul_nonneg (mul_nonneg u0 η0) S0
  rw [abs_le]
  constructor <;> linarith

example : ∃ r p', ChemFloat.extract rnd64 pkgF (.num (fl (rnd64 (3/10)))) = (.ok r, p') ∧ ((pkgF.masses.length + 2 : ℕ) : ℚ) * pow2 (-53) < 1 ∧ total r ≠ 3/10 :=
  ⟨got (ChemFloat.extract rnd64 pkgF (.num (fl (rnd64 (3/10))))).1, (ChemFloat.extract rnd64 pkgF (.num (fl (rnd64 (3/10))))).2, by decide +kernel, by decide +kernel, by decide +kernel⟩

/-- **C117** Everything can be taken out: extracting `get_mass()` never fails on a package that is not empty, gives all of every compound exactly and leaves exactly nothing. -/
theorem C117_everything (R : IEEE rnd u η) (p : Package) (hp : Sound rnd p) (h0 : (mass rnd p).val ≠ 0) :
    ∃ r p', ChemFloat.extract rnd p (.num (mass rnd p)) = (.ok r, p') ∧ ∀ i, at_ r i = at_ p i ∧ at_ p' i = 0 := by
  obtain ⟨mM, m0⟩ := mass_sound R hp
  have hf : (mass rnd p).isFloat = true := by rcases mM.2 with h | h; · exact h
                                              · exact absurd h h0
  have e : rnd ((mass rnd p).val / (mass rnd p).val) = 1 := by rw [div_self h0, R.one]
  have e1 : ChemFloat.extract rnd p (.num (mass rnd p)) =
      (.ok ⟨p.mat, p.masses.map (mulN rnd · ⟨true, 1⟩)⟩, ⟨p.mat, p.masses.map (mulN rnd · (subN rnd (fl 1) ⟨true, 1⟩))⟩) := by
    simp only [ChemFloat.extract, if_pos hf, gt_iff_lt, lt_irrefl, if_false, divN_machine R mM mM h0, e]
  have m1 : Machine rnd ⟨true, 1⟩ := machine_float R.one
  obtain ⟨es, ms⟩ := subN_machine R (a := fl 1) m1 m1
  refine ⟨_, _, e1, ?_⟩
  intro i
  rw [at_mul R hp m1, at_mul R hp ms, es]
  refine ⟨by rw [show (⟨true, 1⟩ : Num).val = 1 from rfl, mul_one]; exact (at_sound R hp i).2, ?_⟩
  rw [show (fl 1).val - (⟨true, 1⟩ : Num).val = 0 from sub_self _, R.zero, mul_zero, R.zero]

example : Sound rnd64 pkgF ∧ (mass rnd64 pkgF).val ≠ 0 := ⟨soundF, by decide +kernel⟩

/-! ## Creating and adding -/

theorem mapRes_ok {f : Num → Res Num} {g : Num → Num} {l : List Num} (h : ∀ x ∈ l, f x = .ok (g x)) : mapRes f l = .ok (l.map g) := by
  induction l with
  | nil => rfl
  | cons x l ih => rw [mapRes, h x List.mem_cons_self, ih (fun y hy => h y (List.mem_cons_of_mem _ hy))]; rfl

/-- **C116** A package created from an assay of machine numbers has the requested mass, up to one rounding per compound and two more; none of its masses is negative. -/
theorem C116_create (R : IEEE rnd u η) (m : Material) (name : Str) (l : List Num) (k : Num) (hl : m.assay name = .ok l)
    (hs : ∀ x ∈ l, Machine rnd x ∧ 0 ≤ x.val) (ht : 0 < (pySum rnd l).val) (hk : Machine rnd k) (k0 : 0 ≤ k.val) (hn : (l.length + 2 : ℕ) * u < 1) :
    ∃ p, ChemFloat.createPackage rnd m (some name) k true = .ok p ∧ Sound rnd p ∧ p.mat = m ∧ p.masses.length = l.length ∧
      |total p - k.val| ≤ γ u (l.length + 2) * k.val + η * l.length * ((1 + u) / (pySum rnd l).val + 1) := by
  have u0 := R.u0
  have u1 := R.u1
  have η0 := R.η0
  obtain ⟨mT, T0, lo, hi⟩ := pySum_bounds R hs
  have hdiv : ∀ x ∈ l, divN rnd (mulN rnd k x) (pySum rnd l) = .ok ⟨true, rnd (rnd (k.val * x.val) / (pySum rnd l).val)⟩ := by
    intro x hx
    obtain ⟨e, me⟩ := mulN_machine R hk (hs x hx).1
    rw [divN_machine R me mT ht.ne', e]
  refine ⟨⟨m, l.map fun x => ⟨true, rnd (rnd (k.val * x.val) / (pySum rnd l).val)⟩⟩, ?_, ?_, rfl, by simp, ?_⟩
  · simp only [ChemFloat.createPackage, hl, if_true, mapRes_ok hdiv]
  · intro y hy
    obtain ⟨x, hx, rfl⟩ := List.mem_map.mp hy
    exact ⟨machine_float (R.idem _), R.nonneg (div_nonneg (R.nonneg (mul_nonneg k0 (hs x hx).2)) T0)⟩
  · have et : total ⟨m, l.map fun x => ⟨true, rnd (rnd (k.val * x.val) / (pySum rnd l).val)⟩⟩ = (l.map fun x => rnd (rnd (k.val * x.val) / (pySum rnd l).val)).sum := by
      unfold total; rw [List.map_map]; rfl
    rw [et]
    obtain ⟨q1, q2⟩ := quotient_bounds R hn k0 ht lo hi
    generalize (pySum rnd l).val = T at *
    have key : ∀ l' : List Num, (∀ x ∈ l', 0 ≤ x.val) →
        (l'.map fun x => rnd (rnd (k.val * x.val) / T)).sum ≤ (1 + u) ^ 2 * (k.val / T) * (l'.map Num.val).sum + η * l'.length * ((1 + u) / T + 1) ∧
        (1 - u) ^ 2 * (k.val / T) * (l'.map Num.val).sum - η * l'.length * ((1 + u) / T + 1) ≤ (l'.map fun x => rnd (rnd (k.val * x.val) / T)).sum := by
      intro l' h'
      induction l' with
      | nil => simp
      | cons x l' ih =>
        obtain ⟨i1, i2⟩ := ih (fun y hy => h' y (List.mem_cons_of_mem _ hy))
        have hx := h' x List.mem_cons_self
        have b := R.bounds (mul_nonneg k0 hx)
        have c := R.bounds (div_nonneg (R.nonneg (mul_nonneg k0 hx)) T0)
        simp only [List.map_cons, List.sum_cons, List.length_cons]
        push_cast
        have d1 : rnd (k.val * x.val) / T ≤ ((1 + u) * (k.val * x.val) + η) / T := div_le_div_of_nonneg_right b.2 T0
        have d2 : ((1 - u) * (k.val * x.val) - η) / T ≤ rnd (k.val * x.val) / T := div_le_div_of_nonneg_right b.1 T0
        have f1 : (1 + u) * (((1 + u) * (k.val * x.val) + η) / T) + η = (1 + u) ^ 2 * (k.val / T) * x.val + η * ((1 + u) / T + 1) := by field_simp; ring
        have f2 : (1 - u) * (((1 - u) * (k.val * x.val) - η) / T) - η = (1 - u) ^ 2 * (k.val / T) * x.val - η * ((1 - u) / T + 1) := by field_simp; ring
        have f3 : η * ((1 - u) / T + 1) ≤ η * ((1 + u) / T + 1) := by
          apply mul_le_mul_of_nonneg_left _ η0
          have : (1 - u) / T ≤ (1 + u) / T := div_le_div_of_nonneg_right (by linarith) T0
          linarith
        have g1 := mul_le_mul_of_nonneg_left d1 (by linarith : (0 : ℚ) ≤ 1 + u)
        have g2 := mul_le_mul_of_nonneg_left d2 (by linarith : (0 : ℚ) ≤ 1 - u)
        constructor
        · linarith [c.2]
        · linarith [c.1]
    obtain ⟨k1, k2⟩ := key l (fun x hx => (hs x hx).2)
    rw [abs_le]
    constructor <;> linarith

example : ∃ l, matF.assay "A".toList = .ok l ∧ (∀ x ∈ l, Machine rnd64 x ∧ 0 ≤ x.val) ∧ 0 < (pySum rnd64 l).val ∧ Machine rnd64 (fl 10) ∧ ((l.length + 2 : ℕ) : ℚ) * pow2 (-53) < 1 := by
  refine ⟨_, rfl, ?_, by decide +kernel, ⟨by decide +kernel, Or.inl rfl⟩, by decide +kernel⟩
  intro x hx
  simp only [List.mem_cons, List.not_mem_nil, or_false] at hx
  rcases hx with rfl | rfl | rfl <;> exact ⟨⟨ieee64.idem _, Or.inl rfl⟩, by decide +kernel⟩

/-- Adding a tuple, in numbers. -/
theorem addTuple_spec (R : IEEE rnd u η) {p r : Package} {c : Str} {x : Num} (hp : Sound rnd p) (hx : rnd x.val = x.val) (x0 : 0 ≤ x.val)
    (h : addTuple rnd p c x = .ok r) : ∃ i, p.mat.index c = .ok i ∧ i < p.masses.length ∧ Sound rnd r ∧ r.mat = p.mat ∧ r.masses.length = p.masses.length ∧
      ∀ j, at_ r j = if j = i then rnd (at_ p i + x.val) else at_ p j := by
  unfold addTuple at h
  by_cases hf : x.isFloat = true
  · rw [if_pos hf] at h
    cases hi : p.mat.index c with
    | error e => rw [hi] at h; cases h
    | ok i =>
      rw [hi] at h
      dsimp only at h
      cases hy : p.masses[i]? with
      | none => rw [hy] at h; cases h
      | some y =>
        rw [hy] at h
        cases h
        have sy := hp y (List.mem_of_getElem? hy)
        obtain ⟨e, ma, -⟩ := addN_machine R sy.1 (b := x) ⟨hx, Or.inl hf⟩
        refine ⟨i, rfl, lt_of_some hy, sound_set hp ⟨ma, by rw [e]; exact R.nonneg (add_nonneg sy.2 x0)⟩ i, rfl, by simp, ?_⟩
        intro j
        rw [at_set (lt_of_some hy), e, at_eq hy]
  · rw [if_neg hf] at h; cases h

/-- **C116** Adding a mass of a compound changes that compound alone, to the machine number nearest to the sum. -/
theorem C116_add_tuple (R : IEEE rnd u η) (p r : Package) (c : Str) (x : Num) (hp : Sound rnd p) (hx : rnd x.val = x.val) (x0 : 0 ≤ x.val)
    (h : ChemFloat.add rnd p (.tup c x) = .ok r) : ∃ i, p.mat.index c = .ok i ∧ Sound rnd r ∧ (∀ j, j ≠ i → at_ r j = at_ p j) ∧
      at_ r i = rnd (at_ p i + x.val) ∧ |at_ r i - (at_ p i + x.val)| ≤ u * (at_ p i + x.val) := by
  obtain ⟨i, hi, -, hs, -, -, hj⟩ := addTuple_spec R hp hx x0 h
  have e : at_ r i = rnd (at_ p i + x.val) := by rw [hj i, if_pos rfl]
  refine ⟨i, hi, hs, fun j hne => by rw [hj j, if_neg hne], e, ?_⟩
  obtain ⟨b0, b1⟩ := at_sound R hp i
  have := R.add b1 hx
  rw [abs_of_nonneg (add_nonneg b0 x0)] at this
  rw [e]; exact this

example : ∃ r, ChemFloat.add rnd64 pkgF (.tup "SiO2".toList (fl (rnd64 (1/10)))) = .ok r ∧ at_ r 1 ≠ at_ pkgF 1 + rnd64 (1/10) := ⟨_, rfl, by decide +kernel⟩

/-- What is in a package by name: 0 for a compound its material does not have. -/
def amount (p : Package) (c : Str) : ℚ := match p.mat.index c with
  | .ok i => at_ p i
  | .error _ => 0

theorem indexOf_inj {l : List Str} {c d : Str} {i : ℕ} (h : indexOf l c = some i) (h' : indexOf l d = some i) : c = d := by
  induction l generalizing i with
  | nil => cases h
  | cons a l ih =>
    unfold indexOf at h h'
    by_cases h1 : a = c <;> by_cases h2 : a = d
    · exact h1.symm.trans h2
    · rw [if_pos h1] at h; rw [if_neg h2] at h'
      cases h; cases hh : indexOf l d <;> rw [hh] at h' <;> simp at h'
    · rw [if_neg h1] at h; rw [if_pos h2] at h'
      cases h'; cases hh : indexOf l c <;> rw [hh] at h <;> simp at h
    · rw [if_neg h1] at h; rw [if_neg h2] at h'
      cases hc : indexOf l c with
      | none => rw [hc] at h; cases h
      | some k =>
        cases hd : indexOf l d with
        | none => rw [hd] at h'; cases h'
        | some k' =>
          rw [hc] at h; rw [hd] at h'
          simp only [Option.map_some, Option.some.injEq] at h h'
          have : k = k' := by omega
          exact ih hc (by rw [hd, this])

theorem index_inj {m : Material} {c d : Str} {i : ℕ} (h : m.index c = .ok i) (h' : m.index d = .ok i) : c = d := by
  unfold Material.index at h h'
  cases hc : indexOf m.compounds c with
  | none => rw [hc] at h; cases h
  | some k =>
    cases hd : indexOf m.compounds d with
    | none => rw [hd] at h'; cases h'
    | some k' => rw [hc] at h; rw [hd] at h'; cases h; cases h'; exact indexOf_inj hc hd

theorem compoundMass_amount {q : Package} {c : Str} {x : Num} (h : q.compoundMass c = .ok x) : amount q c = x.val ∧ x ∈ q.masses := by
  unfold Package.compoundMass at h
  unfold amount
  cases hi : q.mat.index c with
  | error e => rw [hi] at h; cases h
  | ok i =>
    rw [hi] at h
    dsimp only at h ⊢
    cases hy : q.masses[i]? with
    | none => rw [hy] at h; cases h
    | some y => rw [hy] at h; cases h; exact ⟨at_eq hy, List.mem_of_getElem? hy⟩

theorem addLoop_spec (R : IEEE rnd u η) (q : Package) (hq : Sound rnd q) (cs : List Str) (hcs : cs.Nodup) : ∀ (p p' : Package), Sound rnd p →
    addLoop rnd q cs p = (.ok (), p') → Sound rnd p' ∧ p'.mat = p.mat ∧ ∀ c, amount p' c = if c ∈ cs then rnd (amount p c + amount q c) else amount p c := by
  induction cs with
  | nil => intro p p' hp h; cases h; exact ⟨hp, rfl, fun c => by simp⟩
  | cons d cs ih =>
    intro p p' hp h
    unfold addLoop at h
    by_cases hd : d ∉ p.mat.compounds
    · rw [if_pos hd] at h; cases h
    · rw [if_neg hd] at h
      cases hx : q.compoundMass d with
      | error e => rw [hx] at h; cases h
      | ok x =>
        rw [hx] at h
        dsimp only at h
        cases ht : addTuple rnd p d x with
        | error e => rw [ht] at h; cases h
        | ok p1 =>
          rw [ht] at h
          dsimp only at h
          obtain ⟨ex, mx⟩ := compoundMass_amount hx
          have sx := hq x mx
          obtain ⟨i, hi, -, s1, m1, -, hj⟩ := addTuple_spec R hp sx.1.1 sx.2 ht
          obtain ⟨s2, m2, hc⟩ := ih (List.nodup_cons.mp hcs).2 p1 p' s1 h
          refine ⟨s2, m2.trans m1, ?_⟩
          intro c
          rw [hc c]
          have a1 : amount p1 c = if c = d then rnd (amount p c + amount q c) else amount p c := by
            unfold amount at ex ⊢
            rw [m1]
            by_cases hcd : c = d
            · subst hcd
              rw [if_pos rfl, hi]
              dsimp only
              rw [hj i, if_pos rfl, ← ex]
            · rw [if_neg hcd]
              cases hk : p.mat.index c with
              | error e => rfl
              | ok k =>
                dsimp only
                rw [hj k, if_neg]
                rintro rfl
                exact hcd (index_inj hk hi)
          by_cases hcd : c = d
          · subst hcd
            rw [if_neg (List.nodup_cons.mp hcs).1, a1, if_pos rfl, if_pos List.mem_cons_self]
          · rw [a1, if_neg hcd]
            by_cases hm : c ∈ cs
            · rw [if_pos hm, if_pos (List.mem_cons_of_mem _ hm)]
            · rw [if_neg hm, if_neg (by simp [hcd, hm])]

/-- **C116** Adding a package of another material: of every compound there is the machine number nearest to the sum of the two packages' masses, which is off by one rounding at most. -/
theorem C116_add_package (R : IEEE rnd u η) (p q r : Package) (hp : Sound rnd p) (hq : Sound rnd q) (hm : p.mat.ident ≠ q.mat.ident) (hd : q.mat.compounds.Nodup)
    (h : ChemFloat.add rnd p (.pkg q) = .ok r) :
    Sound rnd r ∧ ∀ c, amount r c = rnd (amount p c + amount q c) ∧ |amount r c - (amount p c + amount q c)| ≤ u * (amount p c + amount q c) := by
  simp only [ChemFloat.add, if_neg hm] at h
  cases hl : addLoop rnd q q.mat.compounds p with
  | mk o p' =>
    cases o with
    | error e => rw [hl] at h; cases h
    | ok v =>
      rw [hl] at h
      simp only [Except.ok.injEq] at h
      subst h
      obtain ⟨s, m, hc⟩ := addLoop_spec R q hq _ hd p p' hp hl
      have sa : ∀ (p : Package), Sound rnd p → ∀ c, 0 ≤ amount p c ∧ rnd (amount p c) = amount p c := by
        intro p hp c
        unfold amount
        cases p.mat.index c with
        | error e => exact ⟨le_refl _, R.zero⟩
        | ok i => exact at_sound R hp i
      refine ⟨s, fun c => ?_⟩
      have e : amount p' c = rnd (amount p c + amount q c) := by
        rw [hc c]
        by_cases hm : c ∈ q.mat.compounds
        · rw [if_pos hm]
        · rw [if_neg hm]
          have : amount q c = 0 := by
            unfold amount
            cases hi : q.mat.index c with
            | error e => rfl
            | ok i =>
              exfalso
              unfold Material.index at hi
              cases hh : indexOf q.mat.compounds c with
              | none => rw [hh] at hi; cases hi
              | some k =>
                apply hm
                clear hi hc hl hd
                generalize q.mat.compounds = l at hh ⊢
                induction l generalizing k with
                | nil => cases hh
                | cons a l ih =>
                  unfold indexOf at hh
                  by_cases ha : a = c
                  · rw [ha]; exact List.mem_cons_self
                  · rw [if_neg ha] at hh
                    cases h2 : indexOf l c with
                    | none => rw [h2] at hh; cases hh
                    | some k' => exact List.mem_cons_of_mem _ (ih k' h2)
          rw [this, add_zero, (sa p hp c).2]
      refine ⟨e, ?_⟩
      have := R.add (sa p hp c).2 (sa q hq c).2
      rw [abs_of_nonneg (add_nonneg (sa p hp c).1 (sa q hq c).1)] at this
      rw [e]; exact this

example : ∃ r, ChemFloat.add rnd64 pkgF (.pkg pkgG) = .ok r ∧ pkgF.mat.ident ≠ pkgG.mat.ident ∧ pkgG.mat.compounds.Nodup ∧
    amount r "FeO".toList = rnd64 (1/2) := ⟨_, rfl, by decide, by decide, by decide +kernel⟩

/-- **C117** What `get_mass` reports can be extracted: a mass that is not more than that is always given, unless the package is empty. -/
theorem C117_available (R : IEEE rnd u η) (p : Package) (x : Num) (hp : Sound rnd p) (hx : Machine rnd x) (hf : x.isFloat = true) (h0 : (mass rnd p).val ≠ 0) :
    (∃ r p', ChemFloat.extract rnd p (.num x) = (.ok r, p')) ↔ x.val ≤ (mass rnd p).val := by
  simp only [ChemFloat.extract, if_pos hf]
  constructor
  · rintro ⟨r, p', h⟩
    by_contra hgt
    rw [if_pos (not_le.mp hgt)] at h; cases h
  · intro hle
    rw [if_neg (not_lt.mpr hle), divN_machine R hx (mass_sound R hp).1 h0]
    exact ⟨_, _, rfl⟩

example : Sound rnd64 pkgF ∧ Machine rnd64 (fl (rnd64 (3/10))) ∧ (mass rnd64 pkgF).val ≠ 0 ∧ rnd64 (3/10) ≤ (mass rnd64 pkgF).val :=
  ⟨soundF, ⟨ieee64.idem _, Or.inl rfl⟩, by decide +kernel, by decide +kernel⟩

/-- **C117** Of a package created with a mass of `k`, all but a few roundings of `k` can be extracted. -/
theorem C117_nearly_all_partial (R : IEEE rnd u η) (m : Material) (name : Str) (l : List Num) (k x : Num) (hl : m.assay name = .ok l)
    (hs : ∀ x ∈ l, Machine rnd x ∧ 0 ≤ x.val) (ht : 0 < (pySum rnd l).val) (hk : Machine rnd k) (k0 : 0 ≤ k.val) (hn : (l.length + 2 : ℕ) * u < 1)
    (hx : Machine rnd x) (hf : x.isFloat = true) (x0 : 0 < x.val)
    (hle : x.val ≤ (1 - l.length * u) * ((1 - γ u (l.length + 2)) * k.val - η * l.length * ((1 + u) / (pySum rnd l).val + 1))) :
    ∃ p r p', ChemFloat.createPackage rnd m (some name) k true = .ok p ∧ ChemFloat.extract rnd p (.num x) = (.ok r, p') := by
  obtain ⟨p, hp, sp, -, len, hb⟩ := C116_create R m name l k hl hs ht hk k0 hn
  have u0 := R.u0
  obtain ⟨-, -, lo, -⟩ := pySum_bounds R sp
  rw [len] at lo
  push_cast at hn
  have b := one_sub_pow u0 R.u1 l.length
  have tot0 : 0 ≤ total p := List.sum_nonneg (by
    intro y hy
    obtain ⟨z, hz, rfl⟩ := List.mem_map.mp hy
    exact (sp z hz).2)
  have t1 : (1 - γ u (l.length + 2)) * k.val - η * l.length * ((1 + u) / (pySum rnd l).val + 1) ≤ total p := by
    have := (abs_le.mp hb).1
    linarith
  have d0 : 0 ≤ 1 - (l.length : ℚ) * u := by linarith
  have t2 : x.val ≤ (mass rnd p).val :=
    calc x.val ≤ _ := hle
      _ ≤ (1 - l.length * u) * total p := mul_le_mul_of_nonneg_left t1 d0
      _ ≤ (1 - u) ^ l.length * total p := mul_le_mul_of_nonneg_right b tot0
      _ ≤ (mass rnd p).val := lo
  obtain ⟨r, p', h⟩ := (C117_available R p x sp hx hf (by linarith)).mpr t2
  exact ⟨p, r, p', hp, h⟩

/-- For the 10 kg package of `C117_created_violated` all but a millionth of a milligram. -/
example : ∃ l, matF.assay "A".toList = .ok l ∧ Machine rnd64 (fl (rnd64 (10 - 1 / 10 ^ 12))) ∧ (rnd64 (10 - 1 / 10 ^ 12)) ≤
    (1 - l.length * pow2 (-53)) * ((1 - γ (pow2 (-53)) (l.length + 2)) * 10 - pow2 (-1075) * l.length * ((1 + pow2 (-53)) / (pySum rnd64 l).val + 1)) :=
  ⟨_, rfl, ⟨ieee64.idem _, Or.inl rfl⟩, by decide +kernel⟩

/-! ## What rounding breaks -/

/-- **C117**, violated: a package created with a mass of 10 kg may not have 10 kg to give. -/
theorem C117_created_violated : ∃ p, ChemFloat.createPackage rnd64 matF (some "A".toList) (fl 10) true = .ok p ∧ (mass rnd64 p).val < 10 ∧
    (ChemFloat.extract rnd64 p (.num (fl 10))).1 = .error .exception :=
  ⟨got (ChemFloat.createPackage rnd64 matF (some "A".toList) (fl 10) true), by decide +kernel, by decide +kernel, by decide +kernel⟩

/-- **C117**, violated: of a package of exactly 10 kg from which 3 kg have been extracted the other 7 kg cannot be extracted. -/
theorem C117_rest_violated : ∃ p r p', ChemFloat.createPackage rnd64 matF (some "B".toList) (fl 10) true = .ok p ∧ (mass rnd64 p).val = 10 ∧
    ChemFloat.extract rnd64 p (.num (fl 3)) = (.ok r, p') ∧ (ChemFloat.extract rnd64 p' (.num (fl 7))).1 = .error .exception :=
  ⟨got (ChemFloat.createPackage rnd64 matF (some "B".toList) (fl 10) true),
    got (ChemFloat.extract rnd64 (got (ChemFloat.createPackage rnd64 matF (some "B".toList) (fl 10) true)) (.num (fl 3))).1,
    (ChemFloat.extract rnd64 (got (ChemFloat.createPackage rnd64 matF (some "B".toList) (fl 10) true)) (.num (fl 3))).2, by decide +kernel, by decide +kernel, by decide +kernel, by decide +kernel⟩

/-- **C116**, violated: splitting is not exact. -/
theorem C116_conserves_violated : ∃ p r p', Sound rnd64 p ∧ ChemFloat.extract rnd64 p (.num (fl (rnd64 (3/10)))) = (.ok r, p') ∧ at_ r 1 + at_ p' 1 ≠ at_ p 1 :=
  ⟨pkgF, got (ChemFloat.extract rnd64 pkgF (.num (fl (rnd64 (3/10))))).1, (ChemFloat.extract rnd64 pkgF (.num (fl (rnd64 (3/10))))).2, soundF, by decide +kernel, by decide +kernel⟩

end Auxi.ChemFloat.Props
