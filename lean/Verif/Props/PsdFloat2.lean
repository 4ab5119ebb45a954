import Verif.Props.PsdFloat
import Verif.Proofs.Rounding
import Verif.Props.ChemFloat

/-! # C139: requested masses, the order of sums, a plant of chem packages -/
namespace Auxi.PsdFloat.Props
open Auxi Auxi.Psd Auxi.Psd.Spec Auxi.Rounding Auxi.PsdFloat Auxi.PsdFloat.Spec Auxi.PsdFloat.Proofs
open Auxi.ChemFloat.Spec (γ)

variable {rnd : ℚ → ℚ} {S : List ℚ → ℚ} {u η : ℚ}

theorem sum_mulF (R : IEEE rnd u η) {l : List ℚ} (hl : Floats rnd l) {f : ℚ} (hf : 0 ≤ f) :
    (1 - u) * f * l.sum - l.length * η ≤ (l.map fun x => rnd (x * f)).sum ∧ (l.map fun x => rnd (x * f)).sum ≤ (1 + u) * f * l.sum + l.length * η := by
  induction l with
  | nil => simp
  | cons x l ih =>
    obtain ⟨h1, h2⟩ := ih (fun y hy => hl y (List.mem_cons_of_mem _ hy))
    have hx := (hl x List.mem_cons_self).2
    have b := R.bounds (mul_nonneg hx hf)
    simp only [List.map_cons, List.sum_cons, List.length_cons]
    push_cast
    constructor <;> nlinarith [b.1, b.2]

/-- **C139 (requested mass).** A mass extracted from a package is the requested mass within one rounding for each size class and two more. -/
theorem C139_requested (R : IEEE rnd u η) (hS : ∀ l, Adds rnd l (S l)) (p p' r : Package) (b : Bool) (x : ℚ) (hp : Sound rnd p) (hs : Shape p) (hd : Distinct p.mat)
    (ha : ArgOk rnd (mass S p) (.num b (.fin x))) (hn : (p.masses.length + 2 : ℕ) * u < 1) (h : extract rnd S p (.num b (.fin x)) = (.ok r, p')) :
    |total r - x| ≤ γ u (p.masses.length + 2) * x + η * ((1 + u) * total p + p.masses.length) := by
  have u0 := R.u0
  have u1 := R.u1
  have η0 := R.η0
  obtain ⟨l, hl, hf⟩ := sound_iff.1 hp
  have ht : total p = l.sum := by unfold total; rw [contents_eq hl hd hs]
  obtain ⟨m, ms⟩ := p
  dsimp only at hl
  subst hl
  have M : mass S ⟨m, lift l⟩ = .fin (S l) := arraySum_lift l
  obtain ⟨s1, s2, lo, hi, s5⟩ := adds_spec R (hS l) hf
  obtain ⟨⟨q, hq, q1, q2⟩, hne⟩ := ha
  cases hq
  unfold extract at h
  dsimp only at h
  split at h
  · rw [M] at h hne
    split at h
    · cases h
    · have Mne : S l ≠ 0 := fun h => hne (by rw [h])
      have M0 : 0 < S l := lt_of_le_of_ne s2 (Ne.symm Mne)
      rw [divF_fin Mne] at h
      rw [mul_lift] at h
      cases h
      have et : total ⟨m, lift (l.map fun y => rnd (y * rnd (x / S l)))⟩ = (l.map fun y => rnd (y * rnd (x / S l))).sum := by
        unfold total
        rw [contents_eq (p := ⟨m, lift (l.map fun y => rnd (y * rnd (x / S l)))⟩) rfl hd (by unfold Shape at hs ⊢; simpa using hs)]
      rw [et, ht]
      simp only [lift_length] at hn ⊢
      have f0 : 0 ≤ rnd (x / S l) := R.nonneg (div_nonneg q2 M0.le)
      obtain ⟨s1, s2⟩ := sum_mulF R hf f0
      obtain ⟨q1, q2'⟩ := ChemFloat.Proofs.quotient_bounds R hn q2 M0 lo hi
      have fb := R.bounds (div_nonneg q2 M0.le)
      have S0 := floats_sum hf
      generalize rnd (x / S l) = F at *
      have t1 : (1 + u) * F * l.sum ≤ (1 + u) * ((1 + u) * (x / S l) + η) * l.sum := mul_le_mul_of_nonneg_right (mul_le_mul_of_nonneg_left fb.2 (by linarith)) S0
      have t2 : (1 - u) * ((1 - u) * (x / S l) - η) * l.sum ≤ (1 - u) * F * l.sum := mul_le_mul_of_nonneg_right (mul_le_mul_of_nonneg_left fb.1 (by linarith)) S0
      have t3 : 0 ≤ u * η * l.sum := mul_nonneg (mul_nonneg u0 η0) S0
      rw [abs_le]
      constructor <;> linarith
  · cases h

/-! ## The order of sums -/

/-- Adding from left to right. -/
def leftSum (rnd : ℚ → ℚ) (l : List ℚ) : ℚ := l.foldl (fun a x => rnd (a + x)) 0

/-- Adding the two halves and then the sums, as numpy does with long arrays. -/
def halfSum (rnd : ℚ → ℚ) : ℕ → List ℚ → ℚ
  | 0, l => leftSum rnd l
  | k + 1, l => rnd (halfSum rnd k (l.take (l.length / 2)) + halfSum rnd k (l.drop (l.length / 2)))

theorem foldl_adds (l : List ℚ) : ∀ (m : List ℚ) (a : ℚ), Adds rnd m a → Adds rnd (m ++ l) (l.foldl (fun a x => rnd (a + x)) a) := by
  induction l with
  | nil => intro m a h; simpa using h
  | cons x l ih =>
    intro m a h
    have := ih (m ++ [x]) (rnd (a + x)) (.both h (.one x))
    simpa using this

/-- **C139 (order).** Adding from left to right is one of the orders, and so is halving the array any number of times, as numpy does. -/
theorem C139_orders (l : List ℚ) : Adds rnd l (leftSum rnd l) ∧ ∀ k, Adds rnd l (halfSum rnd k l) := by
  have left : ∀ l, Adds rnd l (leftSum rnd l) := fun l => by
    unfold leftSum
    simpa using foldl_adds (rnd := rnd) l [] 0 .none
  refine ⟨left l, fun k => ?_⟩
  induction k generalizing l with
  | zero => exact left l
  | succ k ih =>
    have := Adds.both (ih (l.take (l.length / 2))) (ih (l.drop (l.length / 2)))
    rwa [List.take_append_drop] at this

/-! ## Examples -/

/-- A package of tenths, which floats do not have. -/
def pkgT : Package := ⟨Psd.Props.matA, [.fin (rnd64 (1/10)), .fin (rnd64 (2/10)), .fin (rnd64 (3/10))]⟩

theorem pkgT_sound : Sound rnd64 pkgT := by
  intro x hx
  simp only [pkgT, List.mem_cons, List.not_mem_nil, or_false] at hx
  rcases hx with rfl | rfl | rfl
  · exact ⟨_, rfl, ieee64.idem _, by decide +kernel⟩
  · exact ⟨_, rfl, ieee64.idem _, by decide +kernel⟩
  · exact ⟨_, rfl, ieee64.idem _, by decide +kernel⟩

/-- The hypotheses hold of it; the mass depends on the order of the additions; and splitting it is not exact. -/
example : Sound rnd64 pkgT ∧ Shape pkgT ∧ Distinct pkgT.mat ∧ ((pkgT.masses.length + 2 : ℕ) : ℚ) * pow2 (-53) < 1 ∧
    mass (leftSum rnd64) pkgT ≠ mass (halfSum rnd64 1) pkgT ∧ mass (leftSum rnd64) pkgT ≠ .fin 0 ∧
    (extract rnd64 (leftSum rnd64) pkgT (.num true (.fin (rnd64 (1/10))))).1 ≠ (Package.extract pkgT (.num true (.fin (rnd64 (1/10))))).1 :=
  ⟨pkgT_sound, rfl, Psd.Props.pkgA_ok.2.2, by decide +kernel, by decide +kernel, by decide +kernel, by decide +kernel⟩

theorem pkgT_arg : ArgOk rnd64 (mass (leftSum rnd64) pkgT) (.num true (.fin (rnd64 (1/10)))) :=
  ⟨⟨rnd64 (1/10), rfl, ieee64.idem _, by decide +kernel⟩, by decide +kernel⟩

/-- A plant in which a mass is taken of a package and added to another one. -/
example : ∃ qs, Plant.RunN (fun p p' r => ∃ a, ArgOk rnd64 (mass (leftSum rnd64) p) a ∧ extract rnd64 (leftSum rnd64) p a = (.ok r, p')) (fun p q r => add rnd64 p (.pkg q) = .ok r) [pkgT, pkgT] 2 qs := by
  have e1 : ∃ r p', extract rnd64 (leftSum rnd64) pkgT (.num true (.fin (rnd64 (1/10)))) = (.ok r, p') ∧ ∃ s, add rnd64 pkgT (.pkg r) = .ok s := by
    cases h : extract rnd64 (leftSum rnd64) pkgT (.num true (.fin (rnd64 (1/10)))) with
    | mk o p' =>
      cases o with
      | error e => exact absurd (congrArg Prod.fst h) (by have : (extract rnd64 (leftSum rnd64) pkgT (.num true (.fin (rnd64 (1/10))))).1.toBool = true := by decide +kernel
                                                          intro hh; rw [hh] at this; cases this)
      | ok r =>
        refine ⟨r, p', rfl, ?_⟩
        obtain ⟨-, -, h3, -, h5, -⟩ := C139_extract ieee64 (fun l => (C139_orders l).1) pkgT p' r _ pkgT_sound pkgT_arg h
        unfold add
        dsimp only
        rw [if_pos (by rw [h3])]
        unfold vadd
        rw [if_pos h5.symm]
        exact ⟨_, rfl⟩
  obtain ⟨r, p', he, s, hs⟩ := e1
  have r1 := Plant.RunN.split (part := fun p p' r => ∃ a, ArgOk rnd64 (mass (leftSum rnd64) p) a ∧ extract rnd64 (leftSum rnd64) p a = (.ok r, p')) (mix := fun p q r => add rnd64 p (.pkg q) = .ok r)
    (.start (ps := [pkgT, pkgT])) (List.Perm.refl _) ⟨_, pkgT_arg, he⟩
  exact ⟨_, .join r1 (p := pkgT) (q := r) (rest := [p']) (List.reverse_perm [pkgT, r, p']) hs⟩

/-! ## Chem packages -/

/-- **C139 (plant of chem packages).** However often the chem packages of a plant are split and packages of different materials are joined, the mass of every compound in it changes by at most
about two roundings of it for each step. -/
theorem C139_chem_plant (R : IEEE rnd u η) (ps qs : List Chem.Package) (n : ℕ) (hp : ∀ p ∈ ps, ChemFloat.Spec.Sound rnd p ∧ p.mat.compounds.Nodup)
    (h : Plant.RunN (fun p p' r => ∃ a, ChemFloat.Spec.ArgOk rnd a ∧ ChemFloat.extract rnd p a = (.ok r, p')) (fun p q r => p.mat.ident ≠ q.mat.ident ∧ ChemFloat.add rnd p (.pkg q) = .ok r) ps n qs) (c : Str) :
    (∀ q ∈ qs, ChemFloat.Spec.Sound rnd q ∧ q.mat.compounds.Nodup) ∧
    |(qs.map (ChemFloat.Props.amount · c)).sum - (ps.map (ChemFloat.Props.amount · c)).sum| ≤
      ((1 + (2 * u + u ^ 2)) ^ n - 1) * (ps.map (ChemFloat.Props.amount · c)).sum + n * (2 * η) * (1 + (2 * u + u ^ 2)) ^ n := by
  have u0 := R.u0
  have η0 := R.η0
  have nonneg : ∀ p : Chem.Package, ChemFloat.Spec.Sound rnd p → 0 ≤ ChemFloat.Props.amount p c := by
    intro p hp
    unfold ChemFloat.Props.amount
    split
    · exact (ChemFloat.Props.at_sound R hp _).1
    · exact le_rfl
  refine Plant.RunN.drift (I := fun p => ChemFloat.Spec.Sound rnd p ∧ p.mat.compounds.Nodup) (μ := (ChemFloat.Props.amount · c)) (w := 2 * u + u ^ 2) (e := 2 * η) (by positivity) (by positivity)
    (fun p hp => nonneg p hp.1) ?_ ?_ hp h
  · rintro p p' r ⟨i1, i2⟩ ⟨a, ha, he⟩
    obtain ⟨h1, h2, h3, h4, -⟩ := ChemFloat.Props.C116_never_negative R p p' r a i1 ha he
    refine ⟨⟨h2, h4 ▸ i2⟩, ⟨h1, h3 ▸ i2⟩, ?_⟩
    have := (ChemFloat.Props.C116_conserves R p p' r a i1 ha he).1
    unfold ChemFloat.Props.amount
    rw [h3, h4]
    split
    · rename_i i _; rw [add_comm]; exact this i
    · simp [η0]
  · rintro p q r ⟨i1, i2⟩ ⟨j1, j2⟩ ⟨hne, he⟩
    obtain ⟨h1, h2⟩ := ChemFloat.Props.C116_add_package R p q r i1 j1 hne j2 he
    have hm : r.mat = p.mat := by
      simp only [ChemFloat.add, if_neg hne] at he
      cases hl : ChemFloat.addLoop rnd q q.mat.compounds p with
      | mk o p' =>
        rw [hl] at he
        cases o with
        | error e => cases he
        | ok v => cases he; exact (ChemFloat.Props.addLoop_spec R q j1 _ j2 p _ i1 hl).2.1
    refine ⟨⟨h1, hm ▸ i2⟩, (h2 c).2.trans ?_⟩
    have := mul_nonneg u0 (add_nonneg (nonneg p i1) (nonneg q j1))
    have := mul_nonneg (mul_nonneg u0 u0) (add_nonneg (nonneg p i1) (nonneg q j1))
    nlinarith

/-- Another material with the same compounds, and an empty package of it. -/
def pkgG : Chem.Package := ⟨{ ChemFloat.Props.matF with ident := ChemFloat.Props.matF.ident + 1 }, [Chem.fl 0, Chem.fl (rnd64 (1/10)), Chem.fl 0]⟩

/-- A plant in which a mass is taken of a chem package and a package of another material is added to the rest. -/
example : ∃ qs, Plant.RunN (fun p p' r => ∃ a, ChemFloat.Spec.ArgOk rnd64 a ∧ ChemFloat.extract rnd64 p a = (.ok r, p')) (fun p q r => p.mat.ident ≠ q.mat.ident ∧ ChemFloat.add rnd64 p (.pkg q) = .ok r)
      [ChemFloat.Props.pkgF, ChemFloat.Props.pkgF, pkgG] 2 qs ∧ ∀ p ∈ [ChemFloat.Props.pkgF, ChemFloat.Props.pkgF, pkgG], p.mat.compounds.Nodup := by
  have e1 : ∃ r p', ChemFloat.extract rnd64 ChemFloat.Props.pkgF (.num (Chem.fl (rnd64 (3/10)))) = (.ok r, p') := by
    cases h : ChemFloat.extract rnd64 ChemFloat.Props.pkgF (.num (Chem.fl (rnd64 (3/10)))) with
    | mk o p' =>
      cases o with
      | ok r => exact ⟨r, p', rfl⟩
      | error e =>
        have : (ChemFloat.extract rnd64 ChemFloat.Props.pkgF (.num (Chem.fl (rnd64 (3/10))))).1.isOk = true := by decide +kernel
        rw [h] at this; cases this
  have e2 : ∃ s, ChemFloat.add rnd64 ChemFloat.Props.pkgF (.pkg pkgG) = .ok s := by
    cases h : ChemFloat.add rnd64 ChemFloat.Props.pkgF (.pkg pkgG) with
    | ok s => exact ⟨s, rfl⟩
    | error e =>
      have : (ChemFloat.add rnd64 ChemFloat.Props.pkgF (.pkg pkgG)).isOk = true := by decide +kernel
      rw [h] at this; cases this
  obtain ⟨r, p', he⟩ := e1
  obtain ⟨s, hs⟩ := e2
  have r1 := Plant.RunN.split (part := fun p p' r => ∃ a, ChemFloat.Spec.ArgOk rnd64 a ∧ ChemFloat.extract rnd64 p a = (.ok r, p')) (mix := fun p q r => p.mat.ident ≠ q.mat.ident ∧ ChemFloat.add rnd64 p (.pkg q) = .ok r)
    (.start (ps := [ChemFloat.Props.pkgF, ChemFloat.Props.pkgF, pkgG])) (List.Perm.refl _) ⟨.num (Chem.fl (rnd64 (3/10))), ⟨ieee64.idem _, by decide +kernel⟩, he⟩
  refine ⟨_, .join r1 (p := ChemFloat.Props.pkgF) (q := pkgG) (rest := [p', r]) ?_ ⟨by decide +kernel, hs⟩, by decide +kernel⟩
  exact List.perm_append_comm (l₁ := [p', r]) (l₂ := [ChemFloat.Props.pkgF, pkgG])

end Auxi.PsdFloat.Props
