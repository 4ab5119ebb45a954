import Verif.Spec.F64
import Verif.Spec.Plant
import Verif.Props.Psd
import Verif.Props.Slurry

/-! # C138: numbers that are not finite -/
namespace Auxi.Psd.Props
open Spec

/-! ## The arithmetic -/

/-- The sum of two extended real numbers, where there is one. -/
noncomputable def sumOf (a b : EReal) : Option EReal := open Classical in if (a = ⊤ ∧ b = ⊥) ∨ (a = ⊥ ∧ b = ⊤) then none else some (a + b)
/-- The product, where there is one. -/
noncomputable def productOf (a b : EReal) : Option EReal := open Classical in if (a = 0 ∧ (b = ⊤ ∨ b = ⊥)) ∨ ((a = ⊤ ∨ a = ⊥) ∧ b = 0) then none else some (a * b)
/-- The quotient, where there is one; a number that is not zero divided by zero is infinite. -/
noncomputable def quotientOf (a b : EReal) : Option EReal := open Classical in
  if (a = 0 ∧ b = 0) ∨ ((a = ⊤ ∨ a = ⊥) ∧ (b = ⊤ ∨ b = ⊥)) then none else if b = 0 then some (if a < 0 then ⊥ else ⊤) else some (a / b)

/-- **C138 (sum).** The sum of two numbers is their sum as extended real numbers, and not a number where there is none. -/
theorem C138_add (a b : F64) : value (a.add b) = (value a).bind fun x => (value b).bind fun y => sumOf x y := by
  cases a <;> cases b <;> simp [F64.add, value, sumOf]

/-- **C138 (negation).** -/
theorem C138_neg (a : F64) : value a.neg = (value a).map (fun x => -x) := by
  cases a <;> simp [F64.neg, value]

/-- **C138 (product).** -/
theorem C138_mul (a b : F64) : value (a.mul b) = (value a).bind fun x => (value b).bind fun y => productOf x y := by
  have key : ∀ (neg : Bool) (q : ℚ), value (F64.scaleInf neg q) = productOf ((q : ℝ) : EReal) (if neg then ⊥ else ⊤) := by
    intro neg q
    unfold F64.scaleInf productOf
    rcases lt_trichotomy q 0 with h | h | h
    · have h' : ((q : ℚ) : ℝ) < 0 := by exact_mod_cast h
      cases neg <;> simp [h.ne, h, value, EReal.coe_mul_top_of_neg h', EReal.coe_mul_bot_of_neg h']
    · subst h; cases neg <;> simp [value]
    · have h' : 0 < ((q : ℚ) : ℝ) := by exact_mod_cast h
      cases neg <;> simp [h.ne', h.not_gt, value, EReal.coe_mul_top_of_pos h', EReal.coe_mul_bot_of_pos h']
  have comm : ∀ x y, productOf x y = productOf y x := by
    intro x y
    unfold productOf
    rw [mul_comm x y]
    congr 1
    rw [eq_iff_iff]; tauto
  have v : ∀ q, value (.fin q) = some ((q : ℝ) : EReal) := fun _ => rfl
  cases a <;> cases b
  case fin.fin a b => simp [F64.mul, value, productOf]
  case fin.pinf a => exact key false a
  case fin.ninf a => exact key true a
  case pinf.fin a => change value (F64.scaleInf false a) = productOf _ _; rw [key, comm]; rfl
  case ninf.fin a => change value (F64.scaleInf true a) = productOf _ _; rw [key, comm]; rfl
  all_goals simp [F64.mul, value, productOf]

/-- **C138 (quotient).** -/
theorem C138_div (a b : F64) : value (a.div b) = (value a).bind fun x => (value b).bind fun y => quotientOf x y := by
  cases a <;> cases b
  case fin.fin a b =>
    by_cases hb : b = 0
    · by_cases ha : a = 0
      · simp [F64.div, value, quotientOf, ha, hb]
      · by_cases hl : a < 0
        · simp [F64.div, value, quotientOf, ha, hb, hl]
        · simp [F64.div, value, quotientOf, ha, hb, hl]
    · simp [F64.div, value, quotientOf, hb, EReal.coe_div]
  case pinf.fin b =>
    rcases lt_trichotomy b 0 with h | h | h
    · have h' : ((b : ℝ) : EReal) < 0 := by exact_mod_cast h
      simp [F64.div, value, quotientOf, h, h.ne, EReal.top_div_of_neg_ne_bot h']
    · subst h; simp [F64.div, value, quotientOf]
    · have h' : 0 < ((b : ℝ) : EReal) := by exact_mod_cast h
      simp [F64.div, value, quotientOf, h.not_gt, h.ne', EReal.top_div_of_pos_ne_top h']
  case ninf.fin b =>
    rcases lt_trichotomy b 0 with h | h | h
    · have h' : ((b : ℝ) : EReal) < 0 := by exact_mod_cast h
      simp [F64.div, value, quotientOf, h, h.ne, EReal.bot_div_of_neg_ne_bot h']
    · subst h; simp [F64.div, value, quotientOf]
    · have h' : 0 < ((b : ℝ) : EReal) := by exact_mod_cast h
      simp [F64.div, value, quotientOf, h.not_gt, h.ne', EReal.bot_div_of_pos_ne_top h']
  all_goals simp [F64.div, value, quotientOf]

/-- **C138 (comparison).** Nothing is greater than `nan`, and `nan` is greater than nothing. -/
theorem C138_gt (a b : F64) : a.gt b = true ↔ ∃ x y, value a = some x ∧ value b = some y ∧ y < x := by
  cases a <;> cases b <;> simp [F64.gt, value]

example : (F64.pinf).add .ninf = .nan ∧ (F64.fin 0).mul .pinf = .nan ∧ (F64.fin (-1)).mul .pinf = .ninf ∧ (F64.fin 3).div (.fin 0) = .pinf ∧ F64.gt .ninf .ninf = false := by decide +kernel

/-! ## Which results are finite -/

theorem add_isFin {a b : F64} : IsFin (a.add b) ↔ IsFin a ∧ IsFin b := by cases a <;> cases b <;> simp [IsFin, F64.add]
theorem neg_isFin {a : F64} : IsFin a.neg ↔ IsFin a := by
  cases a with
  | fin q => exact ⟨fun _ => ⟨q, rfl⟩, fun _ => ⟨-q, rfl⟩⟩
  | _ => simp [IsFin, F64.neg]
theorem sub_isFin {a b : F64} : IsFin (a.sub b) ↔ IsFin a ∧ IsFin b := by unfold F64.sub; rw [add_isFin, neg_isFin]
theorem scaleInf_isFin {n : Bool} {q : ℚ} : ¬ IsFin (F64.scaleInf n q) := by
  unfold F64.scaleInf IsFin
  rintro ⟨r, hr⟩
  split at hr
  · cases hr
  · split at hr <;> cases hr
theorem mul_isFin {a b : F64} : IsFin (a.mul b) ↔ IsFin a ∧ IsFin b := by
  cases a <;> cases b
  case fin.fin => simp [IsFin, F64.mul]
  all_goals first
    | (refine ⟨fun h => absurd h scaleInf_isFin, fun h => ?_⟩; simp [IsFin] at h)
    | simp [IsFin, F64.mul]
theorem fin_isFin (q : ℚ) : IsFin (.fin q) := ⟨q, rfl⟩

theorem foldl_isFin (l : List F64) : ∀ a : F64, IsFin (l.foldl F64.add a) ↔ IsFin a ∧ ∀ x ∈ l, IsFin x := by
  induction l with
  | nil => intro a; simp
  | cons x l ih => intro a; rw [List.foldl_cons, ih, add_isFin]; simp [and_assoc]

theorem sum_isFin (l : List F64) : IsFin (sum l) ↔ ∀ x ∈ l, IsFin x := by
  unfold sum; rw [foldl_isFin]; simp [fin_isFin]

theorem not_finite {p : Package} : ¬ Finite p ↔ Spoilt p := by unfold Spec.Finite Spoilt IsFin; simp

/-- **C138 (total).** The mass of a package is a finite number exactly when the masses of all its size classes are: a `nan` or an infinity cannot hide in a package. -/
theorem C138_total (p : Package) : IsFin p.mass ↔ Finite p := sum_isFin p.masses

/-- **C138 (scaling).** A multiple of a package is finite exactly when the package and the factor are (or there are no size classes). -/
theorem C138_scaled (p r : Package) (b : Bool) (k : F64) (h : p.mul b k = .ok r) (h0 : p.masses ≠ []) : Finite r ↔ Finite p ∧ IsFin k := by
  unfold Package.mul at h
  split at h
  · split at h
    · cases h
    · cases h
      unfold Spec.Finite
      simp only [List.mem_map, forall_exists_index, and_imp, forall_apply_eq_imp_iff₂]
      change (∀ x ∈ p.masses, IsFin (x.mul k)) ↔ _
      simp only [mul_isFin]
      obtain ⟨x, hx⟩ := List.exists_mem_of_ne_nil _ h0
      exact ⟨fun h => ⟨fun y hy => (h y hy).1, (h x hx).2⟩, fun h y hy => ⟨h.1 y hy, h.2⟩⟩
  · cases h

/-- **C138 (clearing) is false of the code for a package that is not finite.** Clearing multiplies by zero, so a package is empty afterwards exactly when all its masses were finite. -/
theorem C138_clear (p : Package) : (∀ x ∈ p.clear.masses, x = .fin 0) ↔ Finite p := by
  unfold Package.clear Spec.Finite
  simp only [List.mem_map, forall_exists_index, and_imp, forall_apply_eq_imp_iff₂]
  constructor
  · intro h x hx
    exact (mul_isFin.1 ⟨0, h x hx⟩).1
  · intro h x hx
    obtain ⟨q, rfl⟩ := h x hx
    simp [F64.mul]

/-- The witness: after `clear` the package still has an infinite mass, or one that is not a number. -/
theorem C138_clear_violated : ∃ p : Package, p.mat = matA ∧ Shape p ∧ p.clear.mass = .nan := ⟨⟨matA, [.pinf, .fin 1, .fin 2]⟩, rfl, rfl, by decide +kernel⟩

theorem spoilt_set {l : List F64} {i : ℕ} {y : F64} (hi : i < l.length) (hy : ¬ IsFin y) : ∃ x ∈ l.set i y, ¬ IsFin x :=
  ⟨y, List.mem_iff_getElem.2 ⟨i, by simpa using hi, by simp⟩, hy⟩

/-- Replacing a number by one that is not finite if the old one was not. -/
theorem spoilt_set' {l : List F64} {i : ℕ} {y z : F64} (hi : l[i]? = some y) (hz : ¬ IsFin y → ¬ IsFin z) (h : ∃ x ∈ l, ¬ IsFin x) : ∃ x ∈ l.set i z, ¬ IsFin x := by
  obtain ⟨x, hx, hn⟩ := h
  obtain ⟨j, hj, rfl⟩ := List.mem_iff_getElem.1 hx
  by_cases hij : i = j
  · subst hij
    rw [List.getElem?_eq_getElem hj] at hi
    cases hi
    exact spoilt_set hj (hz hn)
  · exact ⟨l[j], List.mem_iff_getElem.2 ⟨j, by simpa using hj, by rw [List.getElem_set_ne hij]⟩, hn⟩

/-- **C138 (splitting).** If a mass of a package is not finite, then after any successful extraction a mass of what is left or of what was taken is not finite. -/
theorem C138_extract (p p' r : Package) (a : Arg Package) (h : p.extract a = (.ok r, p')) (hp : Spoilt p) : Spoilt p' ∨ Spoilt r := by
  unfold Package.extract at h
  split at h
  · split at h
    · split at h
      · cases h
      · cases h
        obtain ⟨x, hx, hn⟩ := hp
        exact .inl ⟨_, List.mem_map.2 ⟨x, hx, rfl⟩, fun h => hn (mul_isFin.1 h).1⟩
    · cases h
  · split at h
    · split at h
      · cases h
      · split at h
        · cases h
        · rename_i hi
          split at h
          · cases h
          · cases h
            exact .inl (spoilt_set' hi (fun hy h => hy (sub_isFin.1 h).1) hp)
    · cases h
  · split at h
    · cases h
    · split at h
      · cases h
      · split at h
        · cases h
        · rename_i i _ _ y hi
          cases h
          obtain ⟨x, hx, hn⟩ := hp
          obtain ⟨j, hj, rfl⟩ := List.mem_iff_getElem.1 hx
          by_cases hij : i = j
          · subst hij
            rw [List.getElem?_eq_getElem hj] at hi
            cases hi
            exact .inr (spoilt_set (by simpa using hj) hn)
          · exact .inl ⟨_, List.mem_iff_getElem.2 ⟨j, by simpa using hj, by rw [List.getElem_set_ne hij]⟩, hn⟩
  · cases h

theorem addTuple_spoilt {p p' : Package} {c : ℚ} {b : Bool} {x : F64} (h : p.addTuple c b x = .ok p') (hs : Spoilt p ∨ ¬ IsFin x) : Spoilt p' := by
  unfold Package.addTuple at h
  split at h
  · split at h
    · cases h
    · split at h
      · cases h
      · rename_i hi
        cases h
        rcases hs with hs | hs
        · exact spoilt_set' hi (fun hy h => hy (add_isFin.1 h).1) hs
        · exact spoilt_set (List.getElem?_eq_some_iff.1 hi).1 (fun h => hs (add_isFin.1 h).2)
  · cases h

theorem addLoop_spoilt {q : Package} : ∀ {cs : List ℚ} {p p' : Package}, q.addLoop cs p = (.ok (), p') → (Spoilt p ∨ ∃ c ∈ cs, ∃ x, q.classMass c = .ok x ∧ ¬ IsFin x) → Spoilt p'
  | [], p, p', h, hs => by
    cases h
    rcases hs with hs | ⟨c, hc, -⟩
    · exact hs
    · cases hc
  | c :: cs, p, p', h, hs => by
    unfold Package.addLoop at h
    split at h
    · cases h
    · split at h
      · cases h
      · rename_i x hx
        split at h
        · cases h
        · rename_i p'' hp
          refine addLoop_spoilt h ?_
          rcases hs with hs | ⟨c', hc', y, hy, hn⟩
          · exact .inl (addTuple_spoilt hp (.inl hs))
          · rcases List.mem_cons.1 hc' with rfl | hc'
            · rw [hx] at hy
              cases hy
              exact .inl (addTuple_spoilt hp (.inr hn))
            · exact .inr ⟨c', hc', y, hy, hn⟩

theorem spoilt_class {q : Package} (hs : Shape q) (hd : Distinct q.mat) (h : Spoilt q) : ∃ c ∈ q.mat.classes, ∃ x, q.classMass c = .ok x ∧ ¬ IsFin x := by
  obtain ⟨x, hx, hn⟩ := h
  obtain ⟨j, hj, rfl⟩ := List.mem_iff_getElem.1 hx
  have hj' : j < q.mat.classes.length := by rw [← hs]; exact hj
  refine ⟨q.mat.classes[j], List.getElem_mem hj', q.masses[j], ?_, hn⟩
  unfold Package.classMass Material.index
  rw [indexOf_nodup hd (List.getElem?_eq_getElem hj')]
  dsimp only
  rw [List.getElem?_eq_getElem hj]

theorem zip_spoilt : ∀ {l m : List F64}, l.length = m.length → ((∃ x ∈ l, ¬ IsFin x) ∨ ∃ x ∈ m, ¬ IsFin x) → ∃ x ∈ List.zipWith F64.add l m, ¬ IsFin x
  | [], [], _, h => by simp at h
  | a :: l, b :: m, hl, h => by
    rw [List.zipWith_cons_cons]
    by_cases hab : IsFin (a.add b)
    · obtain ⟨ha, hb⟩ := add_isFin.1 hab
      obtain ⟨x, hx, hn⟩ := zip_spoilt (l := l) (m := m) (by simpa using hl) (by
        rcases h with ⟨x, hx, hn⟩ | ⟨x, hx, hn⟩
        · rcases List.mem_cons.1 hx with rfl | hx
          · exact absurd ha hn
          · exact .inl ⟨x, hx, hn⟩
        · rcases List.mem_cons.1 hx with rfl | hx
          · exact absurd hb hn
          · exact .inr ⟨x, hx, hn⟩)
      exact ⟨x, List.mem_cons_of_mem _ hx, hn⟩
    · exact ⟨_, List.mem_cons_self, hab⟩

/-- **C138 (joining).** If a mass of one of two packages is not finite, neither is one of their sum. -/
theorem C138_join (p q r : Package) (hm : p.mat.ident = q.mat.ident → p.mat = q.mat) (sp : Shape p) (sq : Shape q) (hd : Distinct q.mat) (h : p.add (.pkg q) = .ok r)
    (hs : Spoilt p ∨ Spoilt q) : Spoilt r := by
  unfold Package.add at h
  dsimp only at h
  split at h
  · rename_i hi
    have hl : p.masses.length = q.masses.length := by rw [sp, sq, hm hi]
    rw [show vadd p.masses q.masses = .ok (List.zipWith F64.add p.masses q.masses) by unfold vadd; rw [if_pos hl]] at h
    cases h
    exact zip_spoilt hl hs
  · split at h
    · cases h
    · rename_i hx
      cases h
      exact addLoop_spoilt hx (hs.imp id (spoilt_class sq hd))

/-! ## A plant -/

/-- The packages of one plant: one mass for each of distinct size classes, and the materials are told apart by their identity. -/
def Consistent (mats : List Material) (p : Package) : Prop := p.mat ∈ mats ∧ Shape p ∧ Distinct p.mat

theorem extract_shape {p p' r : Package} {a : Arg Package} (h : p.extract a = (.ok r, p')) :
    p'.mat = p.mat ∧ r.mat = p.mat ∧ p'.masses.length = p.masses.length ∧ r.masses.length = p.masses.length := by
  unfold Package.extract at h
  split at h
  · split at h
    · split at h
      · cases h
      · cases h; simp
    · cases h
  · split at h
    · split at h
      · cases h
      · split at h
        · cases h
        · split at h
          · cases h
          · cases h; simp
    · cases h
  · split at h
    · cases h
    · split at h
      · cases h
      · split at h
        · cases h
        · cases h; simp
  · cases h

theorem addLoop_shape {q : Package} : ∀ {cs : List ℚ} {p p' : Package} {r : Res Unit}, q.addLoop cs p = (r, p') → p'.mat = p.mat ∧ p'.masses.length = p.masses.length
  | [], p, p', r, h => by cases h; exact ⟨rfl, rfl⟩
  | c :: cs, p, p', r, h => by
    unfold Package.addLoop at h
    split at h
    · cases h; exact ⟨rfl, rfl⟩
    · split at h
      · cases h; exact ⟨rfl, rfl⟩
      · split at h
        · cases h; exact ⟨rfl, rfl⟩
        · rename_i p'' hp
          obtain ⟨h1, h2⟩ := addLoop_shape h
          unfold Package.addTuple at hp
          rw [if_pos rfl] at hp
          split at hp
          · cases hp
          · split at hp
            · cases hp
            · cases hp
              exact ⟨h1, by simpa using h2⟩

theorem add_shape {p q r : Package} (hm : p.mat.ident = q.mat.ident → p.mat = q.mat) (sp : Shape p) (sq : Shape q) (h : p.add (.pkg q) = .ok r) : r.mat = p.mat ∧ Shape r := by
  unfold Package.add at h
  dsimp only at h
  split at h
  · rename_i hi
    have hl : p.masses.length = q.masses.length := by rw [sp, sq, hm hi]
    rw [show vadd p.masses q.masses = .ok (List.zipWith F64.add p.masses q.masses) by unfold vadd; rw [if_pos hl]] at h
    cases h
    refine ⟨rfl, ?_⟩
    unfold Shape
    simp only [List.length_zipWith, ← hl, min_self]
    exact sp
  · split at h
    · cases h
    · rename_i hx
      cases h
      obtain ⟨h1, h2⟩ := addLoop_shape hx
      exact ⟨h1, by unfold Shape; rw [h2, h1]; exact sp⟩

open Auxi.Plant in
/-- **C138 (plant).** However often the packages of a plant are split and joined, a mass that is not finite never disappears: if some package has one, then so has some package afterwards. -/
theorem C138_plant (mats : List Material) (hid : ∀ m ∈ mats, ∀ m' ∈ mats, m.ident = m'.ident → m = m') (ps qs : List Package) (hp : ∀ p ∈ ps, Consistent mats p)
    (h : Run (fun p p' r => ∃ a, p.extract a = (.ok r, p')) (fun p q r => p.add (.pkg q) = .ok r) ps qs) (hs : ∃ p ∈ ps, Spoilt p) : ∃ q ∈ qs, Spoilt q := by
  suffices H : (∀ q ∈ qs, Consistent mats q) ∧ ∃ q ∈ qs, Spoilt q from H.2
  induction h with
  | start => exact ⟨hp, hs⟩
  | @split qs rest p p' r _ hperm he ih =>
    obtain ⟨i1, x, hx, hn⟩ := ih
    obtain ⟨a, ha⟩ := he
    have i3 : ∀ x ∈ p :: rest, Consistent mats x := fun x hx => i1 x (hperm.mem_iff.2 hx)
    obtain ⟨e1, e2, e3, e4⟩ := extract_shape ha
    obtain ⟨c1, c2, c3⟩ := i3 p List.mem_cons_self
    refine ⟨?_, ?_⟩
    · intro y hy
      simp only [List.mem_cons] at hy
      rcases hy with rfl | rfl | hy
      · exact ⟨e1 ▸ c1, by unfold Shape; rw [e3, e1]; exact c2, e1 ▸ c3⟩
      · exact ⟨e2 ▸ c1, by unfold Shape; rw [e4, e2]; exact c2, e2 ▸ c3⟩
      · exact i3 y (List.mem_cons_of_mem _ hy)
    · rcases List.mem_cons.1 (hperm.mem_iff.1 hx) with rfl | hx
      · rcases C138_extract _ _ _ a ha hn with h | h
        · exact ⟨_, List.mem_cons_self, h⟩
        · exact ⟨_, List.mem_cons_of_mem _ List.mem_cons_self, h⟩
      · exact ⟨x, List.mem_cons_of_mem _ (List.mem_cons_of_mem _ hx), hn⟩
  | @join qs rest p q r _ hperm he ih =>
    obtain ⟨i1, x, hx, hn⟩ := ih
    have i3 : ∀ x ∈ p :: q :: rest, Consistent mats x := fun x hx => i1 x (hperm.mem_iff.2 hx)
    have cp := i3 p List.mem_cons_self
    have cq := i3 q (List.mem_cons_of_mem _ List.mem_cons_self)
    have hm : p.mat.ident = q.mat.ident → p.mat = q.mat := hid _ cp.1 _ cq.1
    obtain ⟨a1, a2⟩ := add_shape hm cp.2.1 cq.2.1 he
    refine ⟨?_, ?_⟩
    · intro y hy
      rcases List.mem_cons.1 hy with rfl | hy
      · exact ⟨a1 ▸ cp.1, a2, a1 ▸ cp.2.2⟩
      · exact i3 y (List.mem_cons_of_mem _ (List.mem_cons_of_mem _ hy))
    · have := hperm.mem_iff.1 hx
      simp only [List.mem_cons] at this
      rcases this with rfl | rfl | hx
      · exact ⟨r, List.mem_cons_self, C138_join _ _ r hm cp.2.1 cq.2.1 cq.2.2 he (.inl hn)⟩
      · exact ⟨r, List.mem_cons_self, C138_join _ _ r hm cp.2.1 cq.2.1 cq.2.2 he (.inr hn)⟩
      · exact ⟨x, List.mem_cons_of_mem _ hx, hn⟩

/-- A plant with a package that is not finite: a size class is taken from it and added to another package. -/
example : ∃ qs, Plant.Run (fun p p' r => ∃ a, Package.extract p a = (.ok r, p')) (fun p q r => p.add (.pkg q) = .ok r) [⟨matA, [.nan, .fin 2, .fin 1]⟩, pkgA] qs ∧
    (∀ p ∈ [⟨matA, [.nan, .fin 2, .fin 1]⟩, pkgA], Consistent [matA] p) ∧ Spoilt ⟨matA, [.nan, .fin 2, .fin 1]⟩ ∧
    qs = [⟨matA, [.nan, .fin 2, .fin 1]⟩, ⟨matA, lift [0, 2, 1]⟩] := by
  have e1 : Package.extract ⟨matA, [.nan, .fin 2, .fin 1]⟩ (.str (some (3/10))) = (.ok ⟨matA, [.nan, .fin 0, .fin 0]⟩, ⟨matA, lift [0, 2, 1]⟩) := by decide +kernel
  have e2 : pkgA.add (.pkg ⟨matA, [.nan, .fin 0, .fin 0]⟩) = .ok ⟨matA, [.nan, .fin 2, .fin 1]⟩ := by decide +kernel
  have r1 := Plant.Run.split (part := fun p p' r => ∃ a, Package.extract p a = (.ok r, p')) (mix := fun p q r => p.add (.pkg q) = .ok r)
    (.start (ps := [⟨matA, [.nan, .fin 2, .fin 1]⟩, pkgA])) (List.Perm.refl _) ⟨_, e1⟩
  refine ⟨_, .join r1 (p := pkgA) (q := ⟨matA, [.nan, .fin 0, .fin 0]⟩) (rest := [⟨matA, lift [0, 2, 1]⟩]) ?_ e2, ?_, ⟨.nan, List.mem_cons_self, by rintro ⟨q, hq⟩; cases hq⟩, rfl⟩
  · exact (List.reverse_perm [pkgA, ⟨matA, [.nan, .fin 0, .fin 0]⟩, ⟨matA, lift [0, 2, 1]⟩]).trans (List.Perm.refl _) |>.symm.symm
  · intro p hp
    simp only [List.mem_cons, List.not_mem_nil, or_false] at hp
    rcases hp with rfl | rfl
    · exact ⟨List.mem_cons_self, rfl, pkgA_ok.2.2⟩
    · exact ⟨List.mem_cons_self, rfl, pkgA_ok.2.2⟩

end Auxi.Psd.Props
