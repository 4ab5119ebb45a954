import Verif.Spec.ThermoFloat
import Verif.Proofs.PsdFloat
import Verif.Proofs.Chem

/-! # Lemmas for thermochemical packages in floating point -/
namespace Auxi.ThermoFloat.Proofs
open Auxi Auxi.ThermoFloat Auxi.ThermoFloat.Spec Auxi.Rounding Auxi.PsdFloat.Spec
open Auxi.Chem (indexOf)

variable {rnd : ℚ → ℚ} {u η : ℚ} {S : List ℚ → ℚ} {h : Str → ℚ → Res ℚ} {solve : Material → List ℚ → ℚ → ℚ → Res ℚ}

theorem lookup_zip {c : Str} : ∀ {cs : List Str} {ms : List ℚ} {i : ℕ}, indexOf cs c = some i → (cs.zip ms).lookup c = ms[i]? := by
  intro cs
  induction cs with
  | nil => intro ms i hi; simp [indexOf] at hi
  | cons a cs ih =>
    intro ms i hi
    cases ms with
    | nil => simp
    | cons x ms =>
      by_cases hac : a = c
      · subst hac
        simp [indexOf] at hi
        subst hi
        simp
      · simp only [indexOf, hac, if_false, Option.map_eq_some_iff] at hi
        obtain ⟨j, hj, rfl⟩ := hi
        have hne : (c == a) = false := by simpa using fun e => hac e.symm
        rw [List.zip_cons_cons, List.lookup_cons, hne]
        simpa using ih hj

theorem lookup_zip_none {c : Str} : ∀ {cs : List Str} {ms : List ℚ}, c ∉ cs → (cs.zip ms).lookup c = none := by
  intro cs
  induction cs with
  | nil => intro ms _; simp
  | cons a cs ih =>
    intro ms hc
    simp only [List.mem_cons, not_or] at hc
    cases ms with
    | nil => simp
    | cons x ms =>
      have hne : (c == a) = false := by simpa using hc.1
      rw [List.zip_cons_cons, List.lookup_cons, hne]
      exact ih hc.2

theorem lookup_map {c : Str} {f : ℚ → ℚ} : ∀ {cs : List Str} {ms : List ℚ}, (cs.zip (ms.map f)).lookup c = ((cs.zip ms).lookup c).map f := by
  intro cs
  induction cs with
  | nil => intro ms; simp
  | cons a cs ih =>
    intro ms
    cases ms with
    | nil => simp
    | cons x ms =>
      rw [List.map_cons, List.zip_cons_cons, List.zip_cons_cons, List.lookup_cons, List.lookup_cons]
      cases c == a
      · exact ih
      · rfl

theorem held_map {m : Material} {ms : List ℚ} {f : ℚ → ℚ} (h0 : f 0 = 0) (P T H P' T' H' : ℚ) (c : Str) : held ⟨m, ms.map f, P, T, H⟩ c = f (held ⟨m, ms, P', T', H'⟩ c) := by
  unfold held
  rw [lookup_map]
  cases ((m.compounds.zip ms).lookup c) with
  | none => simp [h0]
  | some x => simp

theorem held_set {m : Material} {ms : List ℚ} {i : ℕ} {c : Str} (hi : indexOf m.compounds c = some i) (hl : i < ms.length) (y P T H P' T' H' : ℚ) (c' : Str) :
    held ⟨m, ms.set i y, P, T, H⟩ c' = if c' = c then y else held ⟨m, ms, P', T', H'⟩ c' := by
  unfold held
  by_cases hc : c' = c
  · subst hc
    rw [lookup_zip hi, if_pos rfl]
    simp [hl]
  · rw [if_neg hc]
    by_cases hm : c' ∈ m.compounds
    · obtain ⟨j, hj, -⟩ := Chem.indexOf_mem hm
      rw [lookup_zip hj, lookup_zip hj]
      have : i ≠ j := by
        rintro rfl
        have h1 := Chem.indexOf_some hi
        have h2 := Chem.indexOf_some hj
        rw [h1] at h2
        exact hc (by simpa using h2.symm)
      dsimp only
      rw [List.getElem?_set_ne this]
    · rw [lookup_zip_none hm, lookup_zip_none hm]

theorem held_at {p : Package} {c : Str} {i : ℕ} {y : ℚ} (hi : indexOf p.mat.compounds c = some i) (hy : p.masses[i]? = some y) : held p c = y := by
  unfold held
  rw [lookup_zip hi, hy]
  rfl

theorem held_good (R : IEEE rnd u η) {p : Package} (hp : Sound rnd p) (c : Str) : rnd (held p c) = held p c ∧ 0 ≤ held p c := by
  unfold held
  by_cases hm : c ∈ p.mat.compounds
  · obtain ⟨i, hi, -⟩ := Chem.indexOf_mem hm
    rw [lookup_zip hi]
    cases hx : p.masses[i]? with
    | none => exact ⟨R.zero, le_rfl⟩
    | some x => exact hp.2.2 x (List.mem_of_getElem? hx)
  · rw [lookup_zip_none hm]
    exact ⟨R.zero, le_rfl⟩

theorem index_ok {m : Material} {c : Str} {i : ℕ} (hi : m.index c = .ok i) : indexOf m.compounds c = some i := by
  unfold Material.index at hi
  split at hi
  · rename_i j hj; cases hi; exact hj
  · cases hi

/-- One rounded addition of a rounded product. -/
theorem term_err (R : IEEE rnd u η) {v x m s b a k : ℚ} (hv : rnd v = v) (h1 : |v - x| ≤ s * m + b) (hx : |x| ≤ m) (hs : u ≤ s) (ha : |a * k| ≤ (|a| * k)) (hk : 0 ≤ k) :
    |rnd (v + rnd (a * k)) - (x + a * k)| ≤ (s + u * (1 + s)) * (m + |a| * k) + (1 + u) * (b + η) := by
  have u0 := R.u0
  have η0 := R.η0
  have e1 := R.err (a * k)
  have e2 := R.add hv (R.idem (a * k))
  have n0 : 0 ≤ |a| * k := mul_nonneg (abs_nonneg a) hk
  have m0 : 0 ≤ m := (abs_nonneg x).trans hx
  generalize rnd (a * k) = w at *
  generalize |a| * k = n at *
  generalize a * k = y at *
  have d : |w - y| ≤ s * n + η := by
    refine e1.trans ?_
    have t1 := mul_le_mul_of_nonneg_left ha u0
    have t2 := mul_le_mul_of_nonneg_right hs n0
    linarith
  have d2 : |v + w| ≤ (m + n) + (s * (m + n) + (b + η)) := by
    have : v + w = ((v - x) + (w - y)) + (x + y) := by ring
    rw [this]
    have t1 := abs_add_le ((v - x) + (w - y)) (x + y)
    have t2 := abs_add_le (v - x) (w - y)
    have t3 := abs_add_le x y
    nlinarith
  have c : rnd (v + w) - (x + y) = (rnd (v + w) - (v + w)) + ((v - x) + (w - y)) := by ring
  rw [c]
  have t1 := abs_add_le (rnd (v + w) - (v + w)) ((v - x) + (w - y))
  have t2 := abs_add_le (v - x) (w - y)
  have t3 := mul_le_mul_of_nonneg_left d2 u0
  nlinarith

theorem hLoop_err (R : IEEE rnd u η) {p : Package} (hp : Sound rnd p) {T : ℚ} : ∀ (l : List Str) (acc v x m : ℚ) (K : ℕ) , hLoop rnd h p.mat p.masses T l acc = .ok v →
    rnd acc = acc → |acc - x| ≤ ((1 + u) ^ (K + 1) - 1) * m + K * (1 + u) ^ K * η → |x| ≤ m →
    rnd v = v ∧ |v - (x + (l.map (fun c => spec h c T * held p c)).sum)| ≤ ((1 + u) ^ (K + l.length + 1) - 1) * (m + (l.map (fun c => |spec h c T| * held p c)).sum) + (K + l.length : ℕ) * (1 + u) ^ (K + l.length) * η := by
  have u0 := R.u0
  have η0 := R.η0
  intro l
  induction l with
  | nil =>
    intro acc v x m K hh ha h1 h2
    simp only [hLoop, Except.ok.injEq] at hh
    subst hh
    simpa using ⟨ha, h1⟩
  | cons c l ih =>
    intro acc v x m K hh ha h1 h2
    unfold hLoop at hh
    split at hh
    · cases hh
    · rename_i i hi
      split at hh
      · cases hh
      · rename_i k hk
        split at hh
        · cases hh
        · rename_i dh hdh
          unfold thermoH at hdh
          split at hdh
          · cases hdh
          · rename_i a hca
            have hs : spec h c T = a := by unfold spec; rw [hca]
            have hheld : held p c = k := held_at (index_ok hi) hk
            have k0 : 0 ≤ k := (hp.2.2 k (List.mem_of_getElem? hk)).2
            simp only [Except.ok.injEq] at hdh
            subst hdh
            have hak : |a * k| = |a| * k := by rw [abs_mul, abs_of_nonneg k0]
            have one1 : (1 + u) ≤ (1 + u) ^ (K + 1) := by
              have := pow_le_pow_right₀ (a := 1 + u) (by linarith) (show 1 ≤ K + 1 by omega)
              simpa using this
            have st := term_err R (a := a) (k := k) ha h1 h2 (by linarith) hak.le k0
            have b0 : |x + a * k| ≤ m + |a| * k := (abs_add_le _ _).trans (by rw [hak]; linarith)
            have key : |rnd (acc + rnd (a * k)) - (x + a * k)| ≤ ((1 + u) ^ (K + 1 + 1) - 1) * (m + |a| * k) + (K + 1 : ℕ) * (1 + u) ^ (K + 1) * η := by
              refine st.trans ?_
              have pk : 1 ≤ (1 + u) ^ K := one_le_pow₀ (by linarith)
              have e1 : ((1 + u) ^ (K + 1) - 1 + u * (1 + ((1 + u) ^ (K + 1) - 1))) = (1 + u) ^ (K + 1 + 1) - 1 := by ring
              rw [e1]
              have e2 : ((K + 1 : ℕ) : ℚ) * (1 + u) ^ (K + 1) * η = (1 + u) * (K * (1 + u) ^ K * η + (1 + u) ^ K * η) := by push_cast; ring
              rw [e2]
              have : η ≤ (1 + u) ^ K * η := le_mul_of_one_le_left η0 pk
              nlinarith
            have := ih _ v (x + a * k) (m + |a| * k) (K + 1) hh (R.idem _) key b0
            refine ⟨this.1, ?_⟩
            have t := this.2
            rw [List.map_cons, List.sum_cons, List.map_cons, List.sum_cons, hs, hheld, List.length_cons]
            rw [show K + (l.length + 1) = K + 1 + l.length by omega, ← add_assoc x, ← add_assoc m]
            exact t

theorem calcH_err (R : IEEE rnd u η) {p : Package} (hp : Sound rnd p) {T v : ℚ} (hh : calcH rnd h p.mat p.masses T = .ok v) :
    rnd v = v ∧ |v - exactH h p T| ≤ tol u η p.mat.compounds.length (sizeH h p T) := by
  have := hLoop_err R hp p.mat.compounds 0 v 0 0 0 hh R.zero (by simp) (by simp)
  unfold exactH sizeH tol
  simpa using this

/-! ## Extraction -/
open Auxi.PsdFloat.Proofs (adds_spec split_scalar take_scalar fraction_spec floats_map floats_set Floats)
/-- What an extraction does to the masses and the conditions of two packages. -/
def Masses (rnd : ℚ → ℚ) (u η : ℚ) (p r p' : Package) : Prop :=
  Sound rnd r ∧ Sound rnd p' ∧ r.mat = p.mat ∧ p'.mat = p.mat ∧ p'.T = p.T ∧ p'.P = p.P ∧
    ∀ c, 0 ≤ held r c ∧ held r c ≤ held p c ∧ 0 ≤ held p' c ∧ held p' c ≤ held p c ∧ |held r c + held p' c - held p c| ≤ (2 * u + u ^ 2) * held p c + 2 * η



theorem zeros_sum (R : IEEE rnd u η) (hS : ∀ l, Adds rnd l (S l)) (n : ℕ) : S (List.replicate n 0) = 0 := by
  have hf : Floats rnd (List.replicate n 0) := fun q hq => by rw [List.eq_of_mem_replicate hq]; exact ⟨R.zero, le_rfl⟩
  obtain ⟨-, s2, -, s4, -⟩ := adds_spec R (hS (List.replicate n 0)) hf
  have : (List.replicate n (0 : ℚ)).sum = 0 := by simp
  rw [this, mul_zero] at s4
  exact le_antisymm s4 s2

theorem empty_eq (R : IEEE rnd u η) (hS : ∀ l, Adds rnd l (S l)) (m : Material) (P T : ℚ) :
    emptyPackage rnd S h m P T = .ok ⟨m, List.replicate m.compounds.length 0, P, T, 0⟩ := by
  unfold emptyPackage newPackage
  rw [zeros_sum R hS, if_neg (lt_irrefl _)]

theorem held_zeros (m : Material) (n : ℕ) (P T H : ℚ) (c : Str) : held ⟨m, List.replicate n 0, P, T, H⟩ c = 0 := by
  have e : List.replicate n (0 : ℚ) = (List.replicate n (0 : ℚ)).map (fun _ => 0) := by simp
  rw [e, held_map (f := fun _ => 0) rfl P T H 0 0 0]

theorem held_new {m : Material} {a : List ℚ} {P T : ℚ} {r : Package} (hr : newPackage rnd S h m a P T = .ok r) : r.mat = m ∧ r.masses = a ∧ r.P = P ∧ r.T = T := by
  unfold newPackage at hr
  split at hr
  · split at hr
    · cases hr
    · cases hr; exact ⟨rfl, rfl, rfl, rfl⟩
  · cases hr; exact ⟨rfl, rfl, rfl, rfl⟩

theorem held_congr {p q : Package} (h1 : p.mat = q.mat) (h2 : p.masses = q.masses) (c : Str) : held p c = held q c := by unfold held; rw [h1, h2]

theorem setT_keeps {p p' : Package} {T : ℚ} {o : Res Unit} (hh : setT rnd h p T = (o, p')) : p'.mat = p.mat ∧ p'.masses = p.masses ∧ p'.P = p.P ∧ p'.T = T := by
  unfold setT at hh
  split at hh <;> cases hh <;> exact ⟨rfl, rfl, rfl, rfl⟩

theorem setT_H {p p' : Package} {T : ℚ} (hh : setT rnd h p T = (.ok (), p')) : calcH rnd h p'.mat p'.masses p'.T = .ok p'.H := by
  unfold setT at hh
  split at hh
  · cases hh
  · rename_i v hv; cases hh; exact hv

theorem settle_ok {p r r' p' : Package} (hh : settle rnd h p r = (.ok r', p')) : r' = r ∧ setT rnd h p p.T = (.ok (), p') := by
  unfold settle at hh
  split at hh
  · cases hh
  · rename_i o q hs; cases hh; exact ⟨rfl, hs⟩

theorem sizeH_nonneg (R : IEEE rnd u η) {p : Package} (hp : Sound rnd p) (T : ℚ) : 0 ≤ sizeH h p T :=
  List.sum_nonneg (fun x hx => by obtain ⟨c, -, rfl⟩ := List.mem_map.1 hx; exact mul_nonneg (abs_nonneg _) (held_good R hp c).2)

theorem tol_nonneg (u0 : 0 ≤ u) (η0 : 0 ≤ η) (n : ℕ) {A : ℚ} (A0 : 0 ≤ A) : 0 ≤ tol u η n A := by
  unfold tol
  have : 1 ≤ (1 + u) ^ (n + 1) := one_le_pow₀ (by linarith)
  have h1 : 0 ≤ ((1 + u) ^ (n + 1) - 1) * A := mul_nonneg (by linarith) A0
  positivity

theorem matches_zero (R : IEEE rnd u η) {p : Package} (hp : Sound rnd p) (hH : p.H = 0) (hz : ∀ c, held p c = 0) : Matches u η h p := by
  unfold Matches
  have e : exactH h p p.T = 0 := by
    unfold exactH
    apply List.sum_eq_zero
    intro x hx
    obtain ⟨c, -, rfl⟩ := List.mem_map.1 hx
    rw [hz c, mul_zero]
  rw [hH, e, sub_zero, abs_zero]
  exact tol_nonneg R.u0 R.η0 _ (sizeH_nonneg R hp _)

theorem matches_new (R : IEEE rnd u η) (hS : ∀ l, Adds rnd l (S l)) {m : Material} {a : List ℚ} {P T : ℚ} {r : Package} (hr : newPackage rnd S h m a P T = .ok r) (hs : Sound rnd r) : Matches u η h r := by
  have hk := held_new hr
  unfold newPackage at hr
  split at hr
  · split at hr
    · cases hr
    · rename_i v hv; cases hr; exact (calcH_err R hs hv).2
  · rename_i hn
    cases hr
    refine matches_zero R hs rfl (fun c => ?_)
    obtain ⟨-, s2, -, -, s5⟩ := adds_spec R (hS a) hs.2.2
    have z : ∀ x ∈ a, x = 0 := fun x hx => le_antisymm ((s5 x hx).trans (not_lt.1 hn)) (hs.2.2 x hx).2
    have e : a = List.replicate a.length 0 := List.eq_replicate_iff.2 ⟨rfl, z⟩
    rw [e]
    exact held_zeros _ _ _ _ _ _

theorem matches_setT (R : IEEE rnd u η) {p p' : Package} {T : ℚ} (hh : setT rnd h p T = (.ok (), p')) (hs : Sound rnd p') : Matches u η h p' :=
  (calcH_err R hs (setT_H hh)).2

theorem sum_single {c : Str} {f : Str → ℚ} : ∀ {l : List Str}, l.Nodup → c ∈ l → (∀ d, d ≠ c → f d = 0) → (l.map f).sum = f c
  | [], _, hc, _ => by cases hc
  | a :: l, hn, hc, hz => by
    obtain ⟨n1, n2⟩ := List.nodup_cons.1 hn
    rw [List.map_cons, List.sum_cons]
    by_cases ha : a = c
    · subst ha
      rw [List.sum_eq_zero, add_zero]
      intro x hx
      obtain ⟨d, hd, rfl⟩ := List.mem_map.1 hx
      exact hz d (fun e => n1 (e ▸ hd))
    · rw [hz a ha, zero_add]
      exact sum_single n2 ((List.mem_cons.1 hc).resolve_left (fun e => ha e.symm)) hz

theorem index_mem {m : Material} {c : Str} {i : ℕ} (hi : m.index c = .ok i) : c ∈ m.compounds := List.mem_of_getElem? (Chem.indexOf_some (index_ok hi))

theorem extract_main (R : IEEE rnd u η) (hS : ∀ l, Adds rnd l (S l)) (p p' r : Package) (a : Part) (hp : Sound rnd p) (ha : PartOk rnd a) (hh : extract rnd S h p a = (.ok r, p')) :
    Masses rnd u η p r p' ∧ Matches u η h r ∧ (Known p a → r.T = p.T ∧ r.P = p.P ∧ Matches u η h p') ∧ (¬ Known p a → p' = p ∧ r.H = 0 ∧ ∀ c, held r c = 0) ∧
    (∀ c, a = .compound c → ∀ d, held r d = (if d = c then held p c else 0) ∧ held p' d = (if d = c then 0 else held p d)) ∧
    (∀ c x, a = .ofCompound c x → c ∈ p.mat.compounds → ∀ d, held r d = (if d = c then x else 0) ∧ held p' d = (if d = c then rnd (held p c - x) else held p d)) := by
  have u0 := R.u0
  have η0 := R.η0
  have good := fun c => held_good R hp c
  have triv : ∀ x : ℚ, 0 ≤ x → |0 + x - x| ≤ (2 * u + u ^ 2) * x + 2 * η := fun x hx => by
    rw [zero_add, sub_self, abs_zero]; positivity
  have triv' : ∀ x : ℚ, 0 ≤ x → |x + 0 - x| ≤ (2 * u + u ^ 2) * x + 2 * η := fun x hx => by
    rw [add_zero, sub_self, abs_zero]; positivity
  obtain ⟨hn, hlen, hf⟩ := hp
  have hf' : Floats rnd p.masses := hf
  have fz : ∀ n, Floats rnd (List.replicate n 0) := fun n q hq => by rw [List.eq_of_mem_replicate hq]; exact ⟨R.zero, le_rfl⟩
  -- nothing is extracted
  have none : ∀ {r p' : Package}, r = ⟨p.mat, List.replicate p.mat.compounds.length 0, 1, 25, 0⟩ → p' = p → Masses rnd u η p r p' ∧ Matches u η h r ∧ r.H = 0 ∧ ∀ c, held r c = 0 := by
    rintro r p' rfl rfl
    have hs : Sound rnd (⟨p'.mat, List.replicate p'.mat.compounds.length 0, 1, 25, 0⟩ : Package) := ⟨hn, by simp, fz _⟩
    refine ⟨⟨hs, ⟨hn, hlen, hf⟩, rfl, rfl, rfl, rfl, fun c => ?_⟩, matches_zero R hs rfl (fun c => held_zeros _ _ _ _ _ c), rfl, fun c => held_zeros _ _ _ _ _ c⟩
    rw [held_zeros]
    exact ⟨le_rfl, (good c).2, (good c).2, le_rfl, triv _ (good c).2⟩
  cases a with
  | mass x =>
    unfold extract at hh
    dsimp only at hh
    unfold extractMass at hh
    dsimp only at hh
    split at hh
    · cases hh
    · rename_i hgt
      split at hh
      · cases hh
      · rename_i hne
        split at hh
        · cases hh
        · rename_i r0 hr
          obtain ⟨rfl, ht⟩ := settle_ok hh
          obtain ⟨k1, k2, k3, k4⟩ := held_new hr
          obtain ⟨l1, l2, l3, l4⟩ := setT_keeps ht
          have M0 : 0 < mass S p := lt_of_le_of_ne (adds_spec R (hS p.masses) hf').2.1 (Ne.symm hne)
          obtain ⟨f1, f2, f3⟩ := fraction_spec R ha.2 M0 (not_lt.1 hgt)
          have g0 : 0 ≤ rnd (1 - rnd (x / mass S p)) := R.nonneg (by linarith)
          have s1 : Sound rnd r := ⟨by rw [k1]; exact hn, by rw [k1, k2, List.length_map]; exact hlen, by rw [k2]; exact floats_map R hf' f2⟩
          have s2 : Sound rnd p' := ⟨by rw [l1]; exact hn, by rw [l1, l2, List.length_map]; exact hlen, by rw [l2]; exact floats_map R hf' g0⟩
          refine ⟨⟨s1, s2, k1, l1, l4, l3, fun c => ?_⟩, matches_new R hS hr s1, fun _ => ⟨k4, k3, matches_setT R ht s2⟩, fun hk => absurd trivial hk, fun c hc => by (cases hc), fun c x hc => by (cases hc)⟩
          have e1 : held r c = rnd (held p c * rnd (x / mass S p)) := by
            rw [held_congr (q := ⟨p.mat, p.masses.map (fun y => rnd (y * rnd (x / mass S p))), 0, 0, 0⟩) k1 k2,
              held_map (f := fun y => rnd (y * rnd (x / mass S p))) (by rw [zero_mul, R.zero]) 0 0 0 p.P p.T p.H]
          have e2 : held p' c = rnd (held p c * rnd (1 - rnd (x / mass S p))) := by
            rw [held_congr (q := ⟨p.mat, p.masses.map (fun y => rnd (y * rnd (1 - rnd (x / mass S p)))), 0, 0, 0⟩) l1 l2,
              held_map (f := fun y => rnd (y * rnd (1 - rnd (x / mass S p)))) (by rw [zero_mul, R.zero]) 0 0 0 p.P p.T p.H]
          rw [e1, e2]
          exact split_scalar R (good c).1 (good c).2 f1 f2 f3
  | ofCompound c x =>
    unfold extract at hh
    dsimp only at hh
    unfold extractCompoundMass at hh
    split at hh
    · rename_i hc
      rw [empty_eq R hS] at hh
      simp only [Prod.mk.injEq, Except.ok.injEq] at hh
      obtain ⟨n1, n2, n3, n4⟩ := none hh.1.symm hh.2.symm
      exact ⟨n1, n2, fun hk => absurd hk hc, fun _ => ⟨hh.2.symm, n3, n4⟩, fun c hc => by (cases hc), fun c' x' hc' hm => by (cases hc'; exact absurd hm hc)⟩
    · rename_i hc
      have hc := not_not.1 hc
      split at hh
      · cases hh
      · rename_i i hi
        split at hh
        · cases hh
        · rename_i y hy
          have hyp : held p c = y := held_at (index_ok hi) hy
          have hlt : i < p.masses.length := (List.getElem?_eq_some_iff.1 hy).1
          have hyf := hf y (List.mem_of_getElem? hy)
          split at hh
          · cases hh
          · rename_i hgt
            obtain ⟨t1, t2, t3⟩ := take_scalar R hyf.1 hyf.2 ha.1 ha.2 (not_lt.1 hgt)
            split at hh
            · cases hh
            · rename_i o q ht
              obtain ⟨l1, l2, l3, l4⟩ := setT_keeps ht
              rw [empty_eq R hS] at hh
              dsimp only at hh l1 l2 l3 l4
              simp only [Prod.mk.injEq] at hh
              obtain ⟨hr, rfl⟩ := hh
              unfold addTuple at hr
              dsimp only at hr
              rw [show q.mat.index c = .ok i by rw [l1]; exact hi] at hr
              dsimp only at hr
              split at hr
              · cases hr
              · rename_i v hv
                split at hr
                · cases hr
                · rename_i z hz
                  have z0 : z = 0 := List.eq_of_mem_replicate (List.mem_of_getElem? hz)
                  subst z0
                  rw [zero_add, ha.1] at hr
                  cases hr
                  have hil : indexOf q.mat.compounds c = some i := by rw [l1]; exact index_ok hi
                  have hl2 : i < (List.replicate q.mat.compounds.length (0 : ℚ)).length := by rw [List.length_replicate, l1, ← hlen]; exact hlt
                  have e1 : ∀ d, held ⟨q.mat, (List.replicate q.mat.compounds.length 0).set i x, q.P, q.T, rnd (0 + v)⟩ d = if d = c then x else 0 := fun d => by
                    rw [held_set hil hl2 x _ _ _ 0 0 0, held_zeros]
                  have e2 : ∀ d, held q d = if d = c then rnd (y - x) else held p d := fun d => by
                    rw [held_congr (q := ⟨p.mat, p.masses.set i (rnd (y - x)), 0, 0, 0⟩) l1 l2, held_set (index_ok hi) hlt _ _ _ _ p.P p.T p.H]
                  have s1 : Sound rnd (⟨q.mat, (List.replicate q.mat.compounds.length 0).set i x, q.P, q.T, rnd (0 + v)⟩ : Package) :=
                    ⟨by dsimp only; rw [l1]; exact hn, by simp, floats_set (fz _) ha⟩
                  have s2 : Sound rnd q := ⟨by rw [l1]; exact hn, by rw [l1, l2, List.length_set]; exact hlen, by rw [l2]; exact floats_set hf' ⟨R.idem _, t1⟩⟩
                  refine ⟨⟨s1, s2, l1, l1, l4, l3, fun d => ?_⟩, ?_, fun _ => ⟨l4, l3, matches_setT R ht s2⟩, fun hk => absurd hc hk, fun c hc => by (cases hc), fun c' x' hc' _ d => by (cases hc'; rw [e1, e2, hyp]; exact ⟨rfl, rfl⟩)⟩
                  · rw [e1, e2]
                    by_cases hd : d = c
                    · subst hd
                      rw [if_pos rfl, if_pos rfl, hyp]
                      exact ⟨ha.2, not_lt.1 hgt, t1, t2, t3⟩
                    · rw [if_neg hd, if_neg hd]
                      exact ⟨le_rfl, (good d).2, (good d).2, le_rfl, triv _ (good d).2⟩
                  · unfold thermoH at hv
                    split at hv
                    · cases hv
                    · rename_i w hw
                      simp only [Except.ok.injEq] at hv
                      subst hv
                      have hcq : c ∈ q.mat.compounds := by rw [l1]; exact hc
                      have hnq : q.mat.compounds.Nodup := by rw [l1]; exact hn
                      unfold Matches
                      have x1 : exactH h ⟨q.mat, (List.replicate q.mat.compounds.length 0).set i x, q.P, q.T, rnd (0 + rnd (w * x))⟩ q.T = w * x := by
                        unfold exactH
                        dsimp only
                        rw [sum_single hnq hcq (fun d hd => by rw [e1, if_neg hd, mul_zero]), e1, if_pos rfl]
                        unfold spec; rw [hw]
                      have x2 : sizeH h ⟨q.mat, (List.replicate q.mat.compounds.length 0).set i x, q.P, q.T, rnd (0 + rnd (w * x))⟩ q.T = |w| * x := by
                        unfold sizeH
                        dsimp only
                        rw [sum_single hnq hcq (fun d hd => by rw [e1, if_neg hd, mul_zero]), e1, if_pos rfl]
                        unfold spec; rw [hw]
                      dsimp only
                      rw [x1, x2, zero_add, R.idem]
                      refine (R.err _).trans ?_
                      rw [abs_mul, abs_of_nonneg ha.2]
                      unfold tol
                      have A0 : 0 ≤ |w| * x := mul_nonneg (abs_nonneg _) ha.2
                      have n1 : 1 ≤ q.mat.compounds.length := List.length_pos_of_mem hcq
                      have p1 : 1 + u ≤ (1 + u) ^ (q.mat.compounds.length + 1) := by
                        have := pow_le_pow_right₀ (a := 1 + u) (by linarith) (show 1 ≤ q.mat.compounds.length + 1 by omega)
                        simpa using this
                      have p2 : 1 ≤ (1 + u) ^ q.mat.compounds.length := one_le_pow₀ (by linarith)
                      have n1' : (1 : ℚ) ≤ q.mat.compounds.length := by exact_mod_cast n1
                      have p3 : 1 ≤ (q.mat.compounds.length : ℚ) * (1 + u) ^ q.mat.compounds.length := one_le_mul_of_one_le_of_one_le n1' p2
                      have q1 := mul_le_mul_of_nonneg_right (show u ≤ (1 + u) ^ (q.mat.compounds.length + 1) - 1 by linarith) A0
                      have q2 : η ≤ (q.mat.compounds.length : ℚ) * (1 + u) ^ q.mat.compounds.length * η := le_mul_of_one_le_left η0 p3
                      linarith
  | compound c =>
    unfold extract at hh
    dsimp only at hh
    unfold extractCompound at hh
    rw [empty_eq R hS] at hh
    dsimp only at hh
    split at hh
    · rename_i hc
      simp only [Prod.mk.injEq, Except.ok.injEq] at hh
      obtain ⟨n1, n2, n3, n4⟩ := none hh.1.symm hh.2.symm
      refine ⟨n1, n2, fun hk => absurd hk hc, fun _ => ⟨hh.2.symm, n3, n4⟩, fun c' hc' d => ?_, fun c x hc => by (cases hc)⟩
      cases hc'
      have hz : held p c = 0 := by unfold held; rw [lookup_zip_none hc]; rfl
      rw [n4 d, ← hh.2]
      by_cases hd : d = c
      · subst hd; rw [if_pos rfl, if_pos rfl, hz]; exact ⟨rfl, rfl⟩
      · rw [if_neg hd, if_neg hd]; exact ⟨rfl, rfl⟩
    · rename_i hc
      have hc := not_not.1 hc
      split at hh
      · cases hh
      · rename_i i hi
        split at hh
        · cases hh
        · rename_i y hy
          have hyp : held p c = y := held_at (index_ok hi) hy
          have hlt : i < p.masses.length := (List.getElem?_eq_some_iff.1 hy).1
          have hyf := hf y (List.mem_of_getElem? hy)
          split at hh
          · cases hh
          · rename_i o q hq
            obtain ⟨k1, k2, k3, k4⟩ := setT_keeps hq
            obtain ⟨rfl, ht⟩ := settle_ok hh
            obtain ⟨l1, l2, l3, l4⟩ := setT_keeps ht
            dsimp only at k1 k2 k3 k4 l1 l2 l3 l4
            have hl2 : i < (List.replicate p.mat.compounds.length (0 : ℚ)).length := by rw [List.length_replicate, ← hlen]; exact hlt
            have e1 : ∀ d, held { q with P := p.P } d = if d = c then y else 0 := fun d => by
              rw [held_congr (p := { q with P := p.P }) (q := ⟨p.mat, (List.replicate p.mat.compounds.length 0).set i y, 0, 0, 0⟩) k1 k2, held_set (index_ok hi) hl2 _ _ _ _ 0 0 0, held_zeros]
            have e2 : ∀ d, held p' d = if d = c then 0 else held p d := fun d => by
              rw [held_congr (q := ⟨p.mat, p.masses.set i 0, 0, 0, 0⟩) l1 l2, held_set (index_ok hi) hlt _ _ _ _ p.P p.T p.H]
            have s0 : Sound rnd q := ⟨by rw [k1]; exact hn, by rw [k1, k2]; simp, by rw [k2]; exact floats_set (fz _) hyf⟩
            have s2 : Sound rnd p' := ⟨by rw [l1]; exact hn, by rw [l1, l2, List.length_set]; exact hlen, by rw [l2]; exact floats_set hf' ⟨R.zero, le_rfl⟩⟩
            refine ⟨⟨s0, s2, k1, l1, l4, l3, fun d => ?_⟩, (by have := matches_setT R hq s0; exact this), fun _ => ⟨k4, rfl, matches_setT R ht s2⟩, fun hk => absurd hc hk, fun c' hc' d => by (cases hc'; rw [e1, e2, hyp]; exact ⟨rfl, rfl⟩), fun c x hc => by (cases hc)⟩
            rw [e1, e2]
            by_cases hd : d = c
            · subst hd
              rw [if_pos rfl, if_pos rfl, hyp]
              exact ⟨hyf.2, le_rfl, le_rfl, hyf.2, triv' _ hyf.2⟩
            · rw [if_neg hd, if_neg hd]
              exact ⟨le_rfl, (good d).2, (good d).2, le_rfl, triv _ (good d).2⟩


end Auxi.ThermoFloat.Proofs
