import Verif.Proofs.Psd
import Mathlib.Algebra.Order.Field.Basic
import Mathlib.Algebra.Order.BigOperators.Group.List

/-!
# Properties of psd packages
-/
namespace Auxi.Psd.Props
open Spec

/-! ## Concrete material for the examples -/

/-- A material with three size classes and two assays. -/
def matA : Material := ⟨1, [3/10, 1/10, 0], [("Feed".toList, lift [1/2, 1/4, 1/4]), ("Zero".toList, lift [0, 0, 0]), ("Odd".toList, lift [1, -1, 0])]⟩
/-- Another material, with two of those classes. -/
def matB : Material := ⟨2, [1/10, 3/10], [("Feed".toList, lift [1, 3])]⟩
/-- A package. -/
def pkgA : Package := ⟨matA, lift [4, 2, 1]⟩
/-- A package of the other material. -/
def pkgB : Package := ⟨matB, lift [5, 15]⟩

theorem pkgA_ok : Finite pkgA ∧ Shape pkgA ∧ Distinct pkgA.mat := ⟨finite_iff.2 ⟨_, rfl⟩, rfl, by unfold Distinct; decide +kernel⟩
theorem pkgB_ok : Finite pkgB ∧ Shape pkgB ∧ Distinct pkgB.mat := ⟨finite_iff.2 ⟨_, rfl⟩, rfl, by unfold Distinct; decide +kernel⟩

/-! ## C46: creation -/

/-- **C46.** A package created with normalisation from a finite assay with nonzero total has exactly the requested mass, in the proportions
of the assay. -/
theorem C46_create (m : Material) (name : Str) (l : List ℚ) (mass : ℚ) (h : m.assays.lookup name = some (l.map .fin)) (h0 : l.sum ≠ 0) :
    ∃ p, m.createPackage (some name) (.fin mass) true = .ok p ∧ p.mat = m ∧ p.mass = .fin mass ∧
      p.masses = l.map (fun x => .fin (mass * (x / l.sum))) := by
  have hs : sum (l.map F64.fin) = .fin l.sum := sum_lift l
  have hm : (l.map F64.fin).map (fun x => ((F64.fin mass).mul x).div (.fin l.sum)) = lift (l.map (fun x => mass * (x / l.sum))) := by
    simp only [List.map_map, lift]
    apply List.map_congr_left
    intro a _
    simp [F64.mul, F64.div, h0, mul_div_assoc]
  refine ⟨⟨m, lift (l.map (fun x => mass * (x / l.sum)))⟩, ?_, rfl, ?_, by simp [lift, Function.comp_def]⟩
  · simp only [Material.createPackage, Material.assayTotal, Material.assay, h, Except.map, if_true, hs, hm]
  · rw [mass_lift (p := ⟨m, lift (l.map (fun x => mass * (x / l.sum)))⟩) rfl]
    congr 1
    rw [List.sum_map_mul_left]
    have : (l.map (fun x => x / l.sum)).sum = l.sum / l.sum := by
      have : ∀ t : ℚ, (l.map (fun x => x / t)).sum = l.sum / t := by
        intro t
        simp only [div_eq_mul_inv]
        rw [List.sum_map_mul_right, List.map_id']
      exact this _
    rw [this, div_self h0, mul_one]

example : matA.assays.lookup "Feed".toList = some ([1/2, 1/4, 1/4].map .fin) ∧ ([1/2, 1/4, 1/4] : List ℚ).sum ≠ 0 ∧
    matA.createPackage (some "Feed".toList) (.fin 8) true = .ok ⟨matA, [.fin 4, .fin 2, .fin 2]⟩ := by decide +kernel

/-- **C46 (no normalisation).** -/
theorem C46_not_normalised (m : Material) (name : Str) (l : List ℚ) (mass : ℚ) (h : m.assays.lookup name = some (l.map .fin)) :
    m.createPackage (some name) (.fin mass) false = .ok ⟨m, l.map (fun x => .fin (mass * x))⟩ := by
  simp [Material.createPackage, Material.assay, h, F64.mul, F64.div, Function.comp_def]

/-- **C46 is false of the code for an assay whose total is zero.** No exception: every mass of the package is an infinity or `nan`. -/
theorem C46_zero_total (m : Material) (name : Str) (l : List ℚ) (mass : ℚ) (h : m.assays.lookup name = some (l.map .fin)) (h0 : l.sum = 0) :
    ∃ p, m.createPackage (some name) (.fin mass) true = .ok p ∧ p.masses.length = l.length ∧ ∀ x ∈ p.masses, ¬ ∃ q, x = .fin q := by
  have hs : sum (l.map F64.fin) = .fin l.sum := sum_lift l
  refine ⟨⟨m, (l.map F64.fin).map (fun x => ((F64.fin mass).mul x).div (.fin l.sum))⟩, ?_, by simp, ?_⟩
  · simp only [Material.createPackage, Material.assayTotal, Material.assay, h, Except.map, if_true, hs]
  · intro x hx
    simp only [List.mem_map] at hx
    obtain ⟨y, ⟨z, _, rfl⟩, rfl⟩ := hx
    rintro ⟨q, hq⟩
    simp only [F64.mul, F64.div, h0, if_true] at hq
    split at hq
    · cases hq
    · split at hq <;> cases hq

example : matA.createPackage (some "Zero".toList) (.fin 8) true = .ok ⟨matA, [.nan, .nan, .nan]⟩ ∧
    matA.createPackage (some "Odd".toList) (.fin 8) true = .ok ⟨matA, [.pinf, .ninf, .nan]⟩ := by decide +kernel

/-- **C46 counterexample.** The package created does not have the requested mass. -/
theorem C46_counterexample : ∃ (m : Material) (name : Str) (p : Package), m.createPackage (some name) (.fin 8) true = .ok p ∧ p.mass ≠ .fin 8 :=
  ⟨matA, "Zero".toList, ⟨matA, [.nan, .nan, .nan]⟩, by decide +kernel, by decide +kernel⟩

/-- **C46 (unknown assay).** -/
theorem C46_unknown (m : Material) (name : Str) (mass : F64) (b : Bool) (h : m.assays.lookup name = none) :
    m.createPackage (some name) mass b = .error .keyError := by
  cases b <;> simp [Material.createPackage, Material.assayTotal, Material.assay, h, Except.map]

/-! ## C56: mixing -/

/-- **C56 (mass).** The mass of a package is the sum of the masses of its size classes. -/
theorem C56_mass (p : Package) (hf : Finite p) (hs : Shape p) (hd : Distinct p.mat) : p.mass = .fin (p.mat.classes.map (content p)).sum :=
  mass_eq hf hd hs

example : pkgA.mass = .fin 7 ∧ content pkgA (1/10) = 2 := by decide +kernel

/-- **C56 (same material).** Adding packages of one material succeeds and adds every size class. -/
theorem C56_add_same (p q : Package) (h : p.mat = q.mat) (hp : Finite p) (hq : Finite q) (sp : Shape p) (sq : Shape q) (hd : Distinct p.mat) :
    ∃ r, p.add (.pkg q) = .ok r ∧ r.mat = p.mat ∧ Finite r ∧ Shape r ∧ (∀ c, content r c = content p c + content q c) ∧
      r.mass = .fin (total p + total q) := by
  obtain ⟨l, hl⟩ := finite_iff.1 hp
  obtain ⟨l', hl'⟩ := finite_iff.1 hq
  obtain ⟨m, ms⟩ := p
  obtain ⟨m', ms'⟩ := q
  dsimp only at h hl hl'
  subst h hl hl'
  have hlen : l.length = l'.length := by
    unfold Shape at sp sq
    simp only [lift_length] at sp sq
    omega
  have hr : Shape ⟨m, lift (List.zipWith (· + ·) l l')⟩ := by
    unfold Shape at sp ⊢
    simp only [lift_length, List.length_zipWith] at sp ⊢
    omega
  have hfr : Finite ⟨m, lift (List.zipWith (· + ·) l l')⟩ := finite_iff.2 ⟨_, rfl⟩
  refine ⟨⟨m, lift (List.zipWith (· + ·) l l')⟩, by simp [Package.add, vadd_lift l l' hlen, Except.map], rfl, hfr, hr, content_zip m l l' hlen, ?_⟩
  rw [mass_eq hfr hd hr, total, total, total, ← List.sum_map_add]
  congr 3
  funext c
  exact content_zip m l l' hlen c

example : pkgA.add (.pkg ⟨matA, lift [1, 0, 9]⟩) = .ok ⟨matA, lift [5, 2, 10]⟩ := by decide +kernel

/-- **C56 (other material).** When it succeeds, adding a package of another material adds every size class. -/
theorem C56_add_other (p q r : Package) (h : p.mat.ident ≠ q.mat.ident) (hp : Finite p) (hq : Finite q) (sp : Shape p) (sq : Shape q)
    (hd : Distinct p.mat) (hd' : Distinct q.mat) (hr : p.add (.pkg q) = .ok r) :
    r.mat = p.mat ∧ Finite r ∧ Shape r ∧ (∀ c, content r c = content p c + content q c) ∧ r.mass = .fin (total p + total q) := by
  simp only [Package.add, h, if_false] at hr
  split at hr
  · cases hr
  · rename_i u p' hl
    cases hr
    obtain ⟨a1, a2, a0, pre, post, a3, a4, a5, a6⟩ := addLoop_spec q hq q.mat.classes p (.ok u) r hp hd' hl
    have hpost : post = [] := a4.1 rfl
    subst hpost
    simp only [List.append_nil] at a3
    have hc : ∀ c, content r c = content p c + content q c := by
      intro c
      rw [a6, ← a3]
      by_cases hc : c ∈ q.mat.classes
      · simp [hc]
      · simp [hc, content_not_mem hc]
    have hok : Shape r := by unfold Shape; rw [a2, a1]; exact sp
    refine ⟨a1, a0, hok, hc, ?_⟩
    rw [mass_eq a0 (by rw [a1]; exact hd) hok, total, total, total, a1]
    have e : p.mat.classes.map (content r) = p.mat.classes.map (fun c => content p c + content q c) := List.map_congr_left (fun c _ => hc c)
    rw [e, List.sum_map_add]
    congr 2
    have sub : ∀ c ∈ q.mat.classes, c ∈ p.mat.classes := by rw [a3]; exact a5
    exact sum_sub hd hd' sub (fun c hc => content_not_mem hc)

/-- **C56 (when it succeeds).** Packages of different materials can be added exactly if every size class of the second is known to the first;
otherwise `TypeError` is raised. -/
theorem C56_add_other_iff (p q : Package) (h : p.mat.ident ≠ q.mat.ident) (hq : Finite q) (sp : Shape p) (sq : Shape q) :
    ((∀ c ∈ q.mat.classes, c ∈ p.mat.classes) → ∃ r, p.add (.pkg q) = .ok r) ∧
    ((∃ c ∈ q.mat.classes, c ∉ p.mat.classes) → p.add (.pkg q) = .error .typeError) := by
  constructor
  · intro hs
    obtain ⟨p', hp'⟩ := addLoop_succeeds q sq hq q.mat.classes p sp (fun c hc => ⟨hs c hc, hc⟩)
    exact ⟨p', by simp [Package.add, h, hp']⟩
  · intro hs
    have := addLoop_fails q sq hq q.mat.classes p sp (fun c hc => hc) hs
    simp only [Package.add, h, if_false]
    cases hl : q.addLoop q.mat.classes p with
    | mk a b => rw [hl] at this; dsimp only at this; subst this; rfl

example : pkgA.add (.pkg pkgB) = .ok ⟨matA, lift [19, 7, 1]⟩ ∧ pkgB.add (.pkg pkgA) = .error .typeError := by decide +kernel

/-- **C56 (tuples).** Adding a mass of a size class adds it to that class alone. -/
theorem C56_tuple (p r : Package) (c : ℚ) (b : Bool) (x : ℚ) (hp : Finite p) (h : p.add (.tup c b (.fin x)) = .ok r) :
    r.mat = p.mat ∧ r.masses.length = p.masses.length ∧ Finite r ∧ ∀ c', content r c' = content p c' + if c' = c then x else 0 := by
  obtain ⟨_, _, h3, h4, h5, h6⟩ := addTuple_ok hp h
  exact ⟨h3, h4, h5, h6⟩

/-- **C56 (tuples succeed).** -/
theorem C56_tuple_succeeds (p : Package) (c : ℚ) (x : F64) (hs : Shape p) (hc : c ∈ p.mat.classes) : ∃ r, p.add (.tup c true x) = .ok r :=
  addTuple_succeeds hs hc

example : pkgA.add (.tup (1/10) true (.fin 10)) = .ok ⟨matA, lift [4, 12, 1]⟩ := by decide +kernel

/-- **C56 (scaling).** Multiplying by a nonnegative float scales every class; negative factors are refused. -/
theorem C56_mul (p : Package) (k : ℚ) (hp : Finite p) :
    (0 ≤ k → ∃ r, p.mul true (.fin k) = .ok r ∧ r.mat = p.mat ∧ r.masses.length = p.masses.length ∧ Finite r ∧ ∀ c, content r c = content p c * k) ∧
    (k < 0 → p.mul true (.fin k) = .error .exception) := by
  obtain ⟨l, hl⟩ := finite_iff.1 hp
  obtain ⟨m, ms⟩ := p
  dsimp only at hl
  subst hl
  constructor
  · intro hk
    refine ⟨⟨m, lift (l.map (· * k))⟩, ?_, rfl, by simp, finite_iff.2 ⟨_, rfl⟩, content_scale m l k⟩
    have : ¬ k < 0 := not_lt.2 hk
    simp [Package.mul, F64.gt, this, map_mul_lift]
  · intro hk
    simp [Package.mul, F64.gt, hk]

example : pkgA.mul true (.fin (1/2)) = .ok ⟨matA, lift [2, 1, 1/2]⟩ := by decide +kernel

/-- **C56 (`add_to`).** When it succeeds, `add_to` leaves the package as `+` returns it. -/
theorem C56_addTo_same (p : Package) (a : Arg Package) (h : (p.addTo a).1 = .ok ()) : p.add a = .ok (p.addTo a).2 := by
  cases a with
  | pkg q =>
    simp only [Package.addTo, Package.add] at h ⊢
    split
    · rename_i hi
      simp only [hi, if_true] at h
      cases hv : vadd p.masses q.masses with
      | error e => rw [hv] at h; cases h
      | ok l => rfl
    · rename_i hi
      simp only [hi, if_false] at h
      cases hl : q.addLoop q.mat.classes p with
      | mk a b => rw [hl] at h; simp only at h; rw [h]
  | tup c b x =>
    simp only [Package.addTo, Package.add] at h ⊢
    cases hh : p.addTuple c b x with
    | error e => rw [hh] at h; cases h
    | ok p' => rfl
  | strTup s b x => cases h
  | num b x => cases h
  | str c => cases h
  | other => cases h

/-- **C56 (`add_to` fails when `+` does).** -/
theorem C56_addTo_error (p : Package) (a : Arg Package) (e : PyErr) (h : p.add a = .error e) : (p.addTo a).1 = .error e := by
  cases a with
  | pkg q =>
    simp only [Package.addTo, Package.add] at h ⊢
    split at h
    · rename_i hi
      simp only [hi, if_true]
      cases hv : vadd p.masses q.masses with
      | error e' => rw [hv] at h; simp only [Except.map] at h; cases h; rfl
      | ok l => rw [hv] at h; cases h
    · rename_i hi
      simp only [hi, if_false]
      cases hl : q.addLoop q.mat.classes p with
      | mk a b =>
        rw [hl] at h
        cases a with
        | error e' => simp only at h; cases h; rfl
        | ok u => cases h
  | tup c b x =>
    simp only [Package.addTo, Package.add] at h ⊢
    rw [h]
  | strTup s b x => cases h; rfl
  | num b x => cases h; rfl
  | str c => cases h; rfl
  | other => cases h; rfl

/-! ## C56: splitting -/

/-- **C56 (extraction).** From a finite package, extraction of a finite mass splits every size class, unless the mass of the package is zero and a
mass is extracted (see C48). -/
theorem C56_extract (p p' r : Package) (a : Arg Package) (hp : Finite p) (h : p.extract a = (.ok r, p'))
    (ha : ∀ b x, (a = .num b x → (∃ q, x = .fin q) ∧ p.mass ≠ .fin 0) ∧ ∀ c, a = .tup c b x → ∃ q, x = .fin q) :
    p'.mat = p.mat ∧ r.mat = p.mat ∧ p'.masses.length = p.masses.length ∧ r.masses.length = p.masses.length ∧ Finite p' ∧ Finite r ∧
    ∀ c, content p c = content p' c + content r c := by
  obtain ⟨l, hl⟩ := finite_iff.1 hp
  obtain ⟨m, ms⟩ := p
  dsimp only at hl
  subst hl
  cases a with
  | pkg q => cases h
  | other => cases h
  | strTup s b x => cases h
  | num b x =>
    obtain ⟨⟨q, rfl⟩, hm⟩ := (ha b x).1 rfl
    have hm' : (⟨m, lift l⟩ : Package).mass = .fin l.sum := mass_lift rfl
    have h0 : l.sum ≠ 0 := fun e => hm (by rw [hm', e])
    simp only [Package.extract] at h
    split at h
    · split at h
      · cases h
      · have e1 : (F64.fin q).div (⟨m, lift l⟩ : Package).mass = .fin (q / l.sum) := by rw [hm']; simp [F64.div, h0]
        have e2 : (F64.fin 1).sub (.fin (q / l.sum)) = .fin (1 - q / l.sum) := by simp [F64.sub, F64.neg, F64.add, sub_eq_add_neg]
        rw [e1, e2, map_mul_lift, map_mul_lift] at h
        cases h
        refine ⟨rfl, rfl, by simp, by simp, finite_iff.2 ⟨_, rfl⟩, finite_iff.2 ⟨_, rfl⟩, fun c => ?_⟩
        rw [content_scale, content_scale]
        ring
    · cases h
  | tup c b x =>
    obtain ⟨q, rfl⟩ := (ha b x).2 c rfl
    simp only [Package.extract] at h
    split at h
    · unfold Material.index at h
      cases hi : indexOf m.classes c with
      | none => rw [hi] at h; cases h
      | some i =>
        rw [hi] at h
        dsimp only at h
        rw [lift_get] at h
        cases hy : l[i]? with
        | none => rw [hy] at h; cases h
        | some y =>
          rw [hy] at h
          simp only [Option.map_some] at h
          split at h
          · cases h
          · have e2 : (F64.fin y).sub (.fin q) = .fin (y - q) := by simp [F64.sub, F64.neg, F64.add, sub_eq_add_neg]
            rw [e2, lift_set, map_mul_lift, lift_set] at h
            cases h
            have hlt := (List.getElem?_eq_some_iff.1 hy).1
            refine ⟨rfl, rfl, by simp, by simp, finite_iff.2 ⟨_, rfl⟩, finite_iff.2 ⟨_, rfl⟩, fun c' => ?_⟩
            rw [content_set hi hlt, content_set hi (by simpa using hlt), content_scale, mul_zero]
            by_cases hc : c' = c
            · subst hc
              simp only [if_true]
              rw [content_of_index (p := ⟨m, lift l⟩) rfl hi, hy]
              simp
            · simp [hc]
    · cases h
  | str v =>
    cases v with
    | none => cases h
    | some c =>
      simp only [Package.extract] at h
      unfold Material.index at h
      cases hi : indexOf m.classes c with
      | none => rw [hi] at h; cases h
      | some i =>
        rw [hi] at h
        dsimp only at h
        rw [lift_get] at h
        cases hy : l[i]? with
        | none => rw [hy] at h; cases h
        | some y =>
          rw [hy] at h
          simp only [Option.map_some] at h
          rw [map_mul_lift, lift_set, lift_set] at h
          cases h
          have hlt := (List.getElem?_eq_some_iff.1 hy).1
          refine ⟨rfl, rfl, by simp, by simp, finite_iff.2 ⟨_, rfl⟩, finite_iff.2 ⟨_, rfl⟩, fun c' => ?_⟩
          rw [content_set hi hlt, content_set hi (by simpa using hlt), content_scale, mul_zero]
          by_cases hc : c' = c
          · subst hc
            simp only [if_true]
            rw [content_of_index (p := ⟨m, lift l⟩) rfl hi, hy]
            simp
          · simp [hc]

example : pkgA.extract (.num true (.fin 7)) = (.ok pkgA, ⟨matA, lift [0, 0, 0]⟩) ∧
    pkgA.extract (.tup (1/10) true (.fin 1)) = (.ok ⟨matA, lift [0, 1, 0]⟩, ⟨matA, lift [4, 1, 1]⟩) ∧
    pkgA.extract (.str (some (3/10))) = (.ok ⟨matA, lift [4, 0, 0]⟩, ⟨matA, lift [0, 2, 1]⟩) := by decide +kernel

/-- **C56 (what is extracted).** A given mass is extracted in the composition of the package, a mass of a class is that mass of that class, and a
class is taken entirely. -/
theorem C56_extracted (p : Package) (hp : Finite p) (hs : Shape p) (hd : Distinct p.mat) :
    (∀ x, x ≤ total p → total p ≠ 0 → ∃ r p', p.extract (.num true (.fin x)) = (.ok r, p') ∧ ∀ c, content r c = content p c * (x / total p)) ∧
    (∀ c ∈ p.mat.classes, ∀ x, x ≤ content p c → ∃ r p', p.extract (.tup c true (.fin x)) = (.ok r, p') ∧
      ∀ c', content r c' = if c' = c then x else 0) ∧
    (∀ c ∈ p.mat.classes, ∃ r p', p.extract (.str (some c)) = (.ok r, p') ∧ ∀ c', content r c' = if c' = c then content p c else 0) := by
  obtain ⟨l, hl⟩ := finite_iff.1 hp
  have ht : total p = l.sum := by rw [total, contents_eq hl hd hs]
  obtain ⟨m, ms⟩ := p
  dsimp only at hl
  subst hl
  have hget : ∀ c ∈ m.classes, ∃ i y, indexOf m.classes c = some i ∧ i < l.length ∧ l[i]? = some y ∧ content ⟨m, lift l⟩ c = y := by
    intro c hc
    obtain ⟨i, hi, hlt⟩ := indexOf_mem hc
    have hlt' : i < l.length := by
      unfold Shape at hs
      simp only [lift_length] at hs
      omega
    refine ⟨i, l[i], hi, hlt', List.getElem?_eq_getElem hlt', ?_⟩
    rw [content_of_index (p := ⟨m, lift l⟩) rfl hi, List.getElem?_eq_getElem hlt']
    rfl
  refine ⟨?_, ?_, ?_⟩
  · intro x hx h0
    have e1 : (F64.fin x).div (⟨m, lift l⟩ : Package).mass = .fin (x / l.sum) := by
      rw [mass_lift (p := ⟨m, lift l⟩) rfl]; simp [F64.div, ← ht, h0]
    have hg : ¬ (F64.fin x).gt (⟨m, lift l⟩ : Package).mass = true := by
      rw [mass_lift (p := ⟨m, lift l⟩) rfl]; simp only [F64.gt, decide_eq_true_eq, not_lt, gt_iff_lt]; rw [← ht]; exact hx
    refine ⟨⟨m, lift (l.map (· * (x / l.sum)))⟩, ⟨m, (lift l).map (·.mul ((F64.fin 1).sub (.fin (x / l.sum))))⟩, ?_, fun c => ?_⟩
    · simp only [Package.extract, if_true, hg, e1, map_mul_lift]; rfl
    · rw [content_scale, ht]
  · intro c hc x hx
    obtain ⟨i, y, hi, hlt, hy, hcy⟩ := hget c hc
    have hg : ¬ (F64.fin x).gt (.fin y) = true := by
      simp only [F64.gt, decide_eq_true_eq, not_lt, gt_iff_lt]; rw [← hcy]; exact hx
    have e2 : (F64.fin y).sub (.fin x) = .fin (y - x) := by simp [F64.sub, F64.neg, F64.add, sub_eq_add_neg]
    refine ⟨⟨m, lift (((l.set i (y - x)).map (· * 0)).set i x)⟩, ⟨m, lift (l.set i (y - x))⟩, ?_, fun c' => ?_⟩
    · simp only [Package.extract, if_true, Material.index, hi, lift_get, hy, Option.map_some, hg, e2, lift_set, map_mul_lift]; rfl
    · rw [content_set hi (by simpa using hlt), content_scale, mul_zero]
  · intro c hc
    obtain ⟨i, y, hi, hlt, hy, hcy⟩ := hget c hc
    refine ⟨⟨m, lift ((l.map (· * 0)).set i y)⟩, ⟨m, lift (l.set i 0)⟩, ?_, fun c' => ?_⟩
    · simp only [Package.extract, Material.index, hi, lift_get, hy, Option.map_some, map_mul_lift, lift_set]
    · rw [content_set hi (by simpa using hlt), content_scale, mul_zero, hcy]

/-- **C56 (refused extractions).** More than the package (or the class) contains cannot be extracted. -/
theorem C56_too_much (p : Package) (hp : Finite p) (hs : Shape p) (hd : Distinct p.mat) :
    (∀ x, total p < x → p.extract (.num true (.fin x)) = (.error .exception, p)) ∧
    (∀ c ∈ p.mat.classes, ∀ x, content p c < x → p.extract (.tup c true (.fin x)) = (.error .exception, p)) := by
  constructor
  · intro x hx
    simp only [Package.extract, mass_eq hp hd hs, F64.gt, gt_iff_lt, decide_eq_true_eq, hx, if_true]
  · intro c hc x hx
    have h := classMass_ok hp hs hc
    obtain ⟨i, hi, hlt⟩ := indexOf_mem hc
    simp only [Package.classMass, Material.index, hi] at h
    split at h
    · rename_i y hy
      cases h
      simp only [Package.extract, if_true, Material.index, hi, hy, F64.gt, gt_iff_lt, decide_eq_true_eq, hx]
    · cases h

example : pkgA.extract (.num true (.fin 8)) = (.error .exception, pkgA) ∧ pkgA.extract (.tup 0 true (.fin 2)) = (.error .exception, pkgA) := by decide +kernel

/-- **C56 (errors).** A refused extraction changes nothing. -/
theorem C56_error_unchanged (p p' : Package) (a : Arg Package) (e : PyErr) (h : p.extract a = (.error e, p')) : p' = p := by
  cases a with
  | pkg q => cases h; rfl
  | other => cases h; rfl
  | strTup s b x => cases h; rfl
  | num b x =>
    simp only [Package.extract] at h
    split at h
    · split at h
      · cases h; rfl
      · cases h
    · cases h; rfl
  | tup c b x =>
    simp only [Package.extract] at h
    split at h
    · split at h
      · cases h; rfl
      · split at h
        · cases h; rfl
        · split at h
          · cases h; rfl
          · cases h
    · cases h; rfl
  | str v =>
    simp only [Package.extract] at h
    split at h
    · cases h; rfl
    · split at h
      · cases h; rfl
      · split at h
        · cases h; rfl
        · cases h

/-- **C56 (nonnegative).** Extraction of a nonnegative mass from a package with nonnegative masses leaves and yields nonnegative masses. -/
theorem C56_nonneg (p p' r : Package) (a : Arg Package) (hp : Finite p) (hs : Shape p) (hd : Distinct p.mat) (hn : ∀ c, 0 ≤ content p c)
    (h : p.extract a = (.ok r, p')) (h0 : ∀ b x, a = .num b x → (∃ q, x = .fin q ∧ 0 ≤ q) ∧ p.mass ≠ .fin 0)
    (h1 : ∀ c b x, a = .tup c b x → ∃ q, x = .fin q ∧ 0 ≤ q) :
    (∀ c, 0 ≤ content p' c) ∧ ∀ c, 0 ≤ content r c := by
  obtain ⟨e1, e2, e3⟩ := C56_extracted p hp hs hd
  have hsplit := C56_extract p p' r a hp h (fun b x => ⟨fun e => by obtain ⟨⟨q, hq, _⟩, hm⟩ := h0 b x e; exact ⟨⟨q, hq⟩, hm⟩,
    fun c e => by obtain ⟨q, hq, _⟩ := h1 c b x e; exact ⟨q, hq⟩⟩)
  obtain ⟨_, _, _, _, _, _, hc⟩ := hsplit
  -- the contents of the extracted package lie between zero and those of the package
  suffices hr : ∀ c, 0 ≤ content r c ∧ content r c ≤ content p c by
    exact ⟨fun c => by have := hc c; have := (hr c).2; linarith, fun c => (hr c).1⟩
  have htot : 0 ≤ total p := List.sum_nonneg (by
    intro x hx
    rw [List.mem_map] at hx
    obtain ⟨c, _, rfl⟩ := hx
    exact hn c)
  cases a with
  | pkg q => cases h
  | other => cases h
  | strTup s b x => cases h
  | num b x =>
    obtain ⟨⟨q, rfl, hq⟩, hm⟩ := h0 b x rfl
    cases b with
    | false => cases h
    | true =>
      by_cases hle : q ≤ total p
      · have ht0 : total p ≠ 0 := fun e => hm (by rw [mass_eq hp hd hs, e])
        obtain ⟨r1, p1, he, hcr⟩ := e1 q hle ht0
        rw [h] at he
        cases he
        intro c
        rw [hcr]
        have hpos : 0 < total p := lt_of_le_of_ne htot (Ne.symm ht0)
        have f0 : 0 ≤ q / total p := div_nonneg hq htot
        have f1 : q / total p ≤ 1 := (div_le_one hpos).2 hle
        exact ⟨mul_nonneg (hn c) f0, by have := mul_le_mul_of_nonneg_left f1 (hn c); linarith⟩
      · have := (C56_too_much p hp hs hd).1 q (not_le.1 hle)
        rw [h] at this
        cases this
  | tup c b x =>
    obtain ⟨q, rfl, hq⟩ := h1 c b x rfl
    cases b with
    | false => cases h
    | true =>
      by_cases hcm : c ∈ p.mat.classes
      · by_cases hle : q ≤ content p c
        · obtain ⟨r1, p1, he, hcr⟩ := e2 c hcm q hle
          rw [h] at he
          cases he
          intro c'
          rw [hcr]
          split
          · rename_i hcc; subst hcc; exact ⟨hq, hle⟩
          · exact ⟨le_refl _, hn c'⟩
        · have := (C56_too_much p hp hs hd).2 c hcm q (not_le.1 hle)
          rw [h] at this
          cases this
      · simp [Package.extract, Material.index, indexOf_none hcm] at h
  | str v =>
    cases v with
    | none => cases h
    | some c =>
      by_cases hcm : c ∈ p.mat.classes
      · obtain ⟨r1, p1, he, hcr⟩ := e3 c hcm
        rw [h] at he
        cases he
        intro c'
        rw [hcr]
        split
        · rename_i hcc; subst hcc; exact ⟨hn c', le_refl _⟩
        · exact ⟨le_refl _, hn c'⟩
      · simp [Package.extract, Material.index, indexOf_none hcm] at h

/-- **C56 (fractions).** In a package with nonnegative masses and positive total the reported class fractions lie between zero and one and add
up to one. -/
theorem C56_fractions (p : Package) (hp : Finite p) (hs : Shape p) (hd : Distinct p.mat) (hn : ∀ c, 0 ≤ content p c) (ht : 0 < total p) :
    ∃ f : ℚ → ℚ, (∀ c ∈ p.mat.classes, p.classFraction c = .ok (.fin (f c)) ∧ 0 ≤ f c ∧ f c ≤ 1 ∧ f c * total p = content p c) ∧
      (p.mat.classes.map f).sum = 1 := by
  refine ⟨fun c => content p c / total p, fun c hc => ⟨?_, div_nonneg (hn c) ht.le, ?_, ?_⟩, ?_⟩
  · simp [Package.classFraction, classMass_ok hp hs hc, mass_eq hp hd hs, F64.div, ht.ne']
  · rw [div_le_one ht, total]
    exact List.single_le_sum (by
      intro x hx
      rw [List.mem_map] at hx
      obtain ⟨c', _, rfl⟩ := hx
      exact hn c') _ (List.mem_map_of_mem hc)
  · field_simp
  · simp only [div_eq_mul_inv]
    rw [List.sum_map_mul_right]
    exact mul_inv_cancel₀ ht.ne'

example : pkgA.classFraction (1/10) = .ok (.fin (2/7)) ∧ pkgA.assay = lift [4/7, 2/7, 1/7] := by decide +kernel

/-! ## C48: extraction from an empty package -/

/-- **C48 is false of the code.** Extracting a mass of zero from a package of total mass zero succeeds silently and turns every mass of the package and of
the extract into `nan`. -/
theorem C48_empty_corrupted (p : Package) (hp : Finite p) (hs : Shape p) (hd : Distinct p.mat) (h0 : total p = 0) :
    ∃ r p', p.extract (.num true (.fin 0)) = (.ok r, p') ∧ p'.masses = p.masses.map (fun _ => .nan) ∧ r.masses = p.masses.map (fun _ => .nan) := by
  have hm : p.mass = .fin 0 := by rw [mass_eq hp hd hs, h0]
  obtain ⟨l, hl⟩ := finite_iff.1 hp
  refine ⟨⟨p.mat, p.masses.map (·.mul .nan)⟩, ⟨p.mat, p.masses.map (·.mul .nan)⟩, ?_, ?_, ?_⟩
  · simp [Package.extract, hm, F64.gt, F64.div, F64.sub, F64.neg, F64.add]
  · rw [hl]; simp [lift, F64.mul]
  · rw [hl]; simp [lift, F64.mul]

/-- **C48 counterexample.** -/
theorem C48_counterexample : ∃ p r p' : Package, Finite p ∧ p.extract (.num true (.fin 0)) = (.ok r, p') ∧ ¬ Finite p' := by
  refine ⟨⟨matA, lift [0, 0, 0]⟩, ⟨matA, [.nan, .nan, .nan]⟩, ⟨matA, [.nan, .nan, .nan]⟩, finite_iff.2 ⟨_, rfl⟩, by decide +kernel, ?_⟩
  intro h
  obtain ⟨q, hq⟩ := h .nan (by simp)
  cases hq

/-- **C48 (what holds).** From a package of nonzero mass, and with other arguments from any package, extraction keeps all masses finite. -/
theorem C48_finite_partial (p p' r : Package) (a : Arg Package) (hp : Finite p) (h : p.extract a = (.ok r, p'))
    (ha : ∀ b x, (a = .num b x → (∃ q, x = .fin q) ∧ p.mass ≠ .fin 0) ∧ ∀ c, a = .tup c b x → ∃ q, x = .fin q) : Finite p' ∧ Finite r := by
  obtain ⟨_, _, _, _, h1, h2, _⟩ := C56_extract p p' r a hp h ha
  exact ⟨h1, h2⟩

/-! ## C54, C55, C59 for psd -/

/-- **C54 (psd).** -/
theorem C54_psd_add_assay (m : Material) (name : Str) (a : AssayArg) :
    (∃ e, m.addAssay name a = (.error e, m)) ∨
    (∃ l, a = .array l ∧ l.length = m.classes.length ∧ m.assays.lookup name = none ∧
      (m.addAssay name a).1 = .ok () ∧ (m.addAssay name a).2.classes = m.classes ∧ (m.addAssay name a).2.ident = m.ident ∧
      (m.addAssay name a).2.assays.lookup name = some l ∧ ∀ k, k ≠ name → (m.addAssay name a).2.assays.lookup k = m.assays.lookup k) := by
  cases a with
  | other => exact .inl ⟨_, rfl⟩
  | otherShape => exact .inl ⟨_, rfl⟩
  | array l =>
    simp only [Material.addAssay]
    split
    · exact .inl ⟨_, rfl⟩
    · rename_i hl
      split
      · exact .inl ⟨_, rfl⟩
      · rename_i hn
        right
        have hnone : m.assays.lookup name = none := by
          rw [List.lookup_eq_none_iff]
          intro x hx
          apply bne_iff_ne.2
          intro e
          exact hn (List.mem_map.2 ⟨x, hx, e.symm⟩)
        refine ⟨l, rfl, not_not.1 hl, hnone, rfl, rfl, rfl, ?_, ?_⟩
        · simp [List.lookup_append, hnone]
        · intro k hk
          have : (k == name) = false := by simpa using hk
          simp [List.lookup_append, List.lookup_cons, this]

example : (matA.addAssay "New".toList (.array (lift [1, 2, 3]))).1 = .ok () ∧ (matA.addAssay "Feed".toList (.array (lift [1, 2, 3]))).1 = .error .exception ∧
    (matA.addAssay "New".toList (.array (lift [1, 2]))).1 = .error .exception := by decide +kernel

/-- **C55 (psd).** After `clear` every size class, and the package, has mass zero. -/
theorem C55_psd_clear (p : Package) (hp : Finite p) : p.clear.mat = p.mat ∧ p.clear.masses.length = p.masses.length ∧ p.clear.mass = .fin 0 ∧
    (∀ c, content p.clear c = 0) ∧ Finite p.clear := by
  obtain ⟨l, hl⟩ := finite_iff.1 hp
  obtain ⟨m, ms⟩ := p
  dsimp only at hl
  subst hl
  have e : (⟨m, lift l⟩ : Package).clear = ⟨m, lift (l.map (· * 0))⟩ := by simp [Package.clear, map_mul_lift]
  rw [e]
  refine ⟨rfl, by simp, ?_, fun c => by rw [content_scale, mul_zero], finite_iff.2 ⟨_, rfl⟩⟩
  rw [mass_lift (p := ⟨m, lift (l.map (· * 0))⟩) rfl, List.sum_map_mul_right, mul_zero]

example : pkgA.clear = ⟨matA, lift [0, 0, 0]⟩ := by decide +kernel

/-- **C59 (psd) is false of the code.** A failed `add_to` may have changed the package. -/
theorem C59_psd_counterexample : ∃ p q : Package, Finite p ∧ Finite q ∧ Shape p ∧ Shape q ∧
    (p.addTo (.pkg q)).1 = .error .typeError ∧ content (p.addTo (.pkg q)).2 (3/10) ≠ content p (3/10) :=
  ⟨pkgB, pkgA, pkgB_ok.1, pkgA_ok.1, pkgB_ok.2.1, pkgA_ok.2.1, by decide +kernel, by decide +kernel⟩

/-- **C59 (psd, what happens).** -/
theorem C59_psd_addTo_partial (p q : Package) (h : p.mat.ident ≠ q.mat.ident) (hp : Finite p) (hq : Finite q) (hd : Distinct q.mat) :
    ∃ pre post, q.mat.classes = pre ++ post ∧ ((p.addTo (.pkg q)).1 = .ok () ↔ post = []) ∧
      ∀ c, content (p.addTo (.pkg q)).2 c = content p c + if c ∈ pre then content q c else 0 := by
  simp only [Package.addTo, h, if_false]
  obtain ⟨_, _, _, pre, post, a3, a4, _, a6⟩ := addLoop_spec q hq q.mat.classes p _ _ hp hd (rfl : q.addLoop q.mat.classes p = ((q.addLoop q.mat.classes p).1, (q.addLoop q.mat.classes p).2))
  exact ⟨pre, post, a3, a4, a6⟩

/-- **C59 (psd, other arguments and packages of the same material).** -/
theorem C59_psd_other_args_partial (p : Package) (a : Arg Package) (ha : ∀ q, a = .pkg q → q.mat.ident = p.mat.ident) (h : (p.addTo a).1 ≠ .ok ()) :
    (p.addTo a).2 = p := by
  cases a with
  | pkg q =>
    simp only [Package.addTo, (ha q rfl).symm, if_true] at h ⊢
    cases hv : vadd p.masses q.masses with
    | error e => rfl
    | ok l => rw [hv] at h; exact absurd rfl h
  | tup c b x =>
    simp only [Package.addTo] at h ⊢
    cases hh : p.addTuple c b x with
    | error e => rfl
    | ok p' => rw [hh] at h; exact absurd rfl h
  | strTup s b x => rfl
  | num b x => rfl
  | str c => rfl
  | other => rfl

end Auxi.Psd.Props
