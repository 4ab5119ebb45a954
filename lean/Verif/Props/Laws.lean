import Verif.Props.Psd
import Verif.Props.Slurry
import Verif.Props.Chem

/-! # C149: packages can be reckoned with like quantities

The order and the grouping in which packages are mixed do not matter, scaling distributes over mixing, and what was taken out of a package can be put back.  The laws say that the results are the
same *packages* (same material, same masses in the same places; for slurries also the same density and the same mass of water). -/
namespace Auxi.Psd.Laws
open Auxi Auxi.Psd Auxi.Psd.Spec Auxi.Psd.Props

/-- A package with one finite mass for each of the distinct size classes of its material. -/
structure Good (p : Package) : Prop where
  finite : Finite p
  shape : Shape p
  distinct : Distinct p.mat

/-- Two materials with the same identity are the same object. -/
def Ids (p q : Package) : Prop := p.mat.ident = q.mat.ident → p.mat = q.mat

theorem ext {p q : Package} (hp : Good p) (hq : Good q) (hm : p.mat = q.mat) (hc : ∀ c, content p c = content q c) : p = q := by
  obtain ⟨l, hl⟩ := finite_iff.1 hp.finite
  obtain ⟨k, hk⟩ := finite_iff.1 hq.finite
  have sl : l.length = p.mat.classes.length := by have := hp.shape; unfold Shape at this; rwa [hl, lift_length] at this
  have sk : k.length = p.mat.classes.length := by have := hq.shape; unfold Shape at this; rwa [hk, lift_length, ← hm] at this
  have e : l = k := by
    apply List.ext_getElem?
    intro i
    by_cases hi : i < p.mat.classes.length
    · have hx := indexOf_nodup hp.distinct (List.getElem?_eq_getElem hi)
      have h1 := content_of_index hl hx
      have h2 := content_of_index hk (by rw [← hm]; exact hx)
      have := hc p.mat.classes[i]
      rw [h1, h2] at this
      rw [List.getElem?_eq_getElem (by omega), List.getElem?_eq_getElem (by omega)] at this ⊢
      simpa using this
    · rw [List.getElem?_eq_none (by omega), List.getElem?_eq_none (by omega)]
  obtain ⟨m, ms⟩ := p
  obtain ⟨m', ms'⟩ := q
  dsimp only at hl hk hm
  subst hm
  rw [hl, hk, e]

theorem sum_facts {p q r : Package} (hp : Good p) (hq : Good q) (hi : Ids p q) (h : p.add (.pkg q) = .ok r) :
    r.mat = p.mat ∧ Good r ∧ ∀ c, content r c = content p c + content q c := by
  by_cases e : p.mat.ident = q.mat.ident
  · obtain ⟨r', h1, h2, h3, h4, h5, -⟩ := C56_add_same p q (hi e) hp.finite hq.finite hp.shape hq.shape hp.distinct
    rw [h] at h1
    cases h1
    exact ⟨h2, ⟨h3, h4, h2 ▸ hp.distinct⟩, h5⟩
  · obtain ⟨h2, h3, h4, h5, -⟩ := C56_add_other p q r e hp.finite hq.finite hp.shape hq.shape hp.distinct hq.distinct h
    exact ⟨h2, ⟨h3, h4, h2 ▸ hp.distinct⟩, h5⟩

theorem sum_ok {p q : Package} (hp : Good p) (hq : Good q) (hi : Ids p q) : (∃ r, p.add (.pkg q) = .ok r) ↔ ∀ c ∈ q.mat.classes, c ∈ p.mat.classes := by
  by_cases e : p.mat.ident = q.mat.ident
  · obtain ⟨r', h1, -⟩ := C56_add_same p q (hi e) hp.finite hq.finite hp.shape hq.shape hp.distinct
    exact ⟨fun _ => by rw [hi e]; exact fun c hc => hc, fun _ => ⟨r', h1⟩⟩
  · obtain ⟨h1, h2⟩ := C56_add_other_iff p q e hq.finite hp.shape hq.shape
    refine ⟨fun ⟨r, hr⟩ c hc => ?_, h1⟩
    by_contra hn
    rw [h2 ⟨c, hc, hn⟩] at hr
    cases hr

theorem mul_facts {p r : Package} {k : ℚ} (hp : Good p) (h : p.mul true (.fin k) = .ok r) : 0 ≤ k ∧ r.mat = p.mat ∧ Good r ∧ ∀ c, content r c = content p c * k := by
  obtain ⟨h1, h2⟩ := C56_mul p k hp.finite
  by_cases hk : 0 ≤ k
  · obtain ⟨r', e1, e2, e3, e4, e5⟩ := h1 hk
    rw [h] at e1
    cases e1
    exact ⟨hk, e2, ⟨e4, by unfold Shape; rw [e3, e2]; exact hp.shape, e2 ▸ hp.distinct⟩, e5⟩
  · rw [h2 (not_le.1 hk)] at h; cases h

theorem mul_ok {p : Package} {k : ℚ} (hp : Good p) (hk : 0 ≤ k) : ∃ r, p.mul true (.fin k) = .ok r :=
  let ⟨r, h, _⟩ := (C56_mul p k hp.finite).1 hk
  ⟨r, h⟩

/-- **C149 (psd, order).** If both sums exist they hold the same of every size class; packages of one material give the same package. -/
theorem C149_psd_commutes (p q r s : Package) (hp : Good p) (hq : Good q) (h1 : Ids p q) (h2 : Ids q p) (hr : p.add (.pkg q) = .ok r) (hs : q.add (.pkg p) = .ok s) :
    (∀ c, content r c = content s c) ∧ (p.mat = q.mat → r = s) := by
  obtain ⟨a1, a2, a3⟩ := sum_facts hp hq h1 hr
  obtain ⟨b1, b2, b3⟩ := sum_facts hq hp h2 hs
  have e : ∀ c, content r c = content s c := fun c => by rw [a3, b3, add_comm]
  exact ⟨e, fun hm => ext a2 b2 (by rw [a1, b1, hm]) e⟩

/-- **C149 (psd, grouping).** If `p + (q + r)` exists then so does `(p + q) + r`, and it is the same package; and whenever both exist they are the same. -/
theorem C149_psd_associates (p q r qr y : Package) (hp : Good p) (hq : Good q) (hr : Good r) (h1 : Ids p q) (h2 : Ids q r) (h3 : Ids p r)
    (hqr : q.add (.pkg r) = .ok qr) (hy : p.add (.pkg qr) = .ok y) : ∃ pq, p.add (.pkg q) = .ok pq ∧ pq.add (.pkg r) = .ok y := by
  obtain ⟨a1, a2, a3⟩ := sum_facts hq hr h2 hqr
  have i1 : Ids p qr := by unfold Ids; rw [a1]; exact h1
  obtain ⟨b1, b2, b3⟩ := sum_facts hp a2 i1 hy
  have c1 := (sum_ok hq hr h2).1 ⟨_, hqr⟩
  have c2 := (sum_ok hp a2 i1).1 ⟨_, hy⟩
  rw [a1] at c2
  obtain ⟨pq, hpq⟩ := (sum_ok hp hq h1).2 c2
  obtain ⟨d1, d2, d3⟩ := sum_facts hp hq h1 hpq
  have i2 : Ids pq r := by unfold Ids; rw [d1]; exact h3
  obtain ⟨x, hx⟩ := (sum_ok d2 hr i2).2 (by rw [d1]; exact fun c hc => c2 c (c1 c hc))
  obtain ⟨e1, e2, e3⟩ := sum_facts d2 hr i2 hx
  refine ⟨pq, hpq, ?_⟩
  rw [hx]
  congr 1
  exact ext e2 b2 (by rw [e1, d1, b1]) (fun c => by rw [e3, d3, b3, a3, add_assoc])

/-- **C149 (psd, scaling).** Scaling distributes over mixing; scaling twice is scaling by the product; scaling by one changes nothing; a package added to itself is the package times two. -/
theorem C149_psd_scale (p q : Package) (hp : Good p) (hq : Good q) (hi : Ids p q) (a b : ℚ) (ha : 0 ≤ a) (hb : 0 ≤ b) :
    (∀ s, p.add (.pkg q) = .ok s → ∃ x pa qa, s.mul true (.fin a) = .ok x ∧ p.mul true (.fin a) = .ok pa ∧ q.mul true (.fin a) = .ok qa ∧ pa.add (.pkg qa) = .ok x) ∧
    (∃ pa pb, p.mul true (.fin a) = .ok pa ∧ pa.mul true (.fin b) = .ok pb ∧ p.mul true (.fin (a * b)) = .ok pb) ∧
    p.mul true (.fin 1) = .ok p ∧ ∃ s, p.add (.pkg p) = .ok s ∧ p.mul true (.fin 2) = .ok s := by
  obtain ⟨pa, hpa⟩ := mul_ok hp ha
  obtain ⟨-, p1, p2, p3⟩ := mul_facts hp hpa
  refine ⟨fun s hs => ?_, ?_, ?_, ?_⟩
  · obtain ⟨s1, s2, s3⟩ := sum_facts hp hq hi hs
    obtain ⟨qa, hqa⟩ := mul_ok hq ha
    obtain ⟨-, q1, q2, q3⟩ := mul_facts hq hqa
    obtain ⟨x, hx⟩ := mul_ok s2 ha
    obtain ⟨-, x1, x2, x3⟩ := mul_facts s2 hx
    have i : Ids pa qa := by unfold Ids; rw [p1, q1]; exact hi
    obtain ⟨y, hy⟩ := (sum_ok p2 q2 i).2 (by rw [p1, q1]; exact (sum_ok hp hq hi).1 ⟨s, hs⟩)
    obtain ⟨y1, y2, y3⟩ := sum_facts p2 q2 i hy
    refine ⟨x, pa, qa, hx, hpa, hqa, ?_⟩
    rw [hy]
    congr 1
    exact ext y2 x2 (by rw [y1, p1, x1, s1]) (fun c => by rw [y3, p3, q3, x3, s3, add_mul])
  · obtain ⟨pb, hpb⟩ := mul_ok p2 hb
    obtain ⟨-, b1, b2, b3⟩ := mul_facts p2 hpb
    obtain ⟨z, hz⟩ := mul_ok hp (mul_nonneg ha hb)
    obtain ⟨-, z1, z2, z3⟩ := mul_facts hp hz
    refine ⟨pa, pb, hpa, hpb, ?_⟩
    rw [hz]
    congr 1
    exact ext z2 b2 (by rw [z1, b1, p1]) (fun c => by rw [z3, b3, p3, mul_assoc])
  · obtain ⟨z, hz⟩ := mul_ok hp zero_le_one
    obtain ⟨-, z1, z2, z3⟩ := mul_facts hp hz
    rw [hz]
    congr 1
    exact ext z2 hp z1 (fun c => by rw [z3, mul_one])
  · obtain ⟨s, hs⟩ := (sum_ok hp hp (fun _ => rfl)).2 (fun c hc => hc)
    obtain ⟨s1, s2, s3⟩ := sum_facts hp hp (fun _ => rfl) hs
    obtain ⟨z, hz⟩ := mul_ok hp zero_le_two
    obtain ⟨-, z1, z2, z3⟩ := mul_facts hp hz
    refine ⟨s, hs, ?_⟩
    rw [hz]
    congr 1
    exact ext z2 s2 (by rw [z1, s1]) (fun c => by rw [z3, s3, mul_two])

/-- **C149 (psd, nothing).** Adding an empty package, of any material whose size classes the package has, changes nothing. -/
theorem C149_psd_empty (p e : Package) (m : Material) (mass : F64) (hp : Good p) (hd : Distinct m) (hi : p.mat.ident = m.ident → p.mat = m) (hs : ∀ c ∈ m.classes, c ∈ p.mat.classes)
    (he : m.createPackage none mass true = .ok e) : p.add (.pkg e) = .ok p := by
  cases he
  have hl : (List.replicate m.classes.length (F64.fin 0)) = lift (List.replicate m.classes.length 0) := by simp [lift]
  have hg : Good ⟨m, List.replicate m.classes.length (.fin 0)⟩ := ⟨finite_iff.2 ⟨_, hl⟩, by simp [Shape], hd⟩
  have hz : ∀ c, content ⟨m, List.replicate m.classes.length (.fin 0)⟩ c = 0 := by
    intro c
    rw [content_lift (p := ⟨m, List.replicate m.classes.length (.fin 0)⟩) hl]
    cases indexOf m.classes c with
    | none => rfl
    | some i =>
      by_cases h : i < m.classes.length
      · simp [h]
      · simp [h]
  obtain ⟨r, hr⟩ := (sum_ok hp hg hi).2 hs
  obtain ⟨r1, r2, r3⟩ := sum_facts hp hg hi hr
  rw [hr]
  congr 1
  exact ext r2 hp r1 (fun c => by rw [r3, hz, add_zero])

/-- **C149 (psd, putting back).** What was extracted, added again, gives the package there was. -/
theorem C149_psd_rejoin (p p' r : Package) (a : Arg Package) (hp : Good p) (h : p.extract a = (.ok r, p'))
    (ha : ∀ b x, (a = .num b x → (∃ q, x = .fin q) ∧ p.mass ≠ .fin 0) ∧ ∀ c, a = .tup c b x → ∃ q, x = .fin q) : p'.add (.pkg r) = .ok p ∧ r.add (.pkg p') = .ok p := by
  obtain ⟨e1, e2, e3, e4, e5, e6, e7⟩ := C56_extract p p' r a hp.finite h ha
  have g1 : Good p' := ⟨e5, by unfold Shape; rw [e3, e1]; exact hp.shape, e1 ▸ hp.distinct⟩
  have g2 : Good r := ⟨e6, by unfold Shape; rw [e4, e2]; exact hp.shape, e2 ▸ hp.distinct⟩
  have i : Ids p' r := fun _ => by rw [e1, e2]
  have j : Ids r p' := fun _ => by rw [e1, e2]
  obtain ⟨x, hx⟩ := (sum_ok g1 g2 i).2 (by rw [e1, e2]; exact fun c hc => hc)
  obtain ⟨x1, x2, x3⟩ := sum_facts g1 g2 i hx
  obtain ⟨y, hy⟩ := (sum_ok g2 g1 j).2 (by rw [e1, e2]; exact fun c hc => hc)
  obtain ⟨y1, y2, y3⟩ := sum_facts g2 g1 j hy
  constructor
  · rw [hx]; congr 1; exact ext x2 hp (by rw [x1, e1]) (fun c => by rw [x3, e7])
  · rw [hy]; congr 1; exact ext y2 hp (by rw [y1, e2]) (fun c => by rw [y3, e7, add_comm])

theorem pkgA_good : Good pkgA := ⟨pkgA_ok.1, pkgA_ok.2.1, pkgA_ok.2.2⟩
theorem pkgB_good : Good pkgB := ⟨pkgB_ok.1, pkgB_ok.2.1, pkgB_ok.2.2⟩

/-- The hypotheses are met, with packages of two materials. -/
example : Good pkgA ∧ Good pkgB ∧ Ids pkgA pkgB ∧ (pkgA.add (.pkg pkgB)).toBool = true ∧ (pkgA.extract (.num true (.fin 3))).1.toBool = true ∧ pkgA.mass ≠ .fin 0 ∧
    (pkgB.add (.pkg pkgB)).toBool = true ∧ (matB.createPackage none (.fin 0) true).toBool = true := by
  refine ⟨pkgA_good, pkgB_good, fun h => absurd h (by decide +kernel), ?_, ?_, ?_, ?_, ?_⟩ <;> decide +kernel

end Auxi.Psd.Laws

namespace Auxi.Slurry.Laws
open Auxi Auxi.Slurry Auxi.Slurry.Spec Auxi.Slurry.Props
open Auxi.Psd (F64 Arg)

/-- Two materials with the same identity are the same object. -/
def Ids (p q : Package) : Prop := p.mat.psd.ident = q.mat.psd.ident → p.mat = q.mat

/-- A healthy package in which the solids do not weigh less than nothing. -/
def Good (p : Package) : Prop := OK p ∧ 0 ≤ solid p

theorem solid_eq {p q : Package} (hm : p.mat = q.mat) (hc : ∀ c, content p c = content q c) : solid p = solid q := by
  unfold solid Psd.Spec.total
  have e : p.solids.mat.classes = q.solids.mat.classes := by unfold Package.solids; rw [hm]
  rw [e]
  exact congrArg _ (List.map_congr_left fun c _ => hc c)

theorem ext {p q : Package} (hp : OK p) (hq : OK q) (hm : p.mat = q.mat) (hc : ∀ c, content p c = content q c) (hw : water p = water q) (hd : p.density = q.density) : p = q := by
  have e := Psd.Laws.ext (p := p.solids) (q := q.solids) ⟨hp.finite, hp.shape, hp.distinct⟩ ⟨hq.finite, hq.shape, hq.distinct⟩ (by unfold Package.solids; rw [hm]) hc
  have ew : p.water = q.water := by rw [water_eq hp, water_eq hq, hw]
  have em : p.masses = q.masses := congrArg Psd.Package.masses e
  obtain ⟨m, d, w, l⟩ := p
  obtain ⟨m', d', w', l'⟩ := q
  dsimp only at hm hd ew em
  subst hm hd ew em
  rfl

theorem dens_eq {p q : Package} (hp : OK p) (hq : OK q) (hs : solid p = solid q) (h0 : solid p ≠ 0) (hw : water p = water q) (hv : volume p = volume q) : p.density = q.density := by
  obtain ⟨d, hd, d0⟩ := hp.density
  obtain ⟨e, he, e0⟩ := hq.density
  have v1 : volume p = water p + solid p / d := by simp only [Spec.volume, hd]
  have v2 : volume q = water q + solid q / e := by simp only [Spec.volume, he]
  rw [hd, he]
  congr 1
  have : solid p / d = solid p / e := by rw [v1, v2, hw, hs] at hv; rw [hs]; linarith
  rw [div_eq_div_iff d0.ne' e0.ne'] at this
  exact (mul_left_cancel₀ h0 this).symm

theorem mul_facts {p : Package} (h : OK p) {k : ℚ} (hk : 0 ≤ k) : ∃ r, p.mul true (.fin k) = .ok r ∧ r.mat = p.mat ∧ OK r ∧ r.density = p.density ∧ (∀ c, content r c = content p c * k) ∧
    water r = water p * k ∧ solid r = solid p * k ∧ volume r = volume p * k := by
  obtain ⟨r, h1, h2, h3, h4, h5, h6, h7⟩ := C57_mul p h k hk
  refine ⟨r, h1, h2, h3, h4, h5, h6, ?_, ?_⟩
  · unfold solid Psd.Spec.total
    have e : r.solids.mat.classes = p.solids.mat.classes := by unfold Package.solids; rw [h2]
    rw [e, ← List.sum_map_mul_right]
    exact congrArg _ (List.map_congr_left fun c _ => h5 c)
  · have := (C57_volume r h3).1
    rw [h7] at this
    exact (F64.fin.inj this).symm

/-- **C149 (slurry, order).** -/
theorem C149_slurry_commutes (p q r s : Package) (hp : Good p) (hq : Good q) (h1 : Ids p q) (h2 : Ids q p) (h0 : 0 < solid p + solid q) (hr : p.add (.pkg q) = .ok r) (hs : q.add (.pkg p) = .ok s) :
    (∀ c, content r c = content s c) ∧ water r = water s ∧ volume r = volume s ∧ (p.mat = q.mat → r = s) := by
  obtain ⟨a1, a2, a3, a4, a5, a6, -⟩ := C57_mix p q r hp.1 hq.1 h1 hp.2 hq.2 h0 hr
  obtain ⟨b1, b2, b3, b4, b5, b6, -⟩ := C57_mix q p s hq.1 hp.1 h2 hq.2 hp.2 (by rw [add_comm]; exact h0) hs
  have e : ∀ c, content r c = content s c := fun c => by rw [a3, b3, add_comm]
  have ew : water r = water s := by rw [a4, b4, add_comm]
  have ev : volume r = volume s := by rw [a6, b6, add_comm]
  refine ⟨e, ew, ev, fun hm => ext a2 b2 (by rw [a1, b1, hm]) e ew ?_⟩
  exact dens_eq a2 b2 (by rw [a5, b5, add_comm]) (by rw [a5]; exact h0.ne') ew ev

/-- **C149 (slurry, grouping).** Whenever both groupings exist they give the same package. -/
theorem C149_slurry_associates (p q r pq qr x y : Package) (hp : Good p) (hq : Good q) (hr : Good r) (h1 : Ids p q) (h2 : Ids q r) (h3 : Ids p r)
    (hpq : 0 < solid p + solid q) (hqr : 0 < solid q + solid r) (e1 : p.add (.pkg q) = .ok pq) (e2 : pq.add (.pkg r) = .ok x) (e3 : q.add (.pkg r) = .ok qr) (e4 : p.add (.pkg qr) = .ok y) : x = y := by
  obtain ⟨a1, a2, a3, a4, a5, a6, -⟩ := C57_mix p q pq hp.1 hq.1 h1 hp.2 hq.2 hpq e1
  obtain ⟨b1, b2, b3, b4, b5, b6, -⟩ := C57_mix q r qr hq.1 hr.1 h2 hq.2 hr.2 hqr e3
  have p0 := hp.2
  have r0 := hr.2
  obtain ⟨c1, c2, c3, c4, c5, c6, -⟩ := C57_mix pq r x a2 hr.1 (by rw [a1]; exact h3) (by rw [a5]; linarith) hr.2 (by rw [a5]; linarith) e2
  obtain ⟨d1, d2, d3, d4, d5, d6, -⟩ := C57_mix p qr y hp.1 b2 (by rw [b1]; exact h1) hp.2 (by rw [b5]; linarith) (by rw [b5]; linarith) e4
  have ew : water x = water y := by rw [c4, a4, d4, b4, add_assoc]
  refine ext c2 d2 (by rw [c1, a1, d1]) (fun c => by rw [c3, a3, d3, b3, add_assoc]) ew ?_
  exact dens_eq c2 d2 (by rw [c5, a5, d5, b5, add_assoc]) (by rw [c5, a5]; exact ne_of_gt (by linarith)) ew (by rw [c6, a6, d6, b6, add_assoc])

/-- **C149 (slurry, scaling).** -/
theorem C149_slurry_scale (p q s x : Package) (hp : Good p) (hq : Good q) (hi : Ids p q) (h0 : 0 < solid p + solid q) (a b : ℚ) (ha : 0 < a) (hb : 0 ≤ b) (hs : p.add (.pkg q) = .ok s)
    (hx : s.mul true (.fin a) = .ok x) :
    (∀ pa qa y, p.mul true (.fin a) = .ok pa → q.mul true (.fin a) = .ok qa → pa.add (.pkg qa) = .ok y → x = y) ∧
    (∃ pa pb, p.mul true (.fin a) = .ok pa ∧ pa.mul true (.fin b) = .ok pb ∧ p.mul true (.fin (a * b)) = .ok pb) ∧
    p.mul true (.fin 1) = .ok p ∧ ∀ t, 0 < solid p → p.add (.pkg p) = .ok t → p.mul true (.fin 2) = .ok t := by
  obtain ⟨s1, s2, s3, s4, s5, s6, -⟩ := C57_mix p q s hp.1 hq.1 hi hp.2 hq.2 h0 hs
  obtain ⟨x', hx', x1, x2, x3, x4, x5, x6, x7⟩ := mul_facts s2 ha.le
  rw [hx] at hx'
  cases hx'
  obtain ⟨pa, hpa, p1, p2, p3, p4, p5, p6, p7⟩ := mul_facts hp.1 ha.le
  obtain ⟨qa, hqa, q1, q2, q3, q4, q5, q6, q7⟩ := mul_facts hq.1 ha.le
  refine ⟨fun pa' qa' y e1 e2 e3 => ?_, ?_, ?_, fun t ht et => ?_⟩
  · rw [hpa] at e1
    rw [hqa] at e2
    cases e1
    cases e2
    have hpos : 0 < solid pa + solid qa := by rw [p6, q6, ← add_mul]; exact mul_pos h0 ha
    obtain ⟨y1, y2, y3, y4, y5, y6, -⟩ := C57_mix pa qa y p2 q2 (by rw [p1, q1]; exact hi) (by rw [p6]; exact mul_nonneg hp.2 ha.le) (by rw [q6]; exact mul_nonneg hq.2 ha.le) hpos e3
    have ew : water x = water y := by rw [x5, s4, y4, p5, q5, add_mul]
    refine ext x2 y2 (by rw [x1, s1, y1, p1]) (fun c => by rw [x4, s3, y3, p4, q4, add_mul]) ew ?_
    exact dens_eq x2 y2 (by rw [x6, s5, y5, p6, q6, add_mul]) (by rw [x6, s5]; exact (mul_pos h0 ha).ne') ew (by rw [x7, s6, y6, p7, q7, add_mul])
  · obtain ⟨pb, hpb, b1, b2, b3, b4, b5, b6, b7⟩ := mul_facts p2 hb
    obtain ⟨z, hz, z1, z2, z3, z4, z5, z6, z7⟩ := mul_facts hp.1 (mul_nonneg ha.le hb)
    refine ⟨pa, pb, hpa, hpb, ?_⟩
    rw [hz]
    congr 1
    exact ext z2 b2 (by rw [z1, b1, p1]) (fun c => by rw [z4, b4, p4, mul_assoc]) (by rw [z5, b5, p5, mul_assoc]) (by rw [z3, b3, p3])
  · obtain ⟨z, hz, z1, z2, z3, z4, z5, z6, z7⟩ := mul_facts hp.1 zero_le_one
    rw [hz]
    congr 1
    exact ext z2 hp.1 z1 (fun c => by rw [z4, mul_one]) (by rw [z5, mul_one]) z3
  · obtain ⟨y1, y2, y3, y4, y5, y6, -⟩ := C57_mix p p t hp.1 hp.1 (fun _ => rfl) hp.2 hp.2 (by linarith) et
    obtain ⟨z, hz, z1, z2, z3, z4, z5, z6, z7⟩ := mul_facts hp.1 zero_le_two
    rw [hz]
    congr 1
    have ew : water z = water t := by rw [z5, y4, mul_two]
    refine ext z2 y2 (by rw [z1, y1]) (fun c => by rw [z4, y3, mul_two]) ew ?_
    exact dens_eq z2 y2 (by rw [z6, y5, mul_two]) (by rw [z6]; exact ne_of_gt (by linarith)) ew (by rw [z7, y6, mul_two])

/-- **C149 (slurry, putting back).** For a package with solids: what was extracted, added again, gives the package there was. -/
theorem C149_slurry_rejoin (p p' r : Package) (a : Arg Package) (hp : Good p) (h0 : 0 < solid p) (h : p.extract a = (.ok r, p')) (hp' : 0 ≤ solid p') (hr : 0 ≤ solid r)
    (h1 : ∀ b x, a = .num b x → (∃ q, x = .fin q) ∧ p.mass ≠ .fin 0) (h2 : ∀ c b x, a = .tup c b x → ∃ q, x = .fin q)
    (h3 : ∀ s b x, a = .strTup s b x → ∃ q, x = .fin q) : p'.add (.pkg r) = .ok p ∧ r.add (.pkg p') = .ok p := by
  obtain ⟨e1, e2, e3, e4, e5, e6, e7, e8, e9⟩ := C57_extract p p' r a hp.1 h h1 h2 h3
  have es : solid p = solid p' + solid r := by
    unfold solid Psd.Spec.total
    have c1 : p'.solids.mat.classes = p.solids.mat.classes := by unfold Package.solids; rw [e1]
    have c2 : r.solids.mat.classes = p.solids.mat.classes := by unfold Package.solids; rw [e2]
    rw [c1, c2, ← List.sum_map_add]
    exact congrArg _ (List.map_congr_left fun c _ => e7 c)
  have i : Ids p' r := fun _ => by rw [e1, e2]
  have j : Ids r p' := fun _ => by rw [e1, e2]
  obtain ⟨x, hx⟩ := C57_mix_succeeds p' r e3 e4 i (by rw [e1, e2]; exact fun c hc => hc)
  obtain ⟨y, hy⟩ := C57_mix_succeeds r p' e4 e3 j (by rw [e1, e2]; exact fun c hc => hc)
  obtain ⟨x1, x2, x3, x4, x5, x6, -⟩ := C57_mix p' r x e3 e4 i hp' hr (by linarith) hx
  obtain ⟨y1, y2, y3, y4, y5, y6, -⟩ := C57_mix r p' y e4 e3 j hr hp' (by linarith) hy
  constructor
  · rw [hx]
    congr 1
    exact ext x2 hp.1 (by rw [x1, e1]) (fun c => by rw [x3, e7]) (by rw [x4, e8]) (dens_eq x2 hp.1 (by rw [x5, es]) (by rw [x5]; linarith) (by rw [x4, e8]) (by rw [x6, e9]))
  · rw [hy]
    congr 1
    exact ext y2 hp.1 (by rw [y1, e2]) (fun c => by rw [y3, e7, add_comm]) (by rw [y4, e8, add_comm])
      (dens_eq y2 hp.1 (by rw [y5, es, add_comm]) (by rw [y5]; linarith) (by rw [y4, e8, add_comm]) (by rw [y6, e9, add_comm]))

/-- **C149 is violated** by slurries without solids: water that was taken out of water and put back has no density any more, and so no volume. -/
theorem C149_slurry_violated : ∃ p p' r s : Package, OK p ∧ p.extract (.num true (.fin 1)) = (.ok r, p') ∧ p'.add (.pkg r) = .ok s ∧ s ≠ p ∧ s.density = .nan ∧ s.volume = .nan ∧ ∃ v, p.volume = .fin v := by
  refine ⟨water1, (water1.extract (.num true (.fin 1))).2, ⟨water1.mat, water1.density, water1.water.mul (.fin (1/3)), water1.masses.map (·.mul (.fin (1/3)))⟩,
    ⟨water1.mat, .nan, water1.water, water1.masses⟩, water1_ok, ?_, ?_, ?_, ?_, ?_, 3, ?_⟩ <;> decide +kernel

/-- The hypotheses are met. -/
example : Good pkgA ∧ Good pkgB ∧ 0 < solid pkgA ∧ (pkgA.add (.pkg pkgB)).toBool = true ∧ (pkgA.extract (.num true (.fin 3))).1.toBool = true ∧ 0 ≤ solid (pkgA.extract (.num true (.fin 3))).2 := by
  refine ⟨⟨pkgA_ok, ?_⟩, ⟨pkgB_ok, ?_⟩, ?_, ?_, ?_, ?_⟩ <;> decide +kernel

end Auxi.Slurry.Laws

namespace Auxi.Chem.Laws
open Auxi Auxi.Chem Auxi.Chem.Spec Auxi.Chem.Props

/-- A package with one mass for each of the distinct compounds of its material. -/
def Good (p : Package) : Prop := PkgOK p ∧ p.mat.compounds.Nodup

theorem sum_facts {p q r : Package} (h : p.mat.ident ≠ q.mat.ident) (hp : Good p) (hq : Good q) (hr : p.add (.pkg q) = .ok r) :
    r.mat = p.mat ∧ Good r ∧ (∀ c, content r c = content p c + content q c) ∧ r.mass.val = p.mass.val + q.mass.val := by
  obtain ⟨a, b, c, d⟩ := C51_other_material_partial p q r h hp.1 hq.1 hp.2 hq.2 hr
  exact ⟨a, ⟨b, a ▸ hp.2⟩, c, d⟩

theorem mul_facts {p r : Package} {k : ℚ} (hp : Good p) (h : p.mul (fl k) = .ok r) : r.mat = p.mat ∧ Good r ∧ ∀ c, content r c = content p c * k := by
  have hk : 0 ≤ k := by
    by_contra hn
    rw [(C51_mul p k).2 (not_le.1 hn)] at h; cases h
  obtain ⟨r', e1, e2, e3⟩ := (C51_mul p k).1 hk
  rw [h] at e1
  cases e1
  refine ⟨e2, ⟨?_, e2 ▸ hp.2⟩, e3⟩
  have : ¬ (fl k).val < 0 := not_lt.2 hk
  simp [Package.mul, show (fl k).isFloat = true from rfl, this] at h
  rw [← h]
  simpa [PkgOK] using hp.1

/-- **C149 (chem, order; partial: packages of different materials).** If both sums exist they hold the same of every compound and weigh the same.  Missing: packages of one material, for which it is
false (`C149_chem_violated`). -/
theorem C149_chem_commutes_partial (p q r s : Package) (h : p.mat.ident ≠ q.mat.ident) (hp : Good p) (hq : Good q) (hr : p.add (.pkg q) = .ok r) (hs : q.add (.pkg p) = .ok s) :
    (∀ c, content r c = content s c) ∧ r.mass.val = s.mass.val := by
  obtain ⟨-, -, a, b⟩ := sum_facts h hp hq hr
  obtain ⟨-, -, c, d⟩ := sum_facts (Ne.symm h) hq hp hs
  exact ⟨fun x => by rw [a, c, add_comm], by rw [b, d, add_comm]⟩

/-- **C149 (chem, grouping; partial: packages of different materials).** -/
theorem C149_chem_associates_partial (p q r pq qr x y : Package) (h1 : p.mat.ident ≠ q.mat.ident) (h2 : q.mat.ident ≠ r.mat.ident) (h3 : p.mat.ident ≠ r.mat.ident) (hp : Good p) (hq : Good q) (hr : Good r)
    (e1 : p.add (.pkg q) = .ok pq) (e2 : pq.add (.pkg r) = .ok x) (e3 : q.add (.pkg r) = .ok qr) (e4 : p.add (.pkg qr) = .ok y) :
    x.mat = y.mat ∧ (∀ c, content x c = content y c) ∧ x.mass.val = y.mass.val := by
  obtain ⟨a1, a2, a3, a4⟩ := sum_facts h1 hp hq e1
  obtain ⟨b1, b2, b3, b4⟩ := sum_facts (by rw [a1]; exact h3) a2 hr e2
  obtain ⟨c1, c2, c3, c4⟩ := sum_facts h2 hq hr e3
  obtain ⟨d1, d2, d3, d4⟩ := sum_facts (by rw [c1]; exact h1) hp c2 e4
  exact ⟨by rw [b1, a1, d1], fun c => by rw [b3, a3, d3, c3, add_assoc], by rw [b4, a4, d4, c4, add_assoc]⟩

/-- **C149 (chem, scaling; partial: packages of different materials in the first clause).** -/
theorem C149_chem_scale_partial (p q s x pa qa y : Package) (h : p.mat.ident ≠ q.mat.ident) (hp : Good p) (hq : Good q) (a b : ℚ) (hs : p.add (.pkg q) = .ok s)
    (hx : s.mul (fl a) = .ok x) (hpa : p.mul (fl a) = .ok pa) (hqa : q.mul (fl a) = .ok qa) (hy : pa.add (.pkg qa) = .ok y) :
    x.mat = y.mat ∧ (∀ c, content x c = content y c) ∧ ∀ z w, pa.mul (fl b) = .ok z → p.mul (fl (a * b)) = .ok w → z.mat = w.mat ∧ ∀ c, content z c = content w c := by
  obtain ⟨a1, a2, a3, a4⟩ := sum_facts h hp hq hs
  obtain ⟨b1, b2, b3⟩ := mul_facts a2 hx
  obtain ⟨c1, c2, c3⟩ := mul_facts hp hpa
  obtain ⟨d1, d2, d3⟩ := mul_facts hq hqa
  obtain ⟨e1, e2, e3, e4⟩ := sum_facts (by rw [c1, d1]; exact h) c2 d2 hy
  refine ⟨by rw [b1, a1, e1, c1], fun c => by rw [b3, a3, e3, c3, d3, add_mul], fun z w hz hw => ?_⟩
  obtain ⟨f1, f2, f3⟩ := mul_facts c2 hz
  obtain ⟨g1, g2, g3⟩ := mul_facts hp hw
  exact ⟨by rw [f1, c1, g1], fun c => by rw [f3, c3, g3, mul_assoc]⟩

/-- **C149 (chem, putting back; partial: as a tuple).** An amount of a compound that was extracted and is added again as a tuple leaves every compound as it was.  Missing: adding the extracted
package, for which it is false. -/
theorem C149_chem_rejoin_partial (p p' r : Package) (c : Str) (x : Num) (hx : x.isFloat = true) (h : p.extract (.tup c x) = (.ok r, p')) :
    ∃ s, p'.add (.tup c x) = .ok s ∧ s.mat = p.mat ∧ ∀ c', content s c' = content p c' := by
  obtain ⟨e1, -, -, -, e5⟩ := C52_conserves p p' r _ h
  simp only [Package.extract, hx, if_true] at h
  unfold Material.index at h
  cases hi : indexOf p.mat.compounds c with
  | none => rw [hi] at h; cases h
  | some i =>
    rw [hi] at h
    dsimp only at h
    cases hy : p.masses[i]? with
    | none => rw [hy] at h; cases h
    | some y =>
      rw [hy] at h
      dsimp only at h
      split at h
      · cases h
      · cases h
        have hlt := (List.getElem?_eq_some_iff.1 hy).1
        refine ⟨⟨p.mat, (p.masses.set i (y.sub x)).set i ((y.sub x).add x)⟩, ?_, rfl, fun c' => ?_⟩
        · simp [Package.add, Package.addTuple, hx, Material.index, hi, hlt]
        · rw [List.set_set, content_set hi hlt]
          by_cases hc : c' = c
          · subst hc
            rw [if_pos rfl, content_of_index hi, hy]
            simp [Num.add, Num.sub]
          · rw [if_neg hc]

/-- **C149 is violated** by packages of one material: what was taken out and added again gives a package with twice as many masses that reports, of every compound, only what had remained; and the
order of the sum decides what it reports. -/
theorem C149_chem_violated (p p' r : Package) (a : Arg) (hp : PkgOK p) (h : p.extract a = (.ok r, p')) :
    ∃ s t, p'.add (.pkg r) = .ok s ∧ r.add (.pkg p') = .ok t ∧ s.masses.length = 2 * p.masses.length ∧ (∀ c, content s c = content p' c) ∧ ∀ c, content t c = content r c := by
  obtain ⟨e1, e2, e3, e4, e5⟩ := C52_conserves p p' r a h
  have o1 : PkgOK p' := by unfold PkgOK; rw [e3, e1]; exact hp
  have o2 : PkgOK r := by unfold PkgOK; rw [e4, e2]; exact hp
  obtain ⟨s, hs, -, cs⟩ := C51_same_material_loses p' r (by rw [e1, e2]) o1
  obtain ⟨t, ht, -, ct⟩ := C51_same_material_loses r p' (by rw [e1, e2]) o2
  refine ⟨s, t, hs, ht, ?_, cs, ct⟩
  simp only [Package.add, e1, e2, if_true] at hs
  cases hs
  simp [e3, e4, two_mul]

/-- The hypotheses are met: with packages of two materials that have the same compounds, both orders, both groupings and the scalings exist; half of the first package can be taken out. -/
example : let q : Package := ⟨{ matA with ident := 7 }, [fl 1, fl 2, fl 3]⟩
    let r : Package := ⟨{ matA with ident := 8 }, [fl 5, fl 6, fl 7]⟩
    Good pkgA ∧ Good q ∧ Good r ∧ (pkgA.add (.pkg q)).toBool = true ∧ (q.add (.pkg pkgA)).toBool = true ∧ (q.add (.pkg r)).toBool = true ∧ (pkgA.mul (fl 2)).toBool = true ∧
    (pkgA.extract (.num (fl 3))).1.toBool = true ∧ (pkgA.extract (.tup "SiO2".toList (fl 1))).1.toBool = true := by
  refine ⟨⟨rfl, by decide⟩, ⟨rfl, by decide⟩, ⟨rfl, by decide⟩, ?_, ?_, ?_, ?_, ?_, ?_⟩ <;> decide +kernel

end Auxi.Chem.Laws
