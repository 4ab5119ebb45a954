import Verif.Props.ThermoSolve
import Verif.Proofs.Chem

/-!
# Properties C49, C60 (order), C62 (mixing temperature), C65 and C69: thermo materials and packages
-/
namespace Auxi.Thermo.Props
open Auxi Auxi.Thermo Auxi.Thermo.Spec
open Auxi.Chem (indexOf indexOf_none)

/-! ## C60: the order of additions -/

theorem vadd_comm (a b : V) : vadd a b = vadd b a := by
  cases a <;> cases b <;> first | rfl | (change some _ = some _; rw [add_comm])
theorem vadd_assoc (a b c : V) : vadd (vadd a b) c = vadd a (vadd b c) := by
  cases a <;> cases b <;> cases c <;> first | rfl | (change some _ = some _; rw [add_assoc])

/-- What adding packages of one material amounts to: everything but the pressure depends on the sums of masses and enthalpies only. -/
theorem add_same_eq {db : Db} {p q r : Package} (hm : q.mat = p.mat) (hl : p.masses.length = q.masses.length) (h : p.add db (.pkg q) = .ok r) :
    r.mat = p.mat ∧ r.masses = List.zipWith vadd p.masses q.masses ∧ r.H = vadd p.H q.H ∧ r.P = p.P ∧ r.isCoal = false ∧ r.HHV = none ∧
      ∃ x, newPackage db p.mat r.masses (some 1) (some 25) false none = .ok x ∧ finish (x.setH db r.H) = .ok { r with P := some 1 } := by
  unfold Package.add at h
  dsimp only at h
  rw [if_pos (by rw [hm])] at h
  unfold arrAdd at h
  rw [if_pos hl] at h
  dsimp only at h
  cases hx : newPackage db p.mat (List.zipWith vadd p.masses q.masses) (some 1) (some 25) false none with
  | error e => rw [hx] at h; cases h
  | ok x =>
    rw [hx] at h
    dsimp only at h
    have hx' : x.mat = p.mat ∧ x.masses = List.zipWith vadd p.masses q.masses ∧ x.P = some 1 ∧ x.isCoal = false ∧ x.HHV = none := by
      unfold newPackage at hx
      dsimp only at hx
      split at hx
      · split at hx
        · cases hx
        · cases hx; exact ⟨rfl, rfl, rfl, rfl, rfl⟩
      · cases hx; exact ⟨rfl, rfl, rfl, rfl, rfl⟩
    obtain ⟨x1, x2, x3, x4, x5⟩ := hx'
    unfold Package.setH at h
    dsimp only at h
    cases ht : calcT x.mat.compounds.isEmpty (calcH db { x with H := vadd p.H q.H }) x.T (vadd p.H q.H) with
    | error e => rw [ht] at h; cases h
    | ok t =>
      rw [ht] at h
      cases h
      refine ⟨x1, x2, rfl, rfl, x4, x5, x, ?_, ?_⟩
      · change newPackage db p.mat x.masses _ _ _ _ = _
        rw [x2]; exact hx
      · change finish (x.setH db (vadd p.H q.H)) = _
        unfold Package.setH
        dsimp only
        rw [ht]
        change Except.ok { x with H := vadd p.H q.H, T := t } = Except.ok { x with H := vadd p.H q.H, T := t, P := some 1 }
        rw [← x3]

theorem same_result {db : Db} {r s : Package} {m : Material} (e1 : r.mat = s.mat) (e2 : r.masses = s.masses) (e3 : r.H = s.H) (e4 : r.isCoal = s.isCoal) (e5 : r.HHV = s.HHV)
    (hr : ∃ x, newPackage db m r.masses (some 1) (some 25) false none = .ok x ∧ finish (x.setH db r.H) = .ok { r with P := some 1 })
    (hs : ∃ x, newPackage db m s.masses (some 1) (some 25) false none = .ok x ∧ finish (x.setH db s.H) = .ok { s with P := some 1 }) : { r with P := s.P } = s := by
  obtain ⟨x, x1, x2⟩ := hr
  obtain ⟨y, y1, y2⟩ := hs
  rw [e2, y1] at x1
  cases x1
  rw [e3, y2] at x2
  injection x2 with x2
  have hT : s.T = r.T := by injection x2
  cases r; cases s
  simp_all

/-- **C60 (order, two packages).** For packages of one material `p + q` and `q + p` differ only in the pressure, which is the left operand's. -/
theorem C60_commutes (db : Db) (p q r s : Package) (hm : q.mat = p.mat) (hl : p.masses.length = q.masses.length) (hr : p.add db (.pkg q) = .ok r)
    (hs : q.add db (.pkg p) = .ok s) : s = { r with P := q.P } := by
  obtain ⟨r1, r2, r3, r4, r5, r6, r7⟩ := add_same_eq hm hl hr
  obtain ⟨s1, s2, s3, s4, s5, s6, s7⟩ := add_same_eq hm.symm hl.symm hs
  rw [hm] at s7
  rw [← s4]
  refine (same_result (by rw [r1, s1, hm]) ?_ (by rw [r3, s3, vadd_comm]) (by rw [r5, s5]) (by rw [r6, s6]) r7 s7).symm
  rw [r2, s2, List.zipWith_comm]
  congr 1
  funext a b; exact vadd_comm _ _

theorem zipWith_vadd_assoc (a b c : List V) : List.zipWith vadd (List.zipWith vadd a b) c = List.zipWith vadd a (List.zipWith vadd b c) := by
  induction a generalizing b c with
  | nil => simp
  | cons x a ih =>
    cases b with
    | nil => simp
    | cons y b => cases c with
      | nil => simp
      | cons z c => simp [ih, vadd_assoc]

/-- **C60 (order, three packages).** For packages of one material the sum does not depend on the grouping: `(p + q) + r` and `p + (q + r)` are
the same package, temperature included. -/
theorem C60_associates (db : Db) (p q r pq qr x y : Package) (hq : q.mat = p.mat) (hr : r.mat = p.mat) (lq : p.masses.length = q.masses.length)
    (lr : p.masses.length = r.masses.length) (h1 : p.add db (.pkg q) = .ok pq) (h2 : pq.add db (.pkg r) = .ok x) (h3 : q.add db (.pkg r) = .ok qr)
    (h4 : p.add db (.pkg qr) = .ok y) : x = y := by
  obtain ⟨a1, a2, a3, a4, -⟩ := add_same_eq hq lq h1
  obtain ⟨b1, b2, b3, b4, b5, b6, b7⟩ := add_same_eq (hr.trans a1.symm) (by rw [a2, List.length_zipWith]; omega) h2
  obtain ⟨c1, c2, c3, c4, -⟩ := add_same_eq (hr.trans hq.symm) (by omega) h3
  obtain ⟨d1, d2, d3, d4, d5, d6, d7⟩ := add_same_eq (c1.trans hq) (by rw [c2, List.length_zipWith]; omega) h4
  rw [a1] at b7
  have k := same_result (by rw [b1, d1, a1]) (by rw [b2, d2, a2, c2, zipWith_vadd_assoc]) (by rw [b3, d3, a3, c3, vadd_assoc]) (by rw [b5, d5]) (by rw [b6, d6]) b7 d7
  rw [← k]
  have : y.P = x.P := by rw [d4, b4, a4]
  rw [this]

example : ∃ r s, (pAB 100).add db1 (.pkg (pAB 20)) = .ok r ∧ (pAB 20).add db1 (.pkg (pAB 100)) = .ok s ∧ s = { r with P := (pAB 20).P } := by
  obtain ⟨r, h, _⟩ := C60_same db1 _ _ (pAB_sound 100) (pAB_sound 20) rfl known_mAB
  obtain ⟨s, h', _⟩ := C60_same db1 _ _ (pAB_sound 20) (pAB_sound 100) rfl known_mAB
  exact ⟨r, s, h, h', C60_commutes db1 (pAB 100) (pAB 20) r s rfl rfl h h'⟩

/-! ## C62: the temperature of a mixture -/

/-- **C62 (mixtures of constant heat capacity).** If the enthalpies of two packages of one material are affine in the temperature with positive
heat capacities `a` and `b`, and consistent, then their mixture is consistent and its temperature is the mean of theirs weighted by the heat
capacities, hence lies between them. -/
theorem C62_mixing_temperature (db : Db) (p q : Package) (hp : Sound p) (hq : Sound q) (hm : q.mat = p.mat) (hk : Known db p.mat) (a b a' b' t u : ℝ)
    (ha : 0 < a) (hb : 0 < b) (hpa : ∀ x, enthalpyAt db p x = a * x + a') (hqb : ∀ x, enthalpyAt db q x = b * x + b') (ht : p.T = some t) (hu : q.T = some u)
    (hcp : Consistent db p) (hcq : Consistent db q) :
    ∃ r, p.add db (.pkg q) = .ok r ∧ Mixed p q r ∧ Consistent db r ∧ ∃ w, r.T = some w ∧ (a + b) * w = a * t + b * u ∧ min t u ≤ w ∧ w ≤ max t u := by
  have hab : a + b ≠ 0 := by positivity
  have hq' : Rep p.mat q.masses (content q) := hm ▸ hq.rep
  obtain ⟨s, hs, hs'⟩ := hp.rep.add hq'
  obtain ⟨t1, e1, e2⟩ := hcp
  obtain ⟨u1, e3, e4⟩ := hcq
  rw [ht] at e1; rw [hu] at e3
  cases e1; cases e3
  have hH : vadd p.H q.H = some (a * t + a' + (b * u + b')) := by rw [e2, e4, hpa, hqb]; rfl
  obtain ⟨t', ht', hset⟩ := setH_defined (p := ⟨p.mat, s, some 1, some 25, some (if 0 < (p.mat.compounds.map (fun c => content p c + content q c)).sum then hOf db p.mat (fun c => content p c + content q c) 25 else 0), false, none⟩) hk hp.some_compound rfl hs' (vadd p.H q.H)
  have hf : ∀ x : ℝ, hOf db p.mat (fun c => content p c + content q c) x = (a + b) * x + (a' + b') := by
    intro x
    rw [hOf_add]
    have h1 : hOf db p.mat (content p) x = a * x + a' := hpa x
    have h2 : hOf db p.mat (content q) x = b * x + b' := by rw [← hqb x]; unfold hOf enthalpyAt; rw [hm]
    rw [h1, h2]; ring
  rw [hH] at ht'
  have k := C63_affine (calcH db ⟨p.mat, s, some 1, some 25, some (a * t + a' + (b * u + b')), false, none⟩) (a + b) (a' + b') hab (fun x => by
    rw [calcH_rep (p := ⟨p.mat, s, some 1, some 25, some (a * t + a' + (b * u + b')), false, none⟩) hk rfl hs' x]
    exact congrArg (fun y => Except.ok (some y)) (hf x)) (a * t + a' + (b * u + b')) 25
  have et : t' = some ((a * t + b * u) / (a + b)) := by
    change calcT false (calcH db ⟨p.mat, s, some 1, some 25, some (a * t + a' + (b * u + b')), false, none⟩) (some 25) _ = _ at ht'
    rw [k] at ht'
    have e := Except.ok.inj ht'
    rw [← e]; congr 2; ring
  subst et
  obtain ⟨r, r1, r2⟩ := C60_same db p q hp hq hm hk
  have hr : r = ⟨p.mat, s, p.P, some ((a * t + b * u) / (a + b)), vadd p.H q.H, false, none⟩ := by
    unfold Package.add at r1
    dsimp only at r1
    rw [if_pos (by rw [hm]), hs] at r1
    dsimp only at r1
    rw [newPackage_rep hk hs'] at r1
    dsimp only at r1
    rw [hset] at r1
    exact (Except.ok.inj r1).symm
  refine ⟨r, r1, r2, ⟨(a * t + b * u) / (a + b), by rw [hr], ?_⟩, (a * t + b * u) / (a + b), by rw [hr], by field_simp, ?_, ?_⟩
  · have : enthalpyAt db r ((a * t + b * u) / (a + b)) = hOf db p.mat (fun c => content p c + content q c) ((a * t + b * u) / (a + b)) := by
      rw [hr]
      exact enthalpyAt_hOf (p := ⟨p.mat, s, p.P, some ((a * t + b * u) / (a + b)), vadd p.H q.H, false, none⟩) hs' _
    rw [this, hf, hr]
    dsimp only
    rw [hH]
    congr 1
    field_simp
    ring
  · rw [le_div_iff₀ (by positivity)]
    nlinarith [min_le_left t u, min_le_right t u, mul_le_mul_of_nonneg_left (min_le_left t u) ha.le, mul_le_mul_of_nonneg_left (min_le_right t u) hb.le]
  · rw [div_le_iff₀ (by positivity)]
    nlinarith [mul_le_mul_of_nonneg_left (le_max_left t u) ha.le, mul_le_mul_of_nonneg_left (le_max_right t u) hb.le]

example : ∃ r, (pAB 100).add db1 (.pkg (pAB 20)) = .ok r ∧ r.T = some 60 := by
  obtain ⟨r, h1, _, _, w, h2, h3, _⟩ := C62_mixing_temperature db1 _ _ (pAB_sound 100) (pAB_sound 20) rfl known_mAB 8 8 (-197) (-197) 100 20 (by norm_num) (by norm_num)
    (pAB_affine 100) (pAB_affine 20) rfl rfl (pAB_consistent _) (pAB_consistent _)
  exact ⟨r, h1, by rw [h2]; congr 1; linarith⟩

/-! ## C69: empty packages -/

/-- **C69 is false of the code (mixing).** The sum of two packages of one material without contents never has a finite temperature. -/
theorem C69_mix_empty (db : Db) (p q : Package) (hp : Sound p) (hq : Sound q) (hm : q.mat = p.mat) (hk : Known db p.mat) (hp0 : ∀ c, content p c = 0)
    (hq0 : ∀ c, content q c = 0) : ∃ r, p.add db (.pkg q) = .ok r ∧ r.T = none := by
  have hq' : Rep p.mat q.masses (content q) := hm ▸ hq.rep
  obtain ⟨s, hs, hs'⟩ := hp.rep.add hq'
  obtain ⟨t, h1, ht⟩ := setH_defined (p := ⟨p.mat, s, some 1, some 25, some (if 0 < (p.mat.compounds.map (fun c => content p c + content q c)).sum then hOf db p.mat (fun c => content p c + content q c) 25 else 0), false, none⟩) hk hp.some_compound rfl hs' (vadd p.H q.H)
  have hz : ∀ x : ℝ, calcH db ⟨p.mat, s, some 1, some 25, vadd p.H q.H, false, none⟩ (some x) = .ok (some 0) := by
    intro x
    rw [calcH_rep (p := ⟨p.mat, s, some 1, some 25, vadd p.H q.H, false, none⟩) hk rfl hs' x]
    change Except.ok (some (hOf db p.mat _ x)) = _
    rw [hOf_congr (k := fun _ => 0) (fun c _ => by rw [hp0, hq0, add_zero]), hOf_zero]
  have hT : t = none := by
    change calcT false (calcH db ⟨p.mat, s, some 1, some 25, vadd p.H q.H, false, none⟩) (some 25) (vadd p.H q.H) = .ok t at h1
    unfold calcT at h1
    rw [hz] at h1
    dsimp only at h1
    rw [show vadd (some 25) (some 10) = some (25 + 10) from rfl, hz] at h1
    dsimp only at h1
    unfold secantLoop at h1
    rw [if_neg (by simp)] at h1
    dsimp only at h1
    have hst : secantStep (some 25) (vsub (some 0) (vadd p.H q.H)) (some (25 + 10)) (vsub (some 0) (vadd p.H q.H)) = none := by
      cases hH : vadd p.H q.H with
      | none => rfl
      | some h => exact secantStep_flat (by ring)
    rw [hst] at h1
    obtain ⟨v, hv⟩ := calcH_defined (p := ⟨p.mat, s, some 1, some 25, vadd p.H q.H, false, none⟩) hk rfl hs' none
    rw [hv] at h1
    dsimp only at h1
    split at h1
    · exact (Except.ok.inj h1).symm
    · exact secantLoop_none h1
  refine ⟨⟨p.mat, s, p.P, t, vadd p.H q.H, false, none⟩, ?_, hT⟩
  unfold Package.add
  dsimp only
  rw [if_pos (by rw [hm]), hs]
  dsimp only
  rw [newPackage_rep hk hs']
  dsimp only
  rw [ht]
  rfl

theorem sum_none {l : List V} (h : none ∈ l) : vsum l = none := by
  unfold vsum
  have key : ∀ (l : List V) (a : V), (none ∈ l ∨ a = none) → l.foldl vadd a = none := by
    intro l
    induction l with
    | nil => intro a h; rcases h with h | h; exacts [absurd h (by simp), h]
    | cons x l ih =>
      intro a h
      refine ih _ ?_
      rcases h with h | h
      · rcases List.mem_cons.1 h with h | h
        · right; subst h; cases a <;> rfl
        · exact Or.inl h
      · right; subst h; rfl
  exact key l _ (Or.inl h)

/-- **C69 is false of the code (splitting).** Extracting a mass of 0.0 from a package without contents succeeds and leaves both packages without
a finite mass. -/
theorem C69_extract_empty (db : Db) (p : Package) (hp : Sound p) (hk : Known db p.mat) (hp0 : ∀ c, content p c = 0) :
    ∃ part rest, p.extract db (.num true (some 0)) = (.ok part, rest) ∧ part.mass = none ∧ rest.mass = none := by
  have hm0 : p.mass = some 0 := by
    rw [totalMass_rep hp]; unfold totalMass
    congr 1
    exact List.sum_eq_zero (by intro x hx; rw [List.mem_map] at hx; obtain ⟨c, _, rfl⟩ := hx; exact hp0 c)
  obtain ⟨ms, hms, hl⟩ := hp.finite
  have hne : p.masses ≠ [] := by
    intro h
    rw [h] at hms
    have : ms = [] := by simpa using hms.symm
    rw [this] at hl
    exact hp.some_compound (List.eq_nil_of_length_eq_zero hl.symm)
  have hnone : ∀ y : V, vmul y none = none := by intro y; cases y <;> rfl
  have hmap : ∀ f : V → V, (∀ y, f y = none) → p.masses.map f = List.replicate p.masses.length none := by
    intro f hf
    rw [List.eq_replicate_iff]
    exact ⟨by simp, by intro b hb; rw [List.mem_map] at hb; obtain ⟨y, _, rfl⟩ := hb; exact hf y⟩
  have hsum : vsum (List.replicate p.masses.length (none : V)) = none := sum_none (by
    rw [List.mem_replicate]; exact ⟨by simpa using hne, rfl⟩)
  have hd : vdiv (some 0) p.mass = none := by rw [hm0]; exact if_pos rfl
  unfold Package.extract Package.extractMass
  dsimp only
  rw [if_pos rfl, if_neg (by rw [hm0]; exact lt_irrefl _), hd]
  have e1 : p.masses.map (fun y => vmul y none) = List.replicate p.masses.length none := hmap _ hnone
  have e2 : p.masses.map (fun y => vmul y (vsub (some 1) none)) = List.replicate p.masses.length none := hmap _ hnone
  rw [e1, e2]
  have hnew : newPackage db p.mat (List.replicate p.masses.length none) p.P p.T false none = .ok ⟨p.mat, List.replicate p.masses.length none, p.P, p.T, some 0, false, none⟩ := by
    unfold newPackage
    dsimp only
    unfold Package.mass
    dsimp only
    rw [hsum]
    exact if_neg (fun h => h)
  rw [hnew]
  dsimp only
  unfold settle Package.setT
  dsimp only
  have hlen : p.masses.length = p.mat.compounds.length := by rw [hms, List.length_map, hl]
  have hc : ∃ v, calcH db { p with masses := List.replicate p.masses.length none, T := p.T } p.T = .ok v := by
    unfold calcH
    dsimp only
    rw [hp.not_coal, if_neg (by simp)]
    have key : ∀ (cs : List Str) (acc : V), (∀ c ∈ cs, c ∈ p.mat.compounds) → ∃ v, hLoop db p.mat (List.replicate p.masses.length none) p.T cs acc = .ok v := by
      intro cs
      induction cs with
      | nil => intro acc _; exact ⟨_, rfl⟩
      | cons c cs ih =>
        intro acc h
        obtain ⟨i, i1, i2⟩ := index_mem (h c (by simp))
        have hi : i < p.masses.length := by rw [hlen]; exact (List.getElem?_eq_some_iff.1 (Chem.indexOf_some i2)).1
        have he : entry p.mat (List.replicate p.masses.length none) c = .ok none := by
          unfold entry; rw [i1]; dsimp only; rw [List.getElem?_replicate, if_pos hi]
        obtain ⟨v, hv⟩ := thermoH_defined hk (h c (by simp)) p.T none
        obtain ⟨w, hw⟩ := ih (vadd acc v) (fun d hd => h d (by simp [hd]))
        refine ⟨w, ?_⟩
        unfold hLoop
        rw [he]; dsimp only; rw [hv]; exact hw
    exact key _ _ (fun _ h => h)
  obtain ⟨v, hv⟩ := hc
  refine ⟨⟨p.mat, List.replicate p.masses.length none, p.P, p.T, some 0, false, none⟩, { p with masses := List.replicate p.masses.length none, T := p.T, H := v }, ?_, hsum, hsum⟩
  rw [hv]

/-- An empty package of the example material. -/
noncomputable def pE : Package := ⟨mAB, mAB.emptyAssay, some 1, some 25, some 0, false, none⟩
theorem pE_sound : Sound pE := ⟨by simp [pE, mAB], by simp only [pE, mAB]; decide +kernel, ⟨[0, 0], rfl, rfl⟩, ⟨25, rfl⟩, rfl⟩
theorem pE_empty (c : Str) : content pE c = 0 := by
  by_cases h : c ∈ pE.mat.compounds
  · exact Rep.content (p := pE) (g := fun _ => 0) (Rep.empty mAB) h
  · exact content_absent h
example : ∃ p, mAB.createPackage db1 none (some 0) (some 1) (some 25) true = .ok p ∧ p = pE := ⟨pE, createEmpty known_mAB (some 1) 25 true (some 0), rfl⟩
example : ∃ r, pE.add db1 (.pkg pE) = .ok r ∧ r.T = none := C69_mix_empty db1 pE pE pE_sound pE_sound rfl known_mAB pE_empty pE_empty
example : ∃ part rest, pE.extract db1 (.num true (some 0)) = (.ok part, rest) ∧ part.mass = none ∧ rest.mass = none :=
  C69_extract_empty db1 pE pE_sound known_mAB pE_empty

/-- **C69 (otherwise).** Extracting from a package with contents leaves two packages of finite mass. -/
theorem C69_extract_partial (db : Db) (p : Package) (hp : Sound p) (hn : NonNeg p) (hc : Consistent db p) (hk : Known db p.mat) (hpos : 0 < totalMass p) (x : ℝ) (hx : 0 ≤ x)
    (part rest : Package) (h : p.extract db (.num true (some x)) = (.ok part, rest)) : (∃ a, part.mass = some a) ∧ ∃ b, rest.mass = some b := by
  obtain ⟨h1, h2⟩ := extractMass_good ⟨hp, hn, hc, hk⟩ hpos hx h
  exact ⟨⟨_, totalMass_rep h1.sound⟩, ⟨_, totalMass_rep h2.sound⟩⟩

/-! ## C65: assays added by the user -/

theorem lookup_none {α : Type} {l : List (Str × α)} {k : Str} (h : k ∉ l.map (·.1)) : l.lookup k = none := by
  induction l with
  | nil => rfl
  | cons x l ih =>
    simp only [List.map_cons, List.mem_cons, not_or] at h
    have hb : (k == x.1) = false := by simpa using h.1
    rw [List.lookup_cons, hb]; exact ih h.2

theorem lookup_append {α : Type} {l : List (Str × α)} {k : Str} {v : α} (h : l.lookup k = none) : (l ++ [(k, v)]).lookup k = some v := by
  induction l with
  | nil => simp [List.lookup]
  | cons x l ih =>
    rw [List.lookup_cons] at h
    rw [List.cons_append, List.lookup_cons]
    cases hb : k == x.1 with
    | true => rw [hb] at h; cases h
    | false => rw [hb] at h; exact ih h

/-- **C65 is false of the code.** Of a material whose custom properties cover only the assays it has (as those read from a file do), every assay
that `add_assay` accepts can never be used: creating a package from it raises `KeyError`, whatever the mass, temperature and pressure. -/
theorem C65_added_assay_unusable (db : Db) (m m' : Material) (name : Str) (a : AssayArg) (hcust : ∀ k ∈ m.custom.map (·.1), k ∈ m.assays.map (·.1))
    (h : m.addAssay name a = (.ok (), m')) (mass P T : V) (b : Bool) : m'.createPackage db (some name) mass P T b = .error .keyError := by
  cases a with
  | other => cases h
  | array l =>
    unfold Material.addAssay at h
    dsimp only at h
    split at h
    · cases h
    · split at h
      · cases h
      · rename_i hn
        cases h
        have hl := lookup_append (v := l) (lookup_none hn)
        have hc : m.custom.lookup name = none := lookup_none (fun hk => hn (hcust name hk))
        have hs : ∃ l', Material.scaled { m with assays := m.assays ++ [(name, l)] } name mass b = .ok l' := by
          unfold Material.scaled Material.assayTotal Material.assay
          dsimp only
          rw [hl]
          cases b
          · exact ⟨_, rfl⟩
          · exact ⟨_, rfl⟩
        obtain ⟨l', hs⟩ := hs
        unfold Material.createPackage
        dsimp only
        rw [hs]
        dsimp only
        have hh : Material.hhv { m with assays := m.assays ++ [(name, l)] } name = .error .keyError := by
          unfold Material.hhv; dsimp only; rw [hc]
        by_cases hcoal : "IsCoal".toList ∈ m.customNames
        · have : Material.isCoal { m with assays := m.assays ++ [(name, l)] } name = .error .keyError := by
            unfold Material.isCoal; dsimp only; rw [if_pos hcoal, hc]
          rw [this]
        · have : Material.isCoal { m with assays := m.assays ++ [(name, l)] } name = .ok false := by
            unfold Material.isCoal; dsimp only; rw [if_neg hcoal]
          rw [this]; dsimp only; rw [hh]

/-- Assays from the file, whose custom properties exist, work: the package holds the requested mass divided as in the assay. -/
theorem C65_file_assay_partial (db : Db) (m : Material) (name : Str) (l : List ℝ) (d : List (Str × ℝ)) (x P t : ℝ) (hk : Known db m) (hn : m.compounds.Nodup)
    (hl : m.assays.lookup name = some (l.map some)) (hlen : l.length = m.compounds.length) (hd : m.custom.lookup name = some d) (hcoal : "IsCoal".toList ∉ m.customNames)
    (hs : l.sum ≠ 0) : ∃ p, m.createPackage db (some name) (some x) (some P) (some t) true = .ok p ∧ p.mat = m ∧ p.mass = some x ∧
      p.masses = l.map (fun y => some (x * y / l.sum)) ∧ p.T = some t ∧ p.P = some P := by
  have hsc : m.scaled name (some x) true = .ok (l.map (fun y => some (x * y / l.sum))) := by
    unfold Material.scaled Material.assayTotal Material.assay
    rw [hl]
    dsimp only [Except.map]
    rw [if_pos rfl]
    dsimp only
    rw [vsum_map, List.map_map]
    refine congrArg Except.ok (List.map_congr_left fun y _ => ?_)
    exact if_neg hs
  obtain ⟨g, hrep⟩ := rep_of_list (a := (l.map (fun y => x * y / l.sum)).map some) hn rfl (by rw [List.length_map, hlen])
  rw [List.map_map] at hrep
  refine ⟨⟨m, l.map (fun y => some (x * y / l.sum)), some P, some t,
    some (if 0 < (m.compounds.map g).sum then hOf db m g t else 0), false, (d.lookup "HHV[MJ/kg]".toList).map some⟩, ?_, rfl, ?_, rfl, rfl, rfl⟩
  · unfold Material.createPackage
    dsimp only
    rw [hsc]
    dsimp only
    unfold Material.isCoal Material.hhv
    rw [if_neg hcoal, hd]
    dsimp only
    exact newPackage_rep hk hrep (some P) t _
  · unfold Package.mass
    dsimp only
    rw [show (l.map (fun y => some (x * y / l.sum))) = (l.map (fun y => x * y / l.sum)).map some by rw [List.map_map]; rfl, vsum_map]
    congr 1
    rw [show (fun y => x * y / l.sum) = (fun y => y * (x / l.sum)) by funext y; ring, List.sum_map_mul_right, List.map_id']
    field_simp

/-- The example material with an assay from its file, and one added later. -/
noncomputable def mF : Material := { mAB with assays := [("one".toList, [some 1, some 3])], custom := [("one".toList, [])] }
example : ∃ m', mF.addAssay "two".toList (.array [some 1, some 1]) = (.ok (), m') ∧ m'.createPackage db1 (some "two".toList) (some 10) (some 1) (some 25) true = .error .keyError := by
  have h : mF.addAssay "two".toList (.array [some 1, some 1]) = (.ok (), { mF with assays := mF.assays ++ [("two".toList, [some 1, some 1])] }) := by
    unfold Material.addAssay
    dsimp only
    rw [if_neg (by simp [mF, mAB]), if_neg (by simp [mF])]
  exact ⟨_, h, C65_added_assay_unusable db1 _ _ _ _ (by simp [mF]) h _ _ _ _⟩
example : ∃ p, mF.createPackage db1 (some "one".toList) (some 10) (some 1) (some 25) true = .ok p ∧ p.mass = some 10 := by
  obtain ⟨p, h1, _, h2, _⟩ := C65_file_assay_partial db1 mF "one".toList [1, 3] [] 10 1 25 known_mAB (by simp only [mF, mAB]; decide +kernel) (by simp [mF, List.lookup]) rfl
    (by simp [mF, List.lookup]) (by simp [mF, mAB]) (by norm_num)
  exact ⟨p, h1, h2⟩

/-! ## C49: elements -/

theorem elementLoop_rep {p : Package} {g : Str → ℝ} (h : Rep p.mat p.masses g) (elts : List Str) (cs : List Str) (hcs : ∀ c ∈ cs, c ∈ p.mat.compounds ∧ Stoich.Spec.IsFormula c)
    (acc : Str → ℝ) : p.elementLoop elts cs (elts.map (fun e => some (acc e))) =
      .ok (elts.map (fun e => some (acc e + (cs.map (fun c => g c * (Chem.Spec.share c e : ℝ))).sum))) := by
  induction cs generalizing acc with
  | nil => simp [Package.elementLoop]
  | cons c cs ih =>
    obtain ⟨hc, hf⟩ := hcs c (by simp)
    have hm : p.compoundMass c = .ok (some (g c)) := by unfold Package.compoundMass; rw [if_pos hc, h.entry hc]
    have hfs : Stoich.elementMassFractions c elts = .ok (elts.map (Chem.Spec.share c)) := by
      obtain ⟨t, cp, _, _, _, _, h5⟩ := Chem.emf_total hf
      have : ∃ fs, Stoich.elementMassFractions c elts = .ok fs := by
        clear ih
        induction elts with
        | nil => exact ⟨[], rfl⟩
        | cons e es ihe =>
          obtain ⟨fs, hfs⟩ := ihe
          exact ⟨_, by unfold Stoich.elementMassFractions; rw [h5 e]; dsimp only; rw [hfs]⟩
      obtain ⟨fs, hfs⟩ := this
      rw [hfs, Chem.emfs_ok hfs]
    unfold Package.elementLoop
    rw [hm]
    dsimp only
    rw [hfs]
    dsimp only
    have e : List.zipWith (fun v (f : ℚ) => vadd v (vmul (some (g c)) (some (f : ℝ)))) (elts.map (fun e => some (acc e))) (elts.map (Chem.Spec.share c)) =
        elts.map (fun e => some (acc e + g c * (Chem.Spec.share c e : ℝ))) := by
      rw [List.zipWith_map, List.zipWith_self]; rfl
    rw [e, ih (fun d hd => hcs d (by simp [hd]))]
    refine congrArg Except.ok (List.map_congr_left fun e _ => ?_)
    simp only [List.map_cons, List.sum_cons]
    congr 1; ring

/-- **C49 (element masses).** The element masses of a package are, element by element, the sum over its compounds of compound mass times mass
fraction; this holds for the material's elements and for any list of elements. -/
theorem C49_element_masses (p : Package) (hp : Sound p) (he : ElementsOK p.mat) (elts : Option (List Str)) :
    p.elementMasses elts = .ok ((elts.getD p.mat.elements).map (fun e => some (elementContent p e))) := by
  obtain ⟨E, hE, _⟩ := he
  have hf := (Stoich.Props.C45_succeeds_iff p.mat.compounds).1 ⟨E, hE⟩
  have := elementLoop_rep hp.rep (elts.getD p.mat.elements) p.mat.compounds (fun c hc => ⟨hc, hf c hc⟩) (fun _ => 0)
  unfold Package.elementMasses
  dsimp only
  rw [show List.replicate (elts.getD p.mat.elements).length (some 0 : V) = (elts.getD p.mat.elements).map (fun _ => some 0) by rw [List.map_const']]
  rw [this]
  refine congrArg Except.ok (List.map_congr_left fun e _ => ?_)
  rw [zero_add]; rfl

/-- **C49 (single element).** -/
theorem C49_element_mass (p : Package) (hp : Sound p) (he : ElementsOK p.mat) (e : Str) : p.elementMass e = .ok (some (elementContent p e)) := by
  obtain ⟨E, hE, _⟩ := he
  have hf := (Stoich.Props.C45_succeeds_iff p.mat.compounds).1 ⟨E, hE⟩
  have := elementLoop_rep hp.rep [e] p.mat.compounds (fun c hc => ⟨hc, hf c hc⟩) (fun _ => 0)
  simp only [List.map_cons, List.map_nil] at this
  unfold Package.elementMass
  rw [this]
  dsimp only
  rw [zero_add]; rfl

/-- **C49 (mixing).** Mixing adds the masses of every element, also across materials. -/
theorem C49_mixing (p q r : Package) (h : Mixed p q r) (hp : p.mat.compounds.Nodup) (hq : q.mat.compounds.Nodup) (hsub : ∀ c ∈ q.mat.compounds, c ∈ p.mat.compounds) (e : Str) :
    elementContent r e = elementContent p e + elementContent q e := by
  obtain ⟨h1, h2, _⟩ := h
  unfold elementContent
  rw [h1]
  have e1 : p.mat.compounds.map (fun c => content r c * (Chem.Spec.share c e : ℝ)) =
      p.mat.compounds.map (fun c => content p c * (Chem.Spec.share c e : ℝ) + content q c * (Chem.Spec.share c e : ℝ)) :=
    List.map_congr_left (fun c _ => by rw [h2]; ring)
  rw [e1, List.sum_map_add]
  congr 1
  have key : ∀ (l k : List Str) (u : Str → ℝ), l.Nodup → k.Nodup → (∀ c ∈ k, c ∈ l) → (∀ c, c ∉ k → u c = 0) → (l.map u).sum = (k.map u).sum := by
    intro l k u hl hk hkl hu
    have p1 : (l.filter (· ∈ k)).Perm k := by
      rw [List.perm_ext_iff_of_nodup (hl.filter _) hk]
      intro a; simp only [List.mem_filter, decide_eq_true_eq]
      exact ⟨fun h => h.2, fun h => ⟨hkl a h, h⟩⟩
    rw [← (p1.map u).sum_eq]
    clear p1 hl hkl
    induction l with
    | nil => rfl
    | cons a l ih =>
      by_cases ha : a ∈ k
      · simp [List.filter_cons, ha, ih]
      · simp [List.filter_cons, ha, ih, hu a ha]
  exact key _ _ _ hp hq hsub (fun c hc => by rw [content_absent hc, zero_mul])

/-- **C49 (splitting).** Splitting conserves the mass of every element. -/
theorem C49_splitting (p rest part : Package) (h : Split p rest part) (hm : part.mat = p.mat) (e : Str) :
    elementContent rest e + elementContent part e = elementContent p e := by
  obtain ⟨h1, h2, _⟩ := h
  unfold elementContent
  rw [h1, hm, ← List.sum_map_add]
  congr 1
  exact List.map_congr_left (fun c _ => by rw [← h2 c]; ring)

/-- **C49 (total).** The element masses add up to the mass of the package, if every compound has a molar mass other than zero. -/
theorem C49_total (p : Package) (hp : Sound p) (he : ElementsOK p.mat) (h0 : ∀ c ∈ p.mat.compounds, Stoich.molarMass c ≠ .ok 0) :
    p.mass = some (p.mat.elements.map (elementContent p)).sum := by
  obtain ⟨E, hE, hperm⟩ := he
  obtain ⟨n1, n2⟩ := Stoich.Props.C45_elements _ _ hE
  have hf := (Stoich.Props.C45_succeeds_iff p.mat.compounds).1 ⟨E, hE⟩
  have hnd : p.mat.elements.Nodup := hperm.nodup_iff.1 n1
  rw [totalMass_rep hp]
  congr 1
  have key : ∀ c ∈ p.mat.compounds, (p.mat.elements.map (fun e => (Chem.Spec.share c e : ℝ))).sum = 1 := by
    intro c hc
    obtain ⟨t, cp, _, _, _, hmm, _⟩ := Chem.emf_total (hf c hc)
    have := Chem.sum_share (hf c hc) hmm (fun e => h0 c hc (by rw [hmm, e])) p.mat.elements hnd (by
      intro t ht htt e he
      rw [← hperm.mem_iff, n2]
      exact ⟨c, hc, t, ht, htt, he⟩)
    have h2 : ((p.mat.elements.map (Chem.Spec.share c)).sum : ℝ) = 1 := by exact_mod_cast this
    rw [← h2, Rat.cast_list_sum, List.map_map]; rfl
  have swap : ∀ cs : List Str, (∀ c ∈ cs, (p.mat.elements.map (fun e => (Chem.Spec.share c e : ℝ))).sum = 1) →
      (p.mat.elements.map (fun e => (cs.map (fun c => content p c * (Chem.Spec.share c e : ℝ))).sum)).sum = (cs.map (content p)).sum := by
    intro cs
    induction cs with
    | nil => intro _; simp
    | cons c cs ih =>
      intro hk
      simp only [List.map_cons, List.sum_cons]
      rw [List.sum_map_add, ih (fun x hx => hk x (by simp [hx])), List.sum_map_mul_left, hk c (by simp), mul_one]
  exact (swap _ key).symm

/-- Iron and its oxide. -/
noncomputable def mFe : Material := ⟨7, ["FeO[S]".toList, "Fe[S]".toList], [], ["Fe".toList, "O".toList], [], []⟩
/-- A package of both. -/
noncomputable def pFe : Package := ⟨mFe, [some 2, some 3], some 1, some 25, some 0, false, none⟩
example : pFe.mass = some (pFe.mat.elements.map (elementContent pFe)).sum :=
  C49_total pFe ⟨by simp [pFe, mFe], by simp only [pFe, mFe]; decide +kernel, ⟨[2, 3], rfl, rfl⟩, ⟨25, rfl⟩, rfl⟩
    ⟨["Fe".toList, "O".toList], by simp only [pFe, mFe]; decide +kernel, List.Perm.refl _⟩ (by simp only [pFe, mFe]; decide +kernel)

end Auxi.Thermo.Props
