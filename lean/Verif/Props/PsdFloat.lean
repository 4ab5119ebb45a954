import Verif.Proofs.PsdFloat
import Verif.Props.Psd

/-! # C139: psd packages in floating point -/
namespace Auxi.PsdFloat.Props
open Auxi Auxi.Psd Auxi.Psd.Spec Auxi.Rounding Auxi.PsdFloat Auxi.PsdFloat.Spec Auxi.PsdFloat.Proofs
open Auxi.ChemFloat.Spec (γ)

variable {rnd : ℚ → ℚ} {S : List ℚ → ℚ} {u η : ℚ}

/-! ## Without rounding -/

theorem rd_id (x : F64) : rd id x = x := by cases x <;> rfl
theorem addF_id : addF id = F64.add := by funext a b; exact rd_id _
theorem subF_id : subF id = F64.sub := by funext a b; exact rd_id _
theorem mulF_id : mulF id = F64.mul := by funext a b; exact rd_id _
theorem divF_id : divF id = F64.div := by funext a b; exact rd_id _

theorem values_some : ∀ {l : List F64} {qs : List ℚ}, values l = some qs → l = lift qs
  | [], qs, h => by cases h; rfl
  | .fin q :: l, qs, h => by
    unfold values at h
    cases hv : values l with
    | none => rw [hv] at h; cases h
    | some q' => rw [hv] at h; cases h; rw [values_some hv]; rfl
  | .pinf :: l, qs, h => by cases h
  | .ninf :: l, qs, h => by cases h
  | .nan :: l, qs, h => by cases h

theorem arraySum_exact (l : List F64) : arraySum List.sum l = Psd.sum l := by
  unfold arraySum
  split
  · rename_i qs h; rw [values_some h, sum_lift]
  · rfl

theorem addTuple_id : addTuple id = Package.addTuple := by
  funext p c b x; unfold addTuple Package.addTuple; rw [addF_id]; rfl

theorem addLoop_id (q : Package) : ∀ (cs : List ℚ) (p : Package), addLoop id q cs p = q.addLoop cs p
  | [], p => rfl
  | c :: cs, p => by
    unfold addLoop Package.addLoop
    rw [addTuple_id]
    by_cases hc : c ∉ p.mat.classes
    · rw [if_pos hc, if_pos hc]
    · rw [if_neg hc, if_neg hc]
      cases q.classMass c with
      | error e => rfl
      | ok x =>
        dsimp only
        cases p.addTuple c true x with
        | error e => rfl
        | ok p' => exact addLoop_id q cs p'

/-- **C139 (no rounding).** Without rounding and with exact sums the functions are those of the exact model. -/
theorem C139_exact (p : Package) (m : Material) (a : Arg Package) (b : Bool) (k : F64) (name : Option Str) (norm : Bool) (c : ℚ) :
    extract id List.sum p a = p.extract a ∧ add id p a = p.add a ∧ mul id p b k = p.mul b k ∧ mass List.sum p = p.mass ∧ assay id List.sum p = p.assay ∧
    classFraction id List.sum p c = p.classFraction c ∧ createPackage id m name k norm = m.createPackage name k norm := by
  have hm : mass List.sum p = p.mass := arraySum_exact _
  refine ⟨?_, ?_, ?_, hm, ?_, ?_, ?_⟩
  · unfold extract Package.extract
    rw [hm, mulF_id, divF_id, subF_id]
    rfl
  · unfold add Package.add
    rw [addTuple_id]
    have e : ∀ q : Package, vadd id p.masses q.masses = Psd.vadd p.masses q.masses := by intro q; unfold vadd Psd.vadd; rw [addF_id]; rfl
    cases a with
    | pkg q => dsimp only; rw [e, addLoop_id]; rfl
    | _ => rfl
  · unfold mul Package.mul; rw [mulF_id]
  · unfold assay Package.assay; rw [arraySum_exact, divF_id]
  · unfold classFraction Package.classFraction; rw [hm, divF_id]; rfl
  · unfold createPackage Material.createPackage Material.assayTotal
    rw [mulF_id, divF_id]
    have : pySum id = Psd.sum := by funext l; unfold pySum Psd.sum; rw [addF_id]
    rw [this]; rfl

/-! ## The mass of a package -/

/-- **C139 (mass).** In whatever order numpy adds, the mass of a package is the sum of its masses within one rounding for each size class, and no less than any of them. -/
theorem C139_mass (R : IEEE rnd u η) (hS : ∀ l, Adds rnd l (S l)) (p : Package) (hp : Sound rnd p) (hs : Shape p) (hd : Distinct p.mat) (hn : p.masses.length * u < 1) :
    ∃ M, mass S p = .fin M ∧ rnd M = M ∧ |M - total p| ≤ γ u p.masses.length * total p ∧ ∀ c, content p c ≤ M := by
  have u0 := R.u0
  have u1 := R.u1
  obtain ⟨l, hl, hf⟩ := sound_iff.1 hp
  have ht : total p = l.sum := by unfold total; rw [contents_eq hl hd hs]
  obtain ⟨s1, s2, s3, s4, s5⟩ := adds_spec R (hS l) hf
  have len : p.masses.length = l.length := by rw [hl, lift_length]
  refine ⟨S l, by unfold mass; rw [hl, arraySum_lift], s1, ?_, ?_⟩
  · have T0 := floats_sum hf
    rw [ht, len]
    rw [len] at hn
    have b1 := ChemFloat.Proofs.one_sub_pow u0 u1 l.length
    have b2 := ChemFloat.Proofs.one_add_pow u0 u1 l.length
    have D : 0 < 1 - l.length * u := by linarith
    have n0 : 0 ≤ (l.length : ℚ) * u := mul_nonneg (Nat.cast_nonneg _) u0
    have g1 : (1 + u) ^ l.length ≤ 1 + γ u l.length := by
      have e : 1 + γ u l.length = 1 / (1 - l.length * u) := by unfold γ; field_simp; ring
      rw [e, le_div_iff₀ D]; exact b2
    have g2 : (l.length : ℚ) * u ≤ γ u l.length := by
      unfold γ; rw [le_div_iff₀ D]; nlinarith
    rw [abs_le]
    constructor
    · have : (1 - γ u l.length) * l.sum ≤ (1 - u) ^ l.length * l.sum := mul_le_mul_of_nonneg_right (by linarith) T0
      linarith
    · have : (1 + u) ^ l.length * l.sum ≤ (1 + γ u l.length) * l.sum := mul_le_mul_of_nonneg_right g1 T0
      linarith
  · intro c
    have e : content p c = content ⟨p.mat, lift l⟩ c := by rw [← hl]
    rw [e, content_lift (p := ⟨p.mat, lift l⟩) rfl]
    cases indexOf p.mat.classes c with
    | none => exact s2
    | some i =>
      simp only [Option.bind_some]
      cases hx : l[i]? with
      | none => exact s2
      | some x => exact s5 x (List.mem_of_getElem? hx)

/-! ## Extraction -/

/-- **C139 (splitting).** Whatever is extracted: no mass becomes negative or grows, and of every size class what is extracted and what is left add up to what there was within two roundings. A
size class extracted as a whole is extracted exactly. -/
theorem C139_extract (R : IEEE rnd u η) (hS : ∀ l, Adds rnd l (S l)) (p p' r : Package) (a : Arg Package) (hp : Sound rnd p) (ha : ArgOk rnd (mass S p) a)
    (h : extract rnd S p a = (.ok r, p')) :
    Sound rnd r ∧ Sound rnd p' ∧ r.mat = p.mat ∧ p'.mat = p.mat ∧ r.masses.length = p.masses.length ∧ p'.masses.length = p.masses.length ∧
    (∀ c, 0 ≤ content r c ∧ content r c ≤ content p c ∧ 0 ≤ content p' c ∧ content p' c ≤ content p c ∧
      |content r c + content p' c - content p c| ≤ (2 * u + u ^ 2) * content p c + 2 * η) ∧
    ∀ c, a = .str (some c) → ∀ d, content r d = (if d = c then content p c else 0) ∧ content p' d = (if d = c then 0 else content p d) := by
  have u0 := R.u0
  have η0 := R.η0
  obtain ⟨l, hl, hf⟩ := sound_iff.1 hp
  obtain ⟨m, ms⟩ := p
  dsimp only at hl
  subst hl
  have good := fun c => content_good (m := m) R hf c
  have M : mass S ⟨m, lift l⟩ = .fin (S l) := arraySum_lift l
  obtain ⟨s1, s2, s3, s4, s5⟩ := adds_spec R (hS l) hf
  have triv : ∀ x : ℚ, 0 ≤ x → |0 + x - x| ≤ (2 * u + u ^ 2) * x + 2 * η := fun x hx => by
    rw [zero_add, sub_self, abs_zero]; positivity
  have zeros : ∀ l : List ℚ, (lift l).map (mulF rnd · (.fin 0)) = lift (l.map fun _ => 0) := by
    intro l
    rw [mul_lift]
    congr 1
    apply List.map_congr_left
    intro x _
    rw [mul_zero, R.zero]
  have zc : ∀ (l : List ℚ) c, content ⟨m, lift (l.map fun _ => 0)⟩ c = 0 := fun l c => content_map m l (f := fun _ => 0) rfl c
  have fz : ∀ l : List ℚ, Floats rnd (l.map fun _ => 0) := by
    intro l q hq
    obtain ⟨x, -, rfl⟩ := List.mem_map.1 hq
    exact ⟨R.zero, le_rfl⟩
  unfold extract at h
  split at h
  · -- a mass
    split at h
    · rename_i b x hb
      obtain ⟨⟨q, rfl, q1, q2⟩, hne⟩ := ha
      rw [M] at h hne
      split at h
      · cases h
      · rename_i hgt
        have le : q ≤ S l := by
          by_contra hh
          exact hgt (by unfold F64.gt; exact decide_eq_true (not_le.1 hh))
        have Mne : S l ≠ 0 := fun h => hne (by rw [h])
        have M0 : 0 < S l := lt_of_le_of_ne s2 (Ne.symm Mne)
        rw [divF_fin Mne] at h
        obtain ⟨f1, f2, f3⟩ := fraction_spec R q2 M0 le
        have sub : subF rnd (.fin 1) (.fin (rnd (q / S l))) = .fin (rnd (1 - rnd (q / S l))) := by
          change F64.fin (rnd (1 + -rnd (q / S l))) = _; rw [← sub_eq_add_neg]
        dsimp only at h
        rw [sub, mul_lift, mul_lift] at h
        cases h
        have g0 : 0 ≤ rnd (1 - rnd (q / S l)) := R.nonneg (by linarith)
        refine ⟨sound_iff.2 ⟨_, rfl, floats_map R hf f2⟩, sound_iff.2 ⟨_, rfl, floats_map R hf g0⟩, rfl, rfl, by simp, by simp, fun c => ?_, fun c hc => by (cases hc)⟩
        rw [content_map m l (f := fun x => rnd (x * rnd (q / S l))) (by rw [zero_mul, R.zero]),
          content_map m l (f := fun x => rnd (x * rnd (1 - rnd (q / S l)))) (by rw [zero_mul, R.zero])]
        obtain ⟨a1, a2, a3, a4, a5⟩ := split_scalar R (good c).1 (good c).2 f1 f2 f3
        exact ⟨a1, a2, a3, a4, a5⟩
    · cases h
  · -- a mass of a size class
    split at h
    · rename_i c b x hb
      obtain ⟨q, rfl, q1, q2⟩ := ha
      split at h
      · cases h
      · rename_i i hi
        have hix : indexOf m.classes c = some i := by
          unfold Material.index at hi
          cases hx : indexOf m.classes c with
          | none => rw [hx] at hi; cases hi
          | some j => rw [hx] at hi; cases hi; rfl
        split at h
        · cases h
        · rename_i y hy
          rw [lift_get] at hy
          cases hlx : l[i]? with
          | none => rw [hlx] at hy; cases hy
          | some z =>
            rw [hlx] at hy
            cases hy
            have hlt : i < l.length := (List.getElem?_eq_some_iff.1 hlx).1
            have hz := hf z (List.mem_of_getElem? hlx)
            split at h
            · cases h
            · rename_i hgt
              have le : q ≤ z := by
                by_contra hh
                exact hgt (by unfold F64.gt; exact decide_eq_true (not_le.1 hh))
              have sub : subF rnd (.fin z) (.fin q) = .fin (rnd (z - q)) := by change F64.fin (rnd (z + -q)) = _; rw [← sub_eq_add_neg]
              dsimp only at h
              rw [sub, lift_set, zeros, lift_set] at h
              cases h
              obtain ⟨t1, t2, t3⟩ := take_scalar R hz.1 hz.2 q1 q2 le
              refine ⟨sound_iff.2 ⟨_, rfl, floats_set (fz _) ⟨q1, q2⟩⟩, sound_iff.2 ⟨_, rfl, floats_set hf ⟨R.idem _, t1⟩⟩, rfl, rfl, by simp, by simp, fun d => ?_, fun c hc => by (cases hc)⟩
              have hcz : content ⟨m, lift l⟩ c = z := by rw [content_of_index (p := ⟨m, lift l⟩) rfl hix, hlx]; rfl
              rw [content_set hix (by simpa using hlt), content_set hix hlt, zc]
              by_cases hd : d = c
              · subst hd
                rw [if_pos rfl, if_pos rfl, hcz]
                exact ⟨q2, le, t1, t2, t3⟩
              · rw [if_neg hd, if_neg hd]
                exact ⟨le_rfl, (good d).2, (good d).2, le_rfl, triv _ (good d).2⟩
    · cases h
  · -- a size class
    rename_i v
    split at h
    · cases h
    · rename_i c
      split at h
      · cases h
      · rename_i i hi
        have hix : indexOf m.classes c = some i := by
          unfold Material.index at hi
          cases hx : indexOf m.classes c with
          | none => rw [hx] at hi; cases hi
          | some j => rw [hx] at hi; cases hi; rfl
        split at h
        · cases h
        · rename_i y hy
          rw [lift_get] at hy
          cases hlx : l[i]? with
          | none => rw [hlx] at hy; cases hy
          | some z =>
            rw [hlx] at hy
            cases hy
            have hlt : i < l.length := (List.getElem?_eq_some_iff.1 hlx).1
            have hz := hf z (List.mem_of_getElem? hlx)
            rw [zeros, lift_set, lift_set] at h
            cases h
            have hcz : content ⟨m, lift l⟩ c = z := by rw [content_of_index (p := ⟨m, lift l⟩) rfl hix, hlx]; rfl
            have e1 : ∀ d, content ⟨m, lift ((l.map fun _ => 0).set i z)⟩ d = if d = c then z else 0 := fun d => by
              rw [content_set hix (by simpa using hlt), zc]
            have e2 : ∀ d, content ⟨m, lift (l.set i 0)⟩ d = if d = c then 0 else content ⟨m, lift l⟩ d := fun d => content_set hix hlt 0 d
            refine ⟨sound_iff.2 ⟨_, rfl, floats_set (fz _) hz⟩, sound_iff.2 ⟨_, rfl, floats_set hf ⟨R.zero, le_rfl⟩⟩, rfl, rfl, by simp, by simp, fun d => ?_, fun c' hc d => ?_⟩
            · rw [e1, e2]
              by_cases hd : d = c
              · subst hd
                rw [if_pos rfl, if_pos rfl, hcz]
                refine ⟨hz.2, le_rfl, le_rfl, hz.2, ?_⟩
                rw [add_zero, sub_self, abs_zero]
                have := hz.2
                positivity
              · rw [if_neg hd, if_neg hd]
                exact ⟨le_rfl, (good d).2, (good d).2, le_rfl, triv _ (good d).2⟩
            · cases hc
              rw [e1, e2, hcz]
              exact ⟨rfl, rfl⟩
  · cases h

/-- **C139 (everything).** Extracting `get_mass()` from a package that is not empty gives exactly everything and leaves exactly nothing. -/
theorem C139_everything (R : IEEE rnd u η) (p : Package) (hp : Sound rnd p) (h0 : mass S p ≠ .fin 0) :
    ∃ r p', extract rnd S p (.num true (mass S p)) = (.ok r, p') ∧ r = p ∧ p'.mat = p.mat ∧ ∀ x ∈ p'.masses, x = .fin 0 := by
  obtain ⟨l, hl, hf⟩ := sound_iff.1 hp
  obtain ⟨m, ms⟩ := p
  dsimp only at hl
  subst hl
  have M : mass S ⟨m, lift l⟩ = .fin (S l) := arraySum_lift l
  rw [M] at h0
  have Mne : S l ≠ 0 := fun h => h0 (by rw [h])
  have g : (F64.fin (S l)).gt (.fin (S l)) = false := by unfold F64.gt; exact decide_eq_false (lt_irrefl _)
  have sub : subF rnd (.fin 1) (.fin 1) = .fin 0 := by change F64.fin (rnd (1 + -1)) = _; rw [add_neg_cancel, R.zero]
  refine ⟨⟨m, lift (l.map fun x => rnd (x * 1))⟩, ⟨m, lift (l.map fun x => rnd (x * 0))⟩, ?_, ?_, rfl, ?_⟩
  · unfold extract
    rw [M]
    dsimp only
    rw [g, divF_fin Mne, div_self Mne, R.one, sub, mul_lift, mul_lift]
    rfl
  · congr 2
    conv_rhs => rw [← List.map_id l]
    apply List.map_congr_left
    intro x hx
    rw [mul_one, (hf x hx).1]; rfl
  · intro x hx
    simp only [lift, List.map_map, List.mem_map, Function.comp_apply] at hx
    obtain ⟨y, -, rfl⟩ := hx
    rw [mul_zero, R.zero]

/-! ## Addition -/

theorem addTuple_float (R : IEEE rnd u η) {p p' : Package} {c x : ℚ} (hp : Sound rnd p) (hx : rnd x = x ∧ 0 ≤ x) (h : addTuple rnd p c true (.fin x) = .ok p') :
    Sound rnd p' ∧ p'.mat = p.mat ∧ p'.masses.length = p.masses.length ∧ ∀ d, content p' d = if d = c then rnd (content p c + x) else content p d := by
  obtain ⟨l, hl, hf⟩ := sound_iff.1 hp
  obtain ⟨m, ms⟩ := p
  dsimp only at hl
  subst hl
  unfold addTuple at h
  rw [if_pos rfl] at h
  split at h
  · cases h
  · rename_i i hi
    have hix : indexOf m.classes c = some i := by
      unfold Material.index at hi
      cases hx : indexOf m.classes c with
      | none => rw [hx] at hi; cases hi
      | some j => rw [hx] at hi; cases hi; rfl
    split at h
    · cases h
    · rename_i y hy
      rw [lift_get] at hy
      cases hlx : l[i]? with
      | none => rw [hlx] at hy; cases hy
      | some z =>
        rw [hlx] at hy
        cases hy
        have hlt : i < l.length := (List.getElem?_eq_some_iff.1 hlx).1
        have hz := hf z (List.mem_of_getElem? hlx)
        rw [show addF rnd (.fin z) (.fin x) = .fin (rnd (z + x)) from rfl, lift_set] at h
        cases h
        have hcz : content ⟨m, lift l⟩ c = z := by rw [content_of_index (p := ⟨m, lift l⟩) rfl hix, hlx]; rfl
        refine ⟨sound_iff.2 ⟨_, rfl, floats_set hf ⟨R.idem _, R.nonneg (add_nonneg hz.2 hx.2)⟩⟩, rfl, by simp, fun d => ?_⟩
        rw [content_set hix hlt, hcz]

theorem addLoop_float (R : IEEE rnd u η) {q : Package} (hq : Sound rnd q) : ∀ {cs : List ℚ} {p p' : Package}, Sound rnd p → cs.Nodup → addLoop rnd q cs p = (.ok (), p') →
    Sound rnd p' ∧ p'.mat = p.mat ∧ p'.masses.length = p.masses.length ∧ ∀ d, content p' d = if d ∈ cs then rnd (content p d + content q d) else content p d
  | [], p, p', hp, _, h => by cases h; exact ⟨hp, rfl, rfl, fun d => by simp⟩
  | c :: cs, p, p', hp, hn, h => by
    obtain ⟨l, hl, hf⟩ := sound_iff.1 hq
    unfold addLoop at h
    split at h
    · cases h
    · split at h
      · cases h
      · rename_i x hx
        split at h
        · cases h
        · rename_i p'' ht
          have xq : x = .fin (content q c) := classMass_fin (finite_iff.2 ⟨l, hl⟩) hx
          subst xq
          have gq : rnd (content q c) = content q c ∧ 0 ≤ content q c := by
            have := content_good (m := q.mat) R hf c
            rwa [← hl] at this
          obtain ⟨t1, t2, t3, t4⟩ := addTuple_float R hp gq ht
          obtain ⟨n1, n2⟩ := List.nodup_cons.1 hn
          obtain ⟨i1, i2, i3, i4⟩ := addLoop_float R hq t1 n2 h
          refine ⟨i1, i2.trans t2, i3.trans t3, fun d => ?_⟩
          rw [i4 d, t4 d]
          by_cases hd : d = c
          · subst hd
            rw [if_neg n1, if_pos rfl, if_pos List.mem_cons_self]
          · simp only [List.mem_cons, hd, false_or, if_false]

theorem content_zipF (R : IEEE rnd u η) (m : Material) (l l' : List ℚ) (h : l.length = l'.length) (c : ℚ) :
    content ⟨m, lift (List.zipWith (fun x y => rnd (x + y)) l l')⟩ c = rnd (content ⟨m, lift l⟩ c + content ⟨m, lift l'⟩ c) := by
  rw [content_lift (p := ⟨m, lift (List.zipWith (fun x y => rnd (x + y)) l l')⟩) rfl, content_lift (p := ⟨m, lift l⟩) rfl, content_lift (p := ⟨m, lift l'⟩) rfl]
  cases indexOf m.classes c with
  | none => simp [R.zero]
  | some i =>
    simp only [Option.bind_some, List.getElem?_zipWith]
    by_cases hi : i < l.length
    · rw [List.getElem?_eq_getElem hi, List.getElem?_eq_getElem (h ▸ hi)]; rfl
    · rw [List.getElem?_eq_none (not_lt.1 hi), List.getElem?_eq_none (h ▸ not_lt.1 hi)]; simp [R.zero]

/-- **C139 (joining).** Adding two packages rounds the mass of each size class once: the result is the float nearest to the exact sum. -/
theorem C139_add (R : IEEE rnd u η) (p q r : Package) (hm : p.mat = q.mat ∨ p.mat.ident ≠ q.mat.ident) (hp : Sound rnd p) (hq : Sound rnd q) (sp : Shape p) (sq : Shape q) (hd : Distinct q.mat)
    (h : add rnd p (.pkg q) = .ok r) :
    Sound rnd r ∧ Shape r ∧ r.mat = p.mat ∧ ∀ c, content r c = rnd (content p c + content q c) ∧ |content r c - (content p c + content q c)| ≤ u * (content p c + content q c) := by
  obtain ⟨l, hl, hf⟩ := sound_iff.1 hp
  obtain ⟨l', hl', hf'⟩ := sound_iff.1 hq
  have gp : ∀ c, rnd (content p c) = content p c ∧ 0 ≤ content p c := fun c => by have := content_good (m := p.mat) R hf c; rwa [← hl] at this
  have gq : ∀ c, rnd (content q c) = content q c ∧ 0 ≤ content q c := fun c => by have := content_good (m := q.mat) R hf' c; rwa [← hl'] at this
  suffices H : Sound rnd r ∧ Shape r ∧ r.mat = p.mat ∧ ∀ c, content r c = rnd (content p c + content q c) by
    refine ⟨H.1, H.2.1, H.2.2.1, fun c => ⟨H.2.2.2 c, ?_⟩⟩
    have := R.add (gp c).1 (gq c).1
    rwa [← H.2.2.2 c, abs_of_nonneg (add_nonneg (gp c).2 (gq c).2)] at this
  unfold add at h
  dsimp only at h
  split at h
  · rename_i hi
    have hmat : p.mat = q.mat := hm.resolve_right (not_not.2 hi)
    have hlen : p.masses.length = q.masses.length := by rw [sp, sq, hmat]
    have hlen' : l.length = l'.length := by rw [hl, hl', lift_length, lift_length] at hlen; exact hlen
    have z : ∀ (l l' : List ℚ), List.zipWith (addF rnd) (lift l) (lift l') = lift (List.zipWith (fun x y => rnd (x + y)) l l') := by
      intro l
      induction l with
      | nil => intro l'; rfl
      | cons a l ih => intro l'; cases l' with
        | nil => rfl
        | cons b l' =>
          change addF rnd (.fin a) (.fin b) :: List.zipWith (addF rnd) (lift l) (lift l') = _
          rw [ih]; rfl
    rw [show vadd rnd p.masses q.masses = .ok (lift (List.zipWith (fun x y => rnd (x + y)) l l')) by unfold vadd; rw [if_pos hlen, hl, hl', z]] at h
    cases h
    refine ⟨sound_iff.2 ⟨_, rfl, ?_⟩, ?_, rfl, fun c => ?_⟩
    · intro x hx
      obtain ⟨a, ha, b, hb, rfl⟩ : ∃ a ∈ l, ∃ b ∈ l', rnd (a + b) = x := by
        obtain ⟨i, hi, rfl⟩ := List.mem_iff_getElem.1 hx
        rw [List.getElem_zipWith]
        exact ⟨_, List.getElem_mem _, _, List.getElem_mem _, rfl⟩
      exact ⟨R.idem _, R.nonneg (add_nonneg (hf a ha).2 (hf' b hb).2)⟩
    · unfold Shape
      rw [lift_length, List.length_zipWith, ← hlen', min_self, ← lift_length, ← hl]
      exact sp
    · rw [content_zipF R _ _ _ hlen']
      have e1 : content p c = content ⟨p.mat, lift l⟩ c := by rw [← hl]
      have e2 : content q c = content ⟨p.mat, lift l'⟩ c := by rw [← hl', hmat]
      rw [e1, e2]
  · split at h
    · cases h
    · rename_i hx
      cases h
      obtain ⟨h1, h2, h3, h4⟩ := addLoop_float R hq hp hd hx
      refine ⟨h1, ?_, h2, fun c => ?_⟩
      · unfold Shape; rw [h3, h2]; exact sp
      · rw [h4 c]
        split
        · rfl
        · rename_i hc
          rw [content_not_mem hc, add_zero, (gp c).1]

/-- **C139 (a tuple).** A mass added to a size class is rounded once. -/
theorem C139_tuple (R : IEEE rnd u η) (p r : Package) (c x : ℚ) (b : Bool) (hp : Sound rnd p) (hx : rnd x = x) (x0 : 0 ≤ x) (h : add rnd p (.tup c b (.fin x)) = .ok r) :
    Sound rnd r ∧ r.mat = p.mat ∧ content r c = rnd (content p c + x) ∧ ∀ d, d ≠ c → content r d = content p d := by
  have hb : b = true := by
    unfold add addTuple at h
    cases b with
    | true => rfl
    | false => cases h
  subst hb
  obtain ⟨h1, h2, h3, h4⟩ := addTuple_float R hp ⟨hx, x0⟩ h
  exact ⟨h1, h2, by rw [h4 c, if_pos rfl], fun d hd => by rw [h4 d, if_neg hd]⟩

/-! ## A plant -/

/-- **C139 (plant).** However often the packages of a plant are split and joined, the mass of every size class in it changes by at most about two roundings of it for each step. -/
theorem C139_plant (R : IEEE rnd u η) (hS : ∀ l, Adds rnd l (S l)) (mats : List Material) (hid : ∀ m ∈ mats, ∀ m' ∈ mats, m.ident = m'.ident → m = m') (hd : ∀ m ∈ mats, Distinct m)
    (ps qs : List Package) (n : ℕ) (hp : ∀ p ∈ ps, p.mat ∈ mats ∧ Shape p ∧ Sound rnd p)
    (h : Plant.RunN (fun p p' r => ∃ a, ArgOk rnd (mass S p) a ∧ extract rnd S p a = (.ok r, p')) (fun p q r => add rnd p (.pkg q) = .ok r) ps n qs) :
    (∀ q ∈ qs, q.mat ∈ mats ∧ Shape q ∧ Sound rnd q) ∧
    ∀ c, |(qs.map (content · c)).sum - (ps.map (content · c)).sum| ≤ ((1 + (2 * u + u ^ 2)) ^ n - 1) * (ps.map (content · c)).sum + n * (2 * η) * (1 + (2 * u + u ^ 2)) ^ n := by
  have u0 := R.u0
  have η0 := R.η0
  have main : ∀ c, (∀ q ∈ qs, q.mat ∈ mats ∧ Shape q ∧ Sound rnd q) ∧
      |(qs.map (content · c)).sum - (ps.map (content · c)).sum| ≤ ((1 + (2 * u + u ^ 2)) ^ n - 1) * (ps.map (content · c)).sum + n * (2 * η) * (1 + (2 * u + u ^ 2)) ^ n := by
    intro c
    have nonneg : ∀ p : Package, Sound rnd p → 0 ≤ content p c := by
      intro p hp
      obtain ⟨l, hl, hf⟩ := sound_iff.1 hp
      have := content_good (m := p.mat) R hf c
      rw [← hl] at this
      exact this.2
    refine Plant.RunN.drift (I := fun p => p.mat ∈ mats ∧ Shape p ∧ Sound rnd p) (μ := (content · c)) (w := 2 * u + u ^ 2) (e := 2 * η) (by positivity) (by positivity) (fun p hp => nonneg p hp.2.2) ?_ ?_ hp h
    · rintro p p' r ⟨i1, i2, i3⟩ ⟨a, ha, he⟩
      obtain ⟨h1, h2, h3, h4, h5, h6, h7, -⟩ := C139_extract R hS p p' r a i3 ha he
      refine ⟨⟨h4 ▸ i1, by unfold Shape; rw [h6, h4]; exact i2, h2⟩, ⟨h3 ▸ i1, by unfold Shape; rw [h5, h3]; exact i2, h1⟩, ?_⟩
      have := (h7 c).2.2.2.2
      rwa [add_comm (content r c)] at this
    · rintro p q r ⟨i1, i2, i3⟩ ⟨j1, j2, j3⟩ he
      have hm : p.mat = q.mat ∨ p.mat.ident ≠ q.mat.ident := by
        by_cases hi : p.mat.ident = q.mat.ident
        · exact .inl (hid _ i1 _ j1 hi)
        · exact .inr hi
      obtain ⟨h1, h2, h3, h4⟩ := C139_add R p q r hm i3 j3 i2 j2 (hd _ j1) he
      refine ⟨⟨h3 ▸ i1, h2, h1⟩, (h4 c).2.trans ?_⟩
      have := nonneg p i3
      have := nonneg q j3
      nlinarith [mul_nonneg u0 (add_nonneg (nonneg p i3) (nonneg q j3)), mul_nonneg (mul_nonneg u0 u0) (add_nonneg (nonneg p i3) (nonneg q j3))]
  exact ⟨(main 0).1, fun c => (main c).2⟩

end Auxi.PsdFloat.Props
