import Verif.Spec.ThermoStream
import Verif.Proofs.Thermo

/-!
# A stream that is not coal behaves like a package: refinement
-/
namespace Auxi.Thermo.Props
open Auxi Auxi.Thermo Auxi.Thermo.Spec
open Classical

/-- The package with the same contents. -/
noncomputable def toPkg (s : Stream) : Package := ⟨s.mat, s.mfrs, s.P, s.T, s.Hfr, false, none⟩

/-- The stream is not coal and looks like the package. -/
def Like (s : Stream) (p : Package) : Prop := s.isCoal = false ∧ toPkg s = p

/-- Same outcome. -/
def LikeR : Res Stream → Res Package → Prop
  | .error e, .error e' => e = e'
  | .ok s, .ok p => Like s p
  | _, _ => False

/-- Same outcome of a method that modifies its object. -/
def LikeU (x : Res Unit × Stream) (y : Res Unit × Package) : Prop := x.1 = y.1 ∧ Like x.2 y.2

/-- Same outcome of an extraction. -/
def LikeE (x : Res Stream × Stream) (y : Res Package × Package) : Prop := LikeR x.1 y.1 ∧ Like x.2 y.2

theorem calcHfr_like {db : Db} {s : Stream} (h : s.isCoal = false) (T : V) : s.calcHfr db T = calcH db (toPkg s) T := by
  unfold Stream.calcHfr calcH
  rw [h]; rfl

theorem newStream_like (db : Db) (m : Material) (a : List V) (P T : V) (v : Option V) : LikeR (newStream db m a P T false v) (newPackage db m a P T false none) := by
  unfold newStream newPackage Stream.setHHV
  dsimp only
  simp only [Bool.false_eq_true, if_false]
  change LikeR (if vgt (vsum a) (some 0) then _ else _) (if vgt (vsum a) (some 0) then _ else _)
  split
  · rw [calcHfr_like rfl]
    change LikeR (match calcH db ⟨m, a, P, T, some 0, false, none⟩ T with | .error e => _ | .ok h => _) _
    cases calcH db ⟨m, a, P, T, some 0, false, none⟩ T with
    | error e => exact rfl
    | ok h => exact ⟨rfl, rfl⟩
  · exact ⟨rfl, rfl⟩

theorem setHfr_like {db : Db} {s : Stream} (h : s.isCoal = false) (H : V) : LikeU (s.setHfr db H) ((toPkg s).setH db H) := by
  unfold Stream.setHfr Package.setH
  dsimp only
  have e : (fun T => Stream.calcHfr db { s with Hfr := H } T) = fun T => calcH db { toPkg s with H := H } T := by
    funext T; rw [calcHfr_like (s := { s with Hfr := H }) h]; rfl
  change LikeU (match calcT s.mat.compounds.isEmpty (fun T => Stream.calcHfr db { s with Hfr := H } T) s.T H with | .error e => _ | .ok t => _)
    (match calcT s.mat.compounds.isEmpty (fun T => calcH db { toPkg s with H := H } T) s.T H with | .error e => _ | .ok t => _)
  rw [e]
  cases calcT s.mat.compounds.isEmpty (fun T => calcH db { toPkg s with H := H } T) s.T H with
  | error e => exact ⟨rfl, h, rfl⟩
  | ok t => exact ⟨rfl, h, rfl⟩

theorem setT_like {db : Db} {s : Stream} (h : s.isCoal = false) (T : V) : LikeU (s.setT db T) ((toPkg s).setT db T) := by
  unfold Stream.setT Package.setT
  dsimp only
  rw [calcHfr_like (s := { s with T := T }) h]
  change LikeU (match calcH db { toPkg s with T := T } T with | .error e => _ | .ok t => _) _
  cases calcH db { toPkg s with T := T } T with
  | error e => exact ⟨rfl, h, rfl⟩
  | ok t => exact ⟨rfl, h, rfl⟩

theorem finish_like {x : Res Unit × Stream} {y : Res Unit × Package} (h : LikeU x y) : LikeR (finish x) (finish y) := by
  obtain ⟨a, b⟩ := x
  obtain ⟨c, d⟩ := y
  obtain ⟨h1, h2⟩ := h
  dsimp only at h1 h2
  subst h1
  cases a with
  | error e => exact rfl
  | ok u => exact h2

theorem updateHHV_like {db : Db} {s : Stream} (h : s.isCoal = false) (c : Str) (x : V) : s.updateHHV db c x = (.ok (), s) := by
  unfold Stream.updateHHV; rw [h]; rfl

theorem addTuple_like {db : Db} {s : Stream} (h : s.isCoal = false) (c : Str) (x : V) : LikeR (s.addTuple db c x) ((toPkg s).addTuple db c x) := by
  unfold Stream.addTuple Package.addTuple
  change LikeR (match s.mat.index c with | .error e => _ | .ok i => _) (match s.mat.index c with | .error e => _ | .ok i => _)
  cases s.mat.index c with
  | error e => exact rfl
  | ok i =>
    change LikeR (match thermoH db c s.T x with | .error e => _ | .ok i => _) (match thermoH db c s.T x with | .error e => _ | .ok i => _)
    cases thermoH db c s.T x with
    | error e => exact rfl
    | ok v =>
      change LikeR (match bumpAt s.mfrs i x with | .error e => _ | .ok i => _) (match bumpAt s.mfrs i x with | .error e => _ | .ok i => _)
      cases bumpAt s.mfrs i x with
      | error e => exact rfl
      | ok ms =>
        dsimp only
        rw [updateHHV_like (s := { s with mfrs := ms }) h]
        exact ⟨h, rfl⟩

theorem addLoop_like {db : Db} (q : Stream) (cs : List Str) : ∀ (r : Stream), r.isCoal = false → LikeR (q.addLoop db cs r) ((toPkg q).addLoop db cs (toPkg r)) := by
  induction cs with
  | nil => intro r h; exact ⟨h, rfl⟩
  | cons c cs ih =>
    intro r h
    unfold Stream.addLoop Package.addLoop
    change LikeR (if c ∉ r.mat.compounds then _ else _) (if c ∉ r.mat.compounds then _ else _)
    split
    · exact rfl
    · change LikeR (match q.compoundMfr c with | .error e => _ | .ok i => _) (match q.compoundMfr c with | .error e => _ | .ok i => _)
      cases q.compoundMfr c with
      | error e => exact rfl
      | ok x =>
        dsimp only
        have k := addTuple_like (db := db) h c x
        revert k
        generalize r.addTuple db c x = a
        generalize (toPkg r).addTuple db c x = b
        intro k
        cases a <;> cases b <;> first | exact k | exact k.elim | skip
        obtain ⟨k1, k2⟩ := k
        subst k2
        exact ih _ k1

theorem mul_like {db : Db} {s : Stream} (h : s.isCoal = false) (b : Bool) (k : V) : LikeR (s.mul db b k) ((toPkg s).mul db b k) := by
  unfold Stream.mul Package.mul
  cases b with
  | false => exact rfl
  | true =>
    rw [if_pos rfl, if_pos rfl]
    by_cases hk : vgt (some 0) k
    · rw [if_pos hk, if_pos hk]; exact rfl
    · rw [if_neg hk, if_neg hk, h]
      exact newStream_like _ _ _ _ _ _

/-- The argument of an operator with packages for streams. -/
noncomputable def argPkg : Arg Stream → Arg Package
  | .pkg q => .pkg (toPkg q)
  | .tup c b x => .tup c b x
  | .tup3 c b x T => .tup3 c b x T
  | .num b x => .num b x
  | .str c => .str c
  | .mat m => .mat m
  | .other => .other

/-- Not coal, if a stream. -/
def ArgNotCoal : Arg Stream → Prop
  | .pkg q => q.isCoal = false
  | _ => True

theorem add_like {db : Db} {p : Stream} (hp : p.isCoal = false) (a : Arg Stream) (ha : ArgNotCoal a) : LikeR (p.add db a) ((toPkg p).add db (argPkg a)) := by
  cases a with
  | pkg q =>
    unfold Stream.add Package.add argPkg
    dsimp only
    by_cases hi : p.mat.ident = q.mat.ident
    · rw [if_pos hi, if_pos (show (toPkg p).mat.ident = (toPkg q).mat.ident from hi)]
      change LikeR (match arrAdd p.mfrs q.mfrs with | .error e => _ | .ok i => _) (match arrAdd p.mfrs q.mfrs with | .error e => _ | .ok i => _)
      cases arrAdd p.mfrs q.mfrs with
      | error e => exact rfl
      | ok ms =>
        dsimp only
        rw [hp, show q.isCoal = false from ha, Bool.or_false]
        have k := newStream_like db p.mat ms (some 1) (some 25) (sumHHV p q)
        revert k
        change LikeR _ (newPackage db p.mat ms (some 1) (some 25) false none) → LikeR _ (match newPackage db p.mat ms (some 1) (some 25) false none with | .error e => _ | .ok i => _)
        generalize newStream db p.mat ms (some 1) (some 25) false (sumHHV p q) = x
        generalize newPackage db p.mat ms (some 1) (some 25) false none = y
        intro k
        cases x <;> cases y <;> first | exact k | exact k.elim | skip
        rename_i r r'
        obtain ⟨k1, k2⟩ := k
        subst k2
        dsimp only
        have l := finish_like (setHfr_like (db := db) k1 (vadd p.Hfr q.Hfr))
        revert l
        change LikeR _ (finish ((toPkg r).setH db (vadd p.Hfr q.Hfr))) → LikeR _ (match finish ((toPkg r).setH db (vadd p.Hfr q.Hfr)) with | .error e => _ | .ok i => _)
        generalize finish (r.setHfr db (vadd p.Hfr q.Hfr)) = x
        generalize finish ((toPkg r).setH db (vadd p.Hfr q.Hfr)) = y
        intro l
        cases x <;> cases y <;> first | exact l | exact l.elim | skip
        obtain ⟨l1, l2⟩ := l
        subst l2
        exact ⟨l1, rfl⟩
    · rw [if_neg hi, if_neg (show ¬ (toPkg p).mat.ident = (toPkg q).mat.ident from hi)]
      have k := addLoop_like (db := db) q q.mat.compounds p hp
      revert k
      change LikeR _ (Package.addLoop db (toPkg q) q.mat.compounds (toPkg p)) → LikeR _ (match Package.addLoop db (toPkg q) q.mat.compounds (toPkg p) with | .error e => _ | .ok i => _)
      generalize Stream.addLoop db q q.mat.compounds p = x
      generalize Package.addLoop db (toPkg q) q.mat.compounds (toPkg p) = y
      intro k
      cases x <;> cases y <;> first | exact k | exact k.elim | skip
      obtain ⟨k1, k2⟩ := k
      subst k2
      exact finish_like (setHfr_like k1 _)
  | tup c b x =>
    cases b with
    | false => exact rfl
    | true => exact addTuple_like hp c x
  | tup3 c b x T =>
    cases b with
    | false => exact rfl
    | true =>
      unfold Stream.add Package.add argPkg
      dsimp only
      rw [if_pos rfl, if_pos rfl]
      change LikeR (match p.mat.index c with | .error e => _ | .ok i => _) (match p.mat.index c with | .error e => _ | .ok i => _)
      cases p.mat.index c with
      | error e => exact rfl
      | ok i =>
        dsimp only
        cases thermoH db c T x with
        | error e => exact rfl
        | ok v =>
          dsimp only
          have k := mul_like (db := db) hp true (some 1)
          revert k
          generalize p.mul db true (some 1) = a
          generalize (toPkg p).mul db true (some 1) = b
          intro k
          cases a <;> cases b <;> first | exact k | exact k.elim | skip
          rename_i r r'
          obtain ⟨k1, k2⟩ := k
          subst k2
          change LikeR (match bumpAt r.mfrs i x with | .error e => _ | .ok i => _) (match bumpAt r.mfrs i x with | .error e => _ | .ok i => _)
          cases bumpAt r.mfrs i x with
          | error e => exact rfl
          | ok ms =>
            dsimp only
            have l := finish_like (setHfr_like (db := db) (s := { r with mfrs := ms }) k1 (vadd p.Hfr v))
            revert l
            change LikeR _ (finish (Package.setH db { toPkg r with masses := ms } (vadd p.Hfr v))) → LikeR _ (match finish (Package.setH db { toPkg r with masses := ms } (vadd p.Hfr v)) with | .error e => _ | .ok i => _)
            generalize finish (Stream.setHfr db { r with mfrs := ms } (vadd p.Hfr v)) = a
            generalize finish (Package.setH db { toPkg r with masses := ms } (vadd p.Hfr v)) = b
            intro l
            cases a <;> cases b <;> first | exact l | exact l.elim | skip
            obtain ⟨l1, l2⟩ := l
            subst l2
            exact ⟨l1, rfl⟩
  | num b x => exact rfl
  | str c => exact rfl
  | mat m => exact rfl
  | other => exact rfl

theorem settle_like {db : Db} {s r : Stream} {q : Package} (hs : s.isCoal = false) (hr : Like r q) : LikeE (settleS db s r) (settle db (toPkg s) q) := by
  unfold settleS settle
  have k := setT_like (db := db) hs s.T
  revert k
  change LikeU _ ((toPkg s).setT db s.T) → LikeE _ (match (toPkg s).setT db s.T with | (.error e, p') => _ | (.ok _, p') => _)
  generalize s.setT db s.T = a
  generalize (toPkg s).setT db s.T = b
  intro k
  obtain ⟨a1, a2⟩ := a
  obtain ⟨b1, b2⟩ := b
  obtain ⟨k1, k2⟩ := k
  dsimp only at k1 k2
  subst k1
  cases a1 with
  | error e => exact ⟨rfl, k2⟩
  | ok u => exact ⟨hr, k2⟩

theorem createEmpty_like (db : Db) (m : Material) (x P T : V) (b : Bool) : LikeR (m.createStream db none x P T b) (m.createPackage db none x P T b) :=
  newStream_like _ _ _ _ _ _

theorem extractMfr_like {db : Db} {s : Stream} (hs : s.isCoal = false) (x : V) : LikeE (s.extractMfr db x) ((toPkg s).extractMass db x) := by
  unfold Stream.extractMfr Package.extractMass
  by_cases h : vgt x s.mfr
  · rw [if_pos h, if_pos (show vgt x (toPkg s).mass from h)]
    exact ⟨rfl, hs, rfl⟩
  · rw [if_neg h, if_neg (show ¬ vgt x (toPkg s).mass from h)]
    dsimp only
    have k := newStream_like db s.mat (s.mfrs.map (fun y => vmul y (vdiv x s.mfr))) s.P s.T none
    revert k
    change LikeR _ (newPackage db s.mat (s.mfrs.map (fun y => vmul y (vdiv x s.mfr))) s.P s.T false none) →
      LikeE _ (match newPackage db s.mat (s.mfrs.map (fun y => vmul y (vdiv x s.mfr))) s.P s.T false none with | .error e => _ | .ok i => _)
    generalize newStream db s.mat (s.mfrs.map (fun y => vmul y (vdiv x s.mfr))) s.P s.T false none = a
    generalize newPackage db s.mat (s.mfrs.map (fun y => vmul y (vdiv x s.mfr))) s.P s.T false none = b
    intro k
    cases a <;> cases b <;> first | exact ⟨k, hs, rfl⟩ | exact k.elim | skip
    exact settle_like (s := { s with mfrs := _ }) hs k

theorem extractCompound_like {db : Db} {s : Stream} (hs : s.isCoal = false) (c : Str) : LikeE (s.extractCompound db c) ((toPkg s).extractCompound db c) := by
  unfold Stream.extractCompound Package.extractCompound
  have k := createEmpty_like db s.mat (some 0) (some 1) (some 25) true
  revert k
  change LikeR _ (s.mat.createPackage db none (some 0) (some 1) (some 25) true) → LikeE _ (match s.mat.createPackage db none (some 0) (some 1) (some 25) true with | .error e => _ | .ok i => _)
  generalize s.mat.createStream db none (some 0) (some 1) (some 25) true = a
  generalize s.mat.createPackage db none (some 0) (some 1) (some 25) true = b
  intro k
  cases a <;> cases b <;> first | exact ⟨k, hs, rfl⟩ | exact k.elim | skip
  rename_i r r'
  obtain ⟨k1, k2⟩ := k
  subst k2
  dsimp only
  by_cases hc : c ∉ s.mat.compounds
  · rw [if_pos hc, if_pos (show c ∉ (toPkg s).mat.compounds from hc)]
    exact ⟨⟨k1, rfl⟩, hs, rfl⟩
  · rw [if_neg hc, if_neg (show ¬ c ∉ (toPkg s).mat.compounds from hc)]
    change LikeE (match s.mat.index c with | .error e => _ | .ok i => _) (match s.mat.index c with | .error e => _ | .ok i => _)
    cases s.mat.index c with
    | error e => exact ⟨rfl, hs, rfl⟩
    | ok i =>
      change LikeE (match s.mfrs[i]? with | none => _ | some y => _) (match s.mfrs[i]? with | none => _ | some y => _)
      cases s.mfrs[i]? with
      | none => exact ⟨rfl, hs, rfl⟩
      | some y =>
        dsimp only
        have l := setT_like (db := db) (s := { r with mfrs := r.mfrs.set i y }) k1 s.T
        revert l
        change LikeU _ (Package.setT db { toPkg r with masses := r.mfrs.set i y } s.T) → LikeE _ (match Package.setT db { toPkg r with masses := r.mfrs.set i y } s.T with | (.error e, p') => _ | (.ok _, p') => _)
        generalize Stream.setT db { r with mfrs := r.mfrs.set i y } s.T = a
        generalize Package.setT db { toPkg r with masses := r.mfrs.set i y } s.T = b
        intro l
        obtain ⟨a1, a2⟩ := a
        obtain ⟨b1, b2⟩ := b
        obtain ⟨l1, l2⟩ := l
        dsimp only at l1 l2
        subst l1
        cases a1 with
        | error e => exact ⟨rfl, hs, rfl⟩
        | ok u =>
          dsimp only
          rw [updateHHV_like (s := { s with mfrs := s.mfrs.set i (some 0) }) hs]
          obtain ⟨l2, l3⟩ := l2
          subst l3
          exact settle_like (s := { s with mfrs := s.mfrs.set i (some 0) }) hs ⟨l2, rfl⟩

theorem extractCompoundMfr_like {db : Db} {s : Stream} (hs : s.isCoal = false) (c : Str) (x : V) : LikeE (s.extractCompoundMfr db c x) ((toPkg s).extractCompoundMass db c x) := by
  unfold Stream.extractCompoundMfr Package.extractCompoundMass
  by_cases hc : c ∉ s.mat.compounds
  · rw [if_pos hc, if_pos (show c ∉ (toPkg s).mat.compounds from hc)]
    exact ⟨createEmpty_like db s.mat (some 0) (some 1) (some 25) true, hs, rfl⟩
  · rw [if_neg hc, if_neg (show ¬ c ∉ (toPkg s).mat.compounds from hc)]
    change LikeE (match s.mat.index c with | .error e => _ | .ok i => _) (match s.mat.index c with | .error e => _ | .ok i => _)
    cases s.mat.index c with
    | error e => exact ⟨rfl, hs, rfl⟩
    | ok i =>
      change LikeE (match s.mfrs[i]? with | none => _ | some y => _) (match s.mfrs[i]? with | none => _ | some y => _)
      cases s.mfrs[i]? with
      | none => exact ⟨rfl, hs, rfl⟩
      | some y =>
        dsimp only
        by_cases hx : vgt x y
        · rw [if_pos hx, if_pos hx]; exact ⟨rfl, hs, rfl⟩
        · rw [if_neg hx, if_neg hx, updateHHV_like (s := { s with mfrs := s.mfrs.set i (vsub y x) }) hs]
          dsimp only
          have l := setT_like (db := db) (s := { s with mfrs := s.mfrs.set i (vsub y x) }) hs s.T
          revert l
          change LikeU _ (Package.setT db { toPkg s with masses := s.mfrs.set i (vsub y x) } s.T) → LikeE _ (match Package.setT db { toPkg s with masses := s.mfrs.set i (vsub y x) } s.T with | (.error e, p') => _ | (.ok _, p') => _)
          generalize Stream.setT db { s with mfrs := s.mfrs.set i (vsub y x) } s.T = a
          generalize Package.setT db { toPkg s with masses := s.mfrs.set i (vsub y x) } s.T = b
          intro l
          obtain ⟨a1, a2⟩ := a
          obtain ⟨b1, b2⟩ := b
          obtain ⟨l1, l2⟩ := l
          dsimp only at l1 l2
          subst l1
          cases a1 with
          | error e => exact ⟨rfl, l2⟩
          | ok u =>
            obtain ⟨l2, l3⟩ := l2
            subst l3
            dsimp only
            have k := createEmpty_like db a2.mat (some 0) a2.P a2.T true
            revert k
            change LikeR _ (a2.mat.createPackage db none (some 0) a2.P a2.T true) → LikeE _ (match a2.mat.createPackage db none (some 0) a2.P a2.T true with | .error e => _ | .ok i => _)
            generalize a2.mat.createStream db none (some 0) a2.P a2.T true = a
            generalize a2.mat.createPackage db none (some 0) a2.P a2.T true = b
            intro k
            cases a <;> cases b <;> first | exact ⟨k, l2, rfl⟩ | exact k.elim | skip
            obtain ⟨k1, k2⟩ := k
            subst k2
            exact ⟨addTuple_like k1 _ _, l2, rfl⟩

theorem extractLoop_like {db : Db} (cs : List Str) : ∀ (r s : Stream), r.isCoal = false → s.isCoal = false → LikeE (extractLoopS db cs r s) (extractLoop db cs (toPkg r) (toPkg s)) := by
  induction cs with
  | nil => intro r s hr hs; exact ⟨⟨hr, rfl⟩, hs, rfl⟩
  | cons c cs ih =>
    intro r s hr hs
    unfold extractLoopS extractLoop
    change LikeE (match s.compoundMfr c with | .error e => _ | .ok i => _) (match s.compoundMfr c with | .error e => _ | .ok i => _)
    cases s.compoundMfr c with
    | error e => exact ⟨rfl, hs, rfl⟩
    | ok x =>
      dsimp only
      have k := addTuple_like (db := db) hr c x
      revert k
      generalize r.addTuple db c x = a
      generalize (toPkg r).addTuple db c x = b
      intro k
      cases a <;> cases b <;> first | exact ⟨k, hs, rfl⟩ | exact k.elim | skip
      obtain ⟨k1, k2⟩ := k
      subst k2
      dsimp only
      have l := extractCompound_like (db := db) hs c
      revert l
      generalize s.extractCompound db c = a
      generalize (toPkg s).extractCompound db c = b
      intro l
      obtain ⟨a1, a2⟩ := a
      obtain ⟨b1, b2⟩ := b
      obtain ⟨l1, l2, l3⟩ := l
      dsimp only at l1 l2 l3
      subst l3
      cases a1 <;> cases b1 <;> first | exact ⟨l1, l2, rfl⟩ | exact l1.elim | skip
      exact ih _ _ k1 l2

theorem extractMaterial_like {db : Db} {s : Stream} (hs : s.isCoal = false) (m : Material) : LikeE (s.extractMaterial db m) ((toPkg s).extractMaterial db m) := by
  unfold Stream.extractMaterial Package.extractMaterial
  have k := createEmpty_like db m (some 0) (some 1) (some 25) true
  revert k
  generalize m.createStream db none (some 0) (some 1) (some 25) true = a
  generalize m.createPackage db none (some 0) (some 1) (some 25) true = b
  intro k
  cases a <;> cases b <;> first | exact ⟨k, hs, rfl⟩ | exact k.elim | skip
  rename_i r r'
  obtain ⟨k1, k2⟩ := k
  subst k2
  dsimp only
  have l := extractLoop_like (db := db) m.compounds r s k1 hs
  revert l
  generalize extractLoopS db m.compounds r s = a
  generalize extractLoop db m.compounds (toPkg r) (toPkg s) = b
  intro l
  obtain ⟨a1, a2⟩ := a
  obtain ⟨b1, b2⟩ := b
  obtain ⟨l1, l2, l3⟩ := l
  dsimp only at l1 l2 l3
  subst l3
  cases a1 <;> cases b1 <;> first | exact ⟨l1, l2, rfl⟩ | exact l1.elim | skip
  obtain ⟨l4, l5⟩ := l1
  subst l5
  exact ⟨finish_like (setT_like l4 _), l2, rfl⟩

theorem extract_like {db : Db} {s : Stream} (hs : s.isCoal = false) (a : Arg Stream) : LikeE (s.extract db a) ((toPkg s).extract db (argPkg a)) := by
  cases a with
  | pkg q => exact ⟨rfl, hs, rfl⟩
  | tup c b x =>
    cases b with
    | false => exact ⟨rfl, hs, rfl⟩
    | true => exact extractCompoundMfr_like hs c x
  | tup3 c b x T => exact ⟨rfl, hs, rfl⟩
  | num b x =>
    cases b with
    | false => exact ⟨rfl, hs, rfl⟩
    | true => exact extractMfr_like hs x
  | str c => exact extractCompound_like hs c
  | mat m => exact extractMaterial_like hs m
  | other => exact ⟨rfl, hs, rfl⟩

end Auxi.Thermo.Props
