import Verif.Proofs.ThermoStream
import Verif.Props.ThermoMore

/-!
# Property C64: streams that are not coal mix and split like packages

`C66` (clearing a stream) is at the end.
-/
namespace Auxi.Thermo.Props
open Auxi Auxi.Thermo Auxi.Thermo.Spec
open Classical

theorem flow_pkg (s : Stream) : flow s = content (toPkg s) := rfl
theorem enthalpy_pkg (db : Db) (s : Stream) (T : ℝ) : flowEnthalpyAt db s T = enthalpyAt db (toPkg s) T := rfl
theorem sound_pkg {s : Stream} (h : SoundStream s) : Sound (toPkg s) := ⟨h.some_compound, h.distinct, h.finite, h.temperature, rfl⟩
theorem sound_of_pkg {s : Stream} (h : Sound (toPkg s)) (hc : s.isCoal = false) : SoundStream s := ⟨h.some_compound, h.distinct, h.finite, h.temperature, hc⟩

theorem like_ok {r : Res Stream} {q : Package} (h : LikeR r (.ok q)) : ∃ s, r = .ok s ∧ s.isCoal = false ∧ toPkg s = q := by
  cases r with
  | error e => exact h.elim
  | ok s => exact ⟨s, rfl, h⟩

theorem like_error {r : Res Stream} {e : PyErr} (h : LikeR r (.error e)) : r = .error e := by
  cases r with
  | error e' => rw [show e' = e from h]
  | ok s => exact h.elim

theorem likeE_ok {x : Res Stream × Stream} {p q : Package} (h : LikeE x (.ok p, q)) : ∃ a b, x = (.ok a, b) ∧ (a.isCoal = false ∧ toPkg a = p) ∧ b.isCoal = false ∧ toPkg b = q := by
  obtain ⟨x1, x2⟩ := x
  obtain ⟨h1, h2⟩ := h
  obtain ⟨a, ha, h3⟩ := like_ok h1
  dsimp only at ha
  subst ha
  exact ⟨a, x2, rfl, h3, h2⟩

/-- **C64 (mixing streams of one material).** The sum exists; every compound's mass flow rates and the enthalpy flow rates add up. -/
theorem C64_same (db : Db) (p q : Stream) (hp : SoundStream p) (hq : SoundStream q) (hm : q.mat = p.mat) (hk : Known db p.mat) :
    ∃ r, p.add db (.pkg q) = .ok r ∧ MixedStreams p q r ∧ r.isCoal = false := by
  obtain ⟨r, h1, h2⟩ := C60_same db (toPkg p) (toPkg q) (sound_pkg hp) (sound_pkg hq) hm hk
  have k := add_like (db := db) hp.not_coal (.pkg q) hq.not_coal
  change LikeR _ ((toPkg p).add db (.pkg (toPkg q))) at k
  rw [h1] at k
  obtain ⟨s, k1, k2, rfl⟩ := like_ok k
  exact ⟨s, k1, h2, k2⟩

/-- **C64 (mixing streams of different materials)** whose compounds the first material knows. -/
theorem C64_other (db : Db) (p q : Stream) (hp : SoundStream p) (hq : SoundStream q) (hi : p.mat.ident ≠ q.mat.ident) (hk : Known db p.mat)
    (hsub : ∀ c ∈ q.mat.compounds, c ∈ p.mat.compounds) : ∃ r, p.add db (.pkg q) = .ok r ∧ MixedStreams p q r ∧ r.isCoal = false := by
  obtain ⟨r, h1, h2⟩ := C60_other db (toPkg p) (toPkg q) (sound_pkg hp) (sound_pkg hq) hi hk hsub
  have k := add_like (db := db) hp.not_coal (.pkg q) hq.not_coal
  change LikeR _ ((toPkg p).add db (.pkg (toPkg q))) at k
  rw [h1] at k
  obtain ⟨s, k1, k2, rfl⟩ := like_ok k
  exact ⟨s, k1, h2, k2⟩

/-- **C64 (refused mixing).** A compound that the first material does not know makes the addition raise. -/
theorem C64_foreign (db : Db) (p q : Stream) (hp : SoundStream p) (hq : SoundStream q) (hi : p.mat.ident ≠ q.mat.ident) (hk : Known db p.mat) (c : Str)
    (hc : c ∈ q.mat.compounds) (hc' : c ∉ p.mat.compounds) : p.add db (.pkg q) = .error .exception := by
  have h1 := C60_foreign db (toPkg p) (toPkg q) (sound_pkg hp) (sound_pkg hq) hi hk c hc hc'
  have k := add_like (db := db) hp.not_coal (.pkg q) hq.not_coal
  change LikeR _ ((toPkg p).add db (.pkg (toPkg q))) at k
  rw [h1] at k
  exact like_error k

/-- **C64 (adding a compound).** -/
theorem C64_tuple (db : Db) (p : Stream) (hp : SoundStream p) (hk : Known db p.mat) (c : Str) (x h t : ℝ) (hc : c ∈ p.mat.compounds) (ht : p.T = some t)
    (hh : p.Hfr = some h) : ∃ r, p.add db (.tup c true (some x)) = .ok r ∧ r.mat = p.mat ∧
      (∀ d, flow r d = flow p d + if d = c then x else 0) ∧ r.T = p.T ∧ r.P = p.P ∧ ∃ e, ThermoChem.H db c t x = .ok e ∧ r.Hfr = some (h + e) := by
  obtain ⟨r, h1, h2, h3, h4, h5, h6⟩ := C60_tuple db (toPkg p) (sound_pkg hp) hk c x h t hc ht hh
  have k := add_like (db := db) hp.not_coal (.tup c true (some x)) trivial
  change LikeR _ ((toPkg p).add db (.tup c true (some x))) at k
  rw [h1] at k
  obtain ⟨s, k1, k2, rfl⟩ := like_ok k
  exact ⟨s, k1, h2, h3, h4, h5, h6⟩

/-- **C64 (adding a compound at its own temperature).** -/
theorem C64_tuple3 (db : Db) (p : Stream) (hp : SoundStream p) (hk : Known db p.mat) (c : Str) (x h t : ℝ) (hc : c ∈ p.mat.compounds)
    (hh : p.Hfr = some h) : ∃ r, p.add db (.tup3 c true (some x) (some t)) = .ok r ∧ r.mat = p.mat ∧
      (∀ d, flow r d = flow p d + if d = c then x else 0) ∧ r.P = p.P ∧ ∃ e, ThermoChem.H db c t x = .ok e ∧ r.Hfr = some (h + e) := by
  obtain ⟨r, h1, h2, h3, h4, h5⟩ := C60_tuple3 db (toPkg p) (sound_pkg hp) hk c x h t hc hh
  have k := add_like (db := db) hp.not_coal (.tup3 c true (some x) (some t)) trivial
  change LikeR _ ((toPkg p).add db (.tup3 c true (some x) (some t))) at k
  rw [h1] at k
  obtain ⟨s, k1, k2, rfl⟩ := like_ok k
  exact ⟨s, k1, h2, h3, h4, h5⟩

/-- **C64 (scaling).** -/
theorem C64_scale (db : Db) (p : Stream) (hp : SoundStream p) (hn : NonNegStream p) (hc : ConsistentStream db p) (hk : Known db p.mat) (k : ℝ) (hk0 : 0 ≤ k) :
    ∃ r, p.mul db true (some k) = .ok r ∧ r.mat = p.mat ∧ (∀ c, flow r c = k * flow p c) ∧ (∀ h, p.Hfr = some h → r.Hfr = some (k * h)) ∧ r.T = p.T ∧ r.P = p.P := by
  obtain ⟨r, h1, h2⟩ := C60_scale db (toPkg p) (sound_pkg hp) hn hc hk k hk0
  have l := mul_like (db := db) hp.not_coal true (some k)
  rw [h1] at l
  obtain ⟨s, k1, k2, rfl⟩ := like_ok l
  exact ⟨s, k1, h2⟩

/-- **C64 (scaling by a negative number is refused)**, for every stream. -/
theorem C64_scale_refused (db : Db) (p : Stream) (k : ℝ) (hk0 : k < 0) : p.mul db true (some k) = .error .exception := by
  unfold Stream.mul
  rw [if_pos rfl, if_pos (show vgt (some 0) (some k) from hk0)]

/-- **C64 (splitting by mass flow rate).** -/
theorem C64_extract (db : Db) (p : Stream) (hp : SoundStream p) (hn : NonNegStream p) (hc : ConsistentStream db p) (hk : Known db p.mat) (x : ℝ) (hx : 0 ≤ x)
    (hle : x ≤ totalFlow p) (hpos : 0 < totalFlow p) : ∃ part rest, p.extract db (.num true (some x)) = (.ok part, rest) ∧ SplitStream p rest part ∧
      part.mat = p.mat ∧ part.P = p.P ∧ (∀ c, flow part c = x / totalFlow p * flow p c) ∧ totalFlow part = x := by
  obtain ⟨a, b, h1, h2, h3⟩ := C61_mass db (toPkg p) (sound_pkg hp) hn hc hk x hx hle hpos
  have k := extract_like (db := db) hp.not_coal (.num true (some x))
  change LikeE _ ((toPkg p).extract db (.num true (some x))) at k
  rw [h1] at k
  obtain ⟨s, r, k1, ⟨k2, rfl⟩, k3, rfl⟩ := likeE_ok k
  exact ⟨s, r, k1, h2, h3⟩

/-- **C64 (more than there is)** cannot be extracted; the stream, coal or not, stays as it was. -/
theorem C64_extract_too_much (db : Db) (p : Stream) (hf : ∃ ms : List ℝ, p.mfrs = ms.map some ∧ ms.length = p.mat.compounds.length) (hd : p.mat.compounds.Nodup) (x : ℝ)
    (hx : totalFlow p < x) : p.extract db (.num true (some x)) = (.error .exception, p) := by
  obtain ⟨ms, h1, h2⟩ := hf
  obtain ⟨g, hr⟩ := rep_of_list hd h1 h2
  have : p.mfr = some (totalFlow p) := by
    have e := hr.sum
    have f : ∀ c ∈ p.mat.compounds, (fun c => flow p c) c = _ := fun c hc => Rep.content (p := toPkg p) hr hc
    unfold Stream.mfr
    rw [e]
    unfold totalFlow
    rw [List.map_congr_left f]
  unfold Stream.extract Stream.extractMfr
  dsimp only
  rw [if_pos rfl, if_pos (by rw [this]; exact hx)]

/-- **C64 (splitting off a compound).** -/
theorem C64_extract_compound (db : Db) (p : Stream) (hp : SoundStream p) (hc : ConsistentStream db p) (hk : Known db p.mat) (c : Str) (hin : c ∈ p.mat.compounds) :
    ∃ part rest, p.extract db (.str c) = (.ok part, rest) ∧ SplitStream p rest part ∧ part.mat = p.mat ∧ part.P = p.P ∧
      (∀ d, flow part d = if d = c then flow p c else 0) := by
  obtain ⟨a, b, h1, h2, h3⟩ := C61_compound db (toPkg p) (sound_pkg hp) hc hk c hin
  have k := extract_like (db := db) hp.not_coal (.str c)
  change LikeE _ ((toPkg p).extract db (.str c)) at k
  rw [h1] at k
  obtain ⟨s, r, k1, ⟨k2, rfl⟩, k3, rfl⟩ := likeE_ok k
  exact ⟨s, r, k1, h2, h3⟩

/-- **C64 (splitting off some of a compound).** -/
theorem C64_extract_compound_mfr (db : Db) (p : Stream) (hp : SoundStream p) (hc : ConsistentStream db p) (hk : Known db p.mat) (c : Str) (hin : c ∈ p.mat.compounds)
    (x : ℝ) (hle : x ≤ flow p c) : ∃ part rest, p.extract db (.tup c true (some x)) = (.ok part, rest) ∧ SplitStream p rest part ∧ part.mat = p.mat ∧ part.P = p.P ∧
      (∀ d, flow part d = if d = c then x else 0) := by
  obtain ⟨a, b, h1, h2, h3⟩ := C61_compound_mass db (toPkg p) (sound_pkg hp) hc hk c hin x hle
  have k := extract_like (db := db) hp.not_coal (.tup c true (some x))
  change LikeE _ ((toPkg p).extract db (.tup c true (some x))) at k
  rw [h1] at k
  obtain ⟨s, r, k1, ⟨k2, rfl⟩, k3, rfl⟩ := likeE_ok k
  exact ⟨s, r, k1, h2, h3⟩

/-- **C64 (splitting off the compounds of a material).** -/
theorem C64_extract_material (db : Db) (p : Stream) (m : Material) (hp : SoundStream p) (hc : ConsistentStream db p) (hk : Known db p.mat) (hkm : Known db m)
    (hm : m.compounds.Nodup) : ∃ part rest, p.extract db (.mat m) = (.ok part, rest) ∧ SplitStream p rest part ∧ part.mat = m ∧
      (∀ c, flow part c = if c ∈ m.compounds then flow p c else 0) := by
  obtain ⟨a, b, h1, h2, h3⟩ := C61_material db (toPkg p) m (sound_pkg hp) hc hk hkm hm
  have k := extract_like (db := db) hp.not_coal (.mat m)
  change LikeE _ ((toPkg p).extract db (.mat m)) at k
  rw [h1] at k
  obtain ⟨s, r, k1, ⟨k2, rfl⟩, k3, rfl⟩ := likeE_ok k
  exact ⟨s, r, k1, h2, h3⟩

/-! ## Non-vacuity -/

/-- A stream of two compounds; that it has a heating value does not matter. -/
noncomputable def sAB (t : ℝ) : Stream := ⟨mAB, [some 2, some 3], some 1, some t, some (2 * (t - 25) + 3 * (1 + 2 * (t - 25))), false, some (some 7), none⟩
/-- A stream of one of them. -/
noncomputable def sB (t : ℝ) : Stream := ⟨mB, [some 5], some 1, some t, (pB t).H, false, none, none⟩
theorem sAB_pkg (t : ℝ) : toPkg (sAB t) = pAB t := rfl
theorem sB_pkg (t : ℝ) : toPkg (sB t) = pB t := rfl
theorem sAB_sound (t : ℝ) : SoundStream (sAB t) := sound_of_pkg (pAB_sound t) rfl
theorem sB_sound (t : ℝ) : SoundStream (sB t) := sound_of_pkg (pB_sound t) rfl
theorem sAB_total (t : ℝ) : totalFlow (sAB t) = 5 := pAB_total t

example : ∃ r, (sAB 100).add db1 (.pkg (sAB 20)) = .ok r ∧ MixedStreams (sAB 100) (sAB 20) r ∧ r.isCoal = false :=
  C64_same db1 _ _ (sAB_sound _) (sAB_sound _) rfl known_mAB
example : ∃ r, (sAB 100).add db1 (.pkg (sB 20)) = .ok r ∧ MixedStreams (sAB 100) (sB 20) r ∧ r.isCoal = false :=
  C64_other db1 _ _ (sAB_sound _) (sB_sound _) (by simp [sAB, sB, mAB, mB]) known_mAB (by simp [sAB, sB, mAB, mB])
example : (sB 20).add db1 (.pkg (sAB 100)) = .error .exception :=
  C64_foreign db1 _ _ (sB_sound _) (sAB_sound _) (by simp [sAB, sB, mAB, mB]) known_mB "A[S]".toList (by simp [sAB, mAB]) (by simp [sB, mB])
example : ∃ part rest, (sAB 100).extract db1 (.num true (some 4)) = (.ok part, rest) ∧ SplitStream (sAB 100) rest part ∧ totalFlow part = 4 := by
  obtain ⟨part, rest, h1, h2, _, _, _, h3⟩ := C64_extract db1 _ (sAB_sound 100) (pAB_nonneg 100) (pAB_consistent 100) known_mAB 4 (by norm_num)
    (by rw [sAB_total]; norm_num) (by rw [sAB_total]; norm_num)
  exact ⟨part, rest, h1, h2, h3⟩
example : ∃ part rest, (sAB 100).extract db1 (.mat mB) = (.ok part, rest) ∧ SplitStream (sAB 100) rest part := by
  obtain ⟨part, rest, h1, h2, _⟩ := C64_extract_material db1 (sAB 100) mB (sAB_sound _) (pAB_consistent 100) known_mAB known_mB (by simp only [mB]; decide +kernel)
  exact ⟨part, rest, h1, h2⟩
example : ∃ r, (sAB 100).mul db1 true (some 3) = .ok r ∧ ∀ c, flow r c = 3 * flow (sAB 100) c := by
  obtain ⟨r, h1, _, h2, _⟩ := C64_scale db1 (sAB 100) (sAB_sound _) (pAB_nonneg 100) (pAB_consistent 100) known_mAB 3 (by norm_num)
  exact ⟨r, h1, h2⟩

/-! ## C66: clearing a stream -/

/-- **C66 (partial).** Clearing sets all flow rates to zero, the pressure to 1 and the temperature to 25 … -/
theorem C66_contents_partial (s : Stream) (hf : ∃ ms : List ℝ, s.mfrs = ms.map some) (c : Str) :
    flow s.clear c = 0 ∧ s.clear.P = some 1 ∧ s.clear.T = some 25 ∧ s.clear.mat = s.mat := by
  refine ⟨?_, rfl, rfl, rfl⟩
  obtain ⟨ms, h⟩ := hf
  unfold flow Stream.compoundMfr
  by_cases hc : c ∈ s.clear.mat.compounds
  · rw [if_pos hc]
    unfold entry
    cases s.clear.mat.index c with
    | error e => rfl
    | ok i =>
      dsimp only
      cases hi : s.clear.mfrs[i]? with
      | none => rfl
      | some v =>
        change (s.mfrs.map (fun x => vmul x (some 0)))[i]? = some v at hi
        rw [h, List.map_map, List.getElem?_map] at hi
        cases hm : ms[i]? with
        | none => rw [hm] at hi; cases hi
        | some m =>
          rw [hm] at hi
          have hv : v = some (m * 0) := (Option.some.inj hi).symm
          rw [hv, mul_zero]
  · rw [if_neg hc]

/-- **C66 (the documented zero enthalpy is not set).** Whatever enthalpy flow rate the stream had, it keeps. -/
theorem C66_enthalpy_kept (s : Stream) : s.clear.Hfr = s.Hfr := rfl

/-- **C66 (violated).** A stream made by the API, cleared, is empty at 25 degrees but still reports an enthalpy flow rate, which is not that of its
contents. -/
theorem C66_violated : ∃ s : Stream, newStream db1 mAB [some 2, some 3] (some 1) (some 100) false none = .ok s ∧ (∀ c, flow s.clear c = 0) ∧
    s.clear.Hfr ≠ some 0 ∧ ¬ ConsistentStream db1 s.clear := by
  have k := newStream_like db1 mAB [some 2, some 3] (some 1) (some 100) none
  have hr := (pAB_sound 100).rep
  have h2 := newPackage_nonneg (P := some 1) (t := 100) (HHV := none) known_mAB hr (fun c _ => pAB_nonneg 100 c)
  change newPackage db1 mAB [some 2, some 3] (some 1) (some 100) false none = _ at h2
  rw [h2] at k
  obtain ⟨s, k1, k2, k3⟩ := like_ok k
  have e : hOf db1 mAB (content (pAB 100)) 100 = 603 := by
    have := (enthalpyAt_hOf hr 100).symm.trans (pAB_affine 100 100)
    change hOf db1 mAB _ _ = _ at this
    rw [this]; norm_num
  have hH : s.clear.Hfr = some 603 := by
    rw [C66_enthalpy_kept]
    have := congrArg Package.H k3
    change s.Hfr = _ at this
    rw [this]; dsimp only
    rw [e]
  have hm : s.mat = mAB := congrArg Package.mat k3
  have hs : s.mfrs = [2, 3].map some := congrArg Package.masses k3
  have hz : ∀ c, flow s.clear c = 0 := fun c => (C66_contents_partial s ⟨_, hs⟩ c).1
  refine ⟨s, k1, hz, ?_, ?_⟩
  · rw [hH]; norm_num
  · rintro ⟨t, _, h⟩
    rw [hH] at h
    unfold flowEnthalpyAt at h
    simp only [hz, zero_mul] at h
    have : (s.clear.mat.compounds.map (fun _ => (0:ℝ))).sum = 0 := by simp
    rw [this] at h
    norm_num at h

/-- **C55 for thermo packages**, for contrast: clearing a package does set its enthalpy. -/
theorem C66_package_cleared (p : Package) : p.clear.H = some 0 ∧ p.clear.P = some 1 ∧ p.clear.T = some 25 ∧ p.clear.mat = p.mat := ⟨rfl, rfl, rfl, rfl⟩

/-! ## C89: element mass flow rates -/

/-- **C89 (violated).** For a stream of any material with at least one compound, asking for the flow rates of all (or some) elements never returns. -/
theorem C89_never_returns (s : Stream) (h : s.mat.compounds ≠ []) (elts : Option (List Str)) : ∃ e, s.elementMfrs elts = .error e := by
  unfold Stream.elementMfrs
  cases hc : s.mat.compounds with
  | nil => exact (h hc).elim
  | cons c cs =>
    dsimp only
    split
    · exact ⟨_, rfl⟩
    · split <;> exact ⟨_, rfl⟩

open Stoich Stoich.Spec in
mutual
theorem partText_nobracket : ∀ (p : Part), PartOK p → ∀ c ∈ partText p, c ≠ '['
  | .elem s, h, c, hc => symb_nobracket h c hc
  | .elemN s d, h, c, hc => by
      simp only [partText, List.mem_append] at hc
      exact hc.elim (symb_nobracket h.1 c) (numb_nobracket h.2 c)
  | .grp b n, h, c, hc => by
      simp only [partText, List.mem_cons, List.mem_append] at hc
      rcases hc with rfl | hc | rfl | hc
      · decide
      · exact partsText_nobracket b h.2.1 c hc
      · decide
      · cases n with
        | none => simp at hc
        | some d => exact numb_nobracket (h.2.2 d rfl) c hc
theorem partsText_nobracket : ∀ (ps : List Part), PartsOK ps → ∀ c ∈ partsText ps, c ≠ '['
  | [], _, c, hc => by simp [partsText] at hc
  | p :: ps, h, c, hc => by
      simp only [partsText, List.mem_append] at hc
      exact hc.elim (partText_nobracket p h.1 c) (partsText_nobracket ps h.2 c)
theorem symb_nobracket {s : Str} (h : Symbol s) : ∀ c ∈ s, c ≠ '[' := by
  obtain ⟨c, t, rfl, hc, ht⟩ := h
  intro d hd he
  subst he
  rw [List.mem_cons] at hd
  rcases hd with hd | hd
  · subst hd; exact absurd hc.2 (by decide)
  · exact absurd (ht _ hd).1 (by decide)
theorem numb_nobracket {s : Str} (h : Number s) : ∀ c ∈ s, c ≠ '[' := by
  intro c hc he
  subst he
  exact absurd (h.2 _ hc).2 (by decide)
end

open Stoich Stoich.Spec in
theorem formulaOf_text (t : Tree) (h : TreeOK t) : formulaOf (text t) = text { t with phase := none } := by
  have hb : ∀ c ∈ partsText t.group ++ dottedText t.dotted, (decide (c ≠ '[')) = true := by
    intro c hc
    rw [decide_eq_true_eq]
    rw [List.mem_append] at hc
    rcases hc with hc | hc
    · exact partsText_nobracket _ h.1.2 c hc
    · cases hd : t.dotted with
      | none => rw [hd] at hc; simp [dottedText] at hc
      | some x =>
        obtain ⟨n, b⟩ := x
        obtain ⟨_, hb, hn⟩ := h.2.1 n b hd
        rw [hd] at hc
        simp only [dottedText, List.mem_cons, List.mem_append] at hc
        rcases hc with rfl | hc | hc
        · decide
        · cases n with
          | none => simp at hc
          | some d => exact numb_nobracket (hn d rfl) c hc
        · exact partsText_nobracket _ hb c hc
  unfold formulaOf text
  rw [← List.append_assoc, List.takeWhile_append_of_pos hb]
  cases t.phase with
  | none => simp [phaseText]
  | some q => simp [phaseText]

open Stoich Stoich.Spec in
/-- The phase does not matter for the mass fractions. -/
theorem fraction_formulaOf {c : Str} (h : IsFormula c) (e : Str) : elementMassFraction (formulaOf c) e = elementMassFraction c e := by
  obtain ⟨t, ht, rfl, _⟩ := h
  have h' : TreeOK { t with phase := none } := ⟨ht.1, ht.2.1, by intro p hp; cases hp⟩
  rw [formulaOf_text t ht]
  unfold elementMassFraction
  rw [Stoich.Props.C41_phase t none ht (by intro p hp; cases hp)]
  have : coefficient (text { t with phase := none }) e = coefficient (text t) e := by
    simp only [coefficient, Stoich.Props.strip_text' _ ht, Stoich.Props.strip_text' _ h', Stoich.Props.parse_text _ ht, Stoich.Props.parse_text _ h', visitTree]
    cases visitParts t.group with
    | error e => rfl
    | ok gs =>
      cases t.dotted with
      | none => rfl
      | some x =>
        obtain ⟨n, b⟩ := x
        dsimp only
        cases visitParts b with
        | error e => rfl
        | ok hs => rfl
  rw [this]

/-- The mass flow rate of an element in a stream: over all compounds, compound flow rate times element fraction. -/
noncomputable def elementFlow (s : Stream) (e : Str) : ℝ := (s.mat.compounds.map (fun c => flow s c * (Chem.Spec.share c e : ℝ))).sum

theorem elementLoopS {s : Stream} {g : Str → ℝ} (h : Rep s.mat s.mfrs g) (e : Str) (cs : List Str) (hcs : ∀ c ∈ cs, c ∈ s.mat.compounds ∧ Stoich.Spec.IsFormula c) (acc : ℝ) :
    s.elementLoop e cs (some acc) = .ok (some (acc + (cs.map (fun c => g c * (Chem.Spec.share c e : ℝ))).sum)) := by
  induction cs generalizing acc with
  | nil => simp [Stream.elementLoop]
  | cons c cs ih =>
    obtain ⟨hc, hf⟩ := hcs c (by simp)
    have hm : s.compoundMfr c = .ok (some (g c)) := by unfold Stream.compoundMfr; rw [if_pos hc, h.entry hc]
    obtain ⟨t, cp, _, _, _, _, h5⟩ := Chem.emf_total hf
    have hs : Stoich.elementMassFraction (formulaOf c) e = .ok (Chem.Spec.share c e) := by
      rw [fraction_formulaOf hf]
      unfold Chem.Spec.share
      rw [h5 e]
    unfold Stream.elementLoop
    rw [hm]
    dsimp only
    rw [hs]
    dsimp only
    change s.elementLoop e cs (some (acc + g c * _)) = _
    rw [ih (fun d hd => hcs d (by simp [hd]))]
    simp only [List.map_cons, List.sum_cons]
    rw [add_assoc]

/-- **C89 (partial).** Asked for one element at a time, a stream (coal or not) reports the sum over its compounds of flow rate times mass fraction. -/
theorem C89_single_partial (s : Stream) (hf : ∃ ms : List ℝ, s.mfrs = ms.map some ∧ ms.length = s.mat.compounds.length) (hd : s.mat.compounds.Nodup) (he : ElementsOK s.mat) (e : Str) :
    s.elementMfr e = .ok (some (elementFlow s e)) := by
  obtain ⟨E, hE, _⟩ := he
  have hk := (Stoich.Props.C45_succeeds_iff s.mat.compounds).1 ⟨E, hE⟩
  obtain ⟨ms, h1, h2⟩ := hf
  obtain ⟨g, hr⟩ := rep_of_list hd h1 h2
  unfold Stream.elementMfr
  rw [elementLoopS hr e s.mat.compounds (fun c hc => ⟨hc, hk c hc⟩), zero_add]
  unfold elementFlow
  refine congrArg (fun x => Except.ok (some x)) (congrArg List.sum (List.map_congr_left fun c hc => ?_))
  rw [show flow s c = g c from Rep.content (p := toPkg s) hr hc]

/-- A stream of water and iron oxide. -/
noncomputable def sOx : Stream := ⟨⟨9, ["Fe2O3[S1]".toList, "H2O[L]".toList], [], ["Fe".toList, "O".toList, "H".toList], [], []⟩, [some 2, some 3], some 1, some 25, some 0, false, none, none⟩
example : sOx.elementMfr "O".toList = .ok (some (elementFlow sOx "O".toList)) :=
  C89_single_partial sOx ⟨[2, 3], rfl, rfl⟩ (by simp only [sOx]; decide +kernel) ⟨["Fe".toList, "O".toList, "H".toList], by simp only [sOx]; decide +kernel, List.Perm.refl _⟩ _
example : ∃ e, sOx.elementMfrs none = .error e := C89_never_returns sOx (by simp [sOx]) none

end Auxi.Thermo.Props
