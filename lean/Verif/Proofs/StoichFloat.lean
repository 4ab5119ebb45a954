import Verif.StoichFloat
import Verif.Props.Stoich
import Verif.Proofs.ChemFloat
import Verif.Proofs.ReportsFloat

/-! # Lemmas: stoichiometry in floating point -/
namespace Auxi.StoichFloat
open Auxi Auxi.Stoich Auxi.Rounding
open Auxi.Chem (Num fl int)
open Auxi.ChemFloat (addN mulN conv)

variable {rnd : ℚ → ℚ} {u η : ℚ}

/-! ## Counting -/

/-- Whole numbers only. -/
def Whole (d : Counts) : Prop := ∀ e ∈ d, ∃ n : ℕ, e.2 = n

/-- All at most `N`. -/
def Below (N : ℚ) (d : Counts) : Prop := ∀ e ∈ d, e.2 ≤ N

/-- The same counts as floats. -/
def lift (d : Counts) : NCounts := d.map (fun e => (e.1, fl e.2))

theorem whole_bump {k : Str} {n : ℕ} {d : Counts} (h : Whole d) : Whole (Stoich.bump k n d) := by
  induction d with
  | nil => intro e he; simp only [Stoich.bump, List.mem_singleton] at he; subst he; exact ⟨n, by simp⟩
  | cons a d ih =>
    obtain ⟨k', v⟩ := a
    intro e he
    unfold Stoich.bump at he
    split at he
    · rcases List.mem_cons.1 he with rfl | he
      · obtain ⟨j, hj⟩ := h (k', v) List.mem_cons_self
        refine ⟨j + n, ?_⟩
        change v + n = _
        rw [show v = j from hj]; push_cast; ring
      · exact h e (List.mem_cons_of_mem _ he)
    · rcases List.mem_cons.1 he with rfl | he
      · exact h _ List.mem_cons_self
      · exact ih (fun e he => h e (List.mem_cons_of_mem _ he)) e he

theorem bump_back {N : ℚ} {k : Str} {n : ℕ} {d : Counts} (h : Whole d) (hb : Below N (Stoich.bump k n d)) : Below N d ∧ (n : ℚ) ≤ N := by
  induction d with
  | nil => exact ⟨fun e he => by (cases he), by simpa using hb (k, 0 + (n : ℚ)) (by simp [Stoich.bump])⟩
  | cons a d ih =>
    obtain ⟨k', v⟩ := a
    obtain ⟨j, hj⟩ := h (k', v) List.mem_cons_self
    have hj : v = j := hj
    unfold Stoich.bump at hb
    split at hb
    · have h1 := hb (k', v + n) List.mem_cons_self
      have h1 : v + n ≤ N := h1
      have p1 : (0 : ℚ) ≤ v := hj ▸ Nat.cast_nonneg j
      have p2 : (0 : ℚ) ≤ (n : ℚ) := Nat.cast_nonneg n
      refine ⟨fun e he => ?_, by linarith⟩
      rcases List.mem_cons.1 he with rfl | he
      · change v ≤ N; linarith
      · exact hb e (List.mem_cons_of_mem _ he)
    · obtain ⟨i1, i2⟩ := ih (fun e he => h e (List.mem_cons_of_mem _ he)) (fun e he => hb e (List.mem_cons_of_mem _ he))
      refine ⟨fun e he => ?_, i2⟩
      rcases List.mem_cons.1 he with rfl | he
      · exact hb _ List.mem_cons_self
      · exact i1 e he

theorem whole_bumpAll {m : ℕ} {c : Counts} (hc : Whole c) : ∀ {acc : Counts}, Whole acc → Whole (Stoich.bumpAll m c acc) := by
  induction c with
  | nil => exact fun h => h
  | cons a c ih =>
    obtain ⟨k, v⟩ := a
    intro acc h
    unfold Stoich.bumpAll
    obtain ⟨j, hj⟩ := hc (k, v) List.mem_cons_self
    have hj : v = j := hj
    rw [hj, ← Nat.cast_mul]
    exact ih (fun e he => hc e (List.mem_cons_of_mem _ he)) (whole_bump h)

theorem bumpAll_back {N : ℚ} {m : ℕ} {c : Counts} (hc : Whole c) : ∀ {acc : Counts}, Whole acc → Below N (Stoich.bumpAll m c acc) → Below N acc ∧ ∀ e ∈ c, e.2 * m ≤ N := by
  induction c with
  | nil => exact fun _ hb => ⟨hb, fun e he => by (cases he)⟩
  | cons a c ih =>
    obtain ⟨k, v⟩ := a
    intro acc h hb
    unfold Stoich.bumpAll at hb
    obtain ⟨j, hj⟩ := hc (k, v) List.mem_cons_self
    have hj : v = j := hj
    rw [hj, ← Nat.cast_mul] at hb
    obtain ⟨i1, i2⟩ := ih (fun e he => hc e (List.mem_cons_of_mem _ he)) (whole_bump h) hb
    obtain ⟨b1, b2⟩ := bump_back h i1
    refine ⟨b1, fun e he => ?_⟩
    rcases List.mem_cons.1 he with rfl | he
    · change v * m ≤ N; rw [hj, ← Nat.cast_mul]; exact b2
    · exact i2 e he

mutual
theorem whole_count : ∀ g : Grp, Whole g.count
  | .elem s => by intro e he; simp only [Grp.count, List.mem_singleton] at he; subst he; exact ⟨1, by simp⟩
  | .group gs m => by unfold Grp.count; exact whole_countAll m gs (fun e he => by (cases he))
theorem whole_countAll (m : ℕ) : ∀ (gs : List Grp) {acc : Counts}, Whole acc → Whole (Stoich.countAll m gs acc)
  | [], acc, h => by unfold Stoich.countAll; exact h
  | g :: gs, acc, h => by unfold Stoich.countAll; exact whole_countAll m gs (whole_bumpAll (whole_count g) h)
end

theorem countAll_back {N : ℚ} {m : ℕ} : ∀ {gs : List Grp} {acc : Counts}, Whole acc → Below N (Stoich.countAll m gs acc) → Below N acc
  | [], acc, h, hb => by unfold Stoich.countAll at hb; exact hb
  | g :: gs, acc, h, hb => by
    unfold Stoich.countAll at hb
    exact (bumpAll_back (whole_count g) h (countAll_back (whole_bumpAll (whole_count g) h) hb)).1

/-- The rounding represents whole numbers up to `N`. -/
def Exact (rnd : ℚ → ℚ) (N : ℚ) : Prop := ∀ n : ℕ, (n : ℚ) ≤ N → rnd n = n

theorem addN_float {v : ℚ} {x : Num} : addN rnd (fl v) x = fl (rnd (v + conv rnd x)) := by
  unfold addN; simp [fl, conv]

theorem bump_lift {N : ℚ} (hN : Exact rnd N) {k : Str} {n : ℕ} {x : Num} (hx : conv rnd x = n) {d : Counts} (h : Whole d) (hb : Below N (Stoich.bump k n d)) :
    bump rnd k x (lift d) = lift (Stoich.bump k n d) := by
  induction d with
  | nil =>
    have := (bump_back h hb).2
    simp only [lift, List.map_nil, bump, Stoich.bump, List.map_cons, addN_float, hx, zero_add, hN n this]
  | cons a d ih =>
    obtain ⟨k', v⟩ := a
    obtain ⟨j, hj⟩ := h (k', v) List.mem_cons_self
    have hj : v = j := hj
    have h' : Whole d := fun e he => h e (List.mem_cons_of_mem _ he)
    simp only [lift, List.map_cons, bump, Stoich.bump] at *
    split
    · rename_i hk
      rw [if_pos hk] at hb
      have h1 : v + n ≤ N := hb (k', v + n) List.mem_cons_self
      rw [addN_float, hx]
      have : v + (n : ℚ) = ((j + n : ℕ) : ℚ) := by rw [hj]; push_cast; ring
      rw [this] at h1 ⊢
      rw [hN _ h1]
      rfl
    · rename_i hk
      rw [if_neg hk] at hb
      rw [ih h' (fun e he => hb e (List.mem_cons_of_mem _ he))]
      rfl

/-- What `Element.count` and `Group.count` give: the number 1, or floats. -/
def Fine (d : NCounts) (e : Counts) : Prop := d.map (fun x => (x.1, x.2.val)) = e ∧ ∀ x ∈ d, x.2.isFloat = true ∨ x.2 = int 1

theorem fine_lift (d : Counts) : Fine (lift d) d := by
  refine ⟨?_, ?_⟩
  · unfold lift; rw [List.map_map]; exact List.map_id d
  · intro x hx; simp only [lift, List.mem_map] at hx; obtain ⟨e, -, rfl⟩ := hx; exact .inl rfl

theorem conv_mul (h0 : rnd 0 = 0) {N : ℚ} (hN : Exact rnd N) {x : Num} (hx : x.isFloat = true ∨ x = int 1) {n m : ℕ} (hv : x.val = n) (hb : (n : ℚ) * m ≤ N) :
    conv rnd (mulN rnd x (int m)) = ((n * m : ℕ) : ℚ) := by
  rcases hx with hx | rfl
  · unfold mulN
    rw [hx, Bool.true_or, if_pos rfl]
    have : conv rnd x = n := by unfold conv; rw [if_pos hx, hv]
    rw [this]
    unfold conv
    rw [if_pos rfl, if_neg (by simp [int])]
    dsimp only [int]
    rcases Nat.eq_zero_or_pos n with rfl | hn
    · simp [h0]
    · have hm : (m : ℚ) ≤ N := by
        refine le_trans ?_ hb
        have : (1 : ℚ) ≤ n := by exact_mod_cast hn
        nlinarith [Nat.cast_nonneg (α := ℚ) m]
      rw [hN m hm, ← Nat.cast_mul]
      exact hN _ (by push_cast; exact hb)
  · have hn : n = 1 := by have : (1 : ℚ) = n := hv; exact_mod_cast this.symm
    subst hn
    have e : mulN rnd (int 1) (int m) = int (1 * m) := by unfold mulN; simp [int]
    rw [e]
    unfold conv
    rw [if_neg (by simp [int])]
    dsimp only [int]
    have := hN m (by simpa using hb)
    simpa using this

theorem bumpAll_lift (h0 : rnd 0 = 0) {N : ℚ} (hN : Exact rnd N) {m : ℕ} {c : Counts} (hc : Whole c) : ∀ {d : NCounts} (_ : Fine d c) {acc : Counts}, Whole acc →
    Below N (Stoich.bumpAll m c acc) → bumpAll rnd m d (lift acc) = lift (Stoich.bumpAll m c acc) := by
  induction c with
  | nil =>
    intro d hd acc _ _
    have : d = [] := by simpa using hd.1
    subst this
    rfl
  | cons a c ih =>
    obtain ⟨k, v⟩ := a
    intro d hd acc hacc hb
    cases d with
    | nil => cases hd.1
    | cons b d =>
      obtain ⟨k', x⟩ := b
      obtain ⟨h1, h2⟩ := hd
      simp only [List.map_cons, List.cons.injEq, Prod.mk.injEq] at h1
      obtain ⟨⟨rfl, hv⟩, h1⟩ := h1
      obtain ⟨j, hj⟩ := hc (k', v) List.mem_cons_self
      have hj : v = j := hj
      have b1 := (bumpAll_back hc hacc hb).2 (k', v) List.mem_cons_self
      have b1 : (j : ℚ) * m ≤ N := hj ▸ b1
      unfold Stoich.bumpAll at hb ⊢
      unfold bumpAll
      rw [hj, ← Nat.cast_mul] at hb ⊢
      have hc' : Whole c := fun e he => hc e (List.mem_cons_of_mem _ he)
      rw [bump_lift hN (conv_mul h0 hN (h2 _ List.mem_cons_self) (hv.trans hj) b1) hacc (bumpAll_back hc' (whole_bump hacc) hb).1]
      exact ih hc' ⟨h1, fun x hx => h2 x (List.mem_cons_of_mem _ hx)⟩ (whole_bump hacc) hb

mutual
/-- Only the number of a single element is zero. -/
def GroupOK : Grp → Prop
  | .elem _ => True
  | .group gs m => (m ≠ 0 ∨ ∀ g ∈ gs, ∃ s, g = .elem s) ∧ GroupsOK gs
/-- All of them. -/
def GroupsOK : List Grp → Prop
  | [] => True
  | g :: gs => GroupOK g ∧ GroupsOK gs
end

theorem below_of_mul {N : ℚ} {m : ℕ} (hm : m ≠ 0) {d : Counts} (hw : Whole d) (h : ∀ e ∈ d, e.2 * m ≤ N) : Below N d := by
  intro e he
  refine le_trans ?_ (h e he)
  obtain ⟨j, hj⟩ := hw e he
  rw [hj]
  have : (1 : ℚ) ≤ m := by exact_mod_cast Nat.one_le_iff_ne_zero.2 hm
  nlinarith [Nat.cast_nonneg (α := ℚ) j]

mutual
theorem count_fine (h0 : rnd 0 = 0) {N : ℚ} (hN : Exact rnd N) : ∀ (g : Grp), GroupOK g → Below N g.count → Fine (count rnd g) g.count
  | .elem s, _, _ => by
    unfold count Grp.count
    exact ⟨rfl, fun x hx => by simp only [List.mem_singleton] at hx; subst hx; exact .inr rfl⟩
  | .group gs m, hg, hb => by
    unfold count Grp.count at *
    unfold GroupOK at hg
    have := countAll_lift h0 hN m gs hg.1 hg.2 (acc := []) (fun e he => by (cases he)) hb
    rw [show ([] : NCounts) = lift [] from rfl, this]
    exact fine_lift _
theorem countAll_lift (h0 : rnd 0 = 0) {N : ℚ} (hN : Exact rnd N) (m : ℕ) : ∀ (gs : List Grp), (m ≠ 0 ∨ ∀ g ∈ gs, ∃ s, g = .elem s) → GroupsOK gs → ∀ {acc : Counts}, Whole acc →
    Below N (Stoich.countAll m gs acc) → countAll rnd m gs (lift acc) = lift (Stoich.countAll m gs acc)
  | [], _, _, acc, _, _ => by unfold countAll Stoich.countAll; rfl
  | g :: gs, hm, hg, acc, hacc, hb => by
    unfold countAll Stoich.countAll at *
    unfold GroupsOK at hg
    have w := whole_bumpAll (m := m) (whole_count g) hacc
    have b1 := countAll_back w hb
    have fine : Fine (count rnd g) g.count := by
      rcases hm with hm | hs
      · exact count_fine h0 hN g hg.1 (below_of_mul hm (whole_count g) (bumpAll_back (whole_count g) hacc b1).2)
      · obtain ⟨s, rfl⟩ := hs g List.mem_cons_self
        unfold count Grp.count
        exact ⟨rfl, fun x hx => by simp only [List.mem_singleton] at hx; subst hx; exact .inr rfl⟩
    rw [bumpAll_lift h0 hN (whole_count g) fine hacc b1]
    refine countAll_lift h0 hN m gs ?_ hg.2 w hb
    exact hm.imp id (fun hs g hg => hs g (List.mem_cons_of_mem _ hg))
end


theorem visitElement_elem {s : Str} {g : Grp} (h : visitElement s = .ok g) : g = .elem s := by
  unfold visitElement at h; split at h
  · exact (Except.ok.inj h).symm
  · cases h

theorem groupMult_ne (num : Option Str) : groupMult num ≠ 0 := by
  unfold groupMult; split
  · decide
  · split
    · decide
    · assumption

mutual
theorem visitPart_ok : ∀ (p : Part) {g : Grp}, visitPart p = .ok g → GroupOK g
  | .elem s, g, h => by
    unfold visitPart at h
    rw [visitElement_elem h]; unfold GroupOK; trivial
  | .elemN s d, g, h => by
    unfold visitPart at h
    split at h
    · cases h
    · rename_i g' hg
      have hg' := visitElement_elem hg
      subst hg'
      have h := Except.ok.inj h
      subst h
      unfold GroupOK GroupsOK
      refine ⟨.inr (fun g hg => ⟨s, by simpa using hg⟩), ?_⟩
      unfold GroupOK GroupsOK; exact ⟨trivial, trivial⟩
  | .grp b num, g, h => by
    unfold visitPart at h
    split at h
    · cases h
    · rename_i gs hgs
      have h := Except.ok.inj h
      subst h
      have one : GroupOK (.group gs 1) := by unfold GroupOK; exact ⟨.inl one_ne_zero, visitParts_ok' b hgs⟩
      unfold GroupOK GroupsOK GroupsOK
      exact ⟨.inl (groupMult_ne num), one, trivial⟩
theorem visitParts_ok' : ∀ (ps : List Part) {gs : List Grp}, visitParts ps = .ok gs → GroupsOK gs
  | [], gs, h => by
    unfold visitParts at h
    have h := Except.ok.inj h
    subst h; unfold GroupsOK; trivial
  | p :: ps, gs, h => by
    unfold visitParts at h
    split at h
    · cases h
    · rename_i g hg
      split at h
      · cases h
      · rename_i gs' hgs
        have h := Except.ok.inj h
        subst h
        unfold GroupsOK
        exact ⟨visitPart_ok p hg, visitParts_ok' ps hgs⟩
end

theorem compound_ok {s : Str} {c : Compound} (h : parseCompound s = .ok c) : GroupsOK c.groups := by
  unfold parseCompound at h
  split at h
  · cases h
  · rename_i t _
    unfold visitTree at h
    split at h
    · cases h
    · rename_i gs hgs
      have one : ∀ gs : List Grp, GroupsOK gs → GroupOK (.group gs 1) := fun gs h => by unfold GroupOK; exact ⟨.inl one_ne_zero, h⟩
      split at h
      · have h := Except.ok.inj h
        subst h
        unfold GroupsOK GroupsOK
        exact ⟨one _ (visitParts_ok' _ hgs), trivial⟩
      · split at h
        · cases h
        · rename_i num b _ hs hhs
          have h := Except.ok.inj h
          subst h
          unfold GroupsOK GroupsOK GroupsOK
          refine ⟨one _ (visitParts_ok' _ hgs), ?_, trivial⟩
          unfold GroupOK GroupsOK GroupsOK
          exact ⟨.inl (groupMult_ne _), one _ (visitParts_ok' _ hhs), trivial⟩

theorem compoundCount_lift (h0 : rnd 0 = 0) {N : ℚ} (hN : Exact rnd N) {s : Str} {c : Compound} (h : parseCompound s = .ok c) (hb : Below N c.count) :
    compoundCount rnd c = lift c.count :=
  countAll_lift h0 hN 1 c.groups (.inl one_ne_zero) (compound_ok h) (acc := []) (fun e he => by (cases he)) hb

end Auxi.StoichFloat
