import Verif.Props.PrintoutMore

/-! # C122: examples for `psd` and `slurry` -/
namespace Auxi.Printout.Props
open Auxi Auxi.Printout Auxi.Printout.Spec Auxi.Printout.Proofs
open Auxi.FileFormat (readPsd pyFloat)
open Auxi.Psd (F64)

/-- **C122 (columns)**: `ljust` keeps the text and fills it with blanks at the right up to the width, never more and never less, so that the next column starts at the width. -/
theorem C122_ljust (n : ℕ) (s : Str) : s <+: ljust n s ∧ (ljust n s).length = max n s.length ∧ ∀ c ∈ (ljust n s).drop s.length, c = ' ' := by
  refine ⟨List.prefix_append _ _, ?_, ?_⟩
  · unfold ljust; rw [List.length_append, List.length_replicate]; omega
  · unfold ljust
    rw [List.drop_append_of_le_length le_rfl]
    intro c hc
    simp only [List.drop_length, List.nil_append] at hc
    exact List.eq_of_mem_replicate hc

/-- **C122 (columns)**: `rjust` fills at the left. -/
theorem C122_rjust (n : ℕ) (s : Str) : s <:+ rjust n s ∧ (rjust n s).length = max n s.length ∧ ∀ c ∈ (rjust n s).take ((rjust n s).length - s.length), c = ' ' := by
  refine ⟨List.suffix_append _ _, ?_, ?_⟩
  · unfold rjust; rw [List.length_append, List.length_replicate]; omega
  · unfold rjust
    rw [List.length_append, Nat.add_sub_cancel, List.take_left']
    · exact fun c hc => List.eq_of_mem_replicate hc
    · rfl

theorem f64Ex_plain (x : F64) : Plain (f64Ex x) := by
  cases x with
  | fin q => exact unary_plain q
  | pinf => exact plain_txt _ (by decide)
  | ninf => exact plain_txt _ (by decide)
  | nan => exact plain_txt _ (by decide)

theorem unary_second (q : ℚ) (s : Str) (h : unary q = '-' :: 'i' :: s) : False := by
  unfold unary at h
  have := congrArg (List.drop 1) h
  cases hn : q.num.natAbs with
  | zero => rw [hn] at this; simp at this
  | succ n => rw [hn] at this; simp [List.replicate_succ] at this
theorem f64Ex_inj : Function.Injective f64Ex := by
  have head : ∀ q, (unary q).head? = some '-' ∨ (unary q).head? = some '+' := by
    intro q; unfold unary; split <;> simp
  intro a b h
  cases a <;> cases b <;> simp only [f64Ex] at h
  all_goals first
    | rfl
    | exact congrArg _ (unary_inj h)
    | exact absurd h (by decide)
    | exact (unary_second _ _ h).elim
    | exact (unary_second _ _ h.symm).elim
    | (rename_i q; rcases head q with e | e <;> first | (rw [h] at e; exact absurd e (by decide)) | (rw [← h] at e; exact absurd e (by decide)))

/-- A sieve analysis of two assays. -/
def sieveEx : Psd.Material := ⟨2, [1 / 2, 2], [(txt "feed", [.fin 1, .fin 3]), (txt "dust", [.fin 4, .nan])]⟩
def sieveVal (n : Str) (c : ℚ) : F64 := if n = txt "feed" then (if c = 2 then .fin 3 else .fin 1) else (if c = 2 then .nan else .fin 4)
theorem sieveEx_filled : Filled sieveEx.classes sieveVal sieveEx.assays := by unfold Filled; decide +kernel

example : ∃ t, psdPackage unary f64Ex (txt "sand") ⟨sieveEx, [.fin 10, .fin 30]⟩ = .ok t ∧ lines t =
    [txt "MaterialPackage", txt "material            sand", txt "mass                " ++ f64Ex (.fin 40), txt "Component masses:",
      ljust 20 (unary (1 / 2)) ++ f64Ex (.fin 10), ljust 20 (unary 2) ++ f64Ex (.fin 30), []] := by
  obtain ⟨t, h1, h2⟩ := C122_psd_package unary f64Ex (txt "sand") ⟨sieveEx, [.fin 10, .fin 30]⟩ (by decide +kernel) rfl (plain_txt _ (by decide)) unary_plain f64Ex_plain
  refine ⟨t, h1, h2.trans ?_⟩
  have e : (⟨sieveEx, [.fin 10, .fin 30]⟩ : Psd.Package).mass = .fin 40 := by decide +kernel
  rw [e]
  rfl

example : ∃ t ns, psdMaterial unary f64Ex (txt "sand") sieveEx = .ok t ∧ Alphabetical ns [txt "feed", txt "dust"] ∧
    lines t = (txt "Material: name='" ++ txt "sand" ++ txt "'") :: row (txt "Compound" :: ns) :: sieveEx.classes.map (fun c => row (unary c :: ns.map (fun n => f64Ex (sieveVal n c)))) ++ [[]] :=
  C122_psd_material unary f64Ex (txt "sand") sieveEx sieveVal (by decide +kernel) sieveEx_filled (plain_txt _ (by decide))
    (by intro e he; simp only [sieveEx, List.mem_cons, List.not_mem_nil, or_false] at he; rcases he with rfl | rfl <;> exact plain_txt _ (by decide)) unary_plain f64Ex_plain

/-- A slurry of the same classes. -/
def pulpEx : Slurry.Material := ⟨sieveEx, [(txt "feed", 3), (txt "dust", 2)], [(txt "feed", 1 / 2), (txt "dust", 0)]⟩

example : ∃ t, slurryPackage unary f64Ex (txt "pulp") ⟨pulpEx, .fin 2, .fin 5, [.fin 10, .fin 30]⟩ = .ok t ∧
    (txt "H2O mass                " ++ f64Ex (.fin 5)) ∈ lines t ∧ (txt "mass                    " ++ f64Ex (.fin 45)) ∈ lines t := by
  obtain ⟨t, h1, h2⟩ := C122_slurry_package unary f64Ex (txt "pulp") ⟨pulpEx, .fin 2, .fin 5, [.fin 10, .fin 30]⟩ (by decide +kernel) rfl (plain_txt _ (by decide)) unary_plain f64Ex_plain
  have e : (⟨pulpEx, .fin 2, .fin 5, [.fin 10, .fin 30]⟩ : Slurry.Package).mass = .fin 45 := by decide +kernel
  refine ⟨t, h1, ?_, ?_⟩ <;> rw [h2, e] <;> simp only [List.cons_append, List.nil_append, List.mem_cons]
  · exact .inr (.inr (.inr (.inr (.inr (.inr (.inr (.inl rfl)))))))
  · exact .inr (.inr (.inr (.inr (.inr (.inr (.inl rfl))))))

example : ∃ t ns, slurryMaterial unary f64Ex (txt "pulp") pulpEx = .ok t ∧ Alphabetical ns [txt "feed", txt "dust"] ∧
    row (txt "Solid density" :: ns.map (fun n => unary (if n = txt "feed" then 3 else 2))) ∈ lines t := by
  obtain ⟨t, ns, h1, h2, h3⟩ := C122_slurry_material unary f64Ex (txt "pulp") pulpEx sieveVal (fun n => if n = txt "feed" then 3 else 2) (fun n => if n = txt "feed" then 1 / 2 else 0)
    (by decide +kernel) sieveEx_filled (by decide +kernel) (by decide +kernel) (plain_txt _ (by decide))
    (by intro e he; simp only [pulpEx, sieveEx, List.mem_cons, List.not_mem_nil, or_false] at he; rcases he with rfl | rfl <;> exact plain_txt _ (by decide)) unary_plain f64Ex_plain
  refine ⟨t, ns, h1, h2, ?_⟩
  rw [h3]; simp

/-- Two packages that print alike are the same. -/
example (y : ℚ) (h : psdPackage unary f64Ex (txt "sand") ⟨sieveEx, [.fin 10, .fin 30]⟩ = psdPackage unary f64Ex (txt "sand") ⟨sieveEx, [.fin 10, .fin y]⟩) : y = 30 := by
  have := C122_psd_determines unary f64Ex (txt "sand") ⟨sieveEx, [.fin 10, .fin 30]⟩ ⟨sieveEx, [.fin 10, .fin y]⟩ rfl (by decide +kernel) rfl rfl (plain_txt _ (by decide)) unary_plain
    f64Ex_plain f64Ex_inj h
  cases this; rfl

/-- Written so that `float` understands it. -/
def plainEx (q : ℚ) : Str := if q = 1 / 2 then txt "0.5" else if q = 2 then txt "2.0" else if q = 1 then txt "1e0" else txt "3"
def plainF : F64 → Str
  | .fin q => plainEx q
  | _ => txt "nan"
def sieve1 : Psd.Material := ⟨2, [1 / 2, 2], [(txt "feed", [.fin 1, .fin 3])]⟩
example : ∃ t m', psdMaterial plainEx plainF (txt "sand") sieve1 = .ok t ∧ readPsd 7 (body t) = .ok m' ∧ m'.classes = [1 / 2, 2] ∧ m'.assays.lookup (txt "feed") = some [.fin 1, .fin 3] := by
  have w : ∀ q ∈ [(1 / 2 : ℚ), 2, 1, 3], Narrow (plainEx q) ∧ pyFloat (plainEx q) = .ok q := by
    intro q hq
    simp only [List.mem_cons, List.not_mem_nil, or_false] at hq
    rcases hq with rfl | rfl | rfl | rfl
    · rw [show plainEx (1 / 2) = txt "0.5" by decide +kernel]; exact ⟨narrow_of (by decide), by decide +kernel⟩
    · rw [show plainEx 2 = txt "2.0" by decide +kernel]; exact ⟨narrow_of (by decide), by decide +kernel⟩
    · rw [show plainEx 1 = txt "1e0" by decide +kernel]; exact ⟨narrow_of (by decide), by decide +kernel⟩
    · rw [show plainEx 3 = txt "3" by decide +kernel]; exact ⟨narrow_of (by decide), by decide +kernel⟩
  obtain ⟨t, m', h1, h2, h3, h4⟩ := C122_psd_readback 7 plainEx plainF (txt "sand") sieve1 sieveVal (by decide +kernel) (by unfold Filled; decide +kernel) (plain_txt _ (by decide))
    (by intro e he; simp only [sieve1, List.mem_singleton] at he; subst he; exact narrow_of (by decide))
    (by
      intro c hc
      simp only [sieve1, List.mem_cons, List.not_mem_nil, or_false] at hc
      rcases hc with rfl | rfl <;> exact w _ (by simp))
    (by
      intro e he x hx
      simp only [sieve1, List.mem_singleton] at he
      subst he
      simp only [List.mem_cons, List.not_mem_nil, or_false] at hx
      rcases hx with rfl | rfl
      · exact ⟨(w 1 (by simp)).1, _, rfl, (w 1 (by simp)).2⟩
      · exact ⟨(w 3 (by simp)).1, _, rfl, (w 3 (by simp)).2⟩)
  exact ⟨t, m', h1, h2, h3, (h4 _).trans rfl⟩

end Auxi.Printout.Props
