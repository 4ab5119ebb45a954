import Verif.Props.ThermoMix

/-! # C149 for thermochemical packages: what was taken out can be put back

(`C60_commutes` and `C60_associates` are the other laws.) -/
namespace Auxi.Thermo.Laws
open Auxi Auxi.Thermo Auxi.Thermo.Spec Auxi.Thermo.Props

/-- **C149 (thermo, putting back).** A mass taken out of a package and added again, in either order, restores every compound's mass, the enthalpy and the pressure; with heat capacities that do not
depend on temperature it restores the temperature too. -/
theorem C149_thermo_rejoin (db : Db) (p : Package) (gp : Good db p) (x : ℝ) (h0 : 0 < x) (h1 : x < totalMass p) :
    ∃ part rest r s, p.extract db (.num true (some x)) = (.ok part, rest) ∧ rest.add db (.pkg part) = .ok r ∧ part.add db (.pkg rest) = .ok s ∧ r.mat = p.mat ∧ s.mat = p.mat ∧
      (∀ c, content r c = content p c) ∧ (∀ c, content s c = content p c) ∧ r.H = p.H ∧ s.H = p.H ∧ r.P = p.P ∧ s.P = p.P ∧ (Steady db p.mat → r.T = p.T ∧ s.T = p.T) := by
  have hpos := h0.trans h1
  obtain ⟨part, rest, e, hs, m1, m2, m3, m4⟩ := C61_mass db p gp.sound gp.nonneg gp.consistent gp.known x h0.le h1.le hpos
  obtain ⟨g1, g2⟩ := extractMass_good gp hpos h0.le e
  obtain ⟨s1, s2, s3, s4, s5, s6⟩ := hs
  obtain ⟨t, ht, hH⟩ := gp.consistent
  obtain ⟨a, b, ha, hb, hab⟩ := s6 _ hH
  obtain ⟨r, hr, r1, r2, r3, r4⟩ := C60_same db rest part g2.sound g1.sound (by rw [m1, s1]) g2.known
  obtain ⟨s, hs, u1, u2, u3, u4⟩ := C60_same db part rest g1.sound g2.sound (by rw [m1, s1]) g1.known
  have tm : 0 < totalMass rest := by
    have : totalMass p = totalMass rest + totalMass part := by
      unfold totalMass
      rw [m1, s1, ← List.sum_map_add]
      exact congrArg _ (List.map_congr_left fun c _ => (s2 c).symm)
    linarith
  refine ⟨part, rest, r, s, e, hr, hs, by rw [r1, s1], by rw [u1, m1], fun c => by rw [r2, s2], fun c => by rw [u2, add_comm, s2], ?_, ?_, by rw [r4, s5], by rw [u4, m2], fun st => ⟨?_, ?_⟩⟩
  · rw [r3 a b ha hb, hab, hH]
  · rw [u3 b a hb ha, add_comm b a, hab, hH]
  · obtain ⟨r', t', q1, q2, -, q4, q5⟩ := C63_mixture db rest part g2 g1 (by rw [m1, s1]) (by rw [s1]; exact st) tm (by rw [m4]; exact h0) t t (by rw [s3, ht]) (by rw [s4, ht])
    rw [hr] at q1
    cases q1
    rw [q2, ht, le_antisymm (q5.trans (max_self t).le) ((min_self t).ge.trans q4)]
  · obtain ⟨r', t', q1, q2, -, q4, q5⟩ := C63_mixture db part rest g1 g2 (by rw [m1, s1]) (by rw [m1]; exact st) (by rw [m4]; exact h0) tm t t (by rw [s4, ht]) (by rw [s3, ht])
    rw [hs] at q1
    cases q1
    rw [q2, ht, le_antisymm (q5.trans (max_self t).le) ((min_self t).ge.trans q4)]

/-- The hypotheses are met: 2 of 5 kg at 100 degrees, taken out and put back. -/
example : ∃ part rest r s, (pAB 100).extract db1 (.num true (some 2)) = (.ok part, rest) ∧ rest.add db1 (.pkg part) = .ok r ∧ part.add db1 (.pkg rest) = .ok s ∧ r.T = some 100 ∧ s.T = some 100 := by
  obtain ⟨part, rest, r, s, h1, h2, h3, -, -, -, -, -, -, -, -, h4⟩ := C149_thermo_rejoin db1 (pAB 100) (pAB_good 100) 2 two_pos (by rw [pAB_mass]; norm_num)
  obtain ⟨h5, h6⟩ := h4 mAB_steady
  exact ⟨part, rest, r, s, h1, h2, h3, h5, h6⟩

end Auxi.Thermo.Laws
