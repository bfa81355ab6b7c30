import Verif.XS.Glashow
import Mathlib.Analysis.SpecialFunctions.Integrals.Basic

/-!
# Property C68: the Glashow resonance
-/

namespace Verif.XS

/-- C68: for every positive incoming energy there is a total cross section `s`, not negative, and the differential cross section (per GeV) is an
integrable function of the outgoing energy, not negative, whose integral over all positive outgoing energies (in GeV) is the muonic branching
fraction times `s`. -/
theorem c68_normalised (k : Consts) (hk : k.Positive) (E1 : ℝ) (h : 0 < E1) :
    ∃ (s : ℝ) (g : ℝ → ℝ), glashowTotal k 0 .antineutrino .GR E1 = .ok s ∧ 0 ≤ s ∧
      (∀ E2, glashowSingle k 0 .antineutrino .GR E1 E2 = .ok (g E2)) ∧ (∀ E2, 0 ≤ g E2) ∧
      MeasureTheory.IntegrableOn g (Set.Ioi 0) ∧ (∫ E2 in Set.Ioi (0 : ℝ), g E2) / k.GeV = branching 1 * s := by
  have hG := hk.GeV
  have hres : ¬¬resonant 0 .antineutrino .GR := not_not.2 ⟨rfl, rfl, rfl⟩
  have hB : 0 < bMuon := by norm_num [bMuon]
  obtain ⟨s, hs, hs0⟩ : ∃ s, glashowTotal k 0 .antineutrino .GR E1 = .ok s ∧ 0 ≤ s := by
    refine ⟨_, by rw [glashowTotal, if_neg hres, if_neg h.ne'], ?_⟩
    have hf : 0 < k.fermiScale := by
      have := hk.GF
      have := hk.cm
      have := hk.me
      have := Real.pi_pos
      unfold Consts.fermiScale
      positivity
    positivity
  have hg : ∀ E2, glashowSingle k 0 .antineutrino .GR E1 E2 =
      .ok ((Set.Iic E1).indicator (fun E2 => bMuon * 3 * s * (E2 / E1 * (E2 / E1)) / E1 * k.GeV) E2) := by
    intro E2
    rw [glashowSingle, if_neg hres]
    by_cases hE : E2 > E1
    · rw [if_pos hE, Set.indicator_of_notMem (by simpa using hE)]
    · rw [if_neg hE, hs, Set.indicator_of_mem (by simpa using hE)]
      rfl
  have hint : MeasureTheory.IntegrableOn (fun E2 => bMuon * 3 * s * (E2 / E1 * (E2 / E1)) / E1 * k.GeV) (Set.Ioc 0 E1) := by
    refine MeasureTheory.IntegrableOn.mono_set (t := Set.Icc 0 E1) ?_ Set.Ioc_subset_Icc_self
    exact Continuous.integrableOn_Icc (by fun_prop)
  have hset : Set.Ioi (0 : ℝ) ∩ Set.Iic E1 = Set.Ioc 0 E1 := by
    ext x
    simp
  refine ⟨s, _, hs, hs0, hg, ?_, ?_, ?_⟩
  · intro E2
    refine Set.indicator_nonneg (fun x _ => ?_) E2
    have : 0 ≤ x / E1 * (x / E1) := mul_self_nonneg _
    positivity
  · rw [MeasureTheory.integrableOn_indicator_iff measurableSet_Iic, Set.inter_comm, hset]
    exact hint
  · rw [MeasureTheory.setIntegral_indicator measurableSet_Iic, hset, ← intervalIntegral.integral_of_le h.le]
    have e : (fun E2 => bMuon * 3 * s * (E2 / E1 * (E2 / E1)) / E1 * k.GeV) = fun E2 => bMuon * 3 * s / E1 ^ 3 * k.GeV * E2 ^ 2 := by
      funext E2
      field_simp
    rw [e, intervalIntegral.integral_const_mul, integral_pow]
    simp only [branching]
    field_simp
    norm_num
    ring

/-- C68: no outgoing energy above the incoming one. -/
theorem c68_zero_above (k : Consts) (f : Nat) (nt : NType) (c : Cur) (E1 E2 : ℝ) (h : E1 < E2) : glashowSingle k f nt c E1 E2 = .ok 0 := by
  unfold glashowSingle
  rw [if_pos h, ite_self]

/-- C68: zero for every other flavour, type or current, at all energies. -/
theorem c68_zero_other (k : Consts) (f : Nat) (nt : NType) (c : Cur) (h : f ≠ 0 ∨ nt ≠ .antineutrino ∨ c ≠ .GR) (E E' : ℝ) :
    glashowTotal k f nt c E = .ok 0 ∧ glashowSingle k f nt c E E' = .ok 0 := by
  have hn : ¬resonant f nt c := by
    rintro ⟨rfl, rfl, rfl⟩
    simp at h
  rw [glashowTotal, glashowSingle, if_pos hn, if_pos hn]
  exact ⟨rfl, rfl⟩

/-- The numbers returned as branching fractions are between 0 and 1; with the hadronic one they sum to 1.0013, more
than one. -/
theorem c68_branching : (∀ f, 0 ≤ branching f ∧ branching f < 1) ∧ branching 0 + branching 1 + branching 2 + bHadronic = 1.0013 := by
  constructor
  · intro f
    match f with
    | 0 => norm_num [branching, bElectron]
    | 1 => norm_num [branching, bMuon]
    | 2 => norm_num [branching, bTau]
    | _ + 3 => exact ⟨le_refl 0, one_pos⟩
  · norm_num [branching, bElectron, bMuon, bTau, bHadronic]

/-- Positive constants and an energy as in `c68_normalised`. -/
example : Consts.Positive ⟨1, 1, 1, 200, 10 ^ 9⟩ ∧ (0 : ℝ) < 6 * 10 ^ 15 :=
  ⟨⟨by norm_num, by norm_num, by norm_num, by norm_num, by norm_num⟩, by norm_num⟩

end Verif.XS
