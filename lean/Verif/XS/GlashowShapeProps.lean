import Verif.XS.GlashowProps

/-!
# Property C80: shape of the Glashow resonance
-/

namespace Verif.XS

/-- The antineutrino energy at which muon production from an electron at rest becomes possible. -/
noncomputable def Consts.threshold (k : Consts) : ℝ := (k.mmu ^ 2 - k.me ^ 2) / (2 * k.me)

theorem Consts.fermiScale_pos (k : Consts) (hk : k.Positive) : 0 < k.fermiScale := by
  have := hk.GF
  have := hk.cm
  have := hk.me
  have := Real.pi_pos
  unfold Consts.fermiScale
  positivity

/-- The value in terms of the threshold. -/
theorem glashowTotal_eq (k : Consts) (hk : k.Positive) {E : ℝ} (h : 0 < E) :
    glashowTotal k 0 .antineutrino .GR E = .ok (2 * k.fermiScale * E * (1 - k.threshold / E) ^ 2 /
      ((1 - 2 * k.me * E / (k.MW * k.MW)) ^ 2 + (k.WTotal / k.MW) ^ 2) / bMuon / 3) := by
  have hm := hk.me
  rw [glashowTotal, if_neg (not_not.2 ⟨rfl, rfl, rfl⟩), if_neg h.ne']
  have e : (k.mmu * k.mmu - k.me * k.me) / (2 * k.me * E) = k.threshold / E := by
    unfold Consts.threshold
    rw [div_div, pow_two, pow_two]
  rw [e]

/-- C80: the total cross section is the Breit–Wigner one: with s = 2 m E the squared centre-of-mass energy, M and Γ the
mass and width of the W and B the muonic branching fraction,
σ · ((s − M²)² + M²Γ²) = (G_F/cm)² · m · 2 E · (1 − E_th/E)² · M⁴ / (3 π B).
Missing: that it is zero below the threshold (`c80_below_threshold_violated`). -/
theorem c80_breit_wigner_partial (k : Consts) (hk : k.Positive) (E : ℝ) (h : 0 < E) :
    ∃ σ, glashowTotal k 0 .antineutrino .GR E = .ok σ ∧
      σ * ((2 * k.me * E - (80.385 * k.GeV) ^ 2) ^ 2 + (80.385 * k.GeV) ^ 2 * (2.085 * k.GeV) ^ 2) =
        (k.GF / k.cm) ^ 2 * k.me * 2 * E * (1 - k.threshold / E) ^ 2 * (80.385 * k.GeV) ^ 4 / (3 * Real.pi * branching 1) := by
  refine ⟨_, glashowTotal_eq k hk h, ?_⟩
  have hG := hk.GeV
  have hpi := Real.pi_pos
  have hM : 0 < 80.385 * k.GeV := by positivity
  have hW : 0 < 2.085 * k.GeV := by positivity
  have hcm := hk.cm
  have hB : 0 < bMuon := by norm_num [bMuon]
  simp only [branching, Consts.fermiScale, Consts.MW, Consts.WTotal]
  generalize 80.385 * k.GeV = M at *
  generalize 2.085 * k.GeV = W at *
  generalize bMuon = B at *
  have hden : (1 - 2 * k.me * E / (M * M)) ^ 2 + (W / M) ^ 2 = ((2 * k.me * E - M ^ 2) ^ 2 + M ^ 2 * W ^ 2) / M ^ 4 := by
    field_simp
    ring
  rw [hden]
  have hne : (2 * k.me * E - M ^ 2) ^ 2 + M ^ 2 * W ^ 2 ≠ 0 := by positivity
  generalize (1 - k.threshold / E) ^ 2 = T
  field_simp

/-- C80: the outgoing energies, up to the incoming one, are distributed as their squares. -/
theorem c80_spectrum (k : Consts) (hk : k.Positive) (E1 E2 : ℝ) (h : 0 < E1) (h2 : E2 ≤ E1) :
    ∃ v top, glashowSingle k 0 .antineutrino .GR E1 E2 = .ok v ∧ glashowSingle k 0 .antineutrino .GR E1 E1 = .ok top ∧
      v * E1 ^ 2 = top * E2 ^ 2 := by
  have hres : ¬¬resonant 0 .antineutrino .GR := not_not.2 ⟨rfl, rfl, rfl⟩
  simp only [glashowSingle, if_neg hres, if_neg (not_lt.2 h2), if_neg (lt_irrefl E1), gt_iff_lt, glashowTotal_eq k hk h, Outcome.bind_ok]
  refine ⟨_, _, rfl, rfl, ?_⟩
  generalize 2 * k.fermiScale * E1 * (1 - k.threshold / E1) ^ 2 /
      ((1 - 2 * k.me * E1 / (k.MW * k.MW)) ^ 2 + (k.WTotal / k.MW) ^ 2) / bMuon / 3 = s
  field_simp

/-- C80: it vanishes at the threshold and nowhere else. -/
theorem c80_zero_iff (k : Consts) (hk : k.Positive) (E : ℝ) (h : 0 < E) :
    glashowTotal k 0 .antineutrino .GR E = .ok 0 ↔ E = k.threshold := by
  rw [glashowTotal_eq k hk h]
  have hfs := k.fermiScale_pos hk
  have hG := hk.GeV
  have hB : 0 < bMuon := by norm_num [bMuon]
  have hden : 0 < (1 - 2 * k.me * E / (k.MW * k.MW)) ^ 2 + (k.WTotal / k.MW) ^ 2 := by
    have : 0 < k.WTotal / k.MW := by unfold Consts.WTotal Consts.MW; positivity
    positivity
  constructor
  · intro h0
    have h0 := Outcome.ok.inj h0
    have h1 : (1 - k.threshold / E) ^ 2 = 0 := by
      have := h0
      rw [div_div, div_div, div_eq_zero_iff] at this
      rcases this with this | this
      · rcases mul_eq_zero.1 this with this | this
        · exact absurd this (by positivity)
        · exact this
      · exact absurd this (by positivity)
    have h2 := pow_eq_zero_iff (two_ne_zero) |>.1 h1
    have h3 : k.threshold / E = 1 := by linarith
    rw [div_eq_one_iff_eq h.ne'] at h3
    exact h3.symm
  · rintro he
    rw [← he, div_self h.ne']
    simp

/-- C80, violated: below the threshold, where the reaction is impossible, the total cross section is not zero: it is positive at every energy below
and exceeds every bound towards zero energy. -/
theorem c80_below_threshold_violated (k : Consts) (hk : k.Positive) (hmu : k.me < k.mmu) :
    (∀ E, 0 < E → E < k.threshold → ∃ σ, glashowTotal k 0 .antineutrino .GR E = .ok σ ∧ 0 < σ) ∧
    ∀ bound : ℝ, ∃ E σ, 0 < E ∧ E < k.threshold ∧ glashowTotal k 0 .antineutrino .GR E = .ok σ ∧ bound < σ := by
  have hfs := k.fermiScale_pos hk
  have hG := hk.GeV
  have hm := hk.me
  have hB : 0 < bMuon := by norm_num [bMuon]
  have hth : 0 < k.threshold := by
    unfold Consts.threshold
    have : k.me ^ 2 < k.mmu ^ 2 := pow_lt_pow_left₀ hmu hm.le two_ne_zero
    exact div_pos (sub_pos.2 this) (by positivity)
  have hWM : 0 < k.WTotal / k.MW := by unfold Consts.WTotal Consts.MW; positivity
  have hden : ∀ E, 0 < (1 - 2 * k.me * E / (k.MW * k.MW)) ^ 2 + (k.WTotal / k.MW) ^ 2 := fun E => by positivity
  refine ⟨fun E h0 h1 => ⟨_, glashowTotal_eq k hk h0, ?_⟩, fun bound => ?_⟩
  · have : 0 < (1 - k.threshold / E) ^ 2 := by
      have : 1 < k.threshold / E := by rw [lt_div_iff₀ h0]; linarith
      have : 1 - k.threshold / E ≠ 0 := by linarith
      positivity
    have := hden E
    positivity
  · -- at E ≤ threshold/2 and 2 m E ≤ M² the value is at least 2 fs (threshold/2)² / E / (1 + (W/M)²) / B / 3
    have hMW : 0 < k.MW := by unfold Consts.MW; positivity
    set C : ℝ := 2 * k.fermiScale * (k.threshold / 2) ^ 2 / (1 + (k.WTotal / k.MW) ^ 2) / bMuon / 3 with hC
    have hCpos : 0 < C := by positivity
    let b : ℝ := max bound 1
    have hb : 0 < b := lt_of_lt_of_le one_pos (le_max_right _ _)
    let E : ℝ := min (min (k.threshold / 2) (k.MW * k.MW / (2 * k.me))) (C / (2 * b))
    have hE : 0 < E := lt_min (lt_min (by positivity) (by positivity)) (by positivity)
    have hE1 : E ≤ k.threshold / 2 := (min_le_left _ _).trans (min_le_left _ _)
    have hE2 : E ≤ k.MW * k.MW / (2 * k.me) := (min_le_left _ _).trans (min_le_right _ _)
    have hE3 : E ≤ C / (2 * b) := min_le_right _ _
    refine ⟨E, _, hE, by linarith, glashowTotal_eq k hk hE, ?_⟩
    have hnum : (k.threshold / 2) ^ 2 ≤ E ^ 2 * (1 - k.threshold / E) ^ 2 := by
      have e : E ^ 2 * (1 - k.threshold / E) ^ 2 = (k.threshold - E) ^ 2 := by field_simp; ring
      rw [e]
      exact pow_le_pow_left₀ (by positivity) (by linarith) 2
    have hd : (1 - 2 * k.me * E / (k.MW * k.MW)) ^ 2 + (k.WTotal / k.MW) ^ 2 ≤ 1 + (k.WTotal / k.MW) ^ 2 := by
      have h1 : 2 * k.me * E / (k.MW * k.MW) ≤ 1 := by
        rw [div_le_one (by positivity)]
        rw [le_div_iff₀ (by positivity)] at hE2
        linarith
      have h0 : 0 ≤ 2 * k.me * E / (k.MW * k.MW) := by positivity
      have : (1 - 2 * k.me * E / (k.MW * k.MW)) ^ 2 ≤ 1 := by
        rw [sq_le_one_iff_abs_le_one, abs_le]
        constructor <;> linarith
      linarith
    have hlow : C / E ≤ 2 * k.fermiScale * E * (1 - k.threshold / E) ^ 2 /
        ((1 - 2 * k.me * E / (k.MW * k.MW)) ^ 2 + (k.WTotal / k.MW) ^ 2) / bMuon / 3 := by
      have e : C / E = 2 * k.fermiScale * ((k.threshold / 2) ^ 2 / E) / (1 + (k.WTotal / k.MW) ^ 2) / bMuon / 3 := by
        rw [hC]; field_simp
      have e' : 2 * k.fermiScale * E * (1 - k.threshold / E) ^ 2 = 2 * k.fermiScale * (E ^ 2 * (1 - k.threshold / E) ^ 2 / E) := by
        field_simp
      rw [e, e']
      refine div_le_div_of_nonneg_right (div_le_div_of_nonneg_right ?_ hB.le) (by norm_num)
      refine div_le_div₀ (by positivity) ?_ (hden E) hd
      refine mul_le_mul_of_nonneg_left ?_ (by positivity)
      exact div_le_div_of_nonneg_right hnum hE.le
    have hbig : 2 * b ≤ C / E := by
      rw [le_div_iff₀ (by positivity)] at hE3
      rw [le_div_iff₀ hE]
      linarith
    have : bound ≤ b := le_max_left _ _
    linarith

/-- Constants for which the threshold is between zero and a given energy. -/
example : Consts.Positive ⟨1, 1, 1, 200, 10 ^ 9⟩ ∧ (1 : ℝ) < 200 ∧ Consts.threshold ⟨1, 1, 1, 200, 10 ^ 9⟩ ≤ 6 * 10 ^ 15 :=
  ⟨⟨by norm_num, by norm_num, by norm_num, by norm_num, by norm_num⟩, by norm_num, by norm_num [Consts.threshold]⟩

end Verif.XS
