import Verif.XS.TauDecay
import Mathlib.Analysis.SpecialFunctions.Integrals.Basic

/-!
# Property C69: tau decay spectra
-/

namespace Verif.Tau

/-! ## Specification -/

/-- A spectrum in z = En/Et that is a probability density for the outgoing energy: not negative for energies from 0 to the tau energy, and with
integral one over them. -/
def Normalised (f : ℝ → ℝ → ℝ) : Prop :=
  ∀ Et, 0 < Et → (∀ En, 0 ≤ En → En ≤ Et → 0 ≤ f Et En) ∧ IntervalIntegrable (fun En => f Et En / Et) MeasureTheory.volume 0 Et ∧
    ∫ En in (0 : ℝ)..Et, f Et En / Et = 1

/-! ## Lemmas -/

/-- A function of z that is a density on [0,1]. -/
def Unit (g : ℝ → ℝ) : Prop :=
  (∀ z, 0 ≤ z → z ≤ 1 → 0 ≤ g z) ∧ IntervalIntegrable g MeasureTheory.volume 0 1 ∧ ∫ z in (0 : ℝ)..1, g z = 1

theorem normalised_of_unit {f : ℝ → ℝ → ℝ} {g : ℝ → ℝ} (h : ∀ Et En, 0 < Et → f Et En = g (En / Et)) (hg : Unit g) : Normalised f := by
  intro Et hE
  obtain ⟨h1, h2, h3⟩ := hg
  have e : (fun En => f Et En / Et) = fun En => Et⁻¹ * g (En / Et) := by
    funext En
    rw [h Et En hE, div_eq_inv_mul]
  refine ⟨fun En h0 hle => ?_, ?_, ?_⟩
  · rw [h Et En hE]
    exact h1 _ (div_nonneg h0 hE.le) ((div_le_one hE).2 hle)
  · rw [e]
    have := (h2.comp_mul_right (c := Et⁻¹)).const_mul Et⁻¹
    simpa [div_eq_mul_inv] using this
  · rw [e, intervalIntegral.integral_const_mul, intervalIntegral.integral_comp_div g hE.ne', zero_div, div_self hE.ne', h3]
    simp [hE.ne']

/-- A function that is `p` below `c` and zero from `c` on. -/
theorem unit_cut {p : ℝ → ℝ} {c : ℝ} (h0 : 0 < c) (h1 : c ≤ 1) (hp : Continuous p) (hn : ∀ z, 0 ≤ z → z < c → 0 ≤ p z)
    (hi : ∫ z in (0 : ℝ)..c, p z = 1) : Unit fun z => if c - z > 0 then p z else 0 := by
  have e1 : Set.EqOn p (fun z => if c - z > 0 then p z else 0) (Set.Ioo 0 c) := by
    intro z hz
    have : c - z > 0 := by linarith [hz.2]
    simp only [this, if_true]
  have e2 : Set.EqOn (fun _ => (0 : ℝ)) (fun z => if c - z > 0 then p z else 0) (Set.Ioo c 1) := by
    intro z hz
    have : ¬(c - z > 0) := by linarith [hz.1]
    simp only [this, if_false]
  have i1 : IntervalIntegrable (fun z => if c - z > 0 then p z else 0) MeasureTheory.volume 0 c := by
    refine (hp.intervalIntegrable 0 c).congr_uIoo ?_
    rw [Set.uIoo_of_le h0.le]
    exact e1
  have i2 : IntervalIntegrable (fun z => if c - z > 0 then p z else 0) MeasureTheory.volume c 1 := by
    refine (continuous_const.intervalIntegrable (μ := MeasureTheory.volume) (u := fun _ => (0 : ℝ)) c 1).congr_uIoo ?_
    rw [Set.uIoo_of_le h1]
    exact e2
  refine ⟨?_, i1.trans i2, ?_⟩
  · intro z hz _
    dsimp only
    split
    · exact hn z hz (by linarith)
    · exact le_refl 0
  · rw [← intervalIntegral.integral_add_adjacent_intervals i1 i2, ← intervalIntegral.integral_congr_Ioo_of_le h0.le e1,
      ← intervalIntegral.integral_congr_Ioo_of_le h1 e2, hi]
    simp

theorem integral_affine (a b c : ℝ) : ∫ z in (0 : ℝ)..c, (a + b * z) = a * c + b * (c ^ 2 / 2) := by
  have h1 : IntervalIntegrable (fun _ : ℝ => a) MeasureTheory.volume 0 c := continuous_const.intervalIntegrable _ _
  have h2 : IntervalIntegrable (fun z : ℝ => b * z) MeasureTheory.volume 0 c := (continuous_const.mul continuous_id).intervalIntegrable _ _
  rw [intervalIntegral.integral_add h1 h2, intervalIntegral.integral_const_mul, intervalIntegral.integral_const, integral_id]
  simp
  ring

/-! ## Channels -/

/-- C69 for leptons. -/
theorem c69_lepton : Normalised (toLepton params) := by
  refine normalised_of_unit (g := fun z => 4 / 3 - 4 / 3 * z ^ 3) ?_ ⟨?_, ?_, ?_⟩
  · intro Et En _
    simp only [toLepton, params, show (5.0 : ℝ) = 5 by norm_num, show (3.0 : ℝ) = 3 by norm_num, show (4.0 : ℝ) = 4 by norm_num,
      show (8.0 : ℝ) = 8 by norm_num, show (1.0 : ℝ) = 1 by norm_num]
    ring
  · intro z h0 h1
    have : z ^ 3 ≤ 1 := pow_le_one₀ h0 h1
    dsimp only
    linarith
  · exact (by fun_prop : Continuous fun z : ℝ => 4 / 3 - 4 / 3 * z ^ 3).intervalIntegrable _ _
  · have h1 : IntervalIntegrable (fun _ : ℝ => (4 / 3 : ℝ)) MeasureTheory.volume 0 1 := continuous_const.intervalIntegrable _ _
    have h2 : IntervalIntegrable (fun z : ℝ => 4 / 3 * z ^ 3) MeasureTheory.volume 0 1 :=
      (by fun_prop : Continuous fun z : ℝ => 4 / 3 * z ^ 3).intervalIntegrable _ _
    rw [intervalIntegral.integral_sub h1 h2, intervalIntegral.integral_const_mul, intervalIntegral.integral_const, integral_pow]
    norm_num

/-- C69 for pions, with any mass ratio R between 0 and 1. -/
theorem c69_pion (p : Params) (hp : p.polarization = -1) (h0 : 0 ≤ p.RPion) (h1 : p.RPion < 1) : Normalised (toPion p) := by
  have hc : 0 < 1 - p.RPion := by linarith
  refine normalised_of_unit (g := fun z => if 1 - p.RPion - z > 0 then 0 + 2 / (1 - p.RPion) ^ 2 * z else 0) ?_
    (unit_cut hc (by linarith) (by fun_prop) (fun z hz _ => ?_) ?_)
  · intro Et En _
    simp only [toPion, hp]
    norm_num only [show (1.0 : ℝ) = 1 by norm_num, show (2.0 : ℝ) = 2 by norm_num]
    by_cases h : 1 - p.RPion - En / Et > 0
    · simp only [h, if_true]
      field_simp
      ring
    · simp only [h, if_false]
      ring
  · have : 0 ≤ 2 / (1 - p.RPion) ^ 2 := by positivity
    rw [zero_add]
    exact mul_nonneg this hz
  · rw [integral_affine]
    field_simp
    ring

/-- The slope of the spectrum of a meson must not exceed its mean. -/
theorem meson (P R : ℝ) (hP : P = -1) (h0 : 0 ≤ R) (h1 : R < 1) : Normalised (toMeson P R) := by
  have hc : 0 < 1 - R := by linarith
  have hd : 0 < 1 + 2 * R := by linarith
  have hk : -1 ≤ (1 - 2 * R) / (1 + 2 * R) ∧ (1 - 2 * R) / (1 + 2 * R) ≤ 1 := by
    constructor
    · rw [le_div_iff₀ hd]
      linarith
    · rw [div_le_one hd]
      linarith
  generalize hkd : (1 - 2 * R) / (1 + 2 * R) = k at hk
  refine normalised_of_unit (g := fun z => if 1 - R - z > 0 then 1 / (1 - R) - k + 2 / (1 - R) * k * z else 0) ?_
    (unit_cut hc (by linarith) (by fun_prop) (fun z hz hz' => ?_) ?_)
  · intro Et En _
    simp only [toMeson, hP]
    norm_num only [show (1.0 : ℝ) = 1 by norm_num, show (2.0 : ℝ) = 2 by norm_num]
    rw [hkd]
    by_cases h : 1 - R - En / Et > 0
    · simp only [h, if_true]
      field_simp
      ring
    · simp only [h, if_false]
      ring
  · have e : 1 / (1 - R) - k + 2 / (1 - R) * k * z = (1 + k * (2 * z - (1 - R))) / (1 - R) := by
      field_simp
      ring
    rw [e]
    refine div_nonneg ?_ hc.le
    have b1 : -1 ≤ 2 * z - (1 - R) := by linarith
    have b2 : 2 * z - (1 - R) ≤ 1 := by linarith
    nlinarith [hk.1, hk.2]
  · rw [integral_affine]
    field_simp
    ring

/-- C69 for rho mesons. -/
theorem c69_rho : Normalised (toRho params) := meson _ _ rfl (by norm_num [params]) (by norm_num [params])

/-- C69 for A1 mesons. -/
theorem c69_a1 : Normalised (toA1 params) := meson _ _ rfl (by norm_num [params]) (by norm_num [params])

/-- C69 for other hadrons. -/
theorem c69_hadron (p : Params) : Normalised (toHadron p) := by
  refine normalised_of_unit (g := fun z => if (3 / 10 : ℝ) - z > 0 then 10 / 3 + 0 * z else 0) ?_
    (unit_cut (by norm_num) (by norm_num) (by fun_prop) (fun z _ _ => by norm_num) ?_)
  · intro Et En _
    simp only [toHadron, show (0.3 : ℝ) = 3 / 10 by norm_num, show (1.0 : ℝ) = 1 by norm_num]
    by_cases h : (3 / 10 : ℝ) - En / Et > 0
    · simp only [h, if_true]
      ring
    · simp only [h, if_false]
      ring
  · rw [integral_affine]
    norm_num

/-! ## All channels -/

/-- The branching ratios (two leptons) are not negative and sum to one. -/
theorem c69_branching : 2 * params.BrLepton + params.BrPion + params.BrRho + params.BrRA1 + params.BrHadron = 1 ∧
    0 ≤ params.BrLepton ∧ 0 ≤ params.BrPion ∧ 0 ≤ params.BrRho ∧ 0 ≤ params.BrRA1 ∧ 0 ≤ params.BrHadron := by
  norm_num [params]

/-- C69 for the sum over all channels. -/
theorem c69_all : Normalised (toAll params) := by
  intro Et hE
  obtain ⟨l1, l2, l3⟩ := c69_lepton Et hE
  obtain ⟨p1, p2, p3⟩ := c69_pion params rfl (by norm_num [params]) (by norm_num [params]) Et hE
  obtain ⟨r1, r2, r3⟩ := c69_rho Et hE
  obtain ⟨a1, a2, a3⟩ := c69_a1 Et hE
  obtain ⟨h1, h2, h3⟩ := c69_hadron params Et hE
  obtain ⟨hs, b1, b2, b3, b4, b5⟩ := c69_branching
  have e : (fun En => toAll params Et En / Et) = fun En => 2 * params.BrLepton * (toLepton params Et En / Et) +
      params.BrPion * (toPion params Et En / Et) + params.BrRho * (toRho params Et En / Et) + params.BrRA1 * (toA1 params Et En / Et) +
      params.BrHadron * (toHadron params Et En / Et) := by
    funext En
    unfold toAll
    rw [show (2.0 : ℝ) = 2 by norm_num]
    ring
  have i1 := l2.const_mul (2 * params.BrLepton)
  have i2 := p2.const_mul params.BrPion
  have i3 := r2.const_mul params.BrRho
  have i4 := a2.const_mul params.BrRA1
  have i5 := h2.const_mul params.BrHadron
  refine ⟨fun En h0 hle => ?_, ?_, ?_⟩
  · unfold toAll
    have q1 := mul_nonneg b1 (l1 En h0 hle)
    have q2 := mul_nonneg b2 (p1 En h0 hle)
    have q3 := mul_nonneg b3 (r1 En h0 hle)
    have q4 := mul_nonneg b4 (a1 En h0 hle)
    have q5 := mul_nonneg b5 (h1 En h0 hle)
    norm_num only [show (2.0 : ℝ) = 2 by norm_num]
    linarith
  · rw [e]
    exact (((i1.add i2).add i3).add i4).add i5
  · rw [e, intervalIntegral.integral_add (((i1.add i2).add i3).add i4) i5, intervalIntegral.integral_add ((i1.add i2).add i3) i4,
      intervalIntegral.integral_add (i1.add i2) i3, intervalIntegral.integral_add i1 i2, intervalIntegral.integral_const_mul,
      intervalIntegral.integral_const_mul, intervalIntegral.integral_const_mul, intervalIntegral.integral_const_mul,
      intervalIntegral.integral_const_mul, l3, p3, r3, a3, h3]
    linarith

/-! ## Above the tau energy -/

/-- C69 for energies from the tau energy on: all channels but the leptons vanish. -/
theorem c69_above_partial (Et En : ℝ) (h : 0 < Et) (hE : Et ≤ En) :
    toPion params Et En = 0 ∧ toRho params Et En = 0 ∧ toA1 params Et En = 0 ∧ toHadron params Et En = 0 := by
  have hz : 1 ≤ En / Et := (one_le_div h).2 hE
  have cut : ∀ R : ℝ, 0 ≤ R → ¬((1.0 : ℝ) - R - En / Et > 0) := by
    intro R hR
    norm_num only [show (1.0 : ℝ) = 1 by norm_num]
    linarith
  have c1 := cut params.RPion (by norm_num [params])
  have c2 := cut params.RRho (by norm_num [params])
  have c3 := cut params.RA1 (by norm_num [params])
  have c4 : ¬((0.3 : ℝ) - En / Et > 0) := by norm_num; linarith
  refine ⟨?_, ?_, ?_, ?_⟩
  · simp only [toPion, c1, if_false]; ring
  · simp only [toRho, toMeson, c2, if_false]; ring
  · simp only [toA1, toMeson, c3, if_false]; ring
  · simp only [toHadron, c4, if_false]; ring

/-- C69 fails above the tau energy: the leptonic spectrum is negative there, and so is the sum over all channels, for every tau energy and every
outgoing energy above it. -/
theorem c69_above_violated (Et En : ℝ) (h : 0 < Et) (hE : Et < En) : toLepton params Et En < 0 ∧ toAll params Et En < 0 := by
  obtain ⟨e1, e2, e3, e4⟩ := c69_above_partial Et En h hE.le
  have hz : 1 < En / Et := (one_lt_div h).2 hE
  have h3 : 1 < (En / Et) ^ 3 := one_lt_pow₀ hz (by norm_num)
  have hl : toLepton params Et En = 4 / 3 - 4 / 3 * (En / Et) ^ 3 := by
    simp only [toLepton, params, show (5.0 : ℝ) = 5 by norm_num, show (3.0 : ℝ) = 3 by norm_num, show (4.0 : ℝ) = 4 by norm_num,
      show (8.0 : ℝ) = 8 by norm_num, show (1.0 : ℝ) = 1 by norm_num]
    ring
  refine ⟨by rw [hl]; linarith, ?_⟩
  unfold toAll
  rw [e1, e2, e3, e4, hl]
  norm_num [params]
  linarith

/-! ## Tables -/

/-- The tables: each accessor answers for exactly the energy indices of the table and returns the spectrum per unit of outgoing energy (in 1/GeV)
for the tau energy i and the outgoing energy j; the lepton tables are those of one lepton. -/
theorem c69_tables (E : List ℝ) (i j nt : Nat) (hnt : nt < 2) :
    (E.length ≤ i ∨ E.length ≤ j → (init E).dNdEnuAll i j nt = .throws ∧ (init E).dNdEnuLep i j nt = .throws ∧
      (init E).dNdEleAll i j nt = .throws ∧ (init E).dNdEleLep i j nt = .throws) ∧
    ∀ a b, E[i]? = some a → E[j]? = some b → 0 < a →
      (init E).dNdEnuAll i j nt = .ok (toAll params a b / (a / 10 ^ 9)) ∧
      (init E).dNdEnuLep i j nt = .ok (0.18 * toLepton params a b / (a / 10 ^ 9)) ∧
      (init E).dNdEleAll i j nt = .ok (toAll params a b / (a / 10 ^ 9) * (b / a)) ∧
      (init E).dNdEleLep i j nt = .ok (0.18 * toLepton params a b / (a / 10 ^ 9) * (b / a)) := by
  constructor
  · intro h
    have : i ≥ (init E).ne ∨ j ≥ (init E).ne := h
    simp only [Tables.dNdEnuAll, Tables.dNdEnuLep, Tables.dNdEleAll, Tables.dNdEleLep, access, if_pos this, and_self]
  · intro a b ha hb hpos
    obtain ⟨hi, -⟩ := List.getElem?_eq_some_iff.1 ha
    obtain ⟨hj, -⟩ := List.getElem?_eq_some_iff.1 hb
    have hn : ¬(i ≥ (init E).ne ∨ j ≥ (init E).ne) := by
      have : (init E).ne = E.length := rfl
      omega
    have ga : E.getD i 0 = a := by rw [List.getD_eq_getElem?_getD, ha]; rfl
    have gb : E.getD j 0 = b := by rw [List.getD_eq_getElem?_getD, hb]; rfl
    have hr : b / 10 ^ 9 / (a / 10 ^ 9) = b / a := div_div_div_cancel_right₀ (by norm_num) _ _
    have hl : toLepton params (a / 10 ^ 9) (b / 10 ^ 9) = toLepton params a b := by simp only [toLepton, hr]
    have hall : toAll params (a / 10 ^ 9) (b / 10 ^ 9) = toAll params a b := by
      simp only [toAll, hl, toPion, toRho, toA1, toMeson, toHadron, hr]
    simp only [Tables.dNdEnuAll, Tables.dNdEnuLep, Tables.dNdEleAll, Tables.dNdEleLep, access, if_neg hn, if_pos hnt]
    simp only [init, ga, gb, hl, hall, show params.BrLepton = 0.18 from rfl]
    refine ⟨trivial, trivial, ?_, ?_⟩
    · congr 1
      field_simp
    · congr 1
      field_simp

/-- The type is not tested: a type that does not exist reads outside the tables. -/
theorem c69_type_unchecked (E : List ℝ) (i j nt : Nat) (hi : i < E.length) (hj : j < E.length) (hnt : 2 ≤ nt) : (init E).dNdEnuAll i j nt = .ub := by
  have hn : ¬(i ≥ (init E).ne ∨ j ≥ (init E).ne) := by
    have : (init E).ne = E.length := rfl
    omega
  unfold Tables.dNdEnuAll access
  rw [if_neg hn, if_neg (by omega)]

/-- Two energies of a grid, as in `c69_tables`; and the mass ratios in use, as in `c69_pion`. -/
example : ([10 ^ 9, 10 ^ 10] : List ℝ)[1]? = some (10 ^ 10) ∧ (0 : ℝ) < 10 ^ 10 ∧ params.polarization = -1 ∧ 0 ≤ params.RPion ∧ params.RPion < 1 :=
  ⟨rfl, by norm_num, rfl, by norm_num [params], by norm_num [params]⟩

end Verif.Tau
