import Mathlib.Tactic.Ring
import Mathlib.Tactic.FieldSimp
import Mathlib.Tactic.Linarith
import Mathlib.Tactic.Positivity
import Mathlib.Tactic.Abel
import Mathlib.Tactic.Module
import Mathlib.Tactic.NormNum
import Mathlib.Algebra.Order.Field.Rat
import Mathlib.Algebra.BigOperators.Intervals
import Verif.Interact.Matter

namespace Verif.Matter

variable {K : Type} [Field K] [LinearOrder K] [IsStrictOrderedRing K]

/-- C51: with proton and neutron targets the number densities account for the mass density and have the given electron fraction, for
every electron fraction from 0 to 1, are non-negative for non-negative density, and the target fractions are non-negative, sum to one and
are the shares of the densities. -/
theorem c51_composition (p : Consts K) (rho ye : K) (hme : 0 ≤ p.me) (hmp : 0 < p.mp) (hmn : 0 < p.mn) (h0 : 0 ≤ ye) (h1 : ye ≤ 1)
    (hd : 0 ≤ p.gr * p.cm3 * rho) :
    ∃ np nn, densities p .protonNeutron rho ye = [np, nn] ∧ (p.me + p.mp) * np + p.mn * nn = p.gr * p.cm3 * rho ∧ np = ye * (np + nn) ∧
      0 ≤ np ∧ 0 ≤ nn ∧
      fractions .protonNeutron ye = [ye, 1 - ye] ∧ 0 ≤ ye ∧ 0 ≤ 1 - ye ∧ ye + (1 - ye) = 1 ∧
      np = ye * (np + nn) ∧ nn = (1 - ye) * (np + nn) := by
  unfold densities fractions
  dsimp only
  by_cases hy : ye = 0
  · rw [if_pos hy]
    refine ⟨_, _, rfl, ?_, ?_, le_refl _, by positivity, rfl, h0, by linarith, by ring, ?_, ?_⟩
    · field_simp; ring
    · rw [hy]; ring
    · rw [hy]; ring
    · rw [hy]; ring
  · rw [if_neg hy]
    have hy' : 0 < ye := lt_of_le_of_ne h0 (Ne.symm hy)
    have h1' : 0 ≤ 1 - ye := by linarith
    have hden : 0 < p.me + p.mp + p.mn * ((1 - ye) / ye) := by positivity
    set D := p.me + p.mp + p.mn * ((1 - ye) / ye) with hD
    have hDy : D * ye = (p.me + p.mp) * ye + p.mn * (1 - ye) := by rw [hD]; field_simp
    have e1 : p.gr * p.cm3 * rho / D = ye * (p.gr * p.cm3 * rho / D + (1 - ye) * (p.gr * p.cm3 * rho / D) / ye) := by
      field_simp; ring
    refine ⟨_, _, rfl, ?_, e1, by positivity, by positivity, rfl, h0, by linarith, by ring, e1, ?_⟩
    · have : (p.me + p.mp) * (p.gr * p.cm3 * rho / D) + p.mn * ((1 - ye) * (p.gr * p.cm3 * rho / D) / ye) =
          (p.gr * p.cm3 * rho / D) * (D * ye) / ye := by
        rw [hDy]; field_simp
      rw [this]; field_simp
    · field_simp; ring

/-- Rock: half protons. -/
example : densities (⟨1, 1, 1, 2, 3, 6⟩ : Consts ℚ) .protonNeutron 6 (1 / 2) = [1, 1] ∧
    densities (⟨1, 1, 1, 2, 3, 6⟩ : Consts ℚ) .protonNeutron 6 0 = [0, 2] ∧
    densities (⟨1, 1, 1, 2, 3, 6⟩ : Consts ℚ) .protonNeutron 6 1 = [2, 0] := by
  refine ⟨?_, ?_, ?_⟩ <;> norm_num [densities]

/-- C72, partial: with isoscalar targets the number of nucleons times half the mass of an electron, a proton and a neutron is the mass
density, unless the number is below 1e-10 in natural units. Missing: thinner matter (`c72_vacuum_violated`). -/
theorem c72_isoscalar_partial (p : Consts K) (rho ye : K) (hm : 0 < p.me + p.mp + p.mn)
    (hth : 1 / 10 ^ 10 * (p.me + p.mp + p.mn) ≤ p.gr * p.cm3 * rho * 2) :
    ∃ n, densities p .isoscalar rho ye = [n] ∧ n * ((p.me + p.mp + p.mn) / 2) = p.gr * p.cm3 * rho ∧ fractions .isoscalar ye = [1] := by
  unfold densities fractions
  dsimp only
  have : ¬p.gr * p.cm3 * rho * 2 / (p.me + p.mp + p.mn) < 1 / 10 ^ 10 := by
    rw [not_lt, le_div_iff₀ hm]; exact hth
  rw [if_neg this]
  refine ⟨_, rfl, ?_, rfl⟩
  field_simp

example : densities (⟨1, 1, 1, 2, 3, 6⟩ : Consts ℚ) .isoscalar 6 (1 / 2) = [2] := by norm_num [densities]

/-- C72, disagreement: in vacuum there are nucleons: any density below the threshold, zero included, gives the same positive number
`Na cm^-3 1e-10`; and with realistic units (a nucleon number below 1e-10 being far less than that constant) a thinner medium has more
targets than a thicker one. -/
theorem c72_vacuum_violated (p : Consts K) (hn : 1 < p.na * p.cm3) :
    (∀ ye, ∃ n, densities p .isoscalar 0 ye = [n] ∧ 0 < n) ∧
    (∀ rho ye, p.gr * p.cm3 * rho * 2 / (p.me + p.mp + p.mn) = 1 / 10 ^ 10 →
      ∃ n0 n, densities p .isoscalar 0 ye = [n0] ∧ densities p .isoscalar rho ye = [n] ∧ n < n0) := by
  have hz : ∀ ye, densities p .isoscalar 0 ye = [p.na * p.cm3 * (1 / 10 ^ 10)] := by
    intro ye
    unfold densities
    dsimp only
    rw [if_pos]
    simp
  have hpos : (0 : K) < 1 / 10 ^ 10 := by positivity
  refine ⟨fun ye => ⟨_, hz ye, mul_pos (by linarith) hpos⟩, ?_⟩
  intro rho ye h
  refine ⟨_, 1 / 10 ^ 10, hz ye, ?_, ?_⟩
  · unfold densities
    dsimp only
    rw [h, if_neg (lt_irrefl _)]
  · calc (1 : K) / 10 ^ 10 = 1 * (1 / 10 ^ 10) := by ring
      _ < p.na * p.cm3 * (1 / 10 ^ 10) := mul_lt_mul_of_pos_right hn hpos

example : (1 : ℚ) < (⟨1, 1, 1, 2, 3, 6⟩ : Consts ℚ).na * (⟨1, 1, 1, 2, 3, 6⟩ : Consts ℚ).cm3 ∧
    (1 : ℚ) * 1 * (3 / 10 ^ 10) * 2 / (1 + 2 + 3) = 1 / 10 ^ 10 := by norm_num

variable {V : Type} [AddCommGroup V] [Module K V]

omit [LinearOrder K] [IsStrictOrderedRing K] in
theorem matterTerm_three (c rho ye : K) (isAnti : Bool) (n : Nat) (hn : 3 ≤ n) (proj : Nat → V) :
    matterTerm c rho ye isAnti n proj =
      ((if isAnti then -1 else 1) * (c * rho * (ye - (1 - ye) / 2))) • proj 0 +
      ((if isAnti then -1 else 1) * (c * rho * (-(1 - ye) / 2))) • proj 1 +
      ((if isAnti then -1 else 1) * (c * rho * (-(1 - ye) / 2))) • proj 2 := by
  unfold matterTerm
  obtain ⟨m, rfl⟩ := Nat.exists_eq_add_of_le hn
  rw [Finset.sum_range_add]
  have hz : ∑ x ∈ Finset.range m, ((if isAnti then -1 else 1) * flavourPotential c rho ye (3 + x)) • proj (3 + x) = 0 := by
    apply Finset.sum_eq_zero
    intro x _
    have : flavourPotential c rho ye (3 + x) = 0 := by
      unfold flavourPotential
      rw [if_neg (by omega), if_neg (by omega)]
    rw [this, mul_zero, zero_smul]
  rw [hz, add_zero, Finset.sum_range_succ, Finset.sum_range_succ, Finset.sum_range_succ, Finset.sum_range_zero, zero_add]
  simp [flavourPotential]

theorem hi_term (c rho ye : K) (hye : 1 / 10 ^ 10 ≤ ye) (nt : NT) (irho n : Nat) (hn : 3 ≤ n) (proj : Nat → V) (h : V) (basis : Basis) :
    hi c rho ye nt basis irho proj h =
      if basis = .mass then matterTerm c rho ye (anti nt irho) n proj + h else matterTerm c rho ye (anti nt irho) n proj := by
  have hpos : (0 : K) < ye := lt_of_lt_of_le (by positivity) hye
  have key : ((potentials c rho ye (anti nt irho)).1 + (potentials c rho ye (anti nt irho)).2) • proj 0 +
      (potentials c rho ye (anti nt irho)).2 • proj 1 + (potentials c rho ye (anti nt irho)).2 • proj 2 =
      matterTerm c rho ye (anti nt irho) n proj := by
    rw [matterTerm_three c rho ye _ n hn]
    have hnc : c * rho * ye * (-(1 / 2) * (1 - ye) / ye) = c * rho * (-(1 - ye) / 2) := by field_simp
    unfold potentials
    dsimp only
    rw [if_neg (not_lt.2 hye), hnc]
    cases anti nt irho
    · simp only [Bool.false_eq_true, if_false, one_mul]
      congr 3
      ring
    · simp only [if_true]
      congr 1
      · congr 1
        · congr 1; ring
        · congr 1; ring
      · congr 1; ring
  unfold hi
  dsimp only
  rw [key]

/-- C52, partial: for every density, flavour count of three or more, mode and particle type, and every electron fraction of at least
1e-10, the potential is that of the statement. Missing: smaller electron fractions (`c52_neutron_matter_violated`). -/
theorem c52_potential_partial (c rho ye : K) (hye : 1 / 10 ^ 10 ≤ ye) (nt : NT) (irho n : Nat) (hn : 3 ≤ n) (proj : Nat → V) (h : V) :
    hi c rho ye nt .interaction irho proj h =
      matterTerm c rho ye (decide (nt = .antineutrino ∨ (nt = .both ∧ irho = 1))) n proj := by
  rw [hi_term c rho ye hye nt irho n hn, if_neg (by simp)]
  congr 1
  unfold anti
  cases nt <;> simp

example : hi (1 : ℚ) 3 (1 / 2) .both .interaction 1 (fun f => if f = 0 then (1 : ℚ) else 0) 0 = -(3 / 4) ∧
    hi (1 : ℚ) 3 (1 / 2) .both .interaction 0 (fun f => if f = 1 then (1 : ℚ) else 0) 0 = -(3 / 4) := by
  decide +kernel

/-- C52, disagreement: in matter without electrons the potential of every active flavour has the wrong sign and twice the size. -/
theorem c52_neutron_matter_violated (c rho : K) (n : Nat) (hn : 3 ≤ n) (proj : Nat → V) :
    hi c rho 0 .neutrino .interaction 0 proj (0 : V) = (-2 : K) • matterTerm c rho 0 false n proj ∧
    (c * rho ≠ 0 → proj 0 + proj 1 + proj 2 ≠ 0 →
      hi c rho 0 .neutrino .interaction 0 proj (0 : V) ≠ matterTerm c rho 0 false n proj) := by
  have h2 : hi c rho 0 .neutrino .interaction 0 proj (0 : V) = (c * rho) • (proj 0 + proj 1 + proj 2) := by
    have : (0 : K) < 1 / 10 ^ 10 := by positivity
    simp only [hi, potentials, anti, this, if_true]
    simp [smul_add]
  have h1 : matterTerm c rho 0 false n proj = (-(c * rho) / 2) • (proj 0 + proj 1 + proj 2) := by
    rw [matterTerm_three c rho 0 false n hn]
    simp only [Bool.false_eq_true, if_false, one_mul, smul_add]
    have e1 : c * rho * (0 - (1 - 0) / 2) = -(c * rho) / 2 := by ring
    have e2 : c * rho * (-(1 - 0) / 2) = -(c * rho) / 2 := by ring
    rw [e1, e2]
  have hrel : (-2 : K) * (-(c * rho) / 2) = c * rho := by ring
  refine ⟨by rw [h2, h1, smul_smul, hrel], ?_⟩
  intro hcr hp he
  rw [h2, h1, ← sub_eq_zero, ← sub_smul] at he
  have : (c * rho - -(c * rho) / 2) = 3 / 2 * (c * rho) := by ring
  rw [this, smul_eq_zero] at he
  rcases he with he | he
  · have : (3 / 2 : K) ≠ 0 := by norm_num
    exact mul_ne_zero this hcr he
  · exact hp he

example : (1 : ℚ) * 3 ≠ 0 ∧ ((fun _ => 1 : Nat → ℚ) 0 + (fun _ => 1 : Nat → ℚ) 1 + (fun _ => 1 : Nat → ℚ) 2) ≠ 0 := by norm_num

/-- The vacuum Hamiltonian of a node: half the mass-squared matrix over the energy; none if oscillations are off. -/
def vacuumTerm (w : World K V) (ei : Nat) : V := if w.osc then (1 / (2 * w.e ei)) • w.dm2 else 0

/-- The projectors of the working basis: fixed in the mass basis or without oscillations, rotated by the vacuum Hamiltonian over the time
elapsed in the interaction picture. -/
def workingProjector (w : World K V) (irho ei f : Nat) : V :=
  match w.basis, w.osc with
  | .interaction, true => w.rotate ei (w.t - w.tIni) (w.b1 irho f)
  | _, _ => w.evol irho f ei

/-- C53, partial: outside the mass basis (or without oscillations, `H0_array` being what `iniH0` fills in), with a body, a track whose
clock offset is known, interaction tables ready if needed and an electron fraction of at least 1e-10 at the position,
`GetHamiltonian` is the vacuum term plus the matter term at the track position; without energies it throws. Missing: the mass basis
(`c53_mass_basis_violated`), smaller electron fractions (C52), and missing body, track or tables
(`c53_unready_violated`). -/
theorem c53_hamiltonian_partial (w : World K V) (ei irho n : Nat) (hn : 3 ≤ n) :
    (w.energies = false → getHamiltonian w ei irho = .throws) ∧
    (∀ b off, w.energies = true → w.body = some b → w.track = true → w.offset = some off → (w.iint = true → w.ready = true) →
      1 / 10 ^ 10 ≤ (b (w.t - off)).2 → (∀ e, w.h0s e = h0 w.osc w.dm2 (w.e e)) → w.basis = .interaction ∨ w.osc = false →
      getHamiltonian w ei irho = .ok (vacuumTerm w ei +
        matterTerm w.c (b (w.t - off)).1 (b (w.t - off)).2 (decide (w.nt = .antineutrino ∨ (w.nt = .both ∧ irho = 1))) n
          (workingProjector w irho ei))) := by
  constructor
  · intro h; simp [getHamiltonian, h]
  · intro b off he hb ht ho hi' hye hh0 hbasis
    have hia : anti w.nt irho = decide (w.nt = .antineutrino ∨ (w.nt = .both ∧ irho = 1)) := by
      unfold anti; cases w.nt <;> simp
    have hp : (fun f => w.projectors irho f ei) = workingProjector w irho ei := by
      funext f
      unfold World.projectors workingProjector
      cases hb' : w.basis <;> cases ho' : w.osc <;> simp
    have hv : h0 w.osc w.dm2 (w.e ei) = vacuumTerm w ei := by
      unfold h0 vacuumTerm
      rw [div_div]
    have hr : (w.iint && !w.ready) = false := by
      cases h1 : w.iint
      · rfl
      · simp [hi' h1]
    unfold getHamiltonian
    rw [he, hb, ht, ho, if_pos rfl]
    dsimp only
    rw [hr, if_neg (by simp), hi_term _ _ _ hye _ _ n hn, hp, hia, hv]
    rcases hbasis with hb' | ho'
    · rw [if_neg (by rw [hb']; simp)]
    · split
      · rw [hh0]
        simp [h0, ho']
      · rfl

/-- A world in the interaction picture. -/
def demoWorld (basis : Basis) : World ℚ ℚ where
  basis := basis
  osc := true
  nt := .neutrino
  energies := true
  iint := false
  ready := false
  body := some fun x => (x, 1)
  track := true
  offset := some 2
  t := 5
  tIni := 0
  c := 1
  dm2 := 8
  e := fun _ => 2
  h0s := fun _ => 2
  b1 := fun _ f => if f = 0 then 1 else 0
  evol := fun _ f _ => if f = 0 then 1 else 0
  rotate := fun _ _ v => v

example : getHamiltonian (demoWorld .interaction) 0 0 = .ok 5 := by
  decide +kernel

/-- C53, disagreement: in the mass basis the vacuum term is in `HI` as well and counted twice. -/
theorem c53_mass_basis_violated :
    (∀ w : World K V, ∀ ei irho b off, w.energies = true → w.body = some b → w.track = true → w.offset = some off → w.iint = false →
      1 / 10 ^ 10 ≤ (b (w.t - off)).2 → (∀ e, w.h0s e = h0 w.osc w.dm2 (w.e e)) → w.basis = .mass →
      getHamiltonian w ei irho = .ok (vacuumTerm w ei + vacuumTerm w ei +
        matterTerm w.c (b (w.t - off)).1 (b (w.t - off)).2 (decide (w.nt = .antineutrino ∨ (w.nt = .both ∧ irho = 1))) 3
          (workingProjector w irho ei))) ∧
    (getHamiltonian (demoWorld .mass) 0 0 = .ok 7 ∧ vacuumTerm (demoWorld .mass) 0 + matterTerm (1 : ℚ) 3 1 false 3 (workingProjector (demoWorld .mass) 0 0) = 5) := by
  constructor
  · intro w ei irho b off he hb ht ho hi' hye hh0 hbasis
    have hia : anti w.nt irho = decide (w.nt = .antineutrino ∨ (w.nt = .both ∧ irho = 1)) := by
      unfold anti; cases w.nt <;> simp
    have hp : (fun f => w.projectors irho f ei) = workingProjector w irho ei := by
      funext f
      unfold World.projectors workingProjector
      simp [hbasis]
    have hv : h0 w.osc w.dm2 (w.e ei) = vacuumTerm w ei := by
      unfold h0 vacuumTerm
      rw [div_div]
    unfold getHamiltonian
    rw [he, hb, ht, ho, if_pos rfl]
    dsimp only
    rw [hi', Bool.false_and, if_neg (by simp), hi_term _ _ _ hye _ _ 3 (le_refl 3), hp, hia, hv, if_pos hbasis, hh0, hv]
    congr 1
    abel
  · constructor
    · decide +kernel
    · rw [matterTerm_three _ _ _ _ 3 (le_refl 3)]
      norm_num [vacuumTerm, demoWorld, workingProjector]

omit [IsStrictOrderedRing K] in
/-- C53, disagreement: only the energies are checked. Without a body or track, or with interactions switched on before their tables were
made (by the first evolution), the call dereferences null pointers. -/
theorem c53_unready_violated :
    (∀ w : World K V, w.energies = true → w.body = none → ∀ ei irho, getHamiltonian w ei irho = .ub) ∧
    (∀ w : World K V, w.energies = true → w.track = false → ∀ ei irho, getHamiltonian w ei irho = .ub) ∧
    (∀ w : World K V, w.energies = true → w.iint = true → w.ready = false → ∀ ei irho, getHamiltonian w ei irho = .ub) := by
  refine ⟨?_, ?_, ?_⟩
  · intro w h1 h2 ei irho; simp [getHamiltonian, h1, h2]
  · intro w h1 h2 ei irho; simp [getHamiltonian, h1, h2]
  · intro w h1 h2 h3 ei irho
    unfold getHamiltonian
    rw [h1, if_pos rfl, h2, h3]
    split <;> rfl

end Verif.Matter
