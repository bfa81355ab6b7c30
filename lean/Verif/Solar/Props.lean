import Verif.Solar.Lemmas
import Mathlib.Tactic.FinCases

/-!
# C107: solar neutrinos

The survival probability of a neutrino produced in the Sun is the probability of each local eigenstate times the electron content of the
mass state it turns into; `PeeSquare` is its mean over the production regions.
-/

namespace Verif.Solar

open Density Matrix

variable {n : Nat}

/-! ## The probability -/

theorem toB0_toB1 {U : Mat n} (h : Density.Unitary U) (A : Mat n) : toB0 U (toB1 U A) = A := by
  have := h.star_mul
  calc toB0 U (toB1 U A) = (Uᴴ * U) * A * (Uᴴ * U) := by unfold toB0 toB1; simp only [Matrix.mul_assoc]
    _ = A := by rw [this, Matrix.one_mul, Matrix.mul_one]

/-- The Hamiltonian that is diagonalised is, in the flavour basis, the mass term rotated with the mixing matrix plus the potential of the
electron neutrino alone. -/
theorem c107_hamiltonian [NeZero n] {U : Mat n} (h : Density.Unitary U) (masses : Fin n → ℝ) (c E density : ℝ) (a b : Fin n) :
    toB0 U ((SOP.make U masses c).hamiltonian E density) a b =
      ∑ i, transformation U a i * starRingEnd ℂ (transformation U b i) * ((masses i / (2 * E) : ℝ) : ℂ) +
        (if a = 0 ∧ b = 0 then ((c * density : ℝ) : ℂ) else 0) := by
  have e : toB0 U ((SOP.make U masses c).hamiltonian E density) =
      (1 / (2 * E)) • (Uᴴ * Matrix.diagonal (fun i => (masses i : ℂ)) * U) + (c * density) • (projector 0 : Mat n) := by
    have := toB0_toB1 h (projector 0)
    unfold toB0 at this
    unfold toB0 SOP.hamiltonian SOP.make
    dsimp only
    rw [Matrix.mul_add, Matrix.add_mul, Matrix.mul_smul, Matrix.smul_mul, Matrix.mul_smul, Matrix.smul_mul, this]
  rw [e, Matrix.add_apply, Matrix.smul_apply, Matrix.smul_apply]
  congr 1
  · rw [Matrix.mul_apply, Finset.smul_sum]
    refine Finset.sum_congr rfl fun i _ => ?_
    simp only [Matrix.mul_diagonal, transformation, Matrix.conjTranspose_apply, Complex.star_def, Complex.conj_conj, Complex.real_smul]
    push_cast
    ring
  · by_cases hc : a = 0 ∧ b = 0
    · rw [if_pos hc, hc.1, hc.2]
      simp [projector]
    · rw [if_neg hc, projector, Matrix.single_apply_of_ne, smul_zero]
      exact fun hh => hc ⟨hh.1.symm, hh.2.symm⟩

theorem hermitian [NeZero n] {U : Mat n} (masses : Fin n → ℝ) (c E density : ℝ) :
    (toB0 U ((SOP.make U masses c).hamiltonian E density)).IsHermitian := by
  have hd : (Matrix.diagonal fun i => (masses i : ℂ))ᴴ = Matrix.diagonal fun i => (masses i : ℂ) := by
    rw [Matrix.diagonal_conjTranspose]
    congr 1
    funext i
    simp
  have hp : (projector (0 : Fin n) : Mat n)ᴴ = projector 0 := by simp [projector, Matrix.conjTranspose_single]
  show (Uᴴ * _ * U)ᴴ = _
  unfold toB0 SOP.hamiltonian SOP.make toB1
  simp only [Matrix.conjTranspose_mul, Matrix.conjTranspose_add, Matrix.conjTranspose_smul, hd, hp, Matrix.conjTranspose_conjTranspose,
    star_trivial, Matrix.mul_assoc]

/-- There is always an answer. -/
theorem c107_defined [NeZero n] (U : Mat n) (masses : Fin n → ℝ) (c E density : ℝ) : ∃ p, (SOP.make U masses c).Probability E density p := by
  obtain ⟨ev, V, h⟩ := Eigensystem.exists (hermitian (U := U) masses c E density)
  exact ⟨_, ev, V, h, rfl⟩

/-- It is a probability, whatever the projectors and masses in use. -/
theorem c107_range [NeZero n] (o : SOP n) (hU : Density.Unitary o.mixing) {E density p : ℝ} (h : o.Probability E density p) : 0 ≤ p ∧ p ≤ 1 := by
  obtain ⟨ev, V, hV, rfl⟩ := h
  refine ⟨Finset.sum_nonneg fun i _ => mul_nonneg (Complex.normSq_nonneg _) (Complex.normSq_nonneg _), ?_⟩
  rw [← row_sum hV.unitary 0]
  refine Finset.sum_le_sum fun i _ => ?_
  exact mul_le_of_le_one_right (Complex.normSq_nonneg _) (entry_le (Unitary.star hU) 0 i)

/-- When the levels are distinct it does not depend on which eigenvectors the library returns. -/
theorem c107_determined [NeZero n] (o : SOP n) {E density p p' : ℝ} {ev : Fin n → ℝ} {V : Mat n}
    (hs : Eigensystem (toB0 o.mixing (o.hamiltonian E density)) ev V) (hd : Function.Injective ev)
    (h : o.Probability E density p) (h' : o.Probability E density p') : p = p' := by
  obtain ⟨ev1, V1, h1, rfl⟩ := h
  obtain ⟨ev2, V2, h2, rfl⟩ := h'
  unfold SOP.sum
  refine Finset.sum_congr rfl fun i _ => ?_
  rw [(hs.phases h1 hd).2, (hs.phases h2 hd).2]

theorem vacuum_eigen [NeZero n] {U : Mat n} (hU : Density.Unitary U) (masses : Fin n → ℝ) (c E : ℝ) (σ : Equiv.Perm (Fin n))
    (hm : Monotone fun i => masses (σ i) / (2 * E)) :
    Eigensystem (toB0 U ((SOP.make U masses c).hamiltonian E 0)) (fun i => masses (σ i) / (2 * E)) (Uᴴ.submatrix id σ) := by
  have hu : U * Uᴴ = 1 := hU
  refine ⟨?_, ?_, hm⟩
  · show Uᴴ.submatrix id σ * (Uᴴ.submatrix id σ)ᴴ = 1
    rw [Matrix.conjTranspose_submatrix, Matrix.submatrix_mul_equiv, Matrix.conjTranspose_conjTranspose, hU.star_mul]
    simp
  · have e : toB0 U ((SOP.make U masses c).hamiltonian E 0) * Uᴴ = Uᴴ * Matrix.diagonal fun i => ((masses i / (2 * E) : ℝ) : ℂ) := by
      unfold toB0 SOP.hamiltonian SOP.make
      dsimp only
      rw [mul_zero, zero_smul, add_zero, Matrix.mul_assoc, hu, Matrix.mul_one]
      congr 1
      ext i j
      rw [Matrix.smul_apply, Matrix.diagonal_apply, Matrix.diagonal_apply]
      by_cases hij : i = j
      · rw [if_pos hij, if_pos hij, Complex.real_smul]; push_cast; ring
      · rw [if_neg hij, if_neg hij, smul_zero]
    ext a i
    have := congrFun (congrFun e a) (σ i)
    rw [Matrix.mul_diagonal] at this
    rw [Matrix.mul_diagonal]
    simpa [Matrix.mul_apply, Matrix.submatrix_apply] using this

/-- The average of the vacuum oscillations of an electron neutrino: the squares of the probabilities of its mass components. -/
noncomputable def averaged [NeZero n] (U : Mat n) : ℝ := ∑ i, Complex.normSq (U i 0) ^ 2

/-- Full statement: where there is no matter the answer is the averaged vacuum probability. Shown when the masses increase with their number. -/
theorem c107_vacuum_partial [NeZero n] {U : Mat n} (hU : Density.Unitary U) {masses : Fin n → ℝ} (hm : StrictMono masses) (c : ℝ) {E p : ℝ}
    (hE : 0 < E) : (SOP.make U masses c).Probability E 0 p ↔ p = averaged U := by
  have hs : StrictMono fun i => masses i / (2 * E) := fun i j hij => div_lt_div_of_pos_right (hm hij) (by linarith)
  have he : Eigensystem (toB0 (SOP.make U masses c).mixing ((SOP.make U masses c).hamiltonian E 0)) _ _ :=
    vacuum_eigen hU masses c E (Equiv.refl _) hs.monotone
  have hp : (SOP.make U masses c).Probability E 0 (averaged U) := by
    refine ⟨_, _, he, ?_⟩
    unfold averaged SOP.sum
    refine Finset.sum_congr rfl fun i _ => ?_
    simp [transformation, SOP.make, Matrix.conjTranspose_apply, sq]
  refine ⟨fun h => ?_, fun h => ?_⟩
  · exact c107_determined (SOP.make U masses c) he hs.injective h hp
  · rw [h]; exact hp

/-- A rotation with rational entries. -/
noncomputable def turn : Mat 2 := !![(3 / 5 : ℂ), 4 / 5; -4 / 5, 3 / 5]

theorem turn_unitary : Density.Unitary turn := by
  show turn * turnᴴ = 1
  ext i j
  fin_cases i <;> fin_cases j <;> simp [turn, Matrix.mul_apply, Fin.sum_univ_two, Matrix.conjTranspose_apply, Complex.ext_iff, Complex.conj_ofNat] <;> norm_num

theorem normSq_ratio (a b : ℝ) : Complex.normSq ((a : ℂ) / (b : ℂ)) = (a / b) ^ 2 := by
  rw [← Complex.ofReal_div, Complex.normSq_ofReal, sq]

theorem turn_entries : Complex.normSq (turn 0 0) = 9 / 25 ∧ Complex.normSq (turn 1 0) = 16 / 25 := by
  have h1 := normSq_ratio 3 5
  have h2 := normSq_ratio (-4) 5
  push_cast at h1 h2
  exact ⟨by show Complex.normSq (3 / 5 : ℂ) = _; rw [h1]; norm_num, by show Complex.normSq (-4 / 5 : ℂ) = _; rw [h2]; norm_num⟩

/-- The hypotheses are met and the value is not trivial. -/
example : (SOP.make turn (fun i => (i : ℝ)) 1).Probability 1 0 (337 / 625) := by
  rw [c107_vacuum_partial turn_unitary (fun i j hij => by exact_mod_cast hij) 1 one_pos]
  unfold averaged
  rw [Fin.sum_univ_two, turn_entries.1, turn_entries.2]
  norm_num

/-- With the masses in the other order the sorted eigenvectors are combined with the wrong mass states: the answer in vacuum is not the
averaged probability. -/
theorem c107_ordering_violated : ∃ masses : Fin 2 → ℝ, Function.Injective masses ∧
    ∀ p, (SOP.make turn masses 1).Probability 1 0 p → p = 288 / 625 ∧ averaged turn = 337 / 625 := by
  refine ⟨fun i => -(i : ℝ), fun i j hij => Fin.ext (by exact_mod_cast neg_injective hij), fun p hp => ?_⟩
  have hs : StrictMono fun i : Fin 2 => -((Equiv.swap (0 : Fin 2) 1 i : Fin 2) : ℝ) / (2 * 1) := by
    intro i j hij
    fin_cases i <;> fin_cases j <;> simp at hij ⊢
    norm_num
  have e : (SOP.make turn (fun i => -(i : ℝ)) 1).mixing = turn := rfl
  have he := vacuum_eigen turn_unitary (fun i => -(i : ℝ)) 1 1 (Equiv.swap 0 1) hs.monotone
  refine ⟨?_, ?_⟩
  · rw [c107_determined (SOP.make turn (fun i => -(i : ℝ)) 1) (by rw [e]; exact he) hs.injective hp ⟨_, _, by rw [e]; exact he, rfl⟩]
    unfold SOP.sum
    rw [Fin.sum_univ_two, e]
    simp only [transformation, Matrix.submatrix_apply, Matrix.conjTranspose_apply, id, Equiv.swap_apply_left, Equiv.swap_apply_right,
      Complex.star_def, Complex.normSq_conj]
    rw [turn_entries.1, turn_entries.2]
    norm_num
  · unfold averaged
    rw [Fin.sum_univ_two, turn_entries.1, turn_entries.2]
    norm_num

/-- Masses of the witness below. -/
noncomputable def gap : Fin 2 → ℝ := ![0, 84 / 125]

/-- Eigenvectors of the witness below. -/
noncomputable def vectors : Mat 2 := !![(16 / 65 : ℂ), 63 / 65; 63 / 65, -16 / 65]

/-- Full statement: the answer is the one of an object made with the current parameters. It is not when a mixing angle is set after
construction: the projector is the one of the old angle. -/
theorem c107_stale_violated :
    (∀ p, ((SOP.make 1 gap 1).setMixing turn).Probability (1 / 2) 1 p → p = 288 / 625) ∧
      ∀ p, (SOP.make turn gap 1).Probability (1 / 2) 1 p → p = 65808 / 105625 := by
  constructor
  · intro p hp
    have e1 : ((SOP.make 1 gap 1).setMixing turn).hamiltonian (1 / 2) 1 = (SOP.make turn ![1, 84 / 125] 1).hamiltonian (1 / 2) 0 := by
      unfold SOP.hamiltonian SOP.setMixing SOP.make toB1 gap
      ext i j
      fin_cases i <;> fin_cases j <;> simp [projector]
    have hs : StrictMono fun i : Fin 2 => (![1, 84 / 125] : Fin 2 → ℝ) (Equiv.swap (0 : Fin 2) 1 i) / (2 * (1 / 2)) := by
      intro i j hij
      fin_cases i <;> fin_cases j <;> simp at hij ⊢
      norm_num
    have he := vacuum_eigen turn_unitary ![1, 84 / 125] 1 (1 / 2) (Equiv.swap 0 1) hs.monotone
    rw [← e1] at he
    have e2 : ((SOP.make 1 gap 1).setMixing turn).mixing = turn := rfl
    rw [c107_determined _ (by rw [e2]; exact he) hs.injective hp ⟨_, _, by rw [e2]; exact he, rfl⟩]
    unfold SOP.sum
    rw [Fin.sum_univ_two, e2]
    simp only [transformation, Matrix.submatrix_apply, Matrix.conjTranspose_apply, id, Equiv.swap_apply_left, Equiv.swap_apply_right,
      Complex.star_def, Complex.normSq_conj]
    rw [turn_entries.1, turn_entries.2]
    norm_num
  · intro p hp
    have hs : StrictMono (![4 / 25, 189 / 125] : Fin 2 → ℝ) := by
      intro i j hij
      fin_cases i <;> fin_cases j <;> simp at hij ⊢
      norm_num
    have e2 : (SOP.make turn gap 1).mixing = turn := rfl
    have he : Eigensystem (toB0 turn ((SOP.make turn gap 1).hamiltonian (1 / 2) 1)) ![4 / 25, 189 / 125] vectors := by
      refine ⟨?_, ?_, hs.monotone⟩
      · show vectors * vectorsᴴ = 1
        ext i j
        fin_cases i <;> fin_cases j <;> simp [vectors, Matrix.mul_apply, Fin.sum_univ_two, Matrix.conjTranspose_apply, Complex.ext_iff, Complex.conj_ofNat] <;>
          norm_num
      · ext i j
        rw [Matrix.mul_apply]
        simp only [c107_hamiltonian turn_unitary, Fin.sum_univ_two, Matrix.mul_diagonal]
        fin_cases i <;> fin_cases j <;>
          simp [vectors, turn, gap, transformation, Matrix.conjTranspose_apply, Complex.ext_iff, Complex.conj_ofNat] <;> norm_num
    rw [c107_determined _ (by rw [e2]; exact he) hs.injective hp ⟨_, _, by rw [e2]; exact he, rfl⟩]
    unfold SOP.sum
    rw [Fin.sum_univ_two, e2]
    have h1 := normSq_ratio 16 65
    have h2 := normSq_ratio 63 65
    push_cast at h1 h2
    have v0 : Complex.normSq (vectors 0 0) = (16 / 65) ^ 2 := h1
    have v1 : Complex.normSq (vectors 0 1) = (63 / 65) ^ 2 := h2
    simp only [transformation, Matrix.conjTranspose_apply, Complex.star_def, Complex.normSq_conj]
    rw [turn_entries.1, turn_entries.2, v0, v1]
    norm_num

/-- Both are probabilities, and both exist. -/
example : (∃ p, (SOP.make turn gap 1).Probability (1 / 2) 1 p ∧ 0 ≤ p ∧ p ≤ 1) := by
  obtain ⟨p, hp⟩ := c107_defined turn gap 1 (1 / 2) 1
  exact ⟨p, hp, c107_range _ turn_unitary hp⟩

end Verif.Solar
