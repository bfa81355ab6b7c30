import Verif.Tools.Basis
import Mathlib.LinearAlgebra.Matrix.Notation
import Mathlib.Tactic.LinearCombination

/-!
# Property C31: change of basis
-/

set_option linter.unusedSectionVars false

namespace Verif.Tools

open Matrix

variable {R : Type} [CommRing R] [StarRing R] {n : Type} [Fintype n] [DecidableEq n]

private theorem zgemm_eq (tA tB : Trans) (A B C : Matrix n n R) : zgemm tA tB 1 A B 0 C = tA.app A * tB.app B := by
  ext i j
  simp [zgemm, Matrix.mul_apply]

private theorem umuc_eq (junk U M : Matrix n n R) : changeBasisUMUC junk U M = U * (M * U.conjTranspose) := by
  simp [changeBasisUMUC, zgemm_eq, Trans.app]

private theorem ucmu_eq (junk U M : Matrix n n R) : changeBasisUCMU junk U M = U.conjTranspose * (M * U) := by
  simp [changeBasisUCMU, zgemm_eq, Trans.app]

/-- The two functions compute U M U† and U† M U, independently of the content of the freshly allocated temporary. -/
theorem c31_formula (junk U M : Matrix n n R) :
    changeBasisUMUC junk U M = U * M * U.conjTranspose ∧ changeBasisUCMU junk U M = U.conjTranspose * M * U := by
  rw [umuc_eq, ucmu_eq, Matrix.mul_assoc, Matrix.mul_assoc]
  exact ⟨rfl, rfl⟩

/-- For unitary U each undoes the other. -/
theorem c31_inverse (junk junk' U M : Matrix n n R) (hU : U ∈ Matrix.unitaryGroup n R) :
    changeBasisUCMU junk U (changeBasisUMUC junk' U M) = M ∧ changeBasisUMUC junk U (changeBasisUCMU junk' U M) = M := by
  have h1 : U.conjTranspose * U = 1 := Matrix.mem_unitaryGroup_iff'.1 hU
  have h2 : U * U.conjTranspose = 1 := Matrix.mem_unitaryGroup_iff.1 hU
  rw [umuc_eq, ucmu_eq, umuc_eq, ucmu_eq]
  constructor
  · calc U.conjTranspose * (U * (M * U.conjTranspose) * U) = (U.conjTranspose * U) * M * (U.conjTranspose * U) := by
          simp only [Matrix.mul_assoc]
      _ = M := by rw [h1, Matrix.one_mul, Matrix.mul_one]
  · calc U * (U.conjTranspose * (M * U) * U.conjTranspose) = (U * U.conjTranspose) * M * (U * U.conjTranspose) := by
          simp only [Matrix.mul_assoc]
      _ = M := by rw [h2, Matrix.one_mul, Matrix.mul_one]

/-- For unitary U both preserve the trace. -/
theorem c31_trace (junk U M : Matrix n n R) (hU : U ∈ Matrix.unitaryGroup n R) :
    (changeBasisUMUC junk U M).trace = M.trace ∧ (changeBasisUCMU junk U M).trace = M.trace := by
  have h1 : U.conjTranspose * U = 1 := Matrix.mem_unitaryGroup_iff'.1 hU
  have h2 : U * U.conjTranspose = 1 := Matrix.mem_unitaryGroup_iff.1 hU
  rw [umuc_eq, ucmu_eq, Matrix.trace_mul_comm, Matrix.mul_assoc, h1, Matrix.mul_one, Matrix.trace_mul_comm,
    Matrix.mul_assoc, h2, Matrix.mul_one]
  exact ⟨rfl, rfl⟩

/-- Both map Hermitian matrices to Hermitian matrices (for any U). -/
theorem c31_hermitian (junk U M : Matrix n n R) (hM : M.conjTranspose = M) :
    (changeBasisUMUC junk U M).conjTranspose = changeBasisUMUC junk U M ∧
    (changeBasisUCMU junk U M).conjTranspose = changeBasisUCMU junk U M := by
  rw [umuc_eq, ucmu_eq]
  constructor
  · rw [Matrix.conjTranspose_mul, Matrix.conjTranspose_mul, Matrix.conjTranspose_conjTranspose, hM, Matrix.mul_assoc]
  · rw [Matrix.conjTranspose_mul, Matrix.conjTranspose_mul, Matrix.conjTranspose_conjTranspose, hM, Matrix.mul_assoc]

/-- A unitary 2×2 complex matrix (a maximal phase rotation), a Hermitian matrix, and the result of the first function. -/
example : (!![0, Complex.I; Complex.I, 0] : Matrix (Fin 2) (Fin 2) ℂ) ∈ Matrix.unitaryGroup (Fin 2) ℂ ∧
    changeBasisUMUC 0 !![0, Complex.I; Complex.I, 0] !![1, Complex.I; -Complex.I, 3] =
      (!![3, -Complex.I; Complex.I, 1] : Matrix (Fin 2) (Fin 2) ℂ) := by
  constructor
  · rw [Matrix.mem_unitaryGroup_iff]
    ext i j
    fin_cases i <;> fin_cases j <;> simp [Matrix.mul_apply, Fin.sum_univ_two, Matrix.star_eq_conjTranspose]
  · rw [(c31_formula _ _ _).1]
    ext i j
    fin_cases i <;> fin_cases j <;> simp [Matrix.mul_apply, Fin.sum_univ_two, mul_assoc]
    linear_combination (-3) * Complex.I_mul_I

end Verif.Tools
