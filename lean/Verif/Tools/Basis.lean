import Mathlib.LinearAlgebra.Matrix.ConjTranspose
import Mathlib.LinearAlgebra.Matrix.Trace
import Mathlib.LinearAlgebra.UnitaryGroup
import Mathlib.Data.Complex.Basic

/-!
# Model of the change-of-basis helpers (`/repo/src/tools.cpp` 161-207)

GSL matrices of complex doubles are matrices over a commutative ring with conjugation (the complex numbers being the
intended one). Dimensions are assumed to agree (GSL's error handler aborts otherwise). The result overwrites `M`.
-/

namespace Verif.Tools

variable {R : Type} [CommRing R] [StarRing R] {n : Type} [Fintype n] [DecidableEq n]

/-- The `CBLAS_TRANSPOSE` argument of `gsl_blas_zgemm`. -/
inductive Trans where
  | noTrans
  | conjTrans

/-- `op(A)`. -/
def Trans.app (t : Trans) (A : Matrix n n R) : Matrix n n R :=
  match t with
  | .noTrans => A
  | .conjTrans => A.conjTranspose

/-- `gsl_blas_zgemm(TransA, TransB, alpha, A, B, beta, C)`: the new content of `C`, `alpha op(A) op(B) + beta C`. -/
def zgemm (tA tB : Trans) (alpha : R) (A B : Matrix n n R) (beta : R) (C : Matrix n n R) : Matrix n n R :=
  fun i j => alpha * (∑ k, tA.app A i k * tB.app B k j) + beta * C i j

/-- `gsl_matrix_complex_change_basis_UMUC` (tools.cpp 161-183): the new content of `M`. `junk` is the content of the freshly
allocated `T1`. -/
def changeBasisUMUC (junk U M : Matrix n n R) : Matrix n n R :=
  let T1 := zgemm .noTrans .conjTrans 1 M U 0 junk
  zgemm .noTrans .noTrans 1 U T1 0 M

/-- `gsl_matrix_complex_change_basis_UCMU` (tools.cpp 185-207). -/
def changeBasisUCMU (junk U M : Matrix n n R) : Matrix n n R :=
  let T1 := zgemm .noTrans .noTrans 1 M U 0 junk
  zgemm .conjTrans .noTrans 1 U T1 0 M

end Verif.Tools
