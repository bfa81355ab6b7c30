import Verif.Decoh.Model
import Mathlib.LinearAlgebra.Matrix.Trace
import Mathlib.LinearAlgebra.Matrix.Notation
import Mathlib.Data.Complex.Basic
import Mathlib.Algebra.BigOperators.Fin

/-!
# What decoherence should do

The state is a hermitian matrix; its components in a basis of hermitian matrices are what the code works with. `gen` is the basis of SQuIDS in its
order, `gellMann` the one physicists number.
-/

namespace Verif.Decoh

open Complex Matrix

/-- The basis of SQuIDS for `n` flavours: the identity first, in row `r` and column `c` the real part of the coherence between `r` and `c` above the
diagonal, its imaginary part below, and the differences of populations on the diagonal. -/
noncomputable def gen (n k : Nat) : Matrix (Fin n) (Fin n) ℂ :=
  let r := k / n
  let c := k % n
  Matrix.of fun a b =>
    if k = 0 then (if a = b then 1 else 0)
    else if r < c then (if (a.val = r ∧ b.val = c) ∨ (a.val = c ∧ b.val = r) then 1 else 0)
    else if c < r then (if a.val = c ∧ b.val = r then I else if a.val = r ∧ b.val = c then -I else 0)
    else if a = b then (Real.sqrt (2 / (r * (r + 1))) : ℂ) * (if a.val < r then 1 else if a.val = r then -(r : ℂ) else 0) else 0

/-- The matrix with given components in the basis of SQuIDS. -/
noncomputable def mat (n : Nat) (v : Nat → ℝ) : Matrix (Fin n) (Fin n) ℂ := ∑ k ∈ Finset.range (n ^ 2), (v k : ℂ) • gen n k

/-- The identity and the eight Gell-Mann matrices. -/
noncomputable def gellMann : Nat → Matrix (Fin 3) (Fin 3) ℂ
  | 0 => !![1, 0, 0; 0, 1, 0; 0, 0, 1]
  | 1 => !![0, 1, 0; 1, 0, 0; 0, 0, 0]
  | 2 => !![0, -I, 0; I, 0, 0; 0, 0, 0]
  | 3 => !![1, 0, 0; 0, -1, 0; 0, 0, 0]
  | 4 => !![0, 0, 1; 0, 0, 0; 1, 0, 0]
  | 5 => !![0, 0, -I; 0, 0, 0; I, 0, 0]
  | 6 => !![0, 0, 0; 0, 0, 1; 0, 1, 0]
  | 7 => !![0, 0, 0; 0, 0, -I; 0, I, 0]
  | 8 => (Real.sqrt (1 / 3) : ℂ) • !![1, 0, 0; 0, 1, 0; 0, 0, -2]
  | _ => 0

/-- The identity and the three Pauli matrices. -/
noncomputable def pauli : Nat → Matrix (Fin 2) (Fin 2) ℂ
  | 0 => !![1, 0; 0, 1]
  | 1 => !![0, 1; 1, 0]
  | 2 => !![0, -I; I, 0]
  | 3 => !![1, 0; 0, -1]
  | _ => 0

/-- The operator with matrix `g` in the basis `b` of `nb` matrices, applied to the matrix with components `a`. -/
noncomputable def apply {n : Nat} (b : Nat → Matrix (Fin n) (Fin n) ℂ) (nb : Nat) (g : Nat → Nat → ℝ) (a : Nat → ℝ) : Matrix (Fin n) (Fin n) ℂ :=
  ∑ i ∈ Finset.range nb, ((∑ j ∈ Finset.range nb, g i j * a j : ℝ) : ℂ) • b i

/-- `f` is the matrix with components `a` in the basis `b`. -/
def Components {n : Nat} (b : Nat → Matrix (Fin n) (Fin n) ℂ) (nb : Nat) (a : Nat → ℝ) (f : Matrix (Fin n) (Fin n) ℂ) : Prop :=
  f = ∑ i ∈ Finset.range nb, (a i : ℂ) • b i

end Verif.Decoh
