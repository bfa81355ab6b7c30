import Verif.Solar.Model
import Mathlib.Data.Fin.Tuple.Sort
import Mathlib.Order.Fin.Basic

/-! # Eigensystems: existence, uniqueness, bounds -/

set_option linter.unusedSectionVars false

namespace Verif.Solar

open Density Matrix

variable {n : Nat}

theorem row_sum {V : Mat n} (h : Unitary V) (i : Fin n) : ∑ j, Complex.normSq (V i j) = 1 := by
  have := congrFun (congrFun h i) i
  rw [Matrix.mul_apply, Matrix.one_apply_eq] at this
  simp only [Matrix.conjTranspose_apply, Complex.star_def, Complex.mul_conj] at this
  exact_mod_cast this

theorem Unitary.star {V : Mat n} (h : Density.Unitary V) : Density.Unitary Vᴴ := by
  show Vᴴ * Vᴴᴴ = 1
  rw [Matrix.conjTranspose_conjTranspose]
  exact h.star_mul

theorem entry_le {V : Mat n} (h : Density.Unitary V) (i j : Fin n) : Complex.normSq (V i j) ≤ 1 := by
  rw [← row_sum h i]
  exact Finset.single_le_sum (f := fun j => Complex.normSq (V i j)) (fun j _ => Complex.normSq_nonneg _) (Finset.mem_univ j)

/-- With distinct levels the eigenvectors are determined up to phases. -/
theorem Eigensystem.phases {H V V' : Mat n} {ev ev' : Fin n → ℝ} (h : Eigensystem H ev V) (h' : Eigensystem H ev' V')
    (hi : Function.Injective ev) : ev' = ev ∧ ∀ a i, Complex.normSq (V' a i) = Complex.normSq (V a i) := by
  set W : Mat n := Vᴴ * V' with hW
  have hV : V * Vᴴ = 1 := h.unitary
  have hV2 : Vᴴ * V = 1 := h.unitary.star_mul
  have hV' : V' = V * W := by rw [hW, ← Matrix.mul_assoc, hV, Matrix.one_mul]
  have hWu : W * Wᴴ = 1 := by
    have : V' * V'ᴴ = 1 := h'.unitary
    calc W * Wᴴ = Vᴴ * (V' * V'ᴴ) * V := by
          rw [hW, Matrix.conjTranspose_mul, Matrix.conjTranspose_conjTranspose]; simp only [Matrix.mul_assoc]
      _ = 1 := by rw [this, Matrix.mul_one, hV2]
  have hcomm : Matrix.diagonal (fun i => (ev i : ℂ)) * W = W * Matrix.diagonal (fun i => (ev' i : ℂ)) := by
    have e1 : H * V' = V * (Matrix.diagonal (fun i => (ev i : ℂ)) * W) := by
      rw [hV', ← Matrix.mul_assoc, h.eigen, Matrix.mul_assoc]
    have e2 : H * V' = V * (W * Matrix.diagonal (fun i => (ev' i : ℂ))) := by
      rw [h'.eigen, ← Matrix.mul_assoc, ← hV']
    have e3 := congrArg (Vᴴ * ·) (e1.symm.trans e2)
    simpa only [← Matrix.mul_assoc, hV2, Matrix.one_mul] using e3
  have hz : ∀ i j, W i j ≠ 0 → ev i = ev' j := by
    intro i j hne
    have := congrFun (congrFun hcomm i) j
    rw [Matrix.diagonal_mul, Matrix.mul_diagonal, mul_comm] at this
    exact_mod_cast mul_left_cancel₀ hne this
  have hrow : ∀ i, ∃ j, W i j ≠ 0 := by
    intro i
    by_contra hc
    push Not at hc
    have := row_sum (V := W) hWu i
    simp [hc] at this
  choose g hg using hrow
  have hgi : Function.Injective g := fun i k e => hi ((hz i _ (hg i)).trans (by rw [e]; exact (hz k _ (hg k)).symm))
  have hgs : Function.Surjective g := Finite.surjective_of_injective hgi
  have hs : StrictMono ev := h.sorted.strictMono_of_injective hi
  have hgm : StrictMono g := by
    intro i k hik
    by_contra hc
    have := h'.sorted (not_lt.1 hc)
    rw [← hz i _ (hg i), ← hz k _ (hg k)] at this
    exact absurd (hs hik) (not_lt.2 this)
  have hid : g = id := by
    exact hgm.range_inj strictMono_id |>.1 (by rw [hgs.range_eq, Set.range_id])
  have hev : ev' = ev := by
    funext i
    have := hz i _ (hg i)
    rw [hid] at this
    exact this.symm
  refine ⟨hev, fun a i => ?_⟩
  have hoff : ∀ k, k ≠ i → W k i = 0 := by
    intro k hk
    by_contra hc
    have := hz k i hc
    rw [hev] at this
    exact hk (hi this)
  have hoff' : ∀ k, k ≠ i → W i k = 0 := by
    intro k hk
    by_contra hc
    have := hz i k hc
    rw [hev] at this
    exact hk (hi this).symm
  have h1 : Complex.normSq (W i i) = 1 := by
    have := row_sum (V := W) hWu i
    rwa [Finset.sum_eq_single i (fun k _ hk => by rw [hoff' k hk, Complex.normSq_zero]) (fun hc => absurd (Finset.mem_univ i) hc)] at this
  rw [hV', Matrix.mul_apply, Finset.sum_eq_single i (fun k _ hk => by rw [hoff k hk, mul_zero])
    (fun hc => absurd (Finset.mem_univ i) hc), Complex.normSq_mul, h1, mul_one]

theorem Eigensystem.exists {H : Mat n} (h : H.IsHermitian) : ∃ ev V, Eigensystem H ev V := by
  set U : Mat n := (h.eigenvectorUnitary : Mat n) with hU
  have hs : star U * U = 1 := Unitary.coe_star_mul_self h.eigenvectorUnitary
  have hs' : U * star U = 1 := Unitary.coe_mul_star_self h.eigenvectorUnitary
  have hsp : H * U = U * Matrix.diagonal (fun i => (h.eigenvalues i : ℂ)) := by
    have e : H = U * Matrix.diagonal (fun i => (h.eigenvalues i : ℂ)) * star U := h.spectral_theorem
    calc H * U = U * Matrix.diagonal (fun i => (h.eigenvalues i : ℂ)) * star U * U := by rw [← e]
      _ = _ := by rw [Matrix.mul_assoc, hs, Matrix.mul_one]
  set σ := Tuple.sort h.eigenvalues with hσ
  refine ⟨h.eigenvalues ∘ σ, U.submatrix id σ, ?_, ?_, Tuple.monotone_sort _⟩
  · show U.submatrix id σ * (U.submatrix id σ)ᴴ = 1
    rw [Matrix.conjTranspose_submatrix, Matrix.submatrix_mul_equiv]
    simpa [Matrix.star_eq_conjTranspose] using hs'
  · have := congrArg (fun M : Mat n => M.submatrix id σ) hsp
    ext a i
    have e := congrFun (congrFun this a) i
    rw [Matrix.submatrix_apply, Matrix.submatrix_apply, Matrix.mul_diagonal] at e
    rw [Matrix.mul_diagonal]
    simpa [Matrix.mul_apply, Matrix.submatrix_apply] using e

end Verif.Solar
