import Mathlib.Analysis.SpecialFunctions.Exponential
import Mathlib.Analysis.Calculus.Deriv.Shift
import Verif.Density.Lemmas

/-!
The equation of motion with a constant Hamiltonian: derivative of the phases, existence and uniqueness of the solution.
-/

namespace Verif.Density

open Matrix

variable {n : Nat}

/-- Matrices differentiated entry by entry. -/
def Deriv (A : ℝ → Mat n) (A' : Mat n) (S : Set ℝ) (t : ℝ) : Prop := ∀ i j, HasDerivWithinAt (fun s => A s i j) (A' i j) S t

theorem Deriv.mul {A B : ℝ → Mat n} {A' B' : Mat n} {S : Set ℝ} {t : ℝ} (hA : Deriv A A' S t) (hB : Deriv B B' S t) :
    Deriv (fun s => A s * B s) (A' * B t + A t * B') S t := by
  intro i j
  have hd : HasDerivWithinAt (fun s => ∑ l, A s i l * B s l j) (∑ l, (A' i l * B t l j + A t i l * B' l j)) S t :=
    HasDerivWithinAt.fun_sum fun l _ => (hA i l).mul (hB l j)
  have e1 : (fun s => (A s * B s) i j) = fun s => ∑ l, A s i l * B s l j := by
    funext s; rw [Matrix.mul_apply]
  rw [e1]
  refine hd.congr_deriv ?_
  rw [Finset.sum_add_distrib, ← Matrix.mul_apply, ← Matrix.mul_apply, ← Matrix.add_apply]

theorem phase_entry (H : Mat n) (t : ℝ) (i j : Fin n) : HasDerivAt (fun s => phase H s i j) ((Complex.I • (H * phase H t)) i j) t := by
  let : NormedRing (Mat n) := Matrix.linftyOpNormedRing
  let : NormedAlgebra ℂ (Mat n) := Matrix.linftyOpNormedAlgebra
  let : NormedAlgebra ℝ (Mat n) := Matrix.linftyOpNormedAlgebra
  have h := hasDerivAt_exp_smul_const' (𝕂 := ℝ) (𝔸 := Mat n) (Complex.I • H) t
  have hc : ∀ s : ℝ, NormedSpace.exp (s • (Complex.I • H)) = phase H s := by
    intro s
    unfold phase
    congr 1
    ext a b
    simp [Matrix.smul_apply]
    ring
  have h : HasDerivAt (fun u => phase H u) (Complex.I • H * phase H t) t := by
    simp only [← hc]
    exact h
  let L : Mat n →L[ℝ] ℂ := LinearMap.toContinuousLinearMap
    { toFun := fun A => A i j, map_add' := fun _ _ => rfl, map_smul' := fun _ _ => rfl }
  have h2 := L.hasFDerivAt.comp_hasDerivAt t h
  have e2 : L (Complex.I • H * phase H t) = (Complex.I • (H * phase H t)) i j := by
    rw [Matrix.smul_mul]; rfl
  exact h2.congr_deriv e2

theorem phase_deriv (H : Mat n) (a t : ℝ) (S : Set ℝ) : Deriv (fun s => phase H (s - a)) (Complex.I • (H * phase H (t - a))) S t := by
  intro i j
  have h := (phase_entry H (t - a) i j).comp_sub_const t a
  exact h.hasDerivWithinAt

theorem phase_deriv_neg (H : Mat n) (a t : ℝ) (S : Set ℝ) : Deriv (fun s => phase H (a - s)) (-(Complex.I • (H * phase H (a - t)))) S t := by
  intro i j
  have h := (phase_entry H (a - t) i j).comp_const_sub a t
  exact h.hasDerivWithinAt

theorem phase_commute (H : Mat n) (t : ℝ) : H * phase H t = phase H t * H := by
  unfold phase
  let : NormedRing (Mat n) := Matrix.linftyOpNormedRing
  let : NormedAlgebra ℂ (Mat n) := Matrix.linftyOpNormedAlgebra
  exact ((Commute.refl H).smul_right _).exp_right

theorem phase_continuous (H : Mat n) (i j : Fin n) : Continuous fun s => phase H s i j :=
  continuous_iff_continuousAt.2 fun t => (phase_entry H t i j).continuousAt

theorem uTransform_continuous (H A : Mat n) (a : ℝ) (i j : Fin n) : Continuous fun t => uTransform H (t - a) A i j := by
  have : (fun t => uTransform H (t - a) A i j) = fun t => ∑ l, (∑ m, phase H (-(t - a)) i m * A m l) * phase H (t - a) l j := by
    funext t; simp only [uTransform, Matrix.mul_apply]
  rw [this]
  refine continuous_finsetSum _ fun l _ => Continuous.mul (continuous_finsetSum _ fun m _ => Continuous.mul ?_ continuous_const) ?_
  · exact (phase_continuous H i m).comp (by fun_prop)
  · exact (phase_continuous H l j).comp (by fun_prop)

theorem uTransform_deriv (H A : Mat n) (a t : ℝ) (S : Set ℝ) :
    Deriv (fun t => uTransform H (t - a) A) (-Complex.I • (H * uTransform H (t - a) A - uTransform H (t - a) A * H)) S t := by
  have h1 := phase_deriv_neg H a t S
  have h2 := phase_deriv H a t S
  have hA : Deriv (fun _ => A) 0 S t := fun i j => hasDerivWithinAt_const _ _ _
  have h := (h1.mul hA).mul h2
  have e : (fun s => phase H (a - s) * A * phase H (s - a)) = fun s => uTransform H (s - a) A := by
    funext s; unfold uTransform; rw [neg_sub]
  rw [e] at h
  intro i j
  refine (h i j).congr_deriv ?_
  have hm : (-(Complex.I • (H * phase H (a - t))) * A + phase H (a - t) * 0) * phase H (t - a) +
      phase H (a - t) * A * Complex.I • (H * phase H (t - a)) = -Complex.I • (H * uTransform H (t - a) A - uTransform H (t - a) A * H) := by
    unfold uTransform
    rw [neg_sub, phase_commute H (t - a)]
    simp only [Matrix.mul_zero, add_zero, Matrix.smul_mul, Matrix.mul_smul, Matrix.neg_mul, neg_smul, smul_sub, Matrix.mul_assoc,
      sub_neg_eq_add]
  rw [hm]

/-- The solution with a constant Hamiltonian. -/
theorem solves_constant (H A : Mat n) (a b : ℝ) : Solves (fun _ => H) (fun t => uTransform H (t - a) A) a b :=
  ⟨∅, Set.finite_empty, fun i j => (uTransform_continuous H A a i j).continuousOn, fun t _ _ => uTransform_deriv H A a t _⟩

/-- There is only one. -/
theorem Solves.unique {H : Mat n} {ρ : ℝ → Mat n} {a b : ℝ} (h : Solves (fun _ => H) ρ a b) : ∀ t ∈ Set.Icc a b, ρ t = uTransform H (t - a) (ρ a) := by
  obtain ⟨S, hS, h⟩ := h
  have key : ∀ i j, ∀ t ∈ Set.Icc a b, (phase H (t - a) * ρ t * phase H (a - t)) i j = (phase H (a - a) * ρ a * phase H (a - a)) i j := by
    intro i j
    refine constant_off_complex (f := fun t => (phase H (t - a) * ρ t * phase H (a - t)) i j) hS ?_ ?_
    · have : (fun t => (phase H (t - a) * ρ t * phase H (a - t)) i j) = fun t => ∑ l, (∑ m, phase H (t - a) i m * ρ t m l) * phase H (a - t) l j := by
        funext t; simp only [Matrix.mul_apply]
      rw [this]
      refine continuousOn_finsetSum _ fun l _ => ContinuousOn.mul (continuousOn_finsetSum _ fun m _ => ContinuousOn.mul ?_ (h.cont m l)) ?_
      · exact ((phase_continuous H i m).comp (by fun_prop)).continuousOn
      · exact ((phase_continuous H l j).comp (by fun_prop)).continuousOn
    · intro t ht hn
      have h1 := phase_deriv H a t (Set.Ici t)
      have h2 := phase_deriv_neg H a t (Set.Ici t)
      have h3 : Deriv ρ (-Complex.I • (H * ρ t - ρ t * H)) (Set.Ici t) t := h.deriv t ht hn
      refine (((h1.mul h3).mul h2) i j).congr_deriv ?_
      have : (Complex.I • (H * phase H (t - a)) * ρ t + phase H (t - a) * (-Complex.I • (H * ρ t - ρ t * H))) * phase H (a - t) +
          phase H (t - a) * ρ t * -(Complex.I • (H * phase H (a - t))) = 0 := by
        rw [phase_commute H (t - a)]
        simp only [Matrix.smul_mul, Matrix.mul_smul, Matrix.mul_neg, Matrix.mul_sub, Matrix.add_mul, Matrix.sub_mul, Matrix.mul_assoc, neg_smul,
          smul_sub, Matrix.neg_mul]
        abel
      rw [this]; rfl
  intro t ht
  have hm : phase H (t - a) * ρ t * phase H (a - t) = ρ a := by
    ext i j
    rw [key i j t ht, sub_self, phase_zero_time, Matrix.one_mul, Matrix.mul_one]
  unfold uTransform
  rw [← hm]
  have e1 : a - t = -(t - a) := by ring
  rw [e1]
  calc ρ t = (phase H (-(t - a)) * phase H (t - a)) * ρ t * (phase H (-(t - a)) * phase H (t - a)) := by
        rw [phase_neg', Matrix.one_mul, Matrix.mul_one]
    _ = _ := by simp only [Matrix.mul_assoc]

end Verif.Density
