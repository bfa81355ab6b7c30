import Verif.Density.ShortcutProps

/-!
# Two flavours mixed by an angle

Examples and counterexamples in other areas use these values.
-/

namespace Verif.Density

/-- Rotation in the plane of the first two states. -/
noncomputable def rot (θ : ℝ) : Mat 3 :=
  !![(Real.cos θ : ℂ), (Real.sin θ : ℂ), 0; -(Real.sin θ : ℂ), (Real.cos θ : ℂ), 0; 0, 0, 1]

theorem rot_zero (θ : ℝ) : toB1 (rot θ) (projector 0) =
    !![(Real.cos θ : ℂ) * Real.cos θ, -(Real.cos θ * Real.sin θ), 0; -(Real.cos θ * Real.sin θ), Real.sin θ * Real.sin θ, 0; 0, 0, 0] := by
  ext i j
  rw [toB1_apply]
  fin_cases i <;> fin_cases j <;> simp [rot, -Complex.ofReal_cos, -Complex.ofReal_sin]
  all_goals ring

/-- Two evolutions of a pure flavour compared. -/
theorem rot_contents (θ a b : ℝ) :
    dot (evolve (projector 1) a (toB1 (rot θ) (projector 0)))
      (evolve (projector 1) b (toB1 (rot θ) (projector 0))) =
      1 - 2 * (Real.cos θ * Real.sin θ) ^ 2 * (1 - Real.cos (b - a)) := by
  have hcs := Real.cos_sq_add_sin_sq θ
  have hexp : ∀ x : ℝ, Complex.exp (Complex.I * x) = Real.cos x + Real.sin x * Complex.I := by
    intro x
    rw [mul_comm, Complex.exp_mul_I, Complex.ofReal_cos, Complex.ofReal_sin]
  have h : ∀ x : ℝ, evolve (projector 1) x (toB1 (rot θ) (projector 0)) =
      !![(Real.cos θ : ℂ) * Real.cos θ, -(Real.cos θ * Real.sin θ) * (Real.cos x - Real.sin x * Complex.I), 0;
        -(Real.cos θ * Real.sin θ) * (Real.cos x + Real.sin x * Complex.I), Real.sin θ * Real.sin θ, 0; 0, 0, 0] := by
    intro x
    unfold evolve
    have e : ((Real.cos x : ℂ) + Real.sin x * Complex.I) * (Real.cos x - Real.sin x * Complex.I) = 1 := by
      have h := Real.cos_sq_add_sin_sq x
      have h' : (Real.cos x : ℂ) ^ 2 + (Real.sin x : ℂ) ^ 2 = 1 := by exact_mod_cast h
      linear_combination h' - (Real.sin x : ℂ) ^ 2 * Complex.I_sq
    rw [phase_projector, phase_projector, hexp, hexp, rot_zero, Real.cos_neg, Real.sin_neg]
    ext i j
    rw [Matrix.mul_diagonal, Matrix.diagonal_mul]
    fin_cases i <;> fin_cases j <;> simp [-Complex.ofReal_cos, -Complex.ofReal_sin]
    · exact .inl (by ring)
    · ring
    · linear_combination (Real.sin θ : ℂ) ^ 2 * e
  rw [h, h, dot3, Real.cos_sub]
  simp [-Complex.ofReal_cos, -Complex.ofReal_sin]
  linear_combination (Real.cos θ ^ 2 + Real.sin θ ^ 2 + 1) * hcs

theorem half_facts : 0 < (Real.cos (1 / 2) * Real.sin (1 / 2)) ^ 2 := by
  have h1 : 0 < Real.cos (1 / 2) := Real.cos_pos_of_mem_Ioo ⟨by linarith [Real.two_le_pi], by linarith [Real.two_le_pi]⟩
  have h2 : 0 < Real.sin (1 / 2) := Real.sin_pos_of_pos_of_lt_pi (by norm_num) (by linarith [Real.two_le_pi])
  positivity

end Verif.Density
