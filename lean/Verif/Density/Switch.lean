import Verif.Density.PictureProps

/-!
Switching oscillations on or off (`Set_IncludeOscillations`, nuSQuIDS.cpp 2828-2830) at any time. The members that depend on the switch
are modelled in `Verif.Density.Model`: `H0` (328-332) asks it at every call, `H0_array` is filled with it by `iniH0` (1602-1615) only, and
`PreDerive` (286) rotates the projectors only if it is on.
-/

namespace Verif.Density

open Matrix

variable {n : Nat}

/-! ## Model -/

/-- `Set_IncludeOscillations` (2828-2830): nothing but the flag. -/
def setOscillations (o : Obj n) (b : Bool) : Obj n := { o with ioscillations := b }

/-! ## Lemmas -/

theorem evolve_twice (H : Mat n) (s t : ℝ) (A : Mat n) : evolve H s (evolve H t A) = evolve H (s + t) A := by
  unfold evolve
  rw [show -(s + t) = -t + -s by ring, ← phase_mul, ← phase_mul]
  simp only [Matrix.mul_assoc]

theorem evolve_smul_ham (x : ℝ) (H : Mat n) (t : ℝ) (A : Mat n) : evolve (x • H) t A = evolve H (x * t) A := by
  have e : ∀ s : ℝ, phase (x • H) s = phase H (x * s) := by
    intro s
    unfold phase
    congr 1
    ext i j
    simp only [Matrix.smul_apply, Complex.real_smul, smul_eq_mul]
    push_cast
    ring
  unfold evolve
  rw [e, e, mul_neg]

theorem uTransform_eq_evolve (H : Mat n) (t : ℝ) (A : Mat n) : uTransform H t A = evolve H (-t) A := by
  unfold uTransform evolve
  rw [neg_neg]

theorem dot_evolve_diagonal (d : Fin n → ℝ) (t : ℝ) (f : Fin n) :
    evolve (Matrix.diagonal fun i => (d i : ℂ)) t (projector f) = projector f := by
  have hc : phase (Matrix.diagonal fun i => (d i : ℂ)) t * projector f = projector f * phase (Matrix.diagonal fun i => (d i : ℂ)) t := by
    rw [phase_diagonal]
    ext i j
    rw [Matrix.diagonal_mul, Matrix.mul_diagonal]
    unfold projector
    rw [Matrix.single_apply]
    split
    · rename_i h; rw [h.1.symm.trans h.2]; ring
    · simp
  unfold evolve
  rw [hc, Matrix.mul_assoc, phase_neg, Matrix.mul_one]

theorem half_turn_back (f : Fin 3) (A : Mat 3) (h : evolve (projector 1) Real.pi A = toB1 mix45 (projector f)) :
    uTransform (projector 1) Real.pi (toB1 mix45 (projector f)) = A := by
  rw [uTransform_eq_evolve, ← h, evolve_twice, neg_add_cancel, evolve_zero_time]

end Verif.Density
