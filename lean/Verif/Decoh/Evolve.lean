import Verif.Decoh.SolverProps
import Verif.Density.PictureProps
import Verif.Density.TransportProps

/-!
# The evolution with decoherence (nuSQUIDSDecoh.cpp 196-224; src/nuSQuIDS.cpp 374-387)

SQuIDS integrates the components of the state in its basis. What it integrates is the commutator with `HI` and, if asked for, `InteractionsRho`, from
which `nuSQUIDSDecoh` subtracts `DRho`. Here the object has no interactions and no body that emits, so that `InteractionsRho` of the base class is the
zero vector (nuSQuIDS.cpp 378-387).
-/

namespace Verif.Decoh

open Matrix Density

/-! ## Model -/

/-- The components `x` follow the derivative of SQuIDS except at the times `S`; `y` are the components of `-i [HI, rho]`. -/
structure DecoheresOff {n : Nat} (S : Set ℝ) (v : Solver) (E : ℝ) (H : ℝ → Mat n) (x : ℝ → Nat → ℝ) (a b : ℝ) : Prop where
  cont : ∀ i < n ^ 2, ContinuousOn (fun t => x t i) (Set.Icc a b)
  deriv : ∀ t ∈ Set.Ico a b, t ∉ S → ∃ y : Nat → ℝ, mat n y = -Complex.I • (H t * mat n (x t) - mat n (x t) * H t) ∧
    ∀ i < n ^ 2, HasDerivWithinAt (fun s => x s i) (v.derivative E y (fun _ => 0) (x t) i) (Set.Ici t) t

/-- The same, `S` being any finite set: layers of matter may make `HI` jump. -/
def Decoheres {n : Nat} (v : Solver) (E : ℝ) (H : ℝ → Mat n) (x : ℝ → Nat → ℝ) (a b : ℝ) : Prop :=
  ∃ S : Set ℝ, S.Finite ∧ DecoheresOff S v E H x a b

/-! ## Specification -/

/-- After the calls `h` an object without interactions has decoherence switched on, in SQuIDS too, and the matrix last accepted is `G`, in the
numbering of SQuIDS. -/
structure Active (n : Nat) (GeV : ℝ) (h : List SolverCall) (v : Solver) (G : Nat → Nat → ℝ) : Prop where
  run : SolverRun n GeV false h v
  asked : ∃ c ∈ h, c.activates
  kept : ∀ c ∈ h, ¬c.stops
  enabled : lastOf givenSwitch (decoherenceCalls h) true = true
  matrix : lastOf (givenMatrix n) (decoherenceCalls h) (fun _ _ => 0, false) = (G, false)

/-- By what the matrix is multiplied at energy `E`. -/
noncomputable def growth (GeV : ℝ) (h : List SolverCall) (E : ℝ) : ℝ :=
  (E / lastOf givenScale (decoherenceCalls h) GeV) ^ lastOf givenIndex (decoherenceCalls h) 0

/-! ## Lemmas -/

variable {n : Nat}

theorem active_rate {GeV : ℝ} {h : List SolverCall} {v : Solver} {G : Nat → Nat → ℝ} (hv : Active n GeV h v G) (E : ℝ) (y rho : Nat → ℝ) (i : Nat)
    (hi : i < n ^ 2) : v.derivative E y (fun _ => 0) rho i = y i - growth GeV h E * ∑ j ∈ Finset.range (n ^ 2), G i j * rho j := by
  obtain ⟨h1, _, h3, _⟩ := solver_run hv.run
  obtain ⟨i1, i2, i3, i4, i5⟩ := c87_history h1
  unfold Solver.derivative interactionsRho
  rw [h3 (.inr hv.asked) hv.kept, if_pos rfl, i4, hv.enabled, if_pos rfl, drho_eq, Nsq.nb, i1, i2, i3]
  rw [hv.matrix] at i5
  have : ∑ j ∈ Finset.range (n ^ 2), v.s.gamma i j * rho j = ∑ j ∈ Finset.range (n ^ 2), G i j * rho j :=
    Finset.sum_congr rfl fun j hj => by
      have := i5 i hi j (Finset.mem_range.1 hj)
      simp only [Bool.false_eq_true, if_false] at this
      rw [this]
  rw [this]
  unfold growth
  ring

theorem diagonal_rate {GeV : ℝ} {h : List SolverCall} {v : Solver} {d : Nat → ℝ} (hv : Active n GeV h v fun i j => if i = j then d i else 0)
    (E : ℝ) (y rho : Nat → ℝ) (i : Nat) (hi : i < n ^ 2) :
    v.derivative E y (fun _ => 0) rho i = y i - growth GeV h E * d i * rho i := by
  rw [active_rate hv E y rho i hi, Finset.sum_eq_single_of_mem i (Finset.mem_range.2 hi) fun j _ hj => by rw [if_neg (Ne.symm hj), zero_mul],
    if_pos rfl]
  ring

theorem mat_apply (v : Nat → ℝ) (i j : Fin n) : mat n v i j = ∑ k ∈ Finset.range (n ^ 2), (v k : ℂ) * gen n k i j := by
  unfold mat
  rw [Matrix.sum_apply]
  rfl

theorem mat_congr {v w : Nat → ℝ} (h : ∀ k < n ^ 2, v k = w k) : mat n v = mat n w := by
  unfold mat
  exact Finset.sum_congr rfl fun k hk => by rw [h k (Finset.mem_range.1 hk)]

theorem mat_sub (v w : Nat → ℝ) : mat n (fun k => v k - w k) = mat n v - mat n w := by
  unfold mat
  rw [← Finset.sum_sub_distrib]
  exact Finset.sum_congr rfl fun k _ => by push_cast; rw [sub_smul]

theorem mat_smul (c : ℝ) (v : Nat → ℝ) : mat n (fun k => c * v k) = (c : ℂ) • mat n v := by
  unfold mat
  rw [Finset.smul_sum]
  exact Finset.sum_congr rfl fun k _ => by push_cast; rw [mul_smul]

theorem mat_one (hn : 0 < n) (c : ℝ) : mat n (fun k => if k = 0 then c else 0) = (c : ℂ) • 1 := by
  unfold mat
  rw [Finset.sum_eq_single_of_mem 0 (Finset.mem_range.2 (by positivity))]
  · dsimp only
    rw [if_pos rfl, gen_zero]
  · intro k _ hk
    dsimp only
    rw [if_neg hk, Complex.ofReal_zero, zero_smul]

theorem mat_continuous {x : ℝ → Nat → ℝ} {a b : ℝ} (h : ∀ i < n ^ 2, ContinuousOn (fun t => x t i) (Set.Icc a b)) (i j : Fin n) :
    ContinuousOn (fun t => mat n (x t) i j) (Set.Icc a b) := by
  simp only [mat_apply]
  exact continuousOn_finsetSum _ fun k hk =>
    (Complex.continuous_ofReal.comp_continuousOn (h k (Finset.mem_range.1 hk))).mul continuousOn_const

theorem mat_deriv {x : ℝ → Nat → ℝ} {z : Nat → ℝ} {S : Set ℝ} {t : ℝ} (h : ∀ i < n ^ 2, HasDerivWithinAt (fun s => x s i) (z i) S t) :
    Deriv (fun s => mat n (x s)) (mat n z) S t := by
  intro i j
  simp only [mat_apply]
  exact HasDerivWithinAt.fun_sum fun k hk => (h k (Finset.mem_range.1 hk)).ofReal_comp.mul_const _

/-- The state as a matrix, for a diagonal matrix. -/
theorem diagonal_motion {GeV : ℝ} {h : List SolverCall} {v : Solver} {d : Nat → ℝ} (hv : Active n GeV h v fun i j => if i = j then d i else 0)
    {E : ℝ} {H : ℝ → Mat n} {x : ℝ → Nat → ℝ} {a b : ℝ} {S : Set ℝ} (hx : DecoheresOff S v E H x a b) {t : ℝ} (ht : t ∈ Set.Ico a b) (hn : t ∉ S) :
    Deriv (fun s => mat n (x s)) (-Complex.I • (H t * mat n (x t) - mat n (x t) * H t) -
      mat n (fun k => growth GeV h E * d k * x t k)) (Set.Ici t) t := by
  obtain ⟨y, hy, hd⟩ := hx.deriv t ht hn
  rw [← hy, ← mat_sub]
  refine mat_deriv fun i hi => ?_
  have := hd i hi
  rwa [diagonal_rate hv E y (x t) i hi] at this

theorem real_smul (r : ℝ) (A : Mat n) : r • A = (r : ℂ) • A := by
  ext i j
  simp [Matrix.smul_apply]

theorem commutator_smul (c : ℂ) (H A : Mat n) : H * (c • A) - (c • A) * H = c • (H * A - A * H) := by
  rw [Matrix.mul_smul, Matrix.smul_mul, smul_sub]

/-- A matrix that decays at the rate `g` besides following the equation of motion, scaled up again, follows the equation of motion. -/
theorem undamp {H R : ℝ → Mat n} {a b g : ℝ} {S : Set ℝ} (hS : S.Finite) (hc : ∀ i j, ContinuousOn (fun t => R t i j) (Set.Icc a b))
    (hd : ∀ t ∈ Set.Ico a b, t ∉ S → Deriv R (-Complex.I • (H t * R t - R t * H t) - (g : ℂ) • R t) (Set.Ici t) t) :
    Solves H (fun t => (Real.exp (g * (t - a)) : ℂ) • R t) a b := by
  have he : ∀ t : ℝ, HasDerivAt (fun s : ℝ => (Real.exp (g * (s - a)) : ℂ)) ((Real.exp (g * (t - a)) * g : ℝ) : ℂ) t := fun t => by
    have : HasDerivAt (fun s : ℝ => g * (s - a)) g t := by simpa using ((hasDerivAt_id t).sub_const a).const_mul g
    exact this.exp.ofReal_comp
  refine ⟨S, hS, fun i j => ?_, fun t ht hn i j => ?_⟩
  · exact (continuousOn_of_forall_continuousAt fun t _ => (he t).continuousAt).mul (hc i j)
  · have := (he t).hasDerivWithinAt (s := Set.Ici t) |>.mul (hd t ht hn i j)
    refine this.congr_deriv ?_
    rw [commutator_smul]
    simp only [Matrix.sub_apply, Matrix.smul_apply, smul_eq_mul]
    push_cast
    ring

theorem exp_cancel (x : ℝ) (A : Mat n) : A = (Real.exp (-x)) • ((Real.exp x : ℂ) • A) := by
  rw [real_smul, smul_smul, ← Complex.ofReal_mul, ← Real.exp_add, neg_add_cancel, Real.exp_zero, Complex.ofReal_one, one_smul]

/-- A complex function with derivative `l` times itself. -/
theorem scalar_solution {f : ℝ → ℂ} {a b : ℝ} {l : ℂ} {S : Set ℝ} (hS : S.Finite) (hc : ContinuousOn f (Set.Icc a b))
    (hd : ∀ t ∈ Set.Ico a b, t ∉ S → HasDerivWithinAt f (l * f t) (Set.Ici t) t) {t : ℝ} (ht : t ∈ Set.Icc a b) :
    f t = Complex.exp (l * (t - a)) * f a := by
  have he : ∀ t : ℝ, HasDerivAt (fun s : ℝ => Complex.exp (-l * ((s : ℂ) - a))) (Complex.exp (-l * ((t : ℂ) - a)) * -l) t := fun t => by
    have h1 : HasDerivAt (fun s : ℝ => ((s : ℂ) - a)) 1 t := (Complex.ofRealCLM.hasDerivAt (x := t)).sub_const _
    have h2 := h1.const_mul (-l)
    rw [mul_one] at h2
    exact h2.cexp
  have := constant_off_complex (f := fun t => Complex.exp (-l * ((t : ℂ) - a)) * f t) hS
    ((continuousOn_of_forall_continuousAt fun t _ => (he t).continuousAt).mul hc)
    (fun s hs hn => ((he s).hasDerivWithinAt.mul (hd s hs hn)).congr_deriv (by ring)) t ht
  simp only [sub_self, mul_zero, Complex.exp_zero, one_mul] at this
  rw [← this, ← mul_assoc, ← Complex.exp_add]
  ring_nf
  simp

/-- Which entries a member of the basis has. -/
theorem gen_entry {k : Nat} (i j : Fin n) (h : gen n k i j ≠ 0) :
    (k / n = i ∧ k % n = j) ∨ (k / n = j ∧ k % n = i) ∨ (k / n = k % n ∧ i = j) := by
  unfold gen at h
  simp only [Matrix.of_apply] at h
  by_cases h0 : k = 0
  · rw [if_pos h0] at h
    subst h0
    refine .inr (.inr ⟨by simp, ?_⟩)
    by_contra hne
    exact h (if_neg hne)
  rw [if_neg h0] at h
  by_cases h1 : k / n < k % n
  · rw [if_pos h1] at h
    have : (i.val = k / n ∧ j.val = k % n) ∨ (i.val = k % n ∧ j.val = k / n) := by
      by_contra hne
      exact h (if_neg hne)
    omega
  rw [if_neg h1] at h
  by_cases h2 : k % n < k / n
  · rw [if_pos h2] at h
    by_cases h3 : i.val = k % n ∧ j.val = k / n
    · omega
    rw [if_neg h3] at h
    have : i.val = k / n ∧ j.val = k % n := by
      by_contra hne
      exact h (if_neg hne)
    omega
  rw [if_neg h2] at h
  refine .inr (.inr ⟨by omega, ?_⟩)
  by_contra hne
  exact h (if_neg hne)

/-- A diagonal matrix that damps real and imaginary part of each coherence alike and leaves populations alone. -/
theorem mat_coherences (c : ℝ) (w : Nat → Nat → ℝ) (hs : ∀ r s, w r s = w s r) (h0 : ∀ r, w r r = 0) (z : Nat → ℝ) (i j : Fin n) :
    mat n (fun k => c * w (k / n) (k % n) * z k) i j = ((c * w i j : ℝ) : ℂ) * mat n z i j := by
  rw [mat_apply, mat_apply, Finset.mul_sum]
  refine Finset.sum_congr rfl fun k _ => ?_
  by_cases h : gen n k i j = 0
  · rw [h]; simp
  · have : w (k / n) (k % n) = w i j := by
      rcases gen_entry i j h with ⟨h1, h2⟩ | ⟨h1, h2⟩ | ⟨h1, h2⟩
      · rw [h1, h2]
      · rw [h1, h2, hs]
      · rw [h1, h2, h0, h0]
    rw [this]
    push_cast
    ring

end Verif.Decoh
