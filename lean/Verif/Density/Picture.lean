import Mathlib.Analysis.Calculus.Deriv.Star
import Verif.Density.EvolProps

/-!
The equation of motion the integrator is given (`PreDerive`, nuSQuIDS.cpp 278-297, and `HI`, 334-361), and the passage between the
working basis and flavour space: products, differences and adjoints of solutions, uniqueness, changes of picture.
-/

namespace Verif.Density

open Matrix
open scoped ComplexOrder

variable {n : Nat}

/-! ## Model -/

/-- What `PreDerive(x)` does to the projectors (287-289), without the low-pass filter. -/
noncomputable def preDerive (o : Obj n) (x : ℝ) : Obj n :=
  if o.basis ≠ .mass ∧ o.ioscillations = true then evolveProjectors o id x else o

/-- The Hamiltonian in the equation of motion of the state of type `rho` at node `ie` at time `t`, in a medium given along the time:
`HI` after `PreDerive(t)`. The base class integrates `dρ/dt = -i[HI(ie,rho,t), ρ]`. -/
noncomputable def motion (c : ℝ) (dens ye : ℝ → ℝ) (flavours : Fin 3 → Fin n) (o : Obj n) (ie rho : Nat) (t : ℝ) : Mat n :=
  hamiltonian c (dens t) (ye t) (preDerive o t) flavours (fun f => (preDerive o t).evolB1 rho f ie) ie rho

/-- `Set_Basis` (2896-2900). -/
def setBasis (o : Obj n) (b : Basis) : Outcome (Obj n) := if b = .flavor then .throws else .ok { o with basis := b }

/-! ## Solutions -/

theorem SolvesOff.toDeriv {S : Set ℝ} {H ρ : ℝ → Mat n} {a b : ℝ} (h : SolvesOff S H ρ a b) {t : ℝ} (ht : t ∈ Set.Ico a b) (hn : t ∉ S) :
    Deriv ρ (-Complex.I • (H t * ρ t - ρ t * H t)) (Set.Ici t) t := h.deriv t ht hn

theorem continuousOn_mul {A B : ℝ → Mat n} {S : Set ℝ} (hA : ∀ i j, ContinuousOn (fun t => A t i j) S)
    (hB : ∀ i j, ContinuousOn (fun t => B t i j) S) (i j : Fin n) : ContinuousOn (fun t => (A t * B t) i j) S := by
  simp only [Matrix.mul_apply]
  exact continuousOn_finsetSum _ fun l _ => (hA i l).mul (hB l j)

theorem Deriv.congr {A : ℝ → Mat n} {A' B' : Mat n} {S : Set ℝ} {t : ℝ} (h : Deriv A A' S t) (e : A' = B') : Deriv A B' S t := e ▸ h

theorem Deriv.const (A : Mat n) (S : Set ℝ) (t : ℝ) : Deriv (fun _ => A) 0 S t := fun _ _ => hasDerivWithinAt_const _ _ _

theorem Solves.mul {H ρ σ : ℝ → Mat n} {a b : ℝ} (h : Solves H ρ a b) (k : Solves H σ a b) : Solves H (fun t => ρ t * σ t) a b := by
  obtain ⟨S, hS, h, k⟩ := h.pair k
  refine ⟨S, hS, continuousOn_mul h.cont k.cont, fun t ht hn => ?_⟩
  refine ((h.toDeriv ht hn).mul (k.toDeriv ht hn)).congr ?_
  simp only [Matrix.smul_mul, Matrix.mul_smul, ← smul_add, Matrix.sub_mul, Matrix.mul_sub, Matrix.mul_assoc]
  congr 1; abel

theorem Solves.sub {H ρ σ : ℝ → Mat n} {a b : ℝ} (h : Solves H ρ a b) (k : Solves H σ a b) : Solves H (fun t => ρ t - σ t) a b := by
  obtain ⟨S, hS, h, k⟩ := h.pair k
  refine ⟨S, hS, fun i j => (h.cont i j).sub (k.cont i j), fun t ht hn i j => ?_⟩
  have e : (-Complex.I • (H t * (ρ t - σ t) - (ρ t - σ t) * H t)) i j =
      (-Complex.I • (H t * ρ t - ρ t * H t)) i j - (-Complex.I • (H t * σ t - σ t * H t)) i j := by
    rw [← Matrix.sub_apply, ← smul_sub]
    rw [Matrix.mul_sub, Matrix.sub_mul]; abel_nf
  rw [e]
  exact (h.deriv t ht hn i j).sub (k.deriv t ht hn i j)

/-- The adjoint of a solution is one, if the Hamiltonian is Hermitian. -/
theorem Solves.star {H ρ : ℝ → Mat n} {a b : ℝ} (hH : ∀ t ∈ Set.Ico a b, (H t).IsHermitian) (h : Solves H ρ a b) :
    Solves H (fun t => (ρ t)ᴴ) a b := by
  obtain ⟨S, hS, h⟩ := h
  refine ⟨S, hS, fun i j => ?_, fun t ht hn i j => ?_⟩
  · simp only [Matrix.conjTranspose_apply]
    exact Complex.continuous_conj.comp_continuousOn (h.cont j i)
  · have hd := (h.deriv t ht hn j i).star
    refine hd.congr_deriv ?_
    rw [← Matrix.conjTranspose_apply]
    rw [Matrix.conjTranspose_smul, Matrix.conjTranspose_sub, Matrix.conjTranspose_mul, Matrix.conjTranspose_mul, (hH t ht).eq]
    have : Star.star (-Complex.I) = Complex.I := by simp
    rw [this, neg_smul, ← smul_neg, neg_sub]

theorem Solves.trace {H ρ : ℝ → Mat n} {a b : ℝ} (h : Solves H ρ a b) (t : ℝ) (ht : t ∈ Set.Icc a b) : (ρ t).trace = (ρ a).trace := by
  have := h.trace_pow 1 t ht
  rwa [pow_one, pow_one] at this

/-- With a Hermitian Hamiltonian, however irregular, there is at most one solution. -/
theorem Solves.determined {H ρ σ : ℝ → Mat n} {a b : ℝ} (hH : ∀ t ∈ Set.Ico a b, (H t).IsHermitian) (h : Solves H ρ a b)
    (k : Solves H σ a b) (e : ρ a = σ a) (t : ℝ) (ht : t ∈ Set.Icc a b) : ρ t = σ t := by
  have hd := (h.sub k).mul ((h.sub k).star hH)
  have htr := hd.trace t ht
  rw [e, sub_self, Matrix.zero_mul, Matrix.trace_zero] at htr
  have := Matrix.trace_mul_conjTranspose_self_eq_zero_iff.1 htr
  exact sub_eq_zero.1 this

/-- A constant change of basis. -/
theorem Solves.conj {H ρ : ℝ → Mat n} {a b : ℝ} (h : Solves H ρ a b) (W W' : Mat n) (hW : W' * W = 1) :
    Solves (fun t => W * H t * W') (fun t => W * ρ t * W') a b := by
  obtain ⟨S, hS, h⟩ := h
  refine ⟨S, hS, fun i j => ?_, fun t ht hn => ?_⟩
  · exact continuousOn_mul (A := fun t => W * ρ t) (B := fun _ => W')
      (continuousOn_mul (A := fun _ => W) (B := ρ) (fun _ _ => continuousOn_const) h.cont) (fun _ _ => continuousOn_const) i j
  · have h1 := (Deriv.const W (Set.Ici t) t).mul (h.toDeriv ht hn)
    have h2 := h1.mul (Deriv.const W' (Set.Ici t) t)
    refine h2.congr ?_
    have e : ∀ A B : Mat n, W * A * W' * (W * B * W') = W * (A * B) * W' := by
      intro A B
      calc W * A * W' * (W * B * W') = W * A * (W' * W) * B * W' := by simp only [Matrix.mul_assoc]
        _ = _ := by rw [hW]; simp only [Matrix.mul_assoc, Matrix.mul_one]
    rw [e, e]
    simp only [Matrix.mul_smul, Matrix.smul_mul, Matrix.zero_mul, Matrix.mul_zero, zero_add, add_zero, Matrix.mul_sub, Matrix.sub_mul]

/-- From the interaction picture to the Schrödinger picture: if `ρ` follows the rotating potential, the state rotated back follows the sum
of the vacuum Hamiltonian and the potential. -/
theorem Solves.picture {V ρ : ℝ → Mat n} {a b : ℝ} (H₀ : Mat n) (s : ℝ) (h : Solves (fun t => evolve H₀ (t - s) (V t)) ρ a b) :
    Solves (fun t => H₀ + V t) (fun t => uTransform H₀ (t - s) (ρ t)) a b := by
  have c1 : ∀ i j, ContinuousOn (fun t => phase H₀ (-(t - s)) i j) (Set.Icc a b) := fun i j =>
    ((phase_continuous H₀ i j).comp (by fun_prop)).continuousOn
  have c2 : ∀ i j, ContinuousOn (fun t => phase H₀ (t - s) i j) (Set.Icc a b) := fun i j =>
    ((phase_continuous H₀ i j).comp (by fun_prop)).continuousOn
  obtain ⟨S, hS, h⟩ := h
  refine ⟨S, hS, continuousOn_mul (continuousOn_mul c1 h.cont) c2, fun t ht hn => ?_⟩
  have h1 := phase_deriv_neg H₀ s t (Set.Ici t)
  have h2 := phase_deriv H₀ s t (Set.Ici t)
  have hd := (h1.mul (h.toDeriv ht hn)).mul h2
  have e : (fun r => phase H₀ (s - r) * ρ r * phase H₀ (r - s)) = fun r => uTransform H₀ (r - s) (ρ r) := by
    funext r; unfold uTransform; rw [neg_sub]
  rw [e] at hd
  refine hd.congr ?_
  have hP : phase H₀ (s - t) * phase H₀ (t - s) = 1 := by
    have := phase_neg' H₀ (t - s); rwa [neg_sub] at this
  have hP' : phase H₀ (t - s) * phase H₀ (s - t) = 1 := by
    have := phase_neg H₀ (t - s); rwa [neg_sub] at this
  unfold uTransform evolve
  rw [neg_sub, phase_commute H₀ (t - s)]
  generalize phase H₀ (t - s) = P at *
  generalize hQ : phase H₀ (s - t) = Q at *
  have ea : Q * (P * V t * Q * ρ t) * P = V t * (Q * ρ t * P) := by
    calc Q * (P * V t * Q * ρ t) * P = (Q * P) * V t * Q * ρ t * P := by simp only [Matrix.mul_assoc]
      _ = _ := by rw [hP, Matrix.one_mul]; simp only [Matrix.mul_assoc]
  have eb : Q * (ρ t * (P * V t * Q)) * P = Q * ρ t * P * V t := by
    calc Q * (ρ t * (P * V t * Q)) * P = Q * ρ t * P * V t * (Q * P) := by simp only [Matrix.mul_assoc]
      _ = _ := by rw [hP, Matrix.mul_one]
  have e1 : Q * (-Complex.I • (P * V t * Q * ρ t - ρ t * (P * V t * Q))) * P =
      -Complex.I • (V t * (Q * ρ t * P) - Q * ρ t * P * V t) := by
    rw [Matrix.mul_smul, Matrix.smul_mul, Matrix.mul_sub, Matrix.sub_mul, ea, eb]
  rw [Matrix.add_mul, e1]
  simp only [Matrix.smul_mul, Matrix.mul_smul, Matrix.neg_mul, neg_smul, Matrix.add_mul, Matrix.mul_add, Matrix.mul_assoc, smul_sub, smul_add]
  abel

end Verif.Density
