import Mathlib.Analysis.Matrix.Spectrum
import Mathlib.Analysis.Matrix.PosDef
import Mathlib.LinearAlgebra.Lagrange
import Verif.Density.Model
import Verif.Density.Off

namespace Verif.Density

open Matrix
open scoped ComplexOrder

variable {n : Nat}

/-! ## Products -/

theorem dot_comm (A B : Mat n) : dot A B = dot B A := by
  unfold dot; rw [Matrix.trace_mul_comm]

theorem dot_add (A B C : Mat n) : dot A (B + C) = dot A B + dot A C := by
  unfold dot; rw [Matrix.mul_add, Matrix.trace_add, Complex.add_re]

theorem dot_sub (A B C : Mat n) : dot A (B - C) = dot A B - dot A C := by
  unfold dot; rw [Matrix.mul_sub, Matrix.trace_sub, Complex.sub_re]

theorem dot_smul (A B : Mat n) (x : ℝ) : dot A (x • B) = x * dot A B := by
  unfold dot; rw [Matrix.mul_smul, Matrix.trace_smul, Complex.smul_re, smul_eq_mul]

theorem dot_zero (A : Mat n) : dot A 0 = 0 := by simp [dot]

theorem dot_sum {ι : Type} (s : Finset ι) (A : Mat n) (f : ι → Mat n) : dot A (∑ i ∈ s, f i) = ∑ i ∈ s, dot A (f i) := by
  classical
  induction s using Finset.induction_on with
  | empty => simp [dot_zero]
  | insert a s ha ih => rw [Finset.sum_insert ha, Finset.sum_insert ha, dot_add, ih]

/-- A change of basis applied to both factors does not change the product. -/
theorem dot_conj (W W' A B : Mat n) (h : W' * W = 1) : dot (W * A * W') (W * B * W') = dot A B := by
  unfold dot
  have : W * A * W' * (W * B * W') = W * (A * B) * W' := by
    calc W * A * W' * (W * B * W') = W * A * (W' * W) * B * W' := by simp only [Matrix.mul_assoc]
      _ = _ := by rw [h]; simp only [Matrix.mul_assoc, Matrix.mul_one]
  rw [this, Matrix.trace_mul_comm, ← Matrix.mul_assoc, h, Matrix.one_mul]

theorem dot_move (W W' A B : Mat n) : dot (W * A * W') B = dot A (W' * B * W) := by
  unfold dot
  rw [Matrix.mul_assoc, Matrix.mul_assoc, Matrix.trace_mul_comm]
  simp only [Matrix.mul_assoc]

theorem dot_projector_left (i : Fin n) (A : Mat n) : dot (projector i) A = (A i i).re := by
  unfold dot projector
  rw [Matrix.trace, Finset.sum_eq_single i]
  · rw [Matrix.diag_apply, Matrix.single_mul_apply_same, one_mul]
  · intro j _ hj
    rw [Matrix.diag_apply, Matrix.single_mul_apply_of_ne]
    exact hj
  · intro h; exact absurd (Finset.mem_univ i) h

theorem dot_projector (i j : Fin n) : dot (projector i) (projector j) = if i = j then 1 else 0 := by
  rw [dot_projector_left]
  unfold projector
  by_cases h : i = j
  · subst h; simp
  · rw [if_neg h, Matrix.single_apply, if_neg (fun hh => h hh.1.symm)]; rfl

theorem sum_projector : ∑ i : Fin n, projector i = (1 : Mat n) := by
  ext a b
  rw [Matrix.sum_apply]
  simp only [projector, Matrix.single, Matrix.of_apply, Matrix.one_apply]
  by_cases h : a = b
  · subst h; simp
  · rw [if_neg h]
    refine Finset.sum_eq_zero fun i _ => ?_
    rw [if_neg]
    rintro ⟨rfl, rfl⟩
    exact h rfl

/-! ## Phases -/

theorem phase_mul (H : Mat n) (s t : ℝ) : phase H s * phase H t = phase H (s + t) := by
  unfold phase
  rw [← Matrix.exp_add_of_commute]
  · congr 1
    push_cast
    rw [mul_add, add_smul]
  · exact (Commute.refl H).smul_left _ |>.smul_right _

theorem phase_zero_time (H : Mat n) : phase H 0 = 1 := by
  unfold phase; simp

theorem phase_neg (H : Mat n) (t : ℝ) : phase H t * phase H (-t) = 1 := by
  rw [phase_mul, add_neg_cancel, phase_zero_time]

theorem phase_neg' (H : Mat n) (t : ℝ) : phase H (-t) * phase H t = 1 := by
  rw [phase_mul, neg_add_cancel, phase_zero_time]

theorem phase_star {H : Mat n} (h : H.IsHermitian) (t : ℝ) : (phase H t)ᴴ = phase H (-t) := by
  unfold phase
  rw [← Matrix.exp_conjTranspose, Matrix.conjTranspose_smul, h.eq]
  congr 2
  simp

theorem phase_zero_matrix (t : ℝ) : phase (0 : Mat n) t = 1 := by
  unfold phase; simp

theorem evolve_zero_time (H A : Mat n) : evolve H 0 A = A := by
  unfold evolve; rw [neg_zero, phase_zero_time, Matrix.one_mul, Matrix.mul_one]

theorem evolve_one (H : Mat n) (t : ℝ) : evolve H t 1 = 1 := by
  unfold evolve; rw [Matrix.mul_one, phase_neg]

theorem evolve_sum {ι : Type} (s : Finset ι) (H : Mat n) (t : ℝ) (f : ι → Mat n) : evolve H t (∑ i ∈ s, f i) = ∑ i ∈ s, evolve H t (f i) := by
  unfold evolve; rw [Matrix.mul_sum, Matrix.sum_mul]

theorem dot_evolve (H A B : Mat n) (t : ℝ) : dot (evolve H t A) (evolve H t B) = dot A B := dot_conj _ _ _ _ (phase_neg' H t)

/-! ## Projectors in the rotated basis -/

/-- A matrix with `U U† = 1`. -/
def Unitary (U : Mat n) : Prop := U * Uᴴ = 1

theorem Unitary.star_mul {U : Mat n} (h : Unitary U) : Uᴴ * U = 1 := mul_eq_one_comm.1 h

theorem dot_b1 {U : Mat n} (h : Unitary U) (i j : Fin n) : dot (toB1 U (projector i)) (toB1 U (projector j)) = if i = j then 1 else 0 := by
  unfold toB1; rw [dot_conj _ _ _ _ h.star_mul, dot_projector]

theorem sum_b1 {U : Mat n} (h : Unitary U) : ∑ i : Fin n, toB1 U (projector i) = 1 := by
  unfold toB1
  rw [← Matrix.sum_mul, ← Matrix.mul_sum, sum_projector, Matrix.mul_one]
  exact h

/-- Against a positive matrix a rotated projector gives a non-negative number. -/
theorem dot_b1_nonneg (U : Mat n) {A : Mat n} (hA : A.PosSemidef) (i : Fin n) : 0 ≤ dot (toB1 U (projector i)) A := by
  unfold toB1
  rw [dot_move, dot_projector_left]
  have := (hA.conjTranspose_mul_mul_same U).diag_nonneg (i := i)
  exact (Complex.le_def.1 this).1

theorem foldl_sum (l : List (Fin n)) (f : Fin n → Mat n) (z : Mat n) :
    l.foldl (fun s j => s + f j) z = z + (l.map f).sum := by
  induction l generalizing z with
  | nil => simp
  | cons a l ih => rw [List.foldl_cons, ih, List.map_cons, List.sum_cons, add_assoc]

theorem foldl_finRange (f : Fin n → Mat n) : (List.finRange n).foldl (fun s j => s + f j) 0 = ∑ j, f j := by
  rw [foldl_sum, zero_add, ← List.ofFn_eq_map, List.sum_ofFn]

/-! ## Positive matrices and traces of powers -/

/-- Trace of a power of a Hermitian matrix. -/
theorem trace_pow {A : Mat n} (hA : A.IsHermitian) (k : Nat) : (A ^ k).trace = ∑ i, ((hA.eigenvalues i : ℂ)) ^ k := by
  have h := hA.spectral_theorem
  rw [Unitary.conjStarAlgAut_apply] at h
  have hk : A ^ k = (hA.eigenvectorUnitary : Mat n) * diagonal (fun i => ((hA.eigenvalues i : ℂ)) ^ k) * star (hA.eigenvectorUnitary : Mat n) := by
    induction k with
    | zero => simp
    | succ k ih =>
      rw [pow_succ, ih]
      have hu : star (hA.eigenvectorUnitary : Mat n) * (hA.eigenvectorUnitary : Mat n) = 1 := Unitary.coe_star_mul_self _
      calc _ = (hA.eigenvectorUnitary : Mat n) * diagonal (fun i => ((hA.eigenvalues i : ℂ)) ^ k) * star (hA.eigenvectorUnitary : Mat n) *
            ((hA.eigenvectorUnitary : Mat n) * diagonal (RCLike.ofReal ∘ hA.eigenvalues) * star (hA.eigenvectorUnitary : Mat n)) :=
            congrArg _ h
        _ = (hA.eigenvectorUnitary : Mat n) * diagonal (fun i => ((hA.eigenvalues i : ℂ)) ^ k) *
            (star (hA.eigenvectorUnitary : Mat n) * (hA.eigenvectorUnitary : Mat n)) * diagonal (RCLike.ofReal ∘ hA.eigenvalues) *
            star (hA.eigenvectorUnitary : Mat n) := by simp only [Matrix.mul_assoc]
        _ = _ := by
          rw [hu, Matrix.mul_one, Matrix.mul_assoc (hA.eigenvectorUnitary : Mat n), Matrix.diagonal_mul_diagonal]
          simp only [pow_succ, Function.comp_apply]
          rfl
  rw [hk, Matrix.trace_mul_comm, ← Matrix.mul_assoc, Unitary.coe_star_mul_self, Matrix.one_mul, Matrix.trace_diagonal]

/-- If all powers of two Hermitian matrices have the same trace and one is positive, so is the other. -/
theorem posSemidef_of_traces {A B : Mat n} (hA : A.PosSemidef) (hB : B.IsHermitian) (h : ∀ k, (A ^ k).trace = (B ^ k).trace) :
    B.PosSemidef := by
  rw [hB.posSemidef_iff_eigenvalues_nonneg]
  intro i
  by_contra hneg
  rw [Pi.zero_apply, not_le] at hneg
  have hp : ∀ p : Polynomial ℂ, ∑ j, p.eval ((hA.1.eigenvalues j : ℂ)) = ∑ j, p.eval ((hB.eigenvalues j : ℂ)) := by
    intro p
    induction p using Polynomial.induction_on' with
    | add p q hp hq => simp only [Polynomial.eval_add, Finset.sum_add_distrib, hp, hq]
    | monomial k a =>
      simp only [Polynomial.eval_monomial, ← Finset.mul_sum]
      rw [← trace_pow, ← trace_pow, h k]
  classical
  let c : ℂ := (hB.eigenvalues i : ℂ)
  let s : Finset ℂ := (Finset.univ.image fun j => ((hA.1.eigenvalues j : ℂ))) ∪ (Finset.univ.image fun j => ((hB.eigenvalues j : ℂ)))
  have hp := hp (Lagrange.interpolate s id (fun z => if z = c then 1 else 0))
  have hev : ∀ z ∈ s, (Lagrange.interpolate s id (fun z => if z = c then (1 : ℂ) else 0)).eval z = if z = c then 1 else 0 := by
    intro z hz
    exact Lagrange.eval_interpolate_at_node (v := id) (fun z => if z = c then (1 : ℂ) else 0) (Set.injOn_id _) hz
  have hl : ∑ j, (Lagrange.interpolate s id (fun z => if z = c then (1 : ℂ) else 0)).eval ((hA.1.eigenvalues j : ℂ)) = 0 := by
    refine Finset.sum_eq_zero fun j _ => ?_
    rw [hev _ (Finset.mem_union_left _ (Finset.mem_image_of_mem _ (Finset.mem_univ j))), if_neg]
    intro hc
    have hc : hA.1.eigenvalues j = hB.eigenvalues i := Complex.ofReal_injective hc
    have := hA.eigenvalues_nonneg j
    linarith
  have hr : ∑ j, (Lagrange.interpolate s id (fun z => if z = c then (1 : ℂ) else 0)).eval ((hB.eigenvalues j : ℂ)) =
      ((Finset.univ.filter fun j => ((hB.eigenvalues j : ℂ)) = c).card : ℂ) := by
    rw [Finset.card_filter, Nat.cast_sum]
    refine Finset.sum_congr rfl fun j _ => ?_
    rw [hev _ (Finset.mem_union_right _ (Finset.mem_image_of_mem _ (Finset.mem_univ j)))]
    split <;> simp
  rw [hl, hr] at hp
  have : (Finset.univ.filter fun j => ((hB.eigenvalues j : ℂ)) = c).card = 0 := by exact_mod_cast hp.symm
  rw [Finset.card_eq_zero] at this
  have hmem : i ∈ (Finset.univ.filter fun j => ((hB.eigenvalues j : ℂ)) = c) := by simp [c]
  rw [this] at hmem
  exact absurd hmem (Finset.notMem_empty i)

/-! ## The equation of motion -/

/-- `ρ` solves the equation the integrator is given, `dρ/dt = -i[H,ρ]`, from `a` to `b`: it is continuous and has that derivative from
the right, except at the times in `S`. -/
structure SolvesOff (S : Set ℝ) (H ρ : ℝ → Mat n) (a b : ℝ) : Prop where
  cont : ∀ i j, ContinuousOn (fun t => ρ t i j) (Set.Icc a b)
  deriv : ∀ t ∈ Set.Ico a b, t ∉ S → ∀ i j, HasDerivWithinAt (fun s => ρ s i j) ((-Complex.I • (H t * ρ t - ρ t * H t)) i j) (Set.Ici t) t

/-- `ρ` solves the equation from `a` to `b` except at finitely many times: layers of matter may make `H` jump. -/
def Solves (H ρ : ℝ → Mat n) (a b : ℝ) : Prop := ∃ S : Set ℝ, S.Finite ∧ SolvesOff S H ρ a b

theorem SolvesOff.mono {S S' : Set ℝ} {H ρ : ℝ → Mat n} {a b : ℝ} (h : SolvesOff S H ρ a b) (hS : S ⊆ S') : SolvesOff S' H ρ a b :=
  ⟨h.cont, fun t ht hn => h.deriv t ht fun hm => hn (hS hm)⟩

/-- Two solutions, with the exceptions of both. -/
theorem Solves.pair {H H' ρ σ : ℝ → Mat n} {a b : ℝ} (h : Solves H ρ a b) (k : Solves H' σ a b) :
    ∃ S : Set ℝ, S.Finite ∧ SolvesOff S H ρ a b ∧ SolvesOff S H' σ a b := by
  obtain ⟨S, hS, h⟩ := h
  obtain ⟨S', hS', k⟩ := k
  exact ⟨S ∪ S', hS.union hS', h.mono Set.subset_union_left, k.mono Set.subset_union_right⟩

theorem Solves.cont {H ρ : ℝ → Mat n} {a b : ℝ} (h : Solves H ρ a b) (i j : Fin n) : ContinuousOn (fun t => ρ t i j) (Set.Icc a b) := by
  obtain ⟨S, _, h⟩ := h
  exact h.cont i j

theorem SolvesOff.pow {S : Set ℝ} {H ρ : ℝ → Mat n} {a b : ℝ} (h : SolvesOff S H ρ a b) (k : Nat) : SolvesOff S H (fun t => ρ t ^ k) a b := by
  induction k with
  | zero =>
    constructor
    · intro i j; simp only [pow_zero]; exact continuousOn_const
    · intro t _ _ i j
      simp only [pow_zero, Matrix.mul_one, Matrix.one_mul, sub_self, smul_zero, Matrix.zero_apply]
      exact hasDerivWithinAt_const _ _ _
  | succ k ih =>
    constructor
    · intro i j
      simp only [pow_succ, Matrix.mul_apply]
      exact continuousOn_finsetSum _ fun l _ => (ih.cont i l).mul (h.cont l j)
    · intro t ht hn i j
      have hd : HasDerivWithinAt (fun s => ∑ l, (ρ s ^ k) i l * ρ s l j)
          (∑ l, ((-Complex.I • (H t * ρ t ^ k - ρ t ^ k * H t)) i l * ρ t l j + (ρ t ^ k) i l * (-Complex.I • (H t * ρ t - ρ t * H t)) l j))
          (Set.Ici t) t := by
        refine HasDerivWithinAt.fun_sum fun l _ => ?_
        exact (ih.deriv t ht hn i l).mul (h.deriv t ht hn l j)
      have e1 : (fun s => (ρ s ^ (k + 1)) i j) = fun s => ∑ l, (ρ s ^ k) i l * ρ s l j := by
        funext s; rw [pow_succ, Matrix.mul_apply]
      rw [e1]
      refine hd.congr_deriv ?_
      rw [Finset.sum_add_distrib, ← Matrix.mul_apply, ← Matrix.mul_apply, ← Matrix.add_apply]
      rw [pow_succ, Matrix.smul_mul, Matrix.mul_smul, ← smul_add]
      noncomm_ring

theorem Solves.trace_pow {H ρ : ℝ → Mat n} {a b : ℝ} (h : Solves H ρ a b) (k : Nat) : ∀ t ∈ Set.Icc a b, (ρ t ^ k).trace = (ρ a ^ k).trace := by
  obtain ⟨S, hS, h⟩ := h
  have hk := h.pow k
  have := constant_off_complex (f := fun t => (ρ t ^ k).trace) (a := a) (b := b) hS ?_ ?_
  · exact this
  · simp only [Matrix.trace, Matrix.diag_apply]
    exact continuousOn_finsetSum _ fun l _ => hk.cont l l
  · intro t ht hn
    have hd : HasDerivWithinAt (fun s => ∑ l, (ρ s ^ k) l l) (∑ l, ((-Complex.I • (H t * ρ t ^ k - ρ t ^ k * H t)) l l)) (Set.Ici t) t :=
      HasDerivWithinAt.fun_sum fun l _ => hk.deriv t ht hn l l
    have e : ∑ l, ((-Complex.I • (H t * ρ t ^ k - ρ t ^ k * H t)) l l) = 0 := by
      have : ∑ l, ((-Complex.I • (H t * ρ t ^ k - ρ t ^ k * H t)) l l) = (-Complex.I • (H t * ρ t ^ k - ρ t ^ k * H t)).trace := rfl
      rw [this, Matrix.trace_smul, Matrix.trace_sub, Matrix.trace_mul_comm, sub_self, smul_zero]
    rw [e] at hd
    exact hd

end Verif.Density
