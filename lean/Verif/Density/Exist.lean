import Mathlib.Analysis.ODE.ExistUnique
import Mathlib.Analysis.Calculus.Deriv.Star
import Verif.Density.Motion

/-!
Existence of solutions of linear equations with continuous coefficients, on the whole interval.
-/

namespace Verif.Density

open Set Matrix

variable {n : Nat}

section
variable {E : Type} [NormedAddCommGroup E] [NormedSpace ℝ E]

/-- `α` solves `x' = f t x` on `[a, b]`. -/
def SolvesOn (f : ℝ → E → E) (a b : ℝ) (α : ℝ → E) : Prop := ∀ t ∈ Icc a b, HasDerivWithinAt α (f t (α t)) (Icc a b) t

theorem SolvesOn.glue {f : ℝ → E → E} {a m b : ℝ} (ham : a ≤ m) (hmb : m ≤ b) {α β : ℝ → E} (hα : SolvesOn f a m α) (hβ : SolvesOn f m b β)
    (h : β m = α m) : SolvesOn f a b fun t => if t ≤ m then α t else β t := by
  have e1 : ∀ t ∈ Icc a m, (if t ≤ m then α t else β t) = α t := fun t ht => if_pos ht.2
  have e2 : ∀ t ∈ Icc m b, (if t ≤ m then α t else β t) = β t := fun t ht => by
    by_cases hm : t ≤ m
    · rw [if_pos hm, le_antisymm hm ht.1, h]
    · rw [if_neg hm]
  have d1 : ∀ t, HasDerivWithinAt (fun t => if t ≤ m then α t else β t) (f t (if t ≤ m then α t else β t)) (Icc a m) t := by
    intro t
    by_cases ht : t ∈ Icc a m
    · rw [e1 t ht]
      exact (hα t ht).congr e1 (e1 t ht)
    · exact HasFDerivWithinAt.of_notMem_closure (by rwa [isClosed_Icc.closure_eq])
  have d2 : ∀ t, HasDerivWithinAt (fun t => if t ≤ m then α t else β t) (f t (if t ≤ m then α t else β t)) (Icc m b) t := by
    intro t
    by_cases ht : t ∈ Icc m b
    · rw [e2 t ht]
      exact (hβ t ht).congr e2 (e2 t ht)
    · exact HasFDerivWithinAt.of_notMem_closure (by rwa [isClosed_Icc.closure_eq])
  intro t _
  have := (d1 t).union (d2 t)
  rwa [Icc_union_Icc_eq_Icc ham hmb] at this

/-- With one Lipschitz constant for all times there is a solution on the whole interval. -/
theorem exists_solution [CompleteSpace E] {f : ℝ → E → E} {a b K : ℝ} (hK : 0 ≤ K) (hab : a ≤ b)
    (hl : ∀ t ∈ Icc a b, ∀ x y, ‖f t x - f t y‖ ≤ K * ‖x - y‖) (hc : ∀ x, ContinuousOn (fun t => f t x) (Icc a b)) (x₀ : E) :
    ∃ α, α a = x₀ ∧ SolvesOn f a b α := by
  have hh : (0 : ℝ) < 1 / (2 * (K + 1)) := by positivity
  have key : ∀ N : Nat, ∀ c d, a ≤ c → c ≤ d → d ≤ b → d - c ≤ N * (1 / (2 * (K + 1))) → ∀ x₀, ∃ α, α c = x₀ ∧ SolvesOn f c d α := by
    intro N
    induction N with
    | zero =>
      intro c d hac hcd hdb hN x₀
      have : d = c := by push_cast at hN; linarith
      subst this
      refine ⟨fun t => x₀ + (t - d) • f d x₀, by simp, fun t ht => ?_⟩
      have : t = d := le_antisymm ht.2 ht.1
      subst this
      have h1 : HasDerivWithinAt (fun u : ℝ => x₀ + (u - t) • f t x₀) ((1 : ℝ) • f t x₀) (Icc t t) t :=
        (((hasDerivWithinAt_id t _).sub_const t).smul_const (f t x₀)).const_add x₀
      simpa using h1
    | succ N ih =>
      intro c d hac hcd hdb hN x₀
      set m := min d (c + 1 / (2 * (K + 1))) with hm
      have hcm : c ≤ m := le_min hcd (by linarith)
      have hmd : m ≤ d := min_le_left _ _
      have hmc : m - c ≤ 1 / (2 * (K + 1)) := by have := min_le_right d (c + 1 / (2 * (K + 1))); rw [← hm] at this; linarith
      have hdm : d - m ≤ N * (1 / (2 * (K + 1))) := by
        push_cast at hN
        rcases le_total d (c + 1 / (2 * (K + 1))) with h | h
        · rw [hm, min_eq_left h, sub_self]; positivity
        · rw [hm, min_eq_right h]; linarith
      have hsub : Icc c m ⊆ Icc a b := Icc_subset_Icc hac (hmd.trans hdb)
      obtain ⟨G, hG⟩ := (isCompact_Icc (a := c) (b := m)).exists_bound_of_continuousOn ((hc x₀).mono hsub)
      have hG0 : 0 ≤ G := (norm_nonneg _).trans (hG c ⟨le_refl _, hcm⟩)
      have hpl : IsPicardLindelof f (⟨c, le_refl _, hcm⟩ : Icc c m) x₀ G.toNNReal 0 (G + K * G).toNNReal K.toNNReal := by
        refine ⟨fun t ht => LipschitzOnWith.of_dist_le_mul fun x _ y _ => ?_, fun x _ => (hc x).mono hsub, fun t ht x hx => ?_, ?_⟩
        · rw [dist_eq_norm, dist_eq_norm, Real.coe_toNNReal _ hK]
          exact hl t (hsub ht) x y
        · rw [Real.coe_toNNReal _ (by positivity)]
          rw [Metric.mem_closedBall, dist_eq_norm, Real.coe_toNNReal _ hG0] at hx
          calc ‖f t x‖ = ‖f t x₀ + (f t x - f t x₀)‖ := by congr 1; abel
            _ ≤ ‖f t x₀‖ + ‖f t x - f t x₀‖ := norm_add_le _ _
            _ ≤ G + K * G := add_le_add (hG t ht) ((hl t (hsub ht) x x₀).trans (mul_le_mul_of_nonneg_left hx hK))
        · rw [Real.coe_toNNReal _ (by positivity), Real.coe_toNNReal _ hG0]
          simp only [sub_self, NNReal.coe_zero, sub_zero]
          rw [max_eq_left (by linarith)]
          calc (G + K * G) * (m - c) ≤ (G + K * G) * (1 / (2 * (K + 1))) := mul_le_mul_of_nonneg_left hmc (by positivity)
            _ = G / 2 := by field_simp; ring
            _ ≤ G := by linarith
      obtain ⟨α, hα0, hα⟩ := hpl.exists_eq_forall_mem_Icc_hasDerivWithinAt₀
      obtain ⟨β, hβ0, hβ⟩ := ih m d (hac.trans hcm) hmd hdb hdm (α m)
      exact ⟨fun t => if t ≤ m then α t else β t, by simp only [if_pos hcm]; exact hα0, SolvesOn.glue hcm hmd hα hβ hβ0⟩
  obtain ⟨N, hN⟩ := exists_nat_ge ((b - a) / (1 / (2 * (K + 1))))
  exact key N a b (le_refl _) hab (le_refl _) (by rw [div_le_iff₀ hh] at hN; exact hN) x₀

/-- The same from the end. -/
theorem exists_solution_end [CompleteSpace E] {f : ℝ → E → E} {a b K : ℝ} (hK : 0 ≤ K) (hab : a ≤ b)
    (hl : ∀ t ∈ Icc a b, ∀ x y, ‖f t x - f t y‖ ≤ K * ‖x - y‖) (hc : ∀ x, ContinuousOn (fun t => f t x) (Icc a b)) (x₀ : E) :
    ∃ α, α b = x₀ ∧ SolvesOn f a b α := by
  have hmap : MapsTo (fun t : ℝ => -t) (Icc (-b) (-a)) (Icc a b) := fun t ht => ⟨by linarith [ht.2], by linarith [ht.1]⟩
  have hmap' : MapsTo (fun t : ℝ => -t) (Icc a b) (Icc (-b) (-a)) := fun t ht => ⟨by linarith [ht.2], by linarith [ht.1]⟩
  obtain ⟨α, h0, h⟩ := exists_solution (f := fun t x => -f (-t) x) (a := -b) (b := -a) hK (by linarith)
    (fun t ht x y => by
      have := hl (-t) (hmap ht) x y
      rwa [← neg_sub', norm_neg])
    (fun x => ((hc x).comp continuous_neg.continuousOn hmap).neg) x₀
  refine ⟨fun t => α (-t), by simpa using h0, fun t ht => ?_⟩
  have h1 := h (-t) (hmap' ht)
  have h2 := HasDerivWithinAt.scomp t h1 (hasDerivWithinAt_neg t (Icc a b)) hmap'
  simp only [neg_neg, smul_neg, neg_smul, one_smul] at h2
  exact h2

end

/-! ## Matrices -/

/-- The right-hand side for one state. -/
def rhs (H Γ G X : Mat n) : Mat n := -Complex.I • (H * X - X * H) - (Γ * X + X * Γ) + G

theorem entry_bound {A X : Mat n} {M N : ℝ} (hA : ∀ i j, ‖A i j‖ ≤ M) (hX : ∀ i j, ‖X i j‖ ≤ N) (hM : 0 ≤ M) (i j : Fin n) :
    ‖(A * X) i j‖ ≤ n * (M * N) := by
  rw [Matrix.mul_apply]
  refine (norm_sum_le _ _).trans ?_
  calc ∑ l, ‖A i l * X l j‖ ≤ ∑ _l : Fin n, M * N := Finset.sum_le_sum fun l _ => by
        rw [norm_mul]; exact mul_le_mul (hA i l) (hX l j) (norm_nonneg _) hM
    _ = n * (M * N) := by simp

theorem rhs_sub (H Γ G X Y : Mat n) : rhs H Γ G X - rhs H Γ G Y = rhs H Γ 0 (X - Y) := by
  unfold rhs
  simp only [Matrix.mul_sub, Matrix.sub_mul, smul_sub]
  abel

theorem rhs_bound {H Γ X : Mat n} {M N : ℝ} (hH : ∀ i j, ‖H i j‖ ≤ M) (hΓ : ∀ i j, ‖Γ i j‖ ≤ M) (hX : ∀ i j, ‖X i j‖ ≤ N) (hM : 0 ≤ M) (hN : 0 ≤ N)
    (i j : Fin n) : ‖rhs H Γ 0 X i j‖ ≤ 4 * n * M * N := by
  have h1 := entry_bound hH hX hM i j
  have h2 := entry_bound hX hH hN i j
  have h3 := entry_bound hΓ hX hM i j
  have h4 := entry_bound hX hΓ hN i j
  have e : rhs H Γ 0 X i j = -Complex.I * ((H * X) i j - (X * H) i j) - ((Γ * X) i j + (X * Γ) i j) := by
    simp [rhs]
  rw [e]
  have hI : ‖-Complex.I * ((H * X) i j - (X * H) i j)‖ ≤ ‖(H * X) i j‖ + ‖(X * H) i j‖ := by
    rw [norm_mul, norm_neg, Complex.norm_I, one_mul]
    exact norm_sub_le _ _
  calc _ ≤ ‖-Complex.I * ((H * X) i j - (X * H) i j)‖ + ‖(Γ * X) i j + (X * Γ) i j‖ := norm_sub_le _ _
    _ ≤ (‖(H * X) i j‖ + ‖(X * H) i j‖) + (‖(Γ * X) i j‖ + ‖(X * Γ) i j‖) := add_le_add hI (norm_add_le _ _)
    _ ≤ n * (M * N) + n * (N * M) + (n * (M * N) + n * (N * M)) := add_le_add (add_le_add h1 h2) (add_le_add h3 h4)
    _ = 4 * n * M * N := by ring

theorem rhs_continuousOn {H Γ G : ℝ → Mat n} {S : Set ℝ} (hH : ∀ i j, ContinuousOn (fun t => H t i j) S) (hΓ : ∀ i j, ContinuousOn (fun t => Γ t i j) S)
    (hG : ∀ i j, ContinuousOn (fun t => G t i j) S) (X : Mat n) (i j : Fin n) : ContinuousOn (fun t => rhs (H t) (Γ t) (G t) X i j) S := by
  simp only [rhs, Matrix.add_apply, Matrix.sub_apply, Matrix.smul_apply, Matrix.mul_apply, smul_eq_mul]
  refine ((continuousOn_const.mul ((continuousOn_finsetSum _ fun l _ => ?_).sub (continuousOn_finsetSum _ fun l _ => ?_))).sub
    ((continuousOn_finsetSum _ fun l _ => ?_).add (continuousOn_finsetSum _ fun l _ => ?_))).add (hG i j)
  · exact (hH i l).mul continuousOn_const
  · exact continuousOn_const.mul (hH l j)
  · exact (hΓ i l).mul continuousOn_const
  · exact continuousOn_const.mul (hΓ l j)

theorem entries_bounded {H : ℝ → Mat n} {a b : ℝ} (hH : ∀ i j, ContinuousOn (fun t => H t i j) (Icc a b)) : ∃ M, 0 ≤ M ∧ ∀ t ∈ Icc a b, ∀ i j, ‖H t i j‖ ≤ M := by
  have h := fun i j => (isCompact_Icc (a := a) (b := b)).exists_bound_of_continuousOn (hH i j)
  choose M hM using h
  refine ⟨∑ i, ∑ j, |M i j|, by positivity, fun t ht i j => (hM i j t ht).trans ((le_abs_self _).trans ?_)⟩
  refine le_trans ?_ (Finset.single_le_sum (f := fun i => ∑ j, |M i j|) (fun i _ => by positivity) (Finset.mem_univ i))
  exact Finset.single_le_sum (f := fun j => |M i j|) (fun j _ => abs_nonneg _) (Finset.mem_univ j)

/-- The adjoint of a solution with Hermitian coefficients is a solution. -/
theorem rhs_adjoint {H Γ G : Mat n} (hH : H.IsHermitian) (hΓ : Γ.IsHermitian) (hG : G.IsHermitian) (X : Mat n) : (rhs H Γ G X)ᴴ = rhs H Γ G Xᴴ := by
  unfold rhs
  simp only [Matrix.conjTranspose_add, Matrix.conjTranspose_sub, Matrix.conjTranspose_smul, Matrix.conjTranspose_mul, hH.eq, hΓ.eq, hG.eq]
  simp only [star_neg, Complex.star_def, Complex.conj_I, neg_neg, neg_smul, smul_sub]
  abel

theorem rhs_middle (H Γ G X Y : Mat n) : rhs H Γ G ((1 / 2 : ℝ) • (X + Y)) = (1 / 2 : ℝ) • (rhs H Γ G X + rhs H Γ G Y) := by
  unfold rhs
  ext i j
  simp [Matrix.mul_add, Matrix.add_mul]
  ring

/-- Continuous up to the ends, whatever the values there. -/
def Tame {F : Type} [TopologicalSpace F] (f : ℝ → F) (a b : ℝ) : Prop := ∃ g : ℝ → F, ContinuousOn g (Icc a b) ∧ ∀ t ∈ Ioo a b, f t = g t

/-- A Hermitian solution from the start, or to the end. -/
theorem exists_state {H Γ G : ℝ → Mat n} {a b : ℝ} (hab : a ≤ b) (hH : ∀ i j, Tame (fun t => H t i j) a b)
    (hΓ : ∀ i j, Tame (fun t => Γ t i j) a b) (hG : ∀ i j, Tame (fun t => G t i j) a b)
    (kH : ∀ t ∈ Ioo a b, (H t).IsHermitian) (kΓ : ∀ t ∈ Ioo a b, (Γ t).IsHermitian) (kG : ∀ t ∈ Ioo a b, (G t).IsHermitian)
    {t₀ : ℝ} (ht₀ : t₀ = a ∨ t₀ = b) {X₀ : Mat n} (hX₀ : X₀.IsHermitian) :
    ∃ X : ℝ → Mat n, X t₀ = X₀ ∧ (∀ i j, ContinuousOn (fun t => X t i j) (Icc a b)) ∧
      (∀ t ∈ Ioo a b, Deriv X (rhs (H t) (Γ t) (G t) (X t)) (Ici t) t) ∧ ∀ t, (X t).IsHermitian := by
  choose gH cH eH using hH
  choose gΓ cΓ eΓ using hΓ
  choose gG cG eG using hG
  obtain ⟨M₁, hM₁, b1⟩ := entries_bounded (H := fun t => Matrix.of fun i j => gH i j t) cH
  obtain ⟨M₂, hM₂, b2⟩ := entries_bounded (H := fun t => Matrix.of fun i j => gΓ i j t) cΓ
  let H' : ℝ → Mat n := fun t => Matrix.of fun i j => gH i j t
  let Γ' : ℝ → Mat n := fun t => Matrix.of fun i j => gΓ i j t
  let G' : ℝ → Mat n := fun t => Matrix.of fun i j => gG i j t
  let f : ℝ → (Fin n → Fin n → ℂ) → (Fin n → Fin n → ℂ) := fun t X i j => rhs (H' t) (Γ' t) (G' t) (Matrix.of X) i j
  have hl : ∀ t ∈ Icc a b, ∀ x y, ‖f t x - f t y‖ ≤ 4 * n * (M₁ + M₂) * ‖x - y‖ := by
    intro t ht x y
    rw [pi_norm_le_iff_of_nonneg (by positivity)]
    intro i
    rw [pi_norm_le_iff_of_nonneg (by positivity)]
    intro j
    have e : (f t x - f t y) i j = rhs (H' t) (Γ' t) 0 (Matrix.of x - Matrix.of y) i j := congrFun (congrFun (rhs_sub (H' t) (Γ' t) (G' t) (Matrix.of x) (Matrix.of y)) i) j
    rw [e]
    exact rhs_bound (fun i j => (b1 t ht i j).trans (by linarith)) (fun i j => (b2 t ht i j).trans (by linarith))
      (fun i j => (norm_le_pi_norm ((x - y) i) j).trans (norm_le_pi_norm (x - y) i)) (by linarith) (norm_nonneg _) i j
  have hc : ∀ x, ContinuousOn (fun t => f t x) (Icc a b) := fun x =>
    continuousOn_pi.2 fun i => continuousOn_pi.2 fun j => rhs_continuousOn (H := H') (Γ := Γ') (G := G') cH cΓ cG (Matrix.of x) i j
  have hK : 0 ≤ 4 * n * (M₁ + M₂) := by positivity
  have hex : ∃ α : ℝ → (Fin n → Fin n → ℂ), α t₀ = Matrix.of.symm X₀ ∧ SolvesOn f a b α := by
    rcases ht₀ with rfl | rfl
    · exact exists_solution hK hab hl hc _
    · exact exists_solution_end hK hab hl hc _
  obtain ⟨α, h0, h⟩ := hex
  have hd : ∀ t ∈ Icc a b, Deriv (fun t => Matrix.of (α t)) (rhs (H' t) (Γ' t) (G' t) (Matrix.of (α t))) (Icc a b) t := fun t ht i j =>
    (hasDerivWithinAt_pi.1 ((hasDerivWithinAt_pi.1 (h t ht)) i)) j
  have hcon : ∀ i j, ContinuousOn (fun t => Matrix.of (α t) i j) (Icc a b) := fun i j t ht => (hd t ht i j).continuousWithinAt
  refine ⟨fun t => (1 / 2 : ℝ) • (Matrix.of (α t) + (Matrix.of (α t))ᴴ), ?_, fun i j => ?_, fun t ht i j => ?_, fun t => ?_⟩
  · dsimp only
    rw [h0, Equiv.apply_symm_apply, hX₀.eq, ← two_smul ℝ X₀, smul_smul]
    norm_num
  · exact ((hcon i j).add (hcon j i).star).const_smul (1 / 2 : ℝ)
  · have htI := Ioo_subset_Icc_self ht
    have e1 : H' t = H t := by ext i j; exact (eH i j t ht).symm
    have e2 : Γ' t = Γ t := by ext i j; exact (eΓ i j t ht).symm
    have e3 : G' t = G t := by ext i j; exact (eG i j t ht).symm
    have hn := Icc_mem_nhds ht.1 ht.2
    have h1 := ((hd t htI i j).hasDerivAt hn).hasDerivWithinAt (s := Ici t)
    have h2 := ((hd t htI j i).hasDerivAt hn).hasDerivWithinAt (s := Ici t) |>.star
    rw [e1, e2, e3] at h1 h2
    rw [rhs_middle, ← rhs_adjoint (kH t ht) (kΓ t ht) (kG t ht)]
    exact (h1.add h2).const_smul (1 / 2 : ℝ)
  · unfold Matrix.IsHermitian
    rw [Matrix.conjTranspose_smul, Matrix.conjTranspose_add, Matrix.conjTranspose_conjTranspose, add_comm]
    simp

/-! ## Calculus -/

section
variable {F : Type} [TopologicalSpace F] {a b : ℝ}

theorem Tame.congr {f f' : ℝ → F} (h : Tame f a b) (e : ∀ t ∈ Ioo a b, f' t = f t) : Tame f' a b := by
  obtain ⟨g, hc, hg⟩ := h
  exact ⟨g, hc, fun t ht => (e t ht).trans (hg t ht)⟩

theorem Tame.const (c : F) : Tame (fun _ => c) a b := ⟨fun _ => c, continuousOn_const, fun _ _ => rfl⟩

theorem Tame.of_continuousOn {f : ℝ → F} (h : ContinuousOn f (Icc a b)) : Tame f a b := ⟨f, h, fun _ _ => rfl⟩

theorem Tame.comp {F' : Type} [TopologicalSpace F'] {φ : F → F'} (hφ : Continuous φ) {f : ℝ → F} (h : Tame f a b) : Tame (fun t => φ (f t)) a b := by
  obtain ⟨g, hc, hg⟩ := h
  exact ⟨fun t => φ (g t), hφ.comp_continuousOn hc, fun t ht => by dsimp only; rw [hg t ht]⟩

variable {R : Type} [Ring R] [TopologicalSpace R] [IsTopologicalRing R]

theorem Tame.add {f g : ℝ → R} (hf : Tame f a b) (hg : Tame g a b) : Tame (fun t => f t + g t) a b := by
  obtain ⟨f', c1, e1⟩ := hf
  obtain ⟨g', c2, e2⟩ := hg
  exact ⟨fun t => f' t + g' t, c1.add c2, fun t ht => by dsimp only; rw [e1 t ht, e2 t ht]⟩

theorem Tame.mul {f g : ℝ → R} (hf : Tame f a b) (hg : Tame g a b) : Tame (fun t => f t * g t) a b := by
  obtain ⟨f', c1, e1⟩ := hf
  obtain ⟨g', c2, e2⟩ := hg
  exact ⟨fun t => f' t * g' t, c1.mul c2, fun t ht => by dsimp only; rw [e1 t ht, e2 t ht]⟩

theorem Tame.neg {f : ℝ → R} (hf : Tame f a b) : Tame (fun t => -f t) a b := hf.comp continuous_neg

theorem Tame.sub {f g : ℝ → R} (hf : Tame f a b) (hg : Tame g a b) : Tame (fun t => f t - g t) a b :=
  (hf.add hg.neg).congr fun _ _ => sub_eq_add_neg _ _

theorem Tame.sum {I : Type} (S : Finset I) {f : I → ℝ → R} (h : ∀ i ∈ S, Tame (f i) a b) : Tame (fun t => ∑ i ∈ S, f i t) a b := by
  classical
  induction S using Finset.induction_on with
  | empty => simpa using Tame.const (0 : R)
  | insert i S hi ih =>
    simp only [Finset.sum_insert hi]
    exact (h i (Finset.mem_insert_self i S)).add (ih fun j hj => h j (Finset.mem_insert_of_mem hj))

theorem Tame.ite {p : Prop} [Decidable p] {f g : ℝ → F} (hf : p → Tame f a b) (hg : ¬p → Tame g a b) : Tame (fun t => if p then f t else g t) a b := by
  by_cases hp : p
  · simpa [hp] using hf hp
  · simpa [hp] using hg hp

theorem Tame.div {f g : ℝ → ℝ} (hf : Tame f a b) (hg : ∃ g' : ℝ → ℝ, ContinuousOn g' (Icc a b) ∧ (∀ t ∈ Icc a b, g' t ≠ 0) ∧ ∀ t ∈ Ioo a b, g t = g' t) :
    Tame (fun t => f t / g t) a b := by
  obtain ⟨f', c1, e1⟩ := hf
  obtain ⟨g', c2, hz, e2⟩ := hg
  exact ⟨fun t => f' t / g' t, c1.div c2 hz, fun t ht => by dsimp only; rw [e1 t ht, e2 t ht]⟩

end

end Verif.Density
