import Verif.Density.PictureProps
import Verif.Density.MixingProps

/-!
# Solutions run backwards
-/

namespace Verif.Density

open Matrix Set
open scoped Topology

variable {n : Nat}

/-- Where the derivative from the right is continuous, it is the derivative from the left as well. -/
theorem left_deriv {f g : ℝ → ℂ} {S : Set ℝ} (hS : S.Finite) {a b t : ℝ} (hc : ContinuousOn f (Icc a b))
    (hd : ∀ s ∈ Ico a b, s ∉ S → HasDerivWithinAt f (g s) (Ici s) s) (ht : t ∈ Ioc a b) (hg : ContinuousWithinAt g (Iio t) t) :
    HasDerivWithinAt f (g t) (Iic t) t := by
  rw [hasDerivWithinAt_iff_isLittleO, Asymptotics.isLittleO_iff]
  intro c hpos
  have h1 : ∀ᶠ s in 𝓝[<] t, ‖g s - g t‖ ≤ c := by
    have := hg.eventually (Metric.closedBall_mem_nhds (g t) hpos)
    filter_upwards [this] with s hs
    rwa [← dist_eq_norm]
  have h2 : ∀ᶠ s in 𝓝[<] t, s ∉ S := by
    have hcl : (S \ {t})ᶜ ∈ 𝓝 t := (hS.subset sdiff_subset).isClosed.isOpen_compl.mem_nhds (by simp)
    filter_upwards [mem_nhdsWithin_of_mem_nhds hcl, self_mem_nhdsWithin] with s hs hlt hm
    exact hs ⟨hm, ne_of_lt hlt⟩
  have h3 : ∀ᶠ s in 𝓝[<] t, a < s := by
    filter_upwards [Ioo_mem_nhdsLT ht.1] with s hs
    exact hs.1
  obtain ⟨u, hu, hsub⟩ := (mem_nhdsLT_iff_exists_Ioo_subset' ht.1).1 ((h1.and h2).and h3)
  have hn : Ioc u t ∈ 𝓝[≤] t := Ioc_mem_nhdsLE hu
  filter_upwards [hn] with x hx
  rcases eq_or_lt_of_le hx.2 with rfl | hlt
  · simp
  have hxa : a < x := (hsub ⟨hx.1, hlt⟩).2
  have key := norm_image_sub_le_of_norm_deriv_right_le_segment (f := fun s => f s - (s : ℂ) * g t) (f' := fun s => g s - g t) (a := x) (b := t) (C := c)
    ((hc.mono (Icc_subset_Icc hxa.le ht.2)).sub ((Complex.continuous_ofReal.continuousOn).mul continuousOn_const))
    (fun s hs => by
      have hin := hsub (show s ∈ Ioo u t from ⟨lt_of_lt_of_le hx.1 hs.1, hs.2⟩)
      have e := hd s ⟨hin.2.le, lt_of_lt_of_le hs.2 ht.2⟩ hin.1.2
      have e2 : HasDerivWithinAt (fun s : ℝ => (s : ℂ) * g t) (g t) (Ici s) s := by
        have := ((hasDerivAt_id s).ofReal_comp.mul_const (g t)).hasDerivWithinAt (s := Ici s)
        simpa using this
      exact e.sub e2)
    (fun s hs => (hsub (show s ∈ Ioo u t from ⟨lt_of_lt_of_le hx.1 hs.1, hs.2⟩)).1.1) t ⟨hlt.le, le_rfl⟩
  have e : f x - f t - (x - t) • g t = -((f t - (t : ℂ) * g t) - (f x - (x : ℂ) * g t)) := by
    rw [Complex.real_smul]
    push_cast
    ring
  rw [e, norm_neg, Real.norm_eq_abs, abs_sub_comm, abs_of_pos (sub_pos.2 hlt)]
  exact key

/-- A solution run backwards and transposed solves the equation with the Hamiltonian run backwards and transposed, if that is continuous except at
finitely many times. -/
theorem Solves.reverse {H ρ : ℝ → Mat n} {a b : ℝ} (h : Solves H ρ a b) {D : Set ℝ} (hD : D.Finite)
    (hH : ∀ t ∈ Ioo a b, t ∉ D → ∀ i j, ContinuousAt (fun t => H t i j) t) : Solves (fun t => (H (a + b - t))ᵀ) (fun t => (ρ (a + b - t))ᵀ) a b := by
  obtain ⟨S, hS, h⟩ := h
  refine ⟨(fun t => a + b - t) '' (S ∪ D ∪ {a, b}), ((hS.union hD).union (by simp)).image _, ?_, ?_⟩
  · intro i j
    exact (h.cont j i).comp (continuousOn_const.sub continuousOn_id) fun t ht => ⟨by linarith [ht.2], by linarith [ht.1]⟩
  · intro t ht hn i j
    have hs : a + b - t ∉ S ∪ D ∪ {a, b} := fun hm => hn ⟨_, hm, by ring⟩
    simp only [mem_union, mem_insert_iff, mem_singleton_iff, not_or] at hs
    obtain ⟨⟨hs1, hs2⟩, hsa, hsb⟩ := hs
    have hin : a + b - t ∈ Ioo a b := ⟨lt_of_le_of_ne (by linarith [ht.2]) (Ne.symm hsa), lt_of_le_of_ne (by linarith [ht.1]) hsb⟩
    have hρ : ∀ i j, ContinuousAt (fun t => ρ t i j) (a + b - t) := fun i j => (h.cont i j).continuousAt (Icc_mem_nhds hin.1 hin.2)
    have hg : ContinuousAt (fun s => (-Complex.I • (H s * ρ s - ρ s * H s)) j i) (a + b - t) := by
      simp only [Matrix.smul_apply, Matrix.sub_apply, Matrix.mul_apply]
      refine ContinuousAt.const_smul (ContinuousAt.sub (G := ℂ) ?_ ?_) (-Complex.I)
      · exact tendsto_finsetSum _ fun l _ => (hH _ hin hs2 j l).mul (hρ l i)
      · exact tendsto_finsetSum _ fun l _ => (hρ j l).mul (hH _ hin hs2 l i)
    have hl := left_deriv hS (h.cont j i) (fun s hs hns => h.deriv s hs hns j i) ⟨hin.1, hin.2.le⟩ hg.continuousWithinAt
    have hr : HasDerivWithinAt (fun t : ℝ => a + b - t) (-1) (Ici t) t := by
      have := ((hasDerivAt_id t).const_sub (a + b)).hasDerivWithinAt (s := Ici t)
      simpa using this
    have := HasDerivWithinAt.scomp t hl hr fun s hs => by
      have : t ≤ s := hs
      show a + b - s ≤ a + b - t
      linarith
    refine this.congr_deriv ?_
    have e : (H (a + b - t))ᵀ * (ρ (a + b - t))ᵀ - (ρ (a + b - t))ᵀ * (H (a + b - t))ᵀ = -(H (a + b - t) * ρ (a + b - t) - ρ (a + b - t) * H (a + b - t))ᵀ := by
      rw [Matrix.transpose_sub, Matrix.transpose_mul, Matrix.transpose_mul, neg_sub]
    rw [e]
    simp only [Matrix.smul_apply, Matrix.neg_apply, Matrix.transpose_apply, smul_neg, neg_smul, one_smul]

/-- Only the Hamiltonian within the interval counts. -/
theorem Solves.congr {H K ρ : ℝ → Mat n} {a b : ℝ} (h : Solves H ρ a b) (hk : ∀ t ∈ Ico a b, K t = H t) : Solves K ρ a b := by
  obtain ⟨S, hS, h⟩ := h
  exact ⟨S, hS, h.cont, fun t ht hn => by rw [hk t ht]; exact h.deriv t ht hn⟩

/-- Solutions add up. -/
theorem Solves.sum {H : ℝ → Mat n} {ι : Type} [Fintype ι] {ρ : ι → ℝ → Mat n} {a b : ℝ} (h : ∀ k, Solves H (ρ k) a b) :
    Solves H (fun t => ∑ k, ρ k t) a b := by
  choose S hS h using h
  refine ⟨⋃ k, S k, Set.finite_iUnion hS, fun i j => ?_, fun t ht hn i j => ?_⟩
  · simp only [Matrix.sum_apply]
    exact continuousOn_finsetSum _ fun k _ => (h k).cont i j
  · simp only [Matrix.sum_apply]
    have hn' : ∀ k, t ∉ S k := fun k hk => hn (Set.mem_iUnion.2 ⟨k, hk⟩)
    refine (HasDerivWithinAt.fun_sum fun k _ => (h k).deriv t ht (hn' k) i j).congr_deriv ?_
    rw [← Matrix.sum_apply, ← Finset.smul_sum, Finset.sum_sub_distrib, Matrix.mul_sum, Matrix.sum_mul]

/-- Two solutions of one equation keep the trace of their product. -/
theorem Solves.trace_mul {H ρ σ : ℝ → Mat n} {a b : ℝ} (h : Solves H ρ a b) (k : Solves H σ a b) :
    ∀ t ∈ Icc a b, (ρ t * σ t).trace = (ρ a * σ a).trace := by
  obtain ⟨S, hS, h, k⟩ := h.pair k
  refine constant_off_complex (f := fun t => (ρ t * σ t).trace) hS ?_ ?_
  · simp only [Matrix.trace, Matrix.diag_apply, Matrix.mul_apply]
    exact continuousOn_finsetSum _ fun i _ => continuousOn_finsetSum _ fun l _ => (h.cont i l).mul (k.cont l i)
  · intro t ht hn
    have hd : HasDerivWithinAt (fun s => ∑ i, ∑ l, ρ s i l * σ s l i)
        (∑ i, ∑ l, ((-Complex.I • (H t * ρ t - ρ t * H t)) i l * σ t l i + ρ t i l * (-Complex.I • (H t * σ t - σ t * H t)) l i)) (Ici t) t :=
      HasDerivWithinAt.fun_sum fun i _ => HasDerivWithinAt.fun_sum fun l _ => (h.deriv t ht hn i l).mul (k.deriv t ht hn l i)
    have e : (∑ i, ∑ l, ((-Complex.I • (H t * ρ t - ρ t * H t)) i l * σ t l i + ρ t i l * (-Complex.I • (H t * σ t - σ t * H t)) l i)) = 0 := by
      have : (∑ i, ∑ l, ((-Complex.I • (H t * ρ t - ρ t * H t)) i l * σ t l i + ρ t i l * (-Complex.I • (H t * σ t - σ t * H t)) l i)) =
          ((-Complex.I • (H t * ρ t - ρ t * H t)) * σ t + ρ t * (-Complex.I • (H t * σ t - σ t * H t))).trace := by
        rw [Matrix.trace_add]
        simp only [Finset.sum_add_distrib]
        rfl
      rw [this]
      have e2 : (-Complex.I • (H t * ρ t - ρ t * H t)) * σ t + ρ t * (-Complex.I • (H t * σ t - σ t * H t)) =
          -Complex.I • (H t * (ρ t * σ t) - (ρ t * σ t) * H t) := by
        rw [Matrix.smul_mul, Matrix.mul_smul, ← smul_add]
        congr 1
        noncomm_ring
      rw [e2, Matrix.trace_smul, Matrix.trace_sub, Matrix.trace_mul_comm, sub_self, smul_zero]
    rw [e] at hd
    exact hd

/-! ## The potentials of the code -/

/-- Below an electron fraction of `1e-10` the potentials of the code are those of another medium. -/
noncomputable def effDens (dens ye : ℝ) : ℝ := if ye < 1 / 10 ^ 10 then dens * (ye - 2) else dens

noncomputable def effYe (ye : ℝ) : ℝ := if ye < 1 / 10 ^ 10 then ye / (ye - 2) else ye

theorem hi_eff (c dens ye : ℝ) (nt : Matter.NT) (irho : Nat) (hn : 3 ≤ n) (p : Nat → Mat n) (h : Mat n) :
    Matter.hi c dens ye nt .interaction irho p h =
      Matter.matterTerm c (effDens dens ye) (effYe ye) (decide (nt = .antineutrino ∨ (nt = .both ∧ irho = 1))) n p := by
  by_cases hy : ye < 1 / 10 ^ 10
  · have ha : Matter.anti nt irho = decide (nt = .antineutrino ∨ (nt = .both ∧ irho = 1)) := by
      unfold Matter.anti; cases nt <;> simp
    have h2 : ye - 2 ≠ 0 := by
      have : (1 : ℝ) / 10 ^ 10 < 2 := by norm_num
      linarith
    have e1 : c * (dens * (ye - 2)) * (ye / (ye - 2) - (1 - ye / (ye - 2)) / 2) = c * dens * ye + c * dens := by
      field_simp
      ring
    have e2 : c * (dens * (ye - 2)) * (-(1 - ye / (ye - 2)) / 2) = c * dens := by
      field_simp
      ring
    rw [Matter.matterTerm_three _ _ _ _ n hn, ← ha]
    unfold Matter.hi Matter.potentials effDens effYe
    dsimp only
    rw [if_pos hy, if_pos hy, if_pos hy, if_neg (by simp), e1, e2]
    by_cases hx : Matter.anti nt irho = true
    · simp only [hx, if_true]
      module
    · simp only [hx, Bool.false_eq_true, if_false]
      module
  · unfold effDens effYe
    rw [if_neg hy, if_neg hy]
    exact Matter.c52_potential_partial c dens ye (not_lt.1 hy) nt irho n hn p h

theorem motion_eff (c : ℝ) (dens ye : ℝ → ℝ) (hn : 3 ≤ n) {o : Obj n} {ie rho : Nat} (ho : Prepared o ie rho) (t : ℝ) :
    motion c dens ye (Fin.castLE hn) o ie rho t =
      if o.basis = .mass then h0 o (o.energies ie) + matter c (effDens (dens t) (ye t)) (effYe (ye t)) o rho
      else evolve (h0 o (o.energies ie)) (t - o.tini) (matter c (effDens (dens t) (ye t)) (effYe (ye t)) o rho) := by
  have h0' : (0 : Nat) < n := by omega
  have h1' : (1 : Nat) < n := by omega
  have h2' : (2 : Nat) < n := by omega
  by_cases hb : o.basis = .mass
  · have hp : preDerive o t = o := by unfold preDerive; rw [if_neg (fun h => h.1 hb)]
    have e : ∀ (p : Nat → Mat n) (h : Mat n), Matter.hi c (dens t) (ye t) o.nt .mass rho p h =
        Matter.hi c (dens t) (ye t) o.nt .interaction rho p h + h := by
      intro p h; simp [Matter.hi]
    unfold motion hamiltonian
    rw [hp, if_pos hb, if_pos hb, show (fun f => o.evolB1 rho f ie) = fun f => o.b1 rho f from funext (ho.fresh (Or.inl hb)), ho.h0s, e,
      hi_eff _ _ _ _ _ hn, add_comm]
    congr 1
    unfold matter
    rw [Matter.matterTerm_three _ _ _ _ n hn, Matter.matterTerm_three _ _ _ _ n hn]
    simp only [h0', h1', h2', dif_pos, Nat.zero_lt_succ, Nat.one_lt_succ_succ, Nat.lt_succ_self, Fin.castLE_mk]
  · have hfield : (preDerive o t).nt = o.nt ∧ (preDerive o t).basis = o.basis := by
      unfold preDerive; split <;> exact ⟨rfl, rfl⟩
    have hev := preDerive_projectors ho t hb
    rw [if_neg hb]
    unfold motion hamiltonian matter
    rw [hfield.1, hfield.2, if_neg hb, hi_eff _ _ _ _ _ hn, Matter.matterTerm_three _ _ _ _ n hn, Matter.matterTerm_three _ _ _ _ n hn]
    simp only [h0', h1', h2', dif_pos, Nat.zero_lt_succ, Nat.one_lt_succ_succ, Nat.lt_succ_self, Fin.castLE_mk, hev, evolve_add, evolve_smul]

/-- The state in flavour space, whatever the medium. -/
theorem physical_eff (c : ℝ) (dens ye : ℝ → ℝ) (hn : 3 ≤ n) {o : Obj n} {ie rho : Nat} (ho : Prepared o ie rho) {ρ : ℝ → Mat n} {a b : ℝ}
    (hs : Solves (motion c dens ye (Fin.castLE hn) o ie rho) ρ a b) :
    Solves (fun t => flavourHamiltonian c (effDens (dens t) (ye t)) (effYe (ye t)) o ie rho) (fun t => physical o ie rho t (ρ t)) a b := by
  have hU' : (o.mixing rho) * (o.mixing rho)ᴴ = 1 := ho.good.ready.mixing rho
  have hH : ∀ t, flavourHamiltonian c (effDens (dens t) (ye t)) (effYe (ye t)) o ie rho =
      (o.mixing rho)ᴴ * (h0 o (o.energies ie) + matter c (effDens (dens t) (ye t)) (effYe (ye t)) o rho) * o.mixing rho := by
    intro t
    unfold flavourHamiltonian
    rw [← matter_flavour c _ _ ho.good ho.type, Matrix.mul_add, Matrix.add_mul]
  have hs' : Solves (fun t => h0 o (o.energies ie) + matter c (effDens (dens t) (ye t)) (effYe (ye t)) o rho)
      (fun t => if o.basis = .mass then ρ t else uTransform (h0 o (o.energies ie)) (t - o.tini) (ρ t)) a b := by
    by_cases hb : o.basis = .mass
    · simp only [if_pos hb]
      exact hs.congr fun t _ => by rw [motion_eff c dens ye hn ho t, if_pos hb]
    · simp only [if_neg hb]
      refine Solves.picture (V := fun t => matter c (effDens (dens t) (ye t)) (effYe (ye t)) o rho) _ _ ?_
      exact hs.congr fun t _ => by rw [motion_eff c dens ye hn ho t, if_neg hb]
  have h := hs'.conj (o.mixing rho)ᴴ (o.mixing rho) hU'
  simp only [hH]
  exact h

end Verif.Density
