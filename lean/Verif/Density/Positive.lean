import Mathlib.Analysis.Matrix.Order
import Mathlib.Analysis.Calculus.Deriv.Slope
import Mathlib.Analysis.Calculus.MeanValue
import Mathlib.Topology.Order.IntermediateValue
import Verif.Density.Picture

/-!
Matrices that move with a derivative from the right: if the derivative does not point out of the cone of positive matrices they stay
positive.
-/

namespace Verif.Density

open Matrix Filter Topology
open scoped ComplexOrder

variable {n : Nat}

/-- `v† A v`. -/
noncomputable def quad (A : Mat n) (v : Fin n → ℂ) : ℝ := (star v ⬝ᵥ (A *ᵥ v)).re

theorem quad_add (A B : Mat n) (v : Fin n → ℂ) : quad (A + B) v = quad A v + quad B v := by
  unfold quad; rw [Matrix.add_mulVec, dotProduct_add, Complex.add_re]

theorem quad_smul (x : ℝ) (A : Mat n) (v : Fin n → ℂ) : quad (x • A) v = x * quad A v := by
  unfold quad; rw [Matrix.smul_mulVec, dotProduct_smul, Complex.smul_re, smul_eq_mul]

theorem quad_one (v : Fin n → ℂ) : quad 1 v = ∑ i, ‖v i‖ ^ 2 := by
  unfold quad
  rw [Matrix.one_mulVec, dotProduct, Complex.re_sum]
  refine Finset.sum_congr rfl fun i _ => ?_
  rw [Pi.star_apply, Complex.star_def, mul_comm, Complex.mul_conj, Complex.ofReal_re, Complex.normSq_eq_norm_sq]

theorem quad_scale (A : Mat n) (c : ℝ) (v : Fin n → ℂ) : quad A ((c : ℂ) • v) = c ^ 2 * quad A v := by
  unfold quad
  rw [Matrix.mulVec_smul, star_smul, smul_dotProduct, dotProduct_smul, smul_smul]
  rw [Complex.star_def, Complex.conj_ofReal, ← Complex.ofReal_mul, ← pow_two, smul_eq_mul, Complex.re_ofReal_mul]

theorem quad_nonneg {A : Mat n} (h : A.PosSemidef) (v : Fin n → ℂ) : 0 ≤ quad A v := (Complex.le_def.1 (h.dotProduct_mulVec_nonneg v)).1

theorem quad_real {A : Mat n} (h : A.IsHermitian) (v : Fin n → ℂ) : star v ⬝ᵥ (A *ᵥ v) = (quad A v : ℂ) := by
  unfold quad
  apply Complex.ext
  · rw [Complex.ofReal_re]
  · rw [Complex.ofReal_im]
    have : star (star v ⬝ᵥ (A *ᵥ v)) = star v ⬝ᵥ (A *ᵥ v) := by
      rw [← star_dotProduct_star, star_star, Matrix.star_mulVec, h.eq, dotProduct_comm, Matrix.dotProduct_mulVec, dotProduct_comm]
    exact Complex.conj_eq_iff_im.1 this

/-- Positivity on the unit sphere is enough. -/
theorem posSemidef_of_sphere {A : Mat n} (h : A.IsHermitian) (hs : ∀ v : Fin n → ℂ, ∑ i, ‖v i‖ ^ 2 = 1 → 0 ≤ quad A v) : A.PosSemidef := by
  refine Matrix.PosSemidef.of_dotProduct_mulVec_nonneg h fun v => ?_
  rw [quad_real h v, Complex.zero_le_real]
  by_cases hv : ∑ i, ‖v i‖ ^ 2 = 0
  · have : v = 0 := by
      funext i
      have := (Finset.sum_eq_zero_iff_of_nonneg fun i _ => by positivity).1 hv i (Finset.mem_univ i)
      simpa using this
    rw [this]
    unfold quad
    simp
  · have hp : 0 < ∑ i, ‖v i‖ ^ 2 := lt_of_le_of_ne (Finset.sum_nonneg fun i _ => by positivity) (Ne.symm hv)
    have h1 := hs (((Real.sqrt (∑ i, ‖v i‖ ^ 2))⁻¹ : ℝ) • v) (by
      simp only [Pi.smul_apply, norm_smul, mul_pow, ← Finset.mul_sum, Real.norm_eq_abs, sq_abs, inv_pow, Real.sq_sqrt hp.le]
      exact inv_mul_cancel₀ hv)
    have e : (((Real.sqrt (∑ i, ‖v i‖ ^ 2))⁻¹ : ℝ) • v) = (((Real.sqrt (∑ i, ‖v i‖ ^ 2))⁻¹ : ℝ) : ℂ) • v := by
      funext i; simp
    rw [e, quad_scale] at h1
    have hq : 0 < ((Real.sqrt (∑ i, ‖v i‖ ^ 2))⁻¹) ^ 2 := by
      rw [inv_pow, Real.sq_sqrt hp.le]; exact inv_pos.2 hp
    exact (mul_nonneg_iff_of_pos_left hq).1 h1

theorem sphere_compact : IsCompact {v : Fin n → ℂ | ∑ i, ‖v i‖ ^ 2 = 1} := by
  refine Metric.isCompact_of_isClosed_isBounded (isClosed_eq (by fun_prop) continuous_const) ?_
  refine (Metric.isBounded_closedBall (x := (0 : Fin n → ℂ)) (r := 1)).subset fun v hv => ?_
  rw [mem_closedBall_zero_iff, pi_norm_le_iff_of_nonneg zero_le_one]
  intro i
  have h : ‖v i‖ ^ 2 ≤ 1 := by
    have hv : ∑ i, ‖v i‖ ^ 2 = 1 := hv
    rw [← hv]
    exact Finset.single_le_sum (f := fun i => ‖v i‖ ^ 2) (fun _ _ => by positivity) (Finset.mem_univ i)
  have h0 := norm_nonneg (v i)
  nlinarith

theorem quad_sum (A : Mat n) (v : Fin n → ℂ) : quad A v = (∑ i, star (v i) * ∑ j, A i j * v j).re := by
  unfold quad dotProduct mulVec dotProduct; rfl

/-- Joint continuity in the entries of the matrix and the vector. -/
theorem quad_tendsto {X : Type} {l : Filter X} {A : X → Mat n} {B : Mat n} (h : ∀ i j, Tendsto (fun x => A x i j) l (𝓝 (B i j))) (v : Fin n → ℂ) :
    Tendsto (fun p : X × (Fin n → ℂ) => quad (A p.1) p.2) (l ×ˢ 𝓝 v) (𝓝 (quad B v)) := by
  simp only [quad_sum]
  refine (Complex.continuous_re.tendsto _).comp ?_
  refine tendsto_finsetSum _ fun i _ => ?_
  have hv : ∀ i, Tendsto (fun p : X × (Fin n → ℂ) => p.2 i) (l ×ˢ 𝓝 v) (𝓝 (v i)) := fun i =>
    ((continuous_apply i).tendsto v).comp tendsto_snd
  refine Tendsto.mul ((continuous_star.tendsto _).comp (hv i)) ?_
  refine tendsto_finsetSum _ fun j _ => ?_
  exact Tendsto.mul ((h i j).comp tendsto_fst) (hv j)

theorem closed_posSemidef {ρ : ℝ → Mat n} {a b : ℝ} (hc : ∀ i j, ContinuousOn (fun t => ρ t i j) (Set.Icc a b))
    (hh : ∀ t ∈ Set.Icc a b, (ρ t).IsHermitian) : IsClosed ({t | (ρ t).PosSemidef} ∩ Set.Icc a b) := by
  have e : {t | (ρ t).PosSemidef} ∩ Set.Icc a b = ⋂ v : Fin n → ℂ, Set.Icc a b ∩ (fun t => quad (ρ t) v) ⁻¹' Set.Ici 0 := by
    ext t
    simp only [Set.mem_inter_iff, Set.mem_ofPred_eq, Set.mem_iInter, Set.mem_preimage, Set.mem_Ici]
    constructor
    · rintro ⟨h1, h2⟩ v; exact ⟨h2, quad_nonneg h1 v⟩
    · intro h
      have ht := (h 0).1
      exact ⟨posSemidef_of_sphere (hh t ht) fun v _ => (h v).2, ht⟩
  rw [e]
  refine isClosed_iInter fun v => ?_
  refine ContinuousOn.preimage_isClosed_of_isClosed ?_ isClosed_Icc isClosed_Ici
  simp only [quad_sum]
  refine Complex.continuous_re.comp_continuousOn ?_
  exact continuousOn_finsetSum _ fun i _ => continuousOn_const.mul (continuousOn_finsetSum _ fun j _ => (hc i j).mul continuousOn_const)

/-- Strict version: the derivative points into the cone. -/
theorem stays_positive_strict {ρ ρ' : ℝ → Mat n} {a b : ℝ} (hc : ∀ i j, ContinuousOn (fun t => ρ t i j) (Set.Icc a b))
    (hd : ∀ t ∈ Set.Ico a b, Deriv ρ (ρ' t) (Set.Ici t) t) (hh : ∀ t ∈ Set.Icc a b, (ρ t).IsHermitian) (h0 : (ρ a).PosSemidef)
    (hk : ∀ t ∈ Set.Ico a b, (ρ t).PosSemidef → ∀ v : Fin n → ℂ, v ≠ 0 → ρ t *ᵥ v = 0 → 0 < quad (ρ' t) v) :
    ∀ t ∈ Set.Icc a b, (ρ t).PosSemidef := by
  rintro t ⟨hat, htb⟩
  have hab : a ≤ b := hat.trans htb
  refine (closed_posSemidef hc hh).Icc_subset_of_forall_mem_nhdsWithin h0 ?_ ⟨hat, htb⟩
  rintro x ⟨hx, hxI⟩
  have hx : (ρ x).PosSemidef := hx
  -- difference quotients
  let R : ℝ → Mat n := fun t => (t - x)⁻¹ • (ρ t - ρ x)
  have hR : ∀ i j, Tendsto (fun t => R t i j) (𝓝[>] x) (𝓝 (ρ' x i j)) := by
    intro i j
    have := hasDerivWithinAt_iff_tendsto_slope.1 (hd x hxI i j)
    rwa [Set.Ici_sdiff_left] at this
  have hρ : ∀ i j, Tendsto (fun t => ρ t i j) (𝓝[>] x) (𝓝 (ρ x i j)) := fun i j =>
    (hd x hxI i j).continuousWithinAt.mono_left (nhdsWithin_mono x Set.Ioi_subset_Ici_self)
  have hexp : ∀ t, x < t → ∀ v, quad (ρ t) v = quad (ρ x) v + (t - x) * quad (R t) v := by
    intro t ht v
    have hne : t - x ≠ 0 := (sub_pos.2 ht).ne'
    rw [← quad_smul, ← quad_add]
    congr 1
    show ρ t = ρ x + (t - x) • (t - x)⁻¹ • (ρ t - ρ x)
    rw [smul_smul, mul_inv_cancel₀ hne, one_smul]; abel
  have hloc : ∀ v ∈ {v : Fin n → ℂ | ∑ i, ‖v i‖ ^ 2 = 1}, {p : ℝ × (Fin n → ℂ) | 0 ≤ quad (ρ p.1) p.2} ∈ 𝓝[>] x ×ˢ 𝓝 v := by
    intro v hv
    have hv0 : v ≠ 0 := by rintro rfl; simp at hv
    rcases (quad_nonneg hx v).lt_or_eq with hpos | hzero
    · have := (quad_tendsto hρ v).eventually (lt_mem_nhds hpos)
      filter_upwards [this] with p hp using le_of_lt hp
    · have hker : ρ x *ᵥ v = 0 := by
        rw [← hx.dotProduct_mulVec_zero_iff, quad_real hx.1, ← hzero, Complex.ofReal_zero]
      have h1 := (quad_tendsto hR v).eventually (lt_mem_nhds (hk x hxI hx v hv0 hker))
      have h2 : ∀ᶠ p : ℝ × (Fin n → ℂ) in 𝓝[>] x ×ˢ 𝓝 v, x < p.1 := tendsto_fst.eventually self_mem_nhdsWithin
      filter_upwards [h1, h2] with p hp1 hp2
      rw [hexp p.1 hp2]
      have := quad_nonneg hx p.2
      have h3 : 0 < p.1 - x := sub_pos.2 hp2
      positivity
  have hall := sphere_compact.mem_prod_nhdsSet_of_forall hloc
  rw [mem_prod_iff] at hall
  obtain ⟨U, hU, W, hW, hUW⟩ := hall
  have hb : Set.Iic b ∈ 𝓝[>] x := mem_nhdsWithin_of_mem_nhds (Iic_mem_nhds hxI.2)
  filter_upwards [hU, hb, self_mem_nhdsWithin] with t ht htb htx
  have htI : t ∈ Set.Icc a b := ⟨hxI.1.trans (le_of_lt htx), htb⟩
  exact posSemidef_of_sphere (hh t htI) fun v hv => hUW (Set.mk_mem_prod ht (subset_of_mem_nhdsSet hW hv))

/-- If at every time the derivative does not point out of the cone of positive matrices, shifted by any multiple of the identity, a matrix
that starts positive stays so. -/
theorem stays_positive {ρ ρ' : ℝ → Mat n} {a b : ℝ} (hc : ∀ i j, ContinuousOn (fun t => ρ t i j) (Set.Icc a b))
    (hd : ∀ t ∈ Set.Ico a b, Deriv ρ (ρ' t) (Set.Ici t) t) (hh : ∀ t ∈ Set.Icc a b, (ρ t).IsHermitian) (h0 : (ρ a).PosSemidef)
    (hk : ∀ t ∈ Set.Ico a b, ∀ (c : ℝ) (v : Fin n → ℂ), 0 ≤ c → ρ t *ᵥ v = (-(c : ℂ)) • v → 0 ≤ quad (ρ' t) v) :
    ∀ t ∈ Set.Icc a b, (ρ t).PosSemidef := by
  intro t ht
  have key : ∀ ε : ℝ, 0 < ε → (ρ t + (ε * (1 + (t - a))) • (1 : Mat n)).PosSemidef := by
    intro ε hε
    have hcont : ∀ i j, ContinuousOn (fun s => (ρ s + (ε * (1 + (s - a))) • (1 : Mat n)) i j) (Set.Icc a b) := by
      intro i j
      simp only [Matrix.add_apply, Matrix.smul_apply]
      have h1 : Continuous fun s : ℝ => ε * (1 + (s - a)) := by fun_prop
      exact (hc i j).add (h1.continuousOn.smul continuousOn_const)
    refine stays_positive_strict (ρ := fun s => ρ s + (ε * (1 + (s - a))) • (1 : Mat n)) (ρ' := fun s => ρ' s + ε • (1 : Mat n)) hcont ?_ ?_ ?_ ?_
      t ht
    · intro s hs i j
      simp only [Matrix.add_apply, Matrix.smul_apply]
      refine (hd s hs i j).add ?_
      have h1 : HasDerivWithinAt (fun s : ℝ => ε * (1 + (s - a))) ε (Set.Ici s) s := by
        have h2 : HasDerivAt (fun s : ℝ => ε * (1 + (s - a))) (ε * (0 + (1 - 0))) s :=
          (((hasDerivAt_const s (1 : ℝ)).add ((hasDerivAt_id s).sub (hasDerivAt_const s a))).const_mul ε)
        have h3 := h2.hasDerivWithinAt (s := Set.Ici s)
        simpa using h3
      exact h1.smul_const ((1 : Mat n) i j)
    · intro s hs
      exact (hh s hs).add (by rw [Matrix.IsHermitian, Matrix.conjTranspose_smul, Matrix.conjTranspose_one]; simp)
    · refine h0.add (Matrix.PosSemidef.smul Matrix.PosSemidef.one ?_)
      rw [sub_self, add_zero, mul_one]; exact hε.le
    · intro s hs _ v hv hker
      have h1 : ρ s *ᵥ v = (-((ε * (1 + (s - a)) : ℝ) : ℂ)) • v := by
        rw [Matrix.add_mulVec, Matrix.smul_mulVec, Matrix.one_mulVec] at hker
        rw [neg_smul]
        exact eq_neg_of_add_eq_zero_left hker
      have h2 := hk s hs _ v (by have := sub_nonneg.2 hs.1; positivity) h1
      rw [quad_add, quad_smul, quad_one]
      have h3 : 0 < ∑ i, ‖v i‖ ^ 2 := by
        obtain ⟨i, hi⟩ := Function.ne_iff.1 hv
        refine Finset.sum_pos' (fun i _ => by positivity) ⟨i, Finset.mem_univ i, ?_⟩
        have : 0 < ‖v i‖ := norm_pos_iff.2 hi
        positivity
      positivity
  refine posSemidef_of_sphere (hh t ht) fun v hv => ?_
  refine le_of_forall_pos_le_add fun δ hδ => ?_
  have hp : 0 < 1 + (t - a) := by have := sub_nonneg.2 ht.1; positivity
  have h1 := quad_nonneg (key (δ / (1 + (t - a))) (by positivity)) v
  rw [quad_add, quad_smul, quad_one, hv, mul_one, div_mul_cancel₀ _ hp.ne'] at h1
  exact h1

/-- Just after a time at which it is positive, a continuous matrix shifted by a positive multiple of the identity is positive. -/
theorem near_positive {ρ : ℝ → Mat n} {s : ℝ} (hρ : ∀ i j, Tendsto (fun t => ρ t i j) (𝓝[>] s) (𝓝 (ρ s i j))) (h0 : (ρ s).PosSemidef) {ε : ℝ}
    (hε : 0 < ε) : ∀ᶠ u in 𝓝[>] s, ∀ v : Fin n → ℂ, ∑ i, ‖v i‖ ^ 2 = 1 → 0 ≤ quad (ρ u + ε • (1 : Mat n)) v := by
  have hloc : ∀ v ∈ {v : Fin n → ℂ | ∑ i, ‖v i‖ ^ 2 = 1}, {p : ℝ × (Fin n → ℂ) | -ε < quad (ρ p.1) p.2} ∈ 𝓝[>] s ×ˢ 𝓝 v := by
    intro v _
    have h1 : -ε < quad (ρ s) v := by have := quad_nonneg h0 v; linarith
    exact (quad_tendsto hρ v).eventually (lt_mem_nhds h1)
  have hall := sphere_compact.mem_prod_nhdsSet_of_forall hloc
  rw [mem_prod_iff] at hall
  obtain ⟨U, hU, W, hW, hUW⟩ := hall
  filter_upwards [hU] with u hu v hv
  have h2 : -ε < quad (ρ u) v := hUW (Set.mk_mem_prod hu (subset_of_mem_nhdsSet hW hv))
  rw [quad_add, quad_smul, quad_one, hv]
  linarith

/-- The same with finitely many times at which nothing is known of the derivative. -/
theorem stays_positive_off (S : Finset ℝ) : ∀ {ρ ρ' : ℝ → Mat n} {a b : ℝ}, (∀ i j, ContinuousOn (fun t => ρ t i j) (Set.Icc a b)) →
    (∀ t ∈ Set.Ico a b, t ∉ S → Deriv ρ (ρ' t) (Set.Ici t) t) → (∀ t ∈ Set.Icc a b, (ρ t).IsHermitian) → (ρ a).PosSemidef →
    (∀ t ∈ Set.Ico a b, t ∉ S → ∀ (c : ℝ) (v : Fin n → ℂ), 0 ≤ c → ρ t *ᵥ v = (-(c : ℂ)) • v → 0 ≤ quad (ρ' t) v) →
    ∀ t ∈ Set.Icc a b, (ρ t).PosSemidef := by
  classical
  induction S using Finset.induction_on with
  | empty =>
    intro ρ ρ' a b hc hd hh h0 hk
    exact stays_positive hc (fun t ht => hd t ht (Finset.notMem_empty t)) hh h0 fun t ht => hk t ht (Finset.notMem_empty t)
  | insert s S hs ih =>
    intro ρ ρ' a b hc hd hh h0 hk t ht
    by_cases hin : a ≤ s ∧ s ≤ t
    · have hsb : s ≤ b := hin.2.trans ht.2
      have hps : (ρ s).PosSemidef := by
        refine ih (fun i j => (hc i j).mono (Set.Icc_subset_Icc_right hsb)) (fun x hx hxS => hd x ⟨hx.1, hx.2.trans_le hsb⟩ ?_)
          (fun x hx => hh x ⟨hx.1, hx.2.trans hsb⟩) h0 (fun x hx hxS => hk x ⟨hx.1, hx.2.trans_le hsb⟩ ?_) s ⟨hin.1, le_refl _⟩
        all_goals
          rw [Finset.mem_insert, not_or]
          exact ⟨hx.2.ne, hxS⟩
      rcases hin.2.eq_or_lt with e | hst
      · exact e ▸ hps
      refine posSemidef_of_sphere (hh t ht) fun v hv => ?_
      refine le_of_forall_pos_le_add fun ε hε => ?_
      have hρ : ∀ i j, Tendsto (fun t => ρ t i j) (𝓝[>] s) (𝓝 (ρ s i j)) := fun i j =>
        ((hc i j) s ⟨hin.1, hsb⟩).mono_left (by
          rw [nhdsWithin_le_iff]
          exact mem_of_superset (Ioc_mem_nhdsGT (hst.trans_le ht.2)) fun x hx => ⟨hin.1.trans hx.1.le, hx.2⟩)
      obtain ⟨u, hu, hut⟩ := ((near_positive hρ hps hε).and (Ioo_mem_nhdsGT hst)).exists
      have hau : a ≤ u := hin.1.trans hut.1.le
      have hherm : ∀ x ∈ Set.Icc u b, (ρ x + ε • (1 : Mat n)).IsHermitian := fun x hx =>
        (hh x ⟨hau.trans hx.1, hx.2⟩).add (by rw [Matrix.IsHermitian, Matrix.conjTranspose_smul, Matrix.conjTranspose_one]; simp)
      have key : (ρ t + ε • (1 : Mat n)).PosSemidef := by
        refine ih (ρ := fun x => ρ x + ε • (1 : Mat n)) (ρ' := ρ') (a := u) (b := b) (fun i j => ?_) (fun x hx hxS => ?_) hherm
          (posSemidef_of_sphere (hherm u ⟨le_refl _, hut.2.le.trans ht.2⟩) hu) (fun x hx hxS c v hc hv => ?_) t ⟨hut.2.le, ht.2⟩
        · simp only [Matrix.add_apply]
          exact ((hc i j).mono (Set.Icc_subset_Icc_left hau)).add continuousOn_const
        · have hx' := hd x ⟨hau.trans hx.1, hx.2⟩ (by rw [Finset.mem_insert, not_or]; exact ⟨(hut.1.trans_le hx.1).ne', hxS⟩)
          intro i j
          simp only [Matrix.add_apply]
          exact (hx' i j).add_const _
        · refine hk x ⟨hau.trans hx.1, hx.2⟩ (by rw [Finset.mem_insert, not_or]; exact ⟨(hut.1.trans_le hx.1).ne', hxS⟩) (c + ε) v
            (by positivity) ?_
          rw [Matrix.add_mulVec, Matrix.smul_mulVec, Matrix.one_mulVec] at hv
          rw [eq_sub_of_add_eq hv]
          push_cast
          rw [neg_add, add_smul, neg_smul, neg_smul, sub_eq_add_neg]
          rfl
      have h1 := quad_nonneg key v
      rwa [quad_add, quad_smul, quad_one, hv, mul_one] at h1
    · refine ih (fun i j => (hc i j).mono (Set.Icc_subset_Icc_right ht.2)) (fun x hx hxS => hd x ⟨hx.1, hx.2.trans_le ht.2⟩ ?_)
        (fun x hx => hh x ⟨hx.1, hx.2.trans ht.2⟩) h0 (fun x hx hxS => hk x ⟨hx.1, hx.2.trans_le ht.2⟩ ?_) t ⟨ht.1, le_refl _⟩
      all_goals
        rw [Finset.mem_insert, not_or]
        refine ⟨fun e => hin ⟨e ▸ hx.1, e ▸ hx.2.le⟩, hxS⟩

end Verif.Density
