import Verif.Density.TransportProps
import Mathlib.Analysis.InnerProductSpace.PiL2

/-!
# C125: errors of the integrator

The claim: as long as neutrinos only oscillate, the errors an integrator makes in its steps, rounding included, add up but do not grow: at
the end no flavour content is further from that of the exact solution than the sum of the errors of the steps and of the initial state.
-/

namespace Verif.Density

open Matrix
open scoped ComplexOrder

variable {n : Nat}

/-! ## Specification -/

/-- The size of an error of the state: the root of the sum of the squares of all entries. -/
noncomputable def size (A : Mat n) : ℝ := Real.sqrt (∑ i, ∑ j, ‖A i j‖ ^ 2)

/-- `A` are the states after the steps of an integrator that end at the times `t`: each step would have led to the exact solution from where it
started and missed it by at most `ε`. -/
structure Inexact (H : ℝ → Mat n) (t : Nat → ℝ) (A : Nat → Mat n) (ε : Nat → ℝ) (N : Nat) : Prop where
  forward : ∀ k < N, t k ≤ t (k + 1)
  step : ∀ k < N, ∃ ρ : ℝ → Mat n, Solves H ρ (t k) (t (k + 1)) ∧ ρ (t k) = A k ∧ size (A (k + 1) - ρ (t (k + 1))) ≤ ε k

/-! ## Lemmas -/

theorem size_eq (A : Mat n) : size A = ‖(WithLp.toLp 2 fun p : Fin n × Fin n => A p.1 p.2 : EuclideanSpace ℂ (Fin n × Fin n))‖ := by
  rw [EuclideanSpace.norm_eq, size, Fintype.sum_prod_type]

theorem size_add_le (A B : Mat n) : size (A + B) ≤ size A + size B := by
  rw [size_eq, size_eq, size_eq]
  refine le_trans (le_of_eq ?_) (norm_add_le _ _)
  congr 1

theorem size_trace (A : Mat n) : size A = Real.sqrt (A * Aᴴ).trace.re := by
  unfold size
  congr 1
  rw [Matrix.trace, Complex.re_sum]
  refine Finset.sum_congr rfl fun i _ => ?_
  rw [Matrix.diag_apply, Matrix.mul_apply, Complex.re_sum]
  refine Finset.sum_congr rfl fun j _ => ?_
  rw [Matrix.conjTranspose_apply, Complex.star_def, Complex.mul_conj, Complex.ofReal_re, Complex.normSq_eq_norm_sq]

theorem size_conj (W W' A : Mat n) (h : W' = Wᴴ) (hW : Wᴴ * W = 1) : size (W * A * W') = size A := by
  subst h
  rw [size_trace, size_trace]
  congr 2
  rw [Matrix.conjTranspose_mul, Matrix.conjTranspose_mul, Matrix.conjTranspose_conjTranspose]
  calc (W * A * Wᴴ * (W * (Aᴴ * Wᴴ))).trace = (W * (A * (Wᴴ * W) * Aᴴ) * Wᴴ).trace := by simp only [Matrix.mul_assoc]
    _ = (W * (A * Aᴴ) * Wᴴ).trace := by rw [hW, Matrix.mul_one]
    _ = (Wᴴ * W * (A * Aᴴ)).trace := by rw [Matrix.trace_mul_comm, Matrix.mul_assoc]
    _ = _ := by rw [hW, Matrix.one_mul]

theorem entry_le_size (A : Mat n) (i j : Fin n) : ‖A i j‖ ≤ size A := by
  unfold size
  apply Real.le_sqrt_of_sq_le
  calc ‖A i j‖ ^ 2 ≤ ∑ j, ‖A i j‖ ^ 2 := Finset.single_le_sum (f := fun j => ‖A i j‖ ^ 2) (fun _ _ => by positivity) (Finset.mem_univ j)
    _ ≤ _ := Finset.single_le_sum (f := fun i => ∑ j, ‖A i j‖ ^ 2) (fun _ _ => Finset.sum_nonneg fun _ _ => by positivity) (Finset.mem_univ i)

/-- The distance between two solutions stays what it is. -/
theorem solutions_keep_distance {H ρ σ : ℝ → Mat n} {a b : ℝ} (hH : ∀ t, (H t).IsHermitian) (h : Solves H ρ a b) (k : Solves H σ a b) (hab : a ≤ b) :
    size (ρ b - σ b) = size (ρ a - σ a) := by
  have hd := (h.sub k).mul ((h.sub k).star fun t _ => hH t)
  rw [size_trace, size_trace]
  exact congrArg (fun z : ℂ => Real.sqrt z.re) (hd.trace b ⟨hab, le_refl _⟩)

theorem solves_part {H ρ : ℝ → Mat n} {a b c d : ℝ} (h : Solves H ρ a b) (hc : a ≤ c) (hd : d ≤ b) : Solves H ρ c d := by
  obtain ⟨S, hS, h⟩ := h
  exact ⟨S, hS, fun i j => (h.cont i j).mono (Set.Icc_subset_Icc hc hd), fun t ht hn => h.deriv t ⟨hc.trans ht.1, ht.2.trans_le hd⟩ hn⟩

/-- The part of the way that is done. -/
theorem times_le {t : Nat → ℝ} {N : Nat} (hf : ∀ k < N, t k ≤ t (k + 1)) : ∀ k l, k ≤ l → l ≤ N → t k ≤ t l := by
  intro k l hkl
  induction l, hkl using Nat.le_induction with
  | base => exact fun _ => le_refl _
  | succ l _ ih => exact fun hl => (ih (by omega)).trans (hf l (by omega))

theorem errors_add {H : ℝ → Mat n} (hH : ∀ t, (H t).IsHermitian) {t : Nat → ℝ} {A : Nat → Mat n} {ε : Nat → ℝ} {N : Nat} (h : Inexact H t A ε N)
    {σ : ℝ → Mat n} (hσ : Solves H σ (t 0) (t N)) {δ : ℝ} (h0 : size (A 0 - σ (t 0)) ≤ δ) :
    ∀ k ≤ N, size (A k - σ (t k)) ≤ δ + ∑ i ∈ Finset.range k, ε i := by
  intro k
  induction k with
  | zero => intro _; simpa using h0
  | succ k ih =>
    intro hk
    obtain ⟨ρ, hρ, e0, e1⟩ := h.step k (by omega)
    have hpart := solves_part hσ (times_le h.forward 0 k (by omega) (by omega)) (times_le h.forward (k + 1) N hk (le_refl _))
    have hkeep := solutions_keep_distance hH hρ hpart (h.forward k (by omega))
    rw [e0] at hkeep
    have hsum : A (k + 1) - σ (t (k + 1)) = (A (k + 1) - ρ (t (k + 1))) + (ρ (t (k + 1)) - σ (t (k + 1))) := by abel
    rw [hsum, Finset.sum_range_succ]
    have := size_add_le (A (k + 1) - ρ (t (k + 1))) (ρ (t (k + 1)) - σ (t (k + 1)))
    have := ih (by omega)
    linarith

theorem physical_sub (o : Obj n) (ie rho : Nat) (t : ℝ) (A B : Mat n) : physical o ie rho t A - physical o ie rho t B = physical o ie rho t (A - B) := by
  unfold physical uTransform
  split
  · rw [Matrix.mul_sub, Matrix.sub_mul]
  · simp only [Matrix.mul_sub, Matrix.sub_mul]

theorem physical_size {o : Obj n} (ho : Good o) (ie rho : Nat) (t : ℝ) (A : Mat n) : size (physical o ie rho t A) = size A := by
  have hU' : (o.mixing rho) * (o.mixing rho)ᴴ = 1 := ho.ready.mixing rho
  unfold physical
  rw [size_conj _ _ _ (Matrix.conjTranspose_conjTranspose _).symm (by rw [Matrix.conjTranspose_conjTranspose]; exact hU')]
  split
  · rfl
  · have hp := phase_star (h0_hermitian ho.dm2 (o.energies ie)) (-(t - o.tini))
    rw [neg_neg] at hp
    unfold uTransform
    rw [← hp]
    refine size_conj _ _ _ rfl ?_
    rw [hp]
    exact phase_neg _ _

/-! ## Properties -/

/-- C125: the flavour contents at the end of the steps of an integrator, in any working basis and through any medium, are no further from
those of the exact solution than the errors of the initial state and of the steps together. -/
theorem c125_steps (c : ℝ) (dens ye : ℝ → ℝ) (hn : 3 ≤ n) (o : Obj n) (ie rho : Nat) (ho : Prepared o ie rho) (t : Nat → ℝ) (A : Nat → Mat n)
    (ε : Nat → ℝ) (N : Nat) (h : Inexact (motion c dens ye (Fin.castLE hn) o ie rho) t A ε N) (σ : ℝ → Mat n)
    (hσ : Solves (motion c dens ye (Fin.castLE hn) o ie rho) σ (t 0) (t N)) (δ : ℝ) (h0 : size (A 0 - σ (t 0)) ≤ δ) (f : Fin n) :
    ∃ x y, evalFlavorAtNode (atTime o ie rho (t N) (A N)) f ie rho = .ok x ∧
      evalFlavorAtNode (atTime o ie rho (t N) (σ (t N))) f ie rho = .ok y ∧ |x - y| ≤ δ + ∑ k ∈ Finset.range N, ε k := by
  refine ⟨_, _, c97_reading o ho.good rho ie ho.type _ _ f, c97_reading o ho.good rho ie ho.type _ _ f, ?_⟩
  have hb := errors_add (fun t => motion_hermitian c dens ye hn ho t) h hσ h0 N (le_refl _)
  rw [← Complex.sub_re, ← Matrix.sub_apply, physical_sub]
  refine le_trans (Complex.abs_re_le_norm _) (le_trans (entry_le_size _ f f) ?_)
  rw [physical_size ho.good]
  exact hb

/-- C125: two beams that start close to each other arrive as close: the contents read differ by no more than the initial states do. -/
theorem c125_initial (c : ℝ) (dens ye : ℝ → ℝ) (hn : 3 ≤ n) (o : Obj n) (ie rho : Nat) (ho : Prepared o ie rho) (a b : ℝ) (hab : a ≤ b) (ρ σ : ℝ → Mat n)
    (hρ : Solves (motion c dens ye (Fin.castLE hn) o ie rho) ρ a b) (hσ : Solves (motion c dens ye (Fin.castLE hn) o ie rho) σ a b) (f : Fin n) :
    ∃ x y, evalFlavorAtNode (atTime o ie rho b (ρ b)) f ie rho = .ok x ∧
      evalFlavorAtNode (atTime o ie rho b (σ b)) f ie rho = .ok y ∧ |x - y| ≤ size (ρ a - σ a) := by
  have key : Inexact (motion c dens ye (Fin.castLE hn) o ie rho) (fun k => if k = 0 then a else b) (fun k => ρ (if k = 0 then a else b)) (fun _ => 0) 1 := by
    refine ⟨fun k hk => ?_, fun k hk => ?_⟩
    · obtain rfl : k = 0 := by omega
      simpa using hab
    · obtain rfl : k = 0 := by omega
      refine ⟨ρ, by simpa using hρ, by simp, ?_⟩
      simp [size]
  have := c125_steps c dens ye hn o ie rho ho _ _ _ 1 key σ (by simpa using hσ) (size (ρ a - σ a)) (by simp) f
  simpa using this

/-- C125: also with interactions an error at a node does not grow: two evolutions that start alike at all energies above the node arrive no
further from each other, at the node, than they started. -/
theorem c125_absorbed (s : Setting n) (hn : 3 ≤ n) (o : Obj n) (ho : AllPrepared o) (ρ σ : ℝ → Nat → Nat → Mat n) (a b : ℝ) (hab : a ≤ b) (hs : Sane s o a b)
    (h : Evolves s hn o ρ a b) (k : Evolves s hn o σ a b) (e r : Nat) (he : e < o.ne) (hr : r < o.nrhos)
    (above : ∀ e' r', e + 1 ≤ e' → e' < o.ne → r' < o.nrhos → ρ a e' r' = σ a e' r') (f : Fin n) :
    ∃ x y, evalFlavorAtNode (atTime o e r b (ρ b e r)) f e r = .ok x ∧
      evalFlavorAtNode (atTime o e r b (σ b e r)) f e r = .ok y ∧ |x - y| ≤ size (ρ a e r - σ a e r) := by
  have hp := ho e r he hr
  refine ⟨_, _, c97_reading o hp.good r e hp.type _ _ f, c97_reading o hp.good r e hp.type _ _ f, ?_⟩
  rw [← Complex.sub_re, ← Matrix.sub_apply, physical_sub]
  refine le_trans (Complex.abs_re_le_norm _) (le_trans (entry_le_size _ f f) ?_)
  rw [physical_size hp.good]
  let δ : ℝ → Mat n := fun t => ρ t e r - σ t e r
  have hcont : ∀ i j, ContinuousOn (fun t => δ t i j) (Set.Icc a b) := fun i j => (h.cont e r he hr i j).sub (k.cont e r he hr i j)
  have hherm : ∀ t ∈ Set.Icc a b, (δ t)ᴴ = δ t := fun t ht =>
    ((h.hermitian t ht e r he hr).sub (k.hermitian t ht e r he hr)).eq
  obtain ⟨S, hS, h', k'⟩ := h.pair k
  have hd2 : ∀ t ∈ Set.Ico a b, t ∉ S → Deriv (fun t => δ t * δ t) _ (Set.Ici t) t := fun t ht hn =>
    ((h'.deriv t ht hn e r he hr).sub (k'.deriv t ht hn e r he hr)).mul ((h'.deriv t ht hn e r he hr).sub (k'.deriv t ht hn e r he hr))
  have hle := image_le_off (f := fun t => (δ t * δ t).trace.re) hS (trace_continuousOn (continuousOn_mul hcont hcont))
    (fun t ht hn => (hd2 t ht hn).trace_re) (B := fun _ => (δ a * δ a).trace.re) (B' := fun _ => 0) (le_refl _) continuousOn_const
    (fun _ _ _ => hasDerivWithinAt_const _ _ _) (by
          intro t ht _
          have htI : t ∈ Set.Icc a b := Set.Ico_subset_Icc_self ht
          have hΓ := gamma_pos hs hp ht (ρ t)
          have hgain : s.gain o t (σ t) e r = s.gain o t (ρ t) e r :=
            gain_above hn hs.tau ho he hr t _ _ fun e' r' h1 h2 h3 => (c98_determined s hn o ho ρ σ a b hs h k (e + 1) above t htI e' r' h1 h2 h3).symm
          have hv : s.velocity hn o t (ρ t) e r - s.velocity hn o t (σ t) e r =
              -Complex.I • (motion s.c s.dens s.ye (Fin.castLE hn) o e r t * δ t - δ t * motion s.c s.dens s.ye (Fin.castLE hn) o e r t) -
                (s.gamma o t (ρ t) e r * δ t + δ t * s.gamma o t (ρ t) e r) := by
            unfold Setting.velocity
            rw [hgain, gamma_state s o t (σ t) (ρ t)]
            show _ = -Complex.I • (_ * (ρ t e r - σ t e r) - (ρ t e r - σ t e r) * _) - (_ * (ρ t e r - σ t e r) + (ρ t e r - σ t e r) * _)
            simp only [Matrix.mul_sub, Matrix.sub_mul, smul_sub]
            abel
          rw [hv]
          have hq : 0 ≤ dot (s.gamma o t (ρ t) e r) (δ t * δ t) := by
            have hpos : (δ t * δ t).PosSemidef := by
              have := Matrix.posSemidef_conjTranspose_mul_self (δ t)
              rwa [hherm t htI] at this
            rw [gamma_eq]
            split
            · rw [dot_comm, dot_sum]
              refine Finset.sum_nonneg fun f _ => ?_
              rw [dot_smul, dot_comm]
              refine mul_nonneg ?_ (net_dot_nonneg hp t _ f hpos)
              have := invINT_nonneg (hs.at ht (ρ t)) (s.old t) r f e
              positivity
            · simp [dot]
          show (((_ : Mat n) * δ t) + (δ t * _)).trace.re ≤ 0
          generalize motion s.c s.dens s.ye (Fin.castLE hn) o e r t = H at *
          generalize s.gamma o t (ρ t) e r = Γ at *
          generalize δ t = D at *
          unfold dot at hq
          have e1 : ((-Complex.I • (H * D - D * H) - (Γ * D + D * Γ)) * D + D * (-Complex.I • (H * D - D * H) - (Γ * D + D * Γ))).trace =
              -(4 : ℂ) * (Γ * (D * D)).trace := by
            have t1 : (H * D * D).trace = (D * D * H).trace := by rw [Matrix.mul_assoc, Matrix.trace_mul_comm]
            have t2 : (D * Γ * D).trace = (Γ * (D * D)).trace := by rw [Matrix.mul_assoc, Matrix.trace_mul_comm, Matrix.mul_assoc]
            have t3 : (D * D * Γ).trace = (Γ * (D * D)).trace := by rw [Matrix.trace_mul_comm]
            simp only [Matrix.sub_mul, Matrix.mul_sub, Matrix.add_mul, Matrix.mul_add, Matrix.smul_mul, Matrix.mul_smul, Matrix.trace_add, Matrix.trace_sub,
              Matrix.trace_smul, ← Matrix.mul_assoc, t1]
            rw [t2, t3, Matrix.mul_assoc Γ D D]
            simp only [smul_eq_mul]
            ring
          rw [e1]
          have : (-(4 : ℂ) * (Γ * (D * D)).trace).re = -4 * (Γ * (D * D)).trace.re := by
            simp
          rw [this]
          linarith) b ⟨hab, le_refl _⟩
  rw [size_trace, size_trace]
  refine Real.sqrt_le_sqrt ?_
  show (δ b * (δ b)ᴴ).trace.re ≤ (δ a * (δ a)ᴴ).trace.re
  rw [hherm b ⟨hab, le_refl _⟩, hherm a ⟨le_refl _, hab⟩]
  exact hle

/-! ## Instance -/

theorem size_smul_projector (x : ℝ) (f : Fin n) : size (x • projector f : Mat n) = |x| := by
  have : ((x • projector f : Mat n) * (x • projector f : Mat n)ᴴ) = (x ^ 2) • projector f := by
    rw [Matrix.conjTranspose_smul, (projector_hermitian f).eq, Matrix.smul_mul, Matrix.mul_smul, smul_smul]
    unfold projector
    rw [Matrix.single_mul_single_same, one_mul]
    simp [pow_two]
  rw [size_trace, this, Matrix.trace_smul, projector, Matrix.trace_single_eq_same, Complex.smul_re, Complex.one_re, smul_eq_mul, mul_one,
    Real.sqrt_sq_eq_abs]

/-- Five steps in vacuum, each of which adds a tenth to one entry of the state: the contents are wrong by at most one half. -/
example (f : Fin 3) : ∃ (A : Nat → Mat 3) (σ : ℝ → Mat 3) (x y : ℝ),
    let o := fill (demo1 .interaction) (fun _ _ f => if f = 0 then 1 else 0) .flavor
    Inexact (motion 1 (fun _ => 0) (fun _ => 1) (Fin.castLE (le_refl 3)) o 0 0) (fun k => k) A (fun _ => 1 / 10) 5 ∧ A 5 ≠ σ 5 ∧
    Solves (motion 1 (fun _ => 0) (fun _ => 1) (Fin.castLE (le_refl 3)) o 0 0) σ 0 5 ∧ A 0 = σ 0 ∧
    evalFlavorAtNode (atTime o 0 0 5 (A 5)) f 0 0 = .ok x ∧ evalFlavorAtNode (atTime o 0 0 5 (σ 5)) f 0 0 = .ok y ∧ |x - y| ≤ 1 / 2 := by
  generalize ho : fill (demo1 .interaction) (fun _ _ f => if f = 0 then 1 else 0) .flavor = o
  have hp : Prepared o 0 0 := ho ▸ c97_prepared (demo1 .interaction) (demo1_ready .interaction) rfl _ .flavor 0 0 Nat.one_pos Nat.one_pos
  have hb : o.basis ≠ .mass := by rw [← ho]; simp [fill, iniH0, setIniFlavorProjectors, demo1, demo]
  have hm : motion 1 (fun _ => 0) (fun _ => 1) (Fin.castLE (le_refl 3)) o 0 0 = fun _ => 0 := by
    funext t
    rw [motion_vacuum 1 (fun _ => 0) (fun _ => 1) (le_refl 3) hp t rfl, if_neg hb]
    have hz : matter 1 0 1 o 0 = 0 := by
      unfold matter Matter.matterTerm Matter.flavourPotential
      simp only [mul_zero, zero_mul, ite_self, zero_smul, Finset.sum_const_zero]
    rw [hz]
    unfold evolve; rw [Matrix.mul_zero, Matrix.zero_mul]
  have hconst : ∀ (B : Mat 3) (a b : ℝ), Solves (motion 1 (fun _ => 0) (fun _ => 1) (Fin.castLE (le_refl 3)) o 0 0) (fun _ => B) a b := by
    intro B a b
    rw [hm]
    have := solves_constant (0 : Mat 3) B a b
    simpa only [uTransform_zero_ham] using this
  let A : Nat → Mat 3 := fun k => o.state 0 0 + ((k : ℝ) / 10) • projector 1
  have hin : Inexact (motion 1 (fun _ => 0) (fun _ => 1) (Fin.castLE (le_refl 3)) o 0 0) (fun k => (k : ℝ)) A (fun _ => 1 / 10) 5 := by
    refine ⟨fun k _ => by simp, fun k _ => ⟨fun _ => A k, hconst _ _ _, rfl, ?_⟩⟩
    have : A (k + 1) - A k = ((1 : ℝ) / 10) • projector 1 := by
      simp only [A]
      rw [add_sub_add_left_eq_sub, ← sub_smul]
      congr 1
      push_cast
      ring
    rw [this, size_smul_projector]
    norm_num
  have hA0 : A 0 = o.state 0 0 := by simp [A]
  obtain ⟨x, y, h1, h2, h3⟩ := c125_steps 1 (fun _ => 0) (fun _ => 1) (le_refl 3) o 0 0 hp _ A _ 5 hin (fun _ => o.state 0 0) (hconst _ _ _) 0
    (by rw [hA0, sub_self]; simp [size]) f
  refine ⟨A, fun _ => o.state 0 0, x, y, hin, ?_, by simpa using hconst _ _ _, hA0, by simpa using h1, by simpa using h2, ?_⟩
  · intro h
    have : ((5 : ℝ) / 10) • (projector 1 : Mat 3) = 0 := by simpa [A] using h
    have h' := congrArg size this
    rw [size_smul_projector] at h'
    simp [size] at h'
  · refine h3.trans ?_
    rw [Finset.sum_const, Finset.card_range]
    norm_num

/-- The cascade of C98 and twice as much of it: at the upper node the two come closer to each other. -/
example (basis : Basis) (f : Fin 3) :
    let o := fill (demo basis) (fun e _ _ => if e = 0 then 0 else 1) .flavor
    ∃ x y, evalFlavorAtNode (atTime o 1 0 5 (fed 5 1 0)) f 1 0 = .ok x ∧
      evalFlavorAtNode (atTime o 1 0 5 ((1 : ℝ) • fed 5 1 0 + (1 : ℝ) • fed 5 1 0)) f 1 0 = .ok y ∧
      |x - y| ≤ size (fed 0 1 0 - ((1 : ℝ) • fed 0 1 0 + (1 : ℝ) • fed 0 1 0)) := by
  intro o
  have hp : AllPrepared o := fun e r he hr => c97_prepared (demo basis) (demo_ready basis) rfl _ .flavor e r he hr
  have hpos : ∀ e r, e < o.ne → r < o.nrhos → (fed 0 e r).PosSemidef := fun e r _ _ => by
    unfold fed
    refine smul_pos' Matrix.PosSemidef.one ?_
    split <;> positivity
  have hev := fed_evolves o hp rfl 0 5
  have hev2 := c98_linear cascade (le_refl 3) o hp fed fed 0 5 (cascade_sane o 0 5) hev hev hpos hpos rfl 1 1 zero_le_one zero_le_one
  exact c125_absorbed cascade (le_refl 3) o hp fed _ 0 5 (by norm_num) (cascade_sane o 0 5) hev hev2 1 0 (show 1 < 2 by omega) (show 0 < 2 by omega)
    (fun e' r' h1 h2 _ => absurd (show e' < 2 from h2) (by omega)) f

end Verif.Density
