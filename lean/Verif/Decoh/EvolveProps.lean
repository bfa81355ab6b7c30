import Verif.Decoh.Evolve
import Verif.NewPhys.MotionProps
import Verif.Density.Switch

/-!
# The evolution with decoherence (C128)
-/

namespace Verif.Decoh

open Matrix Density

variable {n : Nat}

/-- C128, neutrino loss: the state is the one without decoherence, scaled down exponentially in the distance, and so is every reading. The rate is
the one asked for times the power of the energy. -/
theorem c128_loss {GeV : ℝ} {h : List SolverCall} {v : Solver} {g : ℝ} (hv : Active n GeV h v fun i j => if i = j then g else 0)
    (c : ℝ) (dens ye : ℝ → ℝ) (hn : 3 ≤ n) {o : Obj n} {ie rho : Nat} (ho : Prepared o ie rho) {x : ℝ → Nat → ℝ} {τ : ℝ → Mat n} {a b : ℝ}
    (hx : Decoheres v (o.energies ie) (motion c dens ye (Fin.castLE hn) o ie rho) x a b)
    (hτ : Solves (motion c dens ye (Fin.castLE hn) o ie rho) τ a b) (h0 : τ a = mat n (x a)) (t : ℝ) (ht : t ∈ Set.Icc a b) :
    mat n (x t) = Real.exp (-(growth GeV h (o.energies ie) * g * (t - a))) • τ t ∧
    ∀ f, ∃ w, evalFlavorAtNode (atTime o ie rho t (τ t)) f ie rho = .ok w ∧
      evalFlavorAtNode (atTime o ie rho t (mat n (x t))) f ie rho =
        .ok (Real.exp (-(growth GeV h (o.energies ie) * g * (t - a))) * w) := by
  obtain ⟨S, hS, hx⟩ := hx
  have hu : Solves (motion c dens ye (Fin.castLE hn) o ie rho)
      (fun t => (Real.exp (growth GeV h (o.energies ie) * g * (t - a)) : ℂ) • mat n (x t)) a b :=
    undamp hS (mat_continuous hx.cont) fun t ht hnt => by
      have := diagonal_motion (d := fun _ => g) hv hx ht hnt
      rwa [mat_smul] at this
  have e := hu.determined (fun t _ => motion_hermitian c dens ye hn ho t) hτ (by
    rw [sub_self, mul_zero, Real.exp_zero, Complex.ofReal_one, one_smul, h0]) t ht
  have e' : mat n (x t) = Real.exp (-(growth GeV h (o.energies ie) * g * (t - a))) • τ t := by
    rw [← e]
    exact exp_cancel _ _
  refine ⟨e', fun f => ⟨_, eval_eq (good_atTime ho.good ie rho t (τ t)) ho.type f ie, ?_⟩⟩
  rw [eval_eq (good_atTime ho.good ie rho t _) ho.type f ie]
  have e1 : (atTime o ie rho t (mat n (x t))).state ie rho = mat n (x t) := if_pos ⟨rfl, rfl⟩
  have e2 : (atTime o ie rho t (τ t)).state ie rho = τ t := if_pos ⟨rfl, rfl⟩
  rw [e1, e2, e', dot_smul]
  rfl

/-- C128, randomised state: what was prepared is forgotten exponentially in the distance and replaced by the equal mixture of all flavours. The sum of
the readings stays. -/
theorem c128_state {GeV : ℝ} {h : List SolverCall} {v : Solver} {g : ℝ} (hv : Active n GeV h v fun i j => if i = j ∧ i ≠ 0 then g else 0)
    (c : ℝ) (dens ye : ℝ → ℝ) (hn : 3 ≤ n) {o : Obj n} {ie rho : Nat} (ho : Prepared o ie rho) {x : ℝ → Nat → ℝ} {τ : ℝ → Mat n} {a b : ℝ}
    (hx : Decoheres v (o.energies ie) (motion c dens ye (Fin.castLE hn) o ie rho) x a b)
    (hτ : Solves (motion c dens ye (Fin.castLE hn) o ie rho) τ a b) (h0 : τ a = mat n (x a)) (t : ℝ) (ht : t ∈ Set.Icc a b) :
    let s := Real.exp (-(growth GeV h (o.energies ie) * g * (t - a)))
    let total := (mat n (x a)).trace.re
    mat n (x t) = s • τ t + ((1 - s) * (total / n)) • (1 : Mat n) ∧ (mat n (x t)).trace.re = total ∧
    ∀ f, ∃ w, evalFlavorAtNode (atTime o ie rho t (τ t)) f ie rho = .ok w ∧
      evalFlavorAtNode (atTime o ie rho t (mat n (x t))) f ie rho = .ok (s * w + (1 - s) * (total / n)) := by
  intro s total
  obtain ⟨S, hS, hx⟩ := hx
  have hn0 : 0 < n := by omega
  have hnC : (n : ℂ) ≠ 0 := by exact_mod_cast hn0.ne'
  have hnR : (n : ℝ) ≠ 0 := by exact_mod_cast hn0.ne'
  have hv' : Active n GeV h v fun i j => if i = j then (if i = 0 then 0 else g) else 0 := by
    have : (fun i j => if i = j then (if i = 0 then 0 else g) else 0 : Nat → Nat → ℝ) = fun i j => if i = j ∧ i ≠ 0 then g else 0 := by
      funext i j
      by_cases h1 : i = j <;> by_cases h2 : i = 0 <;> simp [h1, h2]
    rw [this]
    exact hv
  have hzero : ∀ t ∈ Set.Icc a b, x t 0 = x a 0 := by
    have hpos : 0 < n ^ 2 := by positivity
    refine constant_off (f := fun t => x t 0) hS (hx.cont 0 hpos) fun t ht hnt => ?_
    obtain ⟨y, hy, hd⟩ := hx.deriv t ht hnt
    have h1 := hd 0 hpos
    rw [diagonal_rate hv' _ y (x t) 0 hpos, if_pos rfl, mul_zero, zero_mul, sub_zero] at h1
    have h2 := congrArg Matrix.trace hy
    rw [mat_trace hn0, Matrix.trace_smul, Matrix.trace_sub, Matrix.trace_mul_comm, sub_self, smul_zero] at h2
    have h3 : y 0 = 0 := by exact_mod_cast (mul_eq_zero.1 h2).resolve_left hnC
    rwa [h3] at h1
  let k := growth GeV h (o.energies ie) * g
  have hsplit : ∀ t ∈ Set.Ico a b, mat n (fun i => growth GeV h (o.energies ie) * (if i = 0 then 0 else g) * x t i) =
      (k : ℂ) • (mat n (x t) - (x a 0 : ℂ) • (1 : Mat n)) := by
    intro t ht
    rw [← mat_one hn0 (x a 0), ← mat_sub, ← mat_smul]
    refine mat_congr fun i _ => ?_
    by_cases hi : i = 0
    · subst hi
      rw [if_pos rfl, if_pos rfl, hzero t ⟨ht.1, ht.2.le⟩]
      ring
    · rw [if_neg hi, if_neg hi, sub_zero]
  have hu : Solves (motion c dens ye (Fin.castLE hn) o ie rho)
      (fun t => (Real.exp (k * (t - a)) : ℂ) • (mat n (x t) - (x a 0 : ℂ) • (1 : Mat n))) a b := by
    refine undamp hS (fun i j => (mat_continuous hx.cont i j).sub continuousOn_const) fun t ht hnt => ?_
    have hd := diagonal_motion hv' hx ht hnt
    rw [hsplit t ht] at hd
    intro i j
    refine ((hd i j).sub_const (((x a 0 : ℂ) • (1 : Mat n)) i j)).congr_deriv ?_
    rw [Matrix.mul_sub, Matrix.sub_mul, Matrix.mul_smul, Matrix.smul_mul, Matrix.mul_one, Matrix.one_mul]
    abel_nf
  have hone : Solves (motion c dens ye (Fin.castLE hn) o ie rho) (fun _ => (x a 0 : ℂ) • (1 : Mat n)) a b :=
    ⟨∅, Set.finite_empty, fun _ _ => continuousOn_const, fun t _ _ i j => by
      rw [Matrix.mul_smul, Matrix.smul_mul, Matrix.mul_one, Matrix.one_mul, sub_self, smul_zero]
      exact hasDerivWithinAt_const _ _ _⟩
  have e := hu.determined (fun t _ => motion_hermitian c dens ye hn ho t) (hτ.sub hone) (by
    rw [sub_self, mul_zero, Real.exp_zero, Complex.ofReal_one, one_smul, h0]) t ht
  have htot : total / n = x a 0 := by
    show (mat n (x a)).trace.re / n = x a 0
    rw [mat_trace hn0, Complex.re_mul_ofReal, Complex.natCast_re]
    field_simp
  have e' : mat n (x t) = s • τ t + ((1 - s) * (total / n)) • (1 : Mat n) := by
    have h1 : mat n (x t) - (x a 0 : ℂ) • (1 : Mat n) = s • (τ t - (x a 0 : ℂ) • (1 : Mat n)) := by
      rw [← e]
      exact exp_cancel _ _
    rw [sub_eq_iff_eq_add.1 h1, htot]
    simp only [real_smul]
    push_cast
    module
  have htr : (mat n (x t)).trace.re = total := by
    show _ = (mat n (x a)).trace.re
    rw [mat_trace hn0, mat_trace hn0, hzero t ht]
  refine ⟨e', htr, fun f => ⟨_, eval_eq (good_atTime ho.good ie rho t (τ t)) ho.type f ie, ?_⟩⟩
  rw [eval_eq (good_atTime ho.good ie rho t _) ho.type f ie]
  have e1 : (atTime o ie rho t (mat n (x t))).state ie rho = mat n (x t) := if_pos ⟨rfl, rfl⟩
  have e2 : (atTime o ie rho t (τ t)).state ie rho = τ t := if_pos ⟨rfl, rfl⟩
  have e3 : op (atTime o ie rho t (mat n (x t))) rho f ie = op (atTime o ie rho t (τ t)) rho f ie := rfl
  have e4 : dot (op (atTime o ie rho t (τ t)) rho f ie) (1 : Mat n) = 1 := by
    unfold dot
    rw [Matrix.mul_one, op_trace (good_atTime ho.good ie rho t (τ t)) ho.type, Complex.one_re]
  rw [e1, e2, e3, e', dot_add, dot_smul, dot_smul, e4, mul_one]

open scoped ComplexOrder in
/-- Readings without decoherence lie between zero and the total. -/
theorem plain_range {H τ : ℝ → Mat n} {o : Obj n} {ie rho : Nat} (ho : Prepared o ie rho) {a b : ℝ} (hH : ∀ t, (H t).IsHermitian)
    (hτ : Solves H τ a b) (hp : (τ a).PosSemidef) (t : ℝ) (ht : t ∈ Set.Icc a b) (f : Fin n) (w : ℝ)
    (hw : evalFlavorAtNode (atTime o ie rho t (τ t)) f ie rho = .ok w) : 0 ≤ w ∧ w ≤ (τ a).trace.re := by
  have hherm : ∀ t ∈ Set.Icc a b, (τ t).IsHermitian := by
    intro t ht
    have := (hτ.star fun t _ => hH t).determined (fun t _ => hH t) hτ (by exact hp.1) t ht
    exact this
  have hg := good_atTime ho.good ie rho t (τ t)
  have hst : (atTime o ie rho t (τ t)).state ie rho = τ t := if_pos ⟨rfl, rfl⟩
  rw [eval_eq hg ho.type, hst] at hw
  have hpt : (τ t).PosSemidef := posSemidef_of_traces hp (hherm t ht) fun k => (hτ.trace_pow k t ht).symm
  rw [← Outcome.ok.inj hw, ← hτ.trace t ht]
  exact bounds hg ho.type ie hpt f

open scoped ComplexOrder in
/-- C128: from a positive start and with a rate that is not negative, neutrino loss and randomised states keep every reading between zero and the
total of the start. -/
theorem c128_range {GeV : ℝ} {h : List SolverCall} {v : Solver} {g : ℝ}
    (hv : (Active n GeV h v fun i j => if i = j then g else 0) ∨ Active n GeV h v fun i j => if i = j ∧ i ≠ 0 then g else 0)
    (c : ℝ) (dens ye : ℝ → ℝ) (hn : 3 ≤ n) {o : Obj n} {ie rho : Nat} (ho : Prepared o ie rho) (hg : 0 ≤ growth GeV h (o.energies ie) * g)
    {x : ℝ → Nat → ℝ} {τ : ℝ → Mat n} {a b : ℝ} (hx : Decoheres v (o.energies ie) (motion c dens ye (Fin.castLE hn) o ie rho) x a b)
    (hτ : Solves (motion c dens ye (Fin.castLE hn) o ie rho) τ a b) (h0 : τ a = mat n (x a)) (hp : (mat n (x a)).PosSemidef) (t : ℝ)
    (ht : t ∈ Set.Icc a b) (f : Fin n) :
    ∃ w, evalFlavorAtNode (atTime o ie rho t (mat n (x t))) f ie rho = .ok w ∧ 0 ≤ w ∧ w ≤ (mat n (x a)).trace.re := by
  have hs : Real.exp (-(growth GeV h (o.energies ie) * g * (t - a))) ≤ 1 := by
    rw [Real.exp_le_one_iff]
    have := mul_nonneg hg (sub_nonneg.2 ht.1)
    linarith
  have hs0 := Real.exp_pos (-(growth GeV h (o.energies ie) * g * (t - a)))
  have hr := plain_range ho (fun t => motion_hermitian c dens ye hn ho t) hτ (h0 ▸ hp) t ht f
  rw [h0] at hr
  rcases hv with hv | hv
  · obtain ⟨w, h1, h2⟩ := (c128_loss hv c dens ye hn ho hx hτ h0 t ht).2 f
    obtain ⟨h3, h4⟩ := hr w h1
    exact ⟨_, h2, mul_nonneg hs0.le h3, (mul_le_of_le_one_left h3 hs).trans h4⟩
  · obtain ⟨w, h1, h2⟩ := (c128_state hv c dens ye hn ho hx hτ h0 t ht).2.2 f
    obtain ⟨h3, h4⟩ := hr w h1
    have hn1 : (1 : ℝ) ≤ n := by exact_mod_cast (by omega : 1 ≤ n)
    have hT := h3.trans h4
    have hd : (mat n (x a)).trace.re / n ≤ (mat n (x a)).trace.re := div_le_self hT hn1
    have hd0 : 0 ≤ (mat n (x a)).trace.re / n := by positivity
    refine ⟨_, h2, add_nonneg (mul_nonneg hs0.le h3) (mul_nonneg (sub_nonneg.2 hs) hd0), ?_⟩
    nlinarith [mul_le_mul_of_nonneg_left h4 hs0.le, mul_le_mul_of_nonneg_left hd (sub_nonneg.2 hs)]

/-- C128: whatever the matrix, if its first row is zero then the sum over flavours does not change. -/
theorem c128_total {GeV : ℝ} {h : List SolverCall} {v : Solver} {G : Nat → Nat → ℝ} (hv : Active n GeV h v G) (hG : ∀ j < n ^ 2, G 0 j = 0)
    (hn : 0 < n) {o : Obj n} {ie rho : Nat} (ho : Prepared o ie rho) {H : ℝ → Mat n} {x : ℝ → Nat → ℝ} {a b : ℝ}
    (hx : Decoheres v (o.energies ie) H x a b) (t : ℝ) (ht : t ∈ Set.Icc a b) : ∃ w w' : Fin n → ℝ,
    (∀ f, evalFlavorAtNode (atTime o ie rho a (mat n (x a))) f ie rho = .ok (w f)) ∧
    (∀ f, evalFlavorAtNode (atTime o ie rho t (mat n (x t))) f ie rho = .ok (w' f)) ∧ ∑ f, w' f = ∑ f, w f := by
  obtain ⟨S, hS, hx⟩ := hx
  have hpos : 0 < n ^ 2 := by positivity
  have hnC : (n : ℂ) ≠ 0 := by exact_mod_cast hn.ne'
  have hzero : ∀ t ∈ Set.Icc a b, x t 0 = x a 0 := by
    refine constant_off (f := fun t => x t 0) hS (hx.cont 0 hpos) fun t ht hnt => ?_
    obtain ⟨y, hy, hd⟩ := hx.deriv t ht hnt
    have h1 := hd 0 hpos
    rw [active_rate hv _ y (x t) 0 hpos, Finset.sum_eq_zero fun j hj => by rw [hG j (Finset.mem_range.1 hj), zero_mul], mul_zero, sub_zero] at h1
    have h2 := congrArg Matrix.trace hy
    rw [mat_trace hn, Matrix.trace_smul, Matrix.trace_sub, Matrix.trace_mul_comm, sub_self, smul_zero] at h2
    have h3 : y 0 = 0 := by exact_mod_cast (mul_eq_zero.1 h2).resolve_left hnC
    rwa [h3] at h1
  refine ⟨_, _, fun f => eval_eq (good_atTime ho.good ie rho a _) ho.type f ie, fun f => eval_eq (good_atTime ho.good ie rho t _) ho.type f ie, ?_⟩
  have e1 : ∀ t, (atTime o ie rho t (mat n (x t))).state ie rho = mat n (x t) := fun t => if_pos ⟨rfl, rfl⟩
  rw [total_eq (good_atTime ho.good ie rho t _) ho.type, total_eq (good_atTime ho.good ie rho a _) ho.type, e1, e1, mat_trace hn, mat_trace hn,
    hzero t ht]

/-- C128: without the call that makes SQuIDS ask, or with decoherence switched off, the evolution is the ordinary one. -/
theorem c128_off {GeV : ℝ} {h : List SolverCall} {v : Solver} (hr : SolverRun n GeV false h v)
    (hoff : (∀ c ∈ h, ¬c.activates) ∨ lastOf givenSwitch (decoherenceCalls h) true = false) {E : ℝ} {H : ℝ → Mat n} {x : ℝ → Nat → ℝ} {a b : ℝ}
    (hx : Decoheres v E H x a b) : Solves H (fun t => mat n (x t)) a b := by
  obtain ⟨S, hS, hx⟩ := hx
  refine ⟨S, hS, mat_continuous hx.cont, fun t ht hnt => ?_⟩
  obtain ⟨y, hy, hd⟩ := hx.deriv t ht hnt
  rw [← hy]
  refine mat_deriv fun i hi => ?_
  have := hd i hi
  have e : v.derivative E y (fun _ => 0) (x t) i = y i := by
    rcases hoff with h1 | h1
    · exact c87_solver_violated hr h1 E y _ (x t) i
    · have h2 := (c87_history (solver_run hr).1).2.2.2.1
      unfold Solver.derivative interactionsRho
      rw [h2, h1]
      simp
  rwa [e] at this

/-- C128, randomised phases: for a matrix given by hand that damps both parts of the coherence between the mass states `i` and `j` at the rate
`w i j` and leaves the populations alone, in vacuum and in both working bases, the mass states keep their shares and each coherence is that of the
oscillation times the exponential of its rate.

Missing: the pre-built model does not give such a matrix (`c128_phase_violated`). -/
theorem c128_phase_partial {GeV : ℝ} {h : List SolverCall} {v : Solver} {w : Nat → Nat → ℝ} (hs : ∀ r s, w r s = w s r) (h0 : ∀ r, w r r = 0)
    (hv : Active n GeV h v fun i j => if i = j then w (i / n) (i % n) else 0) (c : ℝ) (ye : ℝ → ℝ) (hn : 3 ≤ n) {o : Obj n} {ie rho : Nat}
    (ho : Prepared o ie rho) {m : Fin n → ℝ} (hm : Density.h0 o (o.energies ie) = Matrix.diagonal fun i => (m i : ℂ)) {x : ℝ → Nat → ℝ} {b : ℝ}
    (hx : Decoheres v (o.energies ie) (motion c (fun _ => 0) ye (Fin.castLE hn) o ie rho) x o.tini b) (t : ℝ) (ht : t ∈ Set.Icc o.tini b) :
    ∃ M : Mat n, (∀ i j, M i j = (Real.exp (-(growth GeV h (o.energies ie) * w i j * (t - o.tini))) : ℂ) *
        Complex.exp (-(Complex.I * ((m i - m j) * (t - o.tini) : ℝ))) * mat n (x o.tini) i j) ∧
      physical o ie rho t (mat n (x t)) = (o.mixing rho)ᴴ * M * o.mixing rho ∧
      ∀ f, evalFlavorAtNode (atTime o ie rho t (mat n (x t))) f ie rho = .ok (((o.mixing rho)ᴴ * M * o.mixing rho) f f).re := by
  obtain ⟨S, hS, hx⟩ := hx
  have hz : ∀ y, matter c 0 y o rho = 0 := by
    intro y
    unfold matter Matter.matterTerm Matter.flavourPotential
    simp only [mul_zero, zero_mul, ite_self, zero_smul, Finset.sum_const_zero]
  have hmo : ∀ t, motion c (fun _ => 0) ye (Fin.castLE hn) o ie rho t =
      Matrix.diagonal fun i => ((if o.basis = .mass then m i else 0 : ℝ) : ℂ) := by
    intro t
    rw [motion_vacuum c (fun _ => 0) ye hn ho t rfl, hz, hm]
    by_cases hb : o.basis = .mass
    · simp only [if_pos hb, add_zero]
    · simp only [if_neg hb]
      unfold Density.evolve
      rw [Matrix.mul_zero, Matrix.zero_mul]
      simp
  have key : ∀ i j, mat n (x t) i j = Complex.exp ((-(Complex.I * ((if o.basis = .mass then m i else 0 : ℝ) - (if o.basis = .mass then m j else 0 : ℝ))) -
      ((growth GeV h (o.energies ie) * w i j : ℝ) : ℂ)) * (t - o.tini)) * mat n (x o.tini) i j := by
    intro i j
    refine scalar_solution (f := fun t => mat n (x t) i j) hS (mat_continuous hx.cont i j) (fun s hs' hns => ?_) ht
    have hd := diagonal_motion (d := fun k => w (k / n) (k % n)) hv hx hs' hns i j
    refine hd.congr_deriv ?_
    rw [hmo, Matrix.sub_apply, mat_coherences _ _ hs h0, Matrix.smul_apply, Matrix.sub_apply, Matrix.diagonal_mul, Matrix.mul_diagonal]
    simp only [smul_eq_mul]
    ring
  refine ⟨if o.basis = .mass then mat n (x t) else uTransform (Density.h0 o (o.energies ie)) (t - o.tini) (mat n (x t)), ?_, rfl, fun f => ?_⟩
  · intro i j
    by_cases hb : o.basis = .mass
    · simp only [if_pos hb] at key ⊢
      rw [key, Complex.ofReal_exp, ← Complex.exp_add]
      congr 2
      push_cast
      ring
    · simp only [if_neg hb] at key ⊢
      rw [uTransform_eq_evolve, hm, evolve_diagonal, key, Complex.ofReal_exp, ← mul_assoc, ← Complex.exp_add, ← Complex.exp_add]
      congr 2
      push_cast
      ring
  · rw [c97_reading o ho.good rho ie ho.type t _ f]
    rfl

/-! ## Examples -/

/-- Without matter, in the interaction picture and with three flavours, every start has a solution. -/
theorem heavy_solution {h : List SolverCall} {v : Solver} {d : Nat → ℝ} (hv : Active 3 1 h v fun i j => if i = j then d i else 0) (z : Nat → ℝ) (b : ℝ) :
    Decoheres v ((NewPhys.heavy .interaction).energies 0)
      (motion 1 (fun _ => 0) (fun _ => 1) (Fin.castLE (le_refl 3)) (NewPhys.heavy .interaction) 0 0)
      (fun t k => Real.exp (-(growth 1 h ((NewPhys.heavy .interaction).energies 0) * d k) * t) * z k) 0 b := by
  have hd : ∀ (k : Nat) (t : ℝ), HasDerivAt (fun t => Real.exp (-(growth 1 h ((NewPhys.heavy .interaction).energies 0) * d k) * t) * z k)
      (0 - growth 1 h ((NewPhys.heavy .interaction).energies 0) * d k *
        (Real.exp (-(growth 1 h ((NewPhys.heavy .interaction).energies 0) * d k) * t) * z k)) t := by
    intro k t
    have h1 := ((hasDerivAt_id t).const_mul (-(growth 1 h ((NewPhys.heavy .interaction).energies 0) * d k))).exp.mul_const (z k)
    refine h1.congr_deriv ?_
    simp only [id_eq]
    ring
  have hz : matter 1 0 1 (NewPhys.heavy .interaction) 0 = 0 := by
    unfold matter Matter.matterTerm Matter.flavourPotential
    simp only [mul_zero, zero_mul, ite_self, zero_smul, Finset.sum_const_zero]
  refine ⟨∅, Set.finite_empty, fun k _ t _ => (hd k t).continuousAt.continuousWithinAt, fun t _ _ => ⟨fun _ => 0, ?_, fun k hk => ?_⟩⟩
  · rw [motion_vacuum 1 (fun _ => 0) (fun _ => 1) (le_refl 3) (NewPhys.heavy_prepared .interaction) t rfl, if_neg (by simp [NewPhys.heavy]), hz]
    unfold Density.evolve mat
    simp
  · rw [diagonal_rate hv _ _ _ k hk]
    exact (hd k t).hasDerivWithinAt

theorem model_active (m : Prebuilt) (g : ℝ) : ∃ v, Active 3 1 [.decoherence (.model m g), .sources true] v
    ((givenMatrix 3 (.model m g)).getD (fun _ _ => 0, false)).1 := by
  have : ∃ s', step (init 3 1) (.model m g) = (s', .ok ()) := by
    cases m with
    | randomizePhase => obtain ⟨s', h, _⟩ := c87_phase_violated g; exact ⟨s', h⟩
    | randomizeState => obtain ⟨s', h, _⟩ := set_diag (init 3 1) fun a => if a = 0 then 0 else g; exact ⟨s', h⟩
    | neutrinoLoss => obtain ⟨s', h, _⟩ := c87_loss (init 3 1) g; exact ⟨s', h⟩
  obtain ⟨s', hs⟩ := this
  refine ⟨⟨s', false, true⟩, ?_, ⟨.sources true, by simp, trivial⟩, ?_, rfl, ?_⟩
  · refine .call (h := [.decoherence (.model m g)]) (v := ⟨s', false, false⟩) (o := .ok ()) (.sources true)
      (.call (h := []) (o := .ok ()) (.decoherence (.model m g)) .start ?_ (by simp)) rfl (by simp)
    show ((⟨(step (init 3 1) (.model m g)).1, false, false⟩ : Solver), (step (init 3 1) (.model m g)).2) = _
    rw [hs]
  · intro c hc
    simp only [List.mem_cons, List.not_mem_nil, or_false] at hc
    rcases hc with rfl | rfl <;> exact fun h => h
  · cases m <;> rfl

theorem growth_plain (m : Prebuilt) (g E : ℝ) : growth 1 [.decoherence (.model m g), .sources true] E = 1 := by
  unfold growth
  exact Real.rpow_zero _

/-- The components of the first projector. -/
noncomputable def firstState (k : Nat) : ℝ := if k = 0 then 1 / 3 else if k = 4 then 1 / 2 else if k = 8 then Real.sqrt 3 / 6 else 0

theorem first_matrix (p : ℝ) : mat 3 (fun k => if k = 4 then p * firstState k else firstState k) =
    Matrix.diagonal fun i : Fin 3 => (((if i = 0 then (1 + p) / 2 else if i = 1 then (1 - p) / 2 else 0 : ℝ)) : ℂ) := by
  have hs : (Real.sqrt 3 : ℂ) * Real.sqrt 3 = 3 := by
    rw [← Complex.ofReal_mul, Real.mul_self_sqrt (by norm_num)]
    norm_num
  have hi : (Real.sqrt (1 / 3) : ℂ) = Real.sqrt 3 / 3 := by
    have : Real.sqrt (1 / 3) = Real.sqrt 3 / 3 := by
      rw [Real.sqrt_div' 1 (by norm_num), Real.sqrt_one, div_eq_div_iff (by positivity) (by norm_num), one_mul, Real.mul_self_sqrt (by norm_num)]
    rw [this]
    push_cast
    rfl
  rw [mat3]
  ext i j
  simp only [Finset.sum_range_succ, Finset.sum_range_zero, perm3, sgn, firstState, gellMann, hi, Matrix.add_apply, Matrix.smul_apply,
    Matrix.diagonal_apply]
  fin_cases i <;> fin_cases j <;> norm_num [Matrix.cons_val_zero, Matrix.cons_val_one, Matrix.cons_val_two] <;>
    first
    | linear_combination (1 / 18 : ℂ) * hs
    | linear_combination (-1 / 9 : ℂ) * hs

/-- Neutrinos are lost at the rate 2, from any start: the hypotheses of `c128_loss` hold. -/
example (z : Nat → ℝ) (b : ℝ) : ∃ (v : Solver) (x : ℝ → Nat → ℝ) (τ : ℝ → Mat 3),
    Active 3 1 [.decoherence (.model .neutrinoLoss 2), .sources true] v (fun i j => if i = j then 2 else 0) ∧
    Prepared (NewPhys.heavy .interaction) 0 0 ∧ growth 1 [.decoherence (.model .neutrinoLoss 2), .sources true] (1 / 2) = 1 ∧
    Decoheres v ((NewPhys.heavy .interaction).energies 0)
      (motion 1 (fun _ => 0) (fun _ => 1) (Fin.castLE (le_refl 3)) (NewPhys.heavy .interaction) 0 0) x 0 b ∧
    Solves (motion 1 (fun _ => 0) (fun _ => 1) (Fin.castLE (le_refl 3)) (NewPhys.heavy .interaction) 0 0) τ 0 b ∧
    τ 0 = mat 3 (x 0) ∧ x 0 = z := by
  obtain ⟨v, hv⟩ := model_active .neutrinoLoss 2
  have hx := heavy_solution (d := fun _ => 2) hv z b
  obtain ⟨τ, h1, h2⟩ := vacuum_solution 1 (fun _ => 1) (le_refl 3) (NewPhys.heavy_prepared .interaction) (mat 3 z) b
  have e : (fun k => Real.exp (-(growth 1 [.decoherence (.model .neutrinoLoss 2), .sources true]
      ((NewPhys.heavy .interaction).energies 0) * 2) * 0) * z k) = z := by
    funext k
    rw [mul_zero, Real.exp_zero, one_mul]
  exact ⟨v, _, τ, hv, NewPhys.heavy_prepared _, growth_plain _ _ _, hx, h2, by rw [e]; exact h1, e⟩

/-- The state is randomised at the rate 2, from any start: the hypotheses of `c128_state` and of `c128_total` hold. -/
example (z : Nat → ℝ) (b : ℝ) : ∃ (v : Solver) (x : ℝ → Nat → ℝ) (τ : ℝ → Mat 3),
    Active 3 1 [.decoherence (.model .randomizeState 2), .sources true] v (fun i j => if i = j ∧ i ≠ 0 then 2 else 0) ∧
    Prepared (NewPhys.heavy .interaction) 0 0 ∧
    Decoheres v ((NewPhys.heavy .interaction).energies 0)
      (motion 1 (fun _ => 0) (fun _ => 1) (Fin.castLE (le_refl 3)) (NewPhys.heavy .interaction) 0 0) x 0 b ∧
    Solves (motion 1 (fun _ => 0) (fun _ => 1) (Fin.castLE (le_refl 3)) (NewPhys.heavy .interaction) 0 0) τ 0 b ∧
    τ 0 = mat 3 (x 0) ∧ x 0 = z := by
  obtain ⟨v, hv⟩ := model_active .randomizeState 2
  have hv' : Active 3 1 [.decoherence (.model .randomizeState 2), .sources true] v
      fun i j => if i = j then (if i ≠ 0 then 2 else 0) else 0 := by
    have : (fun i j => if i = j then (if i ≠ 0 then 2 else 0) else 0 : Nat → Nat → ℝ) = fun i j => if i = j ∧ i ≠ 0 then 2 else 0 := by
      funext i j
      by_cases h1 : i = j <;> simp [h1]
    rw [this]
    exact hv
  have hx := heavy_solution hv' z b
  obtain ⟨τ, h1, h2⟩ := vacuum_solution 1 (fun _ => 1) (le_refl 3) (NewPhys.heavy_prepared .interaction) (mat 3 z) b
  have e : (fun k => Real.exp (-(growth 1 [.decoherence (.model .randomizeState 2), .sources true]
      ((NewPhys.heavy .interaction).energies 0) * (if k ≠ 0 then 2 else 0)) * 0) * z k) = z := by
    funext k
    rw [mul_zero, Real.exp_zero, one_mul]
  exact ⟨v, _, τ, hv, NewPhys.heavy_prepared _, hx, h2, by rw [e]; exact h1, e⟩

open scoped ComplexOrder in
/-- A start that is positive. -/
example : (mat 3 fun k => if k = 4 then 1 * firstState k else firstState k).PosSemidef := by
  rw [first_matrix, Matrix.posSemidef_diagonal_iff]
  intro i
  rw [← Complex.ofReal_zero, Complex.real_le_real]
  fin_cases i <;> norm_num

/-- Neutrino loss was asked for and no call makes SQuIDS ask; the state stays. -/
example : ∃ v, SolverRun 3 1 false [.decoherence (.model .neutrinoLoss 2)] v ∧
    (∀ c ∈ [SolverCall.decoherence (.model .neutrinoLoss 2)], ¬c.activates) ∧ Decoheres (n := 3) v 1 (fun _ => 1) (fun _ => firstState) 0 1 := by
  obtain ⟨s', hs, _⟩ := c87_loss (init 3 1) 2
  have hr : SolverRun 3 1 false [.decoherence (.model .neutrinoLoss 2)] ⟨s', false, false⟩ := by
    refine .call (h := []) (o := .ok ()) (.decoherence (.model .neutrinoLoss 2)) .start ?_ (by simp)
    show ((⟨(step (init 3 1) (.model .neutrinoLoss 2)).1, false, false⟩ : Solver), (step (init 3 1) (.model .neutrinoLoss 2)).2) = _
    rw [show step (init 3 1) (.model .neutrinoLoss 2) = (s', .ok ()) from hs]
  refine ⟨_, hr, by intro c hc; simp only [List.mem_singleton] at hc; subst hc; exact fun h => h, ∅, Set.finite_empty, fun _ _ => continuousOn_const,
    fun t _ _ => ⟨fun _ => 0, ?_, fun i _ => ?_⟩⟩
  · rw [Matrix.one_mul, Matrix.mul_one, sub_self, smul_zero]
    unfold mat
    simp
  · exact hasDerivWithinAt_const _ _ _

/-- Coherences damped by hand at the rate 2. -/
example (z : Nat → ℝ) (b : ℝ) :
    let h : List SolverCall := [.decoherence (.diagonal 9 (fun k => if k / 3 = k % 3 then 0 else 2) false), .sources true]
    ∃ (v : Solver) (x : ℝ → Nat → ℝ), Active 3 1 h v (fun i j => if i = j then (if i / 3 = i % 3 then 0 else 2) else 0) ∧
    Prepared (NewPhys.heavy .interaction) 0 0 ∧
    Density.h0 (NewPhys.heavy .interaction) ((NewPhys.heavy .interaction).energies 0) = Matrix.diagonal (fun i => (((if i = 2 then 6 else 0 : ℝ)) : ℂ)) ∧
    Decoheres v ((NewPhys.heavy .interaction).energies 0)
      (motion 1 (fun _ => 0) (fun _ => 1) (Fin.castLE (le_refl 3)) (NewPhys.heavy .interaction) 0 0) x (NewPhys.heavy .interaction).tini b ∧ x 0 = z := by
  intro h
  obtain ⟨s', hs, _⟩ := set_diag (init 3 1) fun k => if k / 3 = k % 3 then 0 else 2
  have hv : Active 3 1 h ⟨s', false, true⟩ fun i j => if i = j then (if i / 3 = i % 3 then 0 else 2) else 0 := by
    refine ⟨?_, ⟨.sources true, by simp [h], trivial⟩, ?_, rfl, ?_⟩
    · refine .call (h := [.decoherence (.diagonal 9 (fun k => if k / 3 = k % 3 then 0 else 2) false)]) (v := ⟨s', false, false⟩) (o := .ok ())
        (.sources true) (.call (h := []) (o := .ok ()) (.decoherence (.diagonal 9 (fun k => if k / 3 = k % 3 then 0 else 2) false)) .start ?_ (by simp))
        rfl (by simp)
      show ((⟨(setDiagonal (init 3 1) 9 (fun k => if k / 3 = k % 3 then 0 else 2) false).1, false, false⟩ : Solver),
        (setDiagonal (init 3 1) 9 (fun k => if k / 3 = k % 3 then 0 else 2) false).2) = _
      rw [show setDiagonal (init 3 1) 9 (fun k => if k / 3 = k % 3 then 0 else 2) false = (s', .ok ()) from hs]
    · intro c hc
      simp only [h, List.mem_cons, List.not_mem_nil, or_false] at hc
      rcases hc with rfl | rfl <;> exact fun h => h
    · simp [h, decoherenceCalls, lastOf, givenMatrix]
  have hx := heavy_solution hv z b
  refine ⟨_, _, hv, NewPhys.heavy_prepared _, NewPhys.heavy_h0 _, hx, ?_⟩
  funext k
  rw [mul_zero, Real.exp_zero, one_mul]

/-- C128, disagreement: the pre-built model of randomised phases, in vacuum and with mass states that are flavours, turns a neutrino of the first
flavour, which has no phase to lose, into one of either of the first two. -/
theorem c128_phase_violated (g b : ℝ) (hg : 0 < g) (hb : 0 < b) : ∃ (v : Solver) (x : ℝ → Nat → ℝ),
    SolverRun 3 1 false [.decoherence (.model .randomizePhase g), .sources true] v ∧ Prepared (NewPhys.heavy .interaction) 0 0 ∧
    Decoheres v ((NewPhys.heavy .interaction).energies 0)
      (motion 1 (fun _ => 0) (fun _ => 1) (Fin.castLE (le_refl 3)) (NewPhys.heavy .interaction) 0 0) x 0 b ∧
    mat 3 (x 0) = projector 0 ∧
    (∀ t ∈ Set.Icc 0 b, evalFlavorAtNode (atTime (NewPhys.heavy .interaction) 0 0 t (mat 3 (x t))) 0 0 0 = .ok ((1 + Real.exp (-(g * t))) / 2) ∧
      evalFlavorAtNode (atTime (NewPhys.heavy .interaction) 0 0 t (mat 3 (x t))) 1 0 0 = .ok ((1 - Real.exp (-(g * t))) / 2)) ∧
    (1 + Real.exp (-(g * b))) / 2 < 1 := by
  obtain ⟨v, hv⟩ := model_active .randomizePhase g
  have hv' : Active 3 1 [.decoherence (.model .randomizePhase g), .sources true] v
      fun i j => if i = j then (if i ≠ 0 ∧ i ≠ 3 ∧ i ≠ 8 then g else 0) else 0 := by
    have : (fun i j => if i = j then (if i ≠ 0 ∧ i ≠ 3 ∧ i ≠ 8 then g else 0) else 0 : Nat → Nat → ℝ) =
        fun i j => if i = j ∧ i ≠ 0 ∧ i ≠ 3 ∧ i ≠ 8 then g else 0 := by
      funext i j
      by_cases h1 : i = j <;> simp [h1]
    rw [this]
    exact hv
  have hx := heavy_solution hv' firstState b
  have hm : ∀ t, mat 3 (fun k => Real.exp (-(growth 1 [.decoherence (.model .randomizePhase g), .sources true]
      ((NewPhys.heavy .interaction).energies 0) * (if k ≠ 0 ∧ k ≠ 3 ∧ k ≠ 8 then g else 0)) * t) * firstState k) =
      Matrix.diagonal fun i : Fin 3 =>
        (((if i = 0 then (1 + Real.exp (-(g * t))) / 2 else if i = 1 then (1 - Real.exp (-(g * t))) / 2 else 0 : ℝ)) : ℂ) := by
    intro t
    rw [← first_matrix]
    refine mat_congr fun k _ => ?_
    rw [growth_plain]
    by_cases h4 : k = 4
    · subst h4
      norm_num
    · rw [if_neg h4]
      by_cases h0 : k = 0
      · subst h0; norm_num
      · by_cases h8 : k = 8
        · subst h8; norm_num
        · simp [firstState, h0, h4, h8]
  have hp : ∀ t A f, physical (NewPhys.heavy .interaction) 0 0 t A f f = A f f := by
    intro t A f
    unfold physical
    rw [show (NewPhys.heavy .interaction).mixing 0 = 1 from rfl, Matrix.conjTranspose_one, Matrix.one_mul, Matrix.mul_one,
      if_neg (by simp [NewPhys.heavy]), NewPhys.heavy_h0, uTransform_eq_evolve, evolve_diagonal]
    simp
  refine ⟨v, _, hv.run, NewPhys.heavy_prepared _, hx, ?_, fun t _ => ⟨?_, ?_⟩, ?_⟩
  · rw [hm]
    ext i j
    fin_cases i <;> fin_cases j <;> simp [projector]
  · rw [c97_reading _ (NewPhys.heavy_prepared _).good 0 0 Nat.zero_lt_one, hp, hm]
    rw [Matrix.diagonal_apply_eq, Complex.ofReal_re]
    norm_num
  · rw [c97_reading _ (NewPhys.heavy_prepared _).good 0 0 Nat.zero_lt_one, hp, hm]
    rw [Matrix.diagonal_apply_eq, Complex.ofReal_re]
    norm_num
  · have : Real.exp (-(g * b)) < 1 := by
      rw [Real.exp_lt_one_iff]
      nlinarith [mul_pos hg hb]
    linarith

end Verif.Decoh
