import Verif.Density.Reverse
import Verif.Body.ProfileProps

/-!
# C130: symmetries of the oscillation in matter

The equation of motion is the one of `HI` and `PreDerive` without interactions (`src/nuSQuIDS.cpp` 287-289, 334-360), the readings are those of
`EvalFlavorAtNode` (`src/nuSQuIDS.cpp` 1520-1528), and the mixing matrices those of `iniProjectors`. Nothing new is modelled here; the statements compare two runs.
-/

namespace Verif.Density

open Matrix Set
open scoped Topology

variable {n : Nat}

/-! ## Specification -/

/-- The second object describes the reversed experiment: complex conjugate mixing, and the same masses, energy and kind of particle. -/
structure Reversed (o o' : Obj n) (ie rho ie' rho' : Nat) : Prop where
  mixing : ∀ i j, o'.mixing rho' i j = star (o.mixing rho i j)
  masses : o'.dm2 = o.dm2
  energy : o'.energies ie' = o.energies ie
  oscillations : o'.ioscillations = o.ioscillations
  kind : (o'.nt = .antineutrino ∨ (o'.nt = .both ∧ rho' = 1)) ↔ (o.nt = .antineutrino ∨ (o.nt = .both ∧ rho = 1))

/-- Density and electron fraction are continuous except at finitely many places. With sterile flavours, the electron fraction crosses the
value `1e-10`, at which the code changes its formula, at those places only. -/
def Piecewise (n : Nat) (dens ye : ℝ → ℝ) (a b : ℝ) : Prop :=
  ∃ D : Set ℝ, D.Finite ∧ ∀ t ∈ Ioo a b, t ∉ D → ContinuousAt dens t ∧ ContinuousAt ye t ∧
    (n = 3 ∨ ∀ᶠ s in 𝓝 t, ye s < 1 / 10 ^ 10 ↔ ye t < 1 / 10 ^ 10)

/-! ## Lemmas -/

theorem transpose_flavourHamiltonian (c dens ye : ℝ) {o o' : Obj n} {ie rho ie' rho' : Nat} (hd : DiagonalMasses o) (hr : Reversed o o' ie rho ie' rho') :
    (flavourHamiltonian c dens ye o ie rho)ᵀ = flavourHamiltonian c dens ye o' ie' rho' := by
  have hh : h0 o' (o'.energies ie') = h0 o (o.energies ie) := by
    unfold h0
    rw [hr.masses, hr.energy, hr.oscillations]
  have ht : (h0 o (o.energies ie))ᵀ = h0 o (o.energies ie) := by
    obtain ⟨d, hd⟩ := hd
    unfold h0
    split
    · rw [hd, Matrix.transpose_smul, Matrix.diagonal_transpose]
    · exact Matrix.transpose_zero
  have hm : o'.mixing rho' = ((o.mixing rho)ᴴ)ᵀ := by
    ext i j
    rw [hr.mixing, Matrix.transpose_apply, Matrix.conjTranspose_apply]
  have hm' : (o'.mixing rho')ᴴ = (o.mixing rho)ᵀ := by
    ext i j
    rw [Matrix.conjTranspose_apply, hr.mixing, star_star, Matrix.transpose_apply]
  unfold flavourHamiltonian
  rw [hh, hm', hm, Matrix.transpose_add, Matrix.diagonal_transpose, Matrix.transpose_mul, Matrix.transpose_mul, ht, Matrix.mul_assoc]
  simp only [hr.kind]

theorem continuous_flavourHamiltonian (c : ℝ) {dens ye : ℝ → ℝ} (o : Obj n) (ie rho : Nat) {t : ℝ} (h : ContinuousAt dens t ∧ ContinuousAt ye t)
    (i j : Fin n) : ContinuousAt (fun t => flavourHamiltonian c (dens t) (ye t) o ie rho i j) t := by
  have hp : ∀ f : Fin n, ContinuousAt (fun t => Matter.flavourPotential c (dens t) (ye t) f) t := by
    intro f
    obtain ⟨h1, h2⟩ := h
    unfold Matter.flavourPotential
    split
    · fun_prop
    · split
      · fun_prop
      · fun_prop
  unfold flavourHamiltonian
  simp only [Matrix.add_apply]
  refine continuousAt_const.add ?_
  simp only [Matrix.diagonal_apply]
  split
  · exact Complex.continuous_ofReal.continuousAt.comp (continuousAt_const.mul (hp i))
  · exact continuousAt_const

theorem trace_diagonal_mul (v : Fin n → ℝ) (A : Mat n) : ((Matrix.diagonal fun f => ((v f : ℝ) : ℂ)) * A).trace.re = ∑ f, v f * (A f f).re := by
  simp only [Matrix.trace, Matrix.diag_apply, Matrix.diagonal_mul, Complex.re_sum, Complex.re_ofReal_mul]

theorem eff_continuous {dens ye : ℝ → ℝ} {t : ℝ} (h1 : ContinuousAt dens t) (h2 : ContinuousAt ye t)
    (h : ∀ᶠ s in 𝓝 t, ye s < 1 / 10 ^ 10 ↔ ye t < 1 / 10 ^ 10) :
    ContinuousAt (fun t => effDens (dens t) (ye t)) t ∧ ContinuousAt (fun t => effYe (ye t)) t := by
  by_cases hy : ye t < 1 / 10 ^ 10
  · have hne : ye t - 2 ≠ 0 := by
      have : (1 : ℝ) / 10 ^ 10 < 2 := by norm_num
      linarith
    constructor
    · refine (h1.mul (h2.sub continuousAt_const) : ContinuousAt (fun s => dens s * (ye s - 2)) t).congr ?_
      filter_upwards [h] with s hs
      exact (if_pos (hs.2 hy)).symm
    · refine (h2.div (h2.sub continuousAt_const) hne : ContinuousAt (fun s => ye s / (ye s - 2)) t).congr ?_
      filter_upwards [h] with s hs
      exact (if_pos (hs.2 hy)).symm
  · constructor
    · refine h1.congr ?_
      filter_upwards [h] with s hs
      exact (if_neg fun hc => hy (hs.1 hc)).symm
    · refine h2.congr ?_
      filter_upwards [h] with s hs
      exact (if_neg fun hc => hy (hs.1 hc)).symm

/-- Reversal for two solutions in flavour space. -/
theorem reverse_core (c : ℝ) {F G : ℝ → ℝ} {o o' : Obj n} {ie rho ie' rho' : Nat} (hd : DiagonalMasses o) (hrev : Reversed o o' ie rho ie' rho')
    {σ σ' : ℝ → Mat n} {a b : ℝ} (hab : a ≤ b) {D : Set ℝ} (hD : D.Finite) (hc : ∀ t ∈ Ioo a b, t ∉ D → ContinuousAt F t ∧ ContinuousAt G t)
    (h1 : Solves (fun t => flavourHamiltonian c (F t) (G t) o ie rho) σ a b)
    (h2 : Solves (fun t => flavourHamiltonian c (F (a + b - t)) (G (a + b - t)) o' ie' rho') σ' a b) (v w : Fin n → ℝ)
    (hv : σ a = Matrix.diagonal fun f => ((v f : ℝ) : ℂ)) (hw : σ' a = Matrix.diagonal fun f => ((w f : ℝ) : ℂ)) :
    ∑ f, w f * (σ b f f).re = ∑ f, v f * (σ' b f f).re := by
  have h3 := h1.reverse hD fun t ht hn i j => continuous_flavourHamiltonian c o ie rho (hc t ht hn) i j
  simp only [transpose_flavourHamiltonian c _ _ hd hrev] at h3
  have key := congrArg Complex.re (h3.trace_mul h2 b ⟨hab, le_rfl⟩)
  simp only [add_sub_cancel_right, add_sub_cancel_left] at key
  rw [hv, hw, Matrix.diagonal_transpose, trace_diagonal_mul, Matrix.trace_mul_comm, trace_diagonal_mul] at key
  exact key.symm

/-! ## Theorems -/

/-- C130: reversal in matter. Let the second object have the conjugate mixing and travel the same medium backwards. The first starts with
contents `v`, the second with contents `w`. Then weighing the final contents of the first with `w` gives what weighing those of the second
with `v` gives. -/
theorem c130_reverse (c : ℝ) (dens ye : ℝ → ℝ) (hn : 3 ≤ n) (o o' : Obj n) (ie rho ie' rho' : Nat) (ho : Prepared o ie rho)
    (ho' : Prepared o' ie' rho') (hd : DiagonalMasses o) (hrev : Reversed o o' ie rho ie' rho') (ρ ρ' : ℝ → Mat n) (a b : ℝ) (hab : a ≤ b)
    (hl : Piecewise n dens ye a b)
    (hs : Solves (motion c dens ye (Fin.castLE hn) o ie rho) ρ a b)
    (hs' : Solves (motion c (fun t => dens (a + b - t)) (fun t => ye (a + b - t)) (Fin.castLE hn) o' ie' rho') ρ' a b)
    (v w : Fin n → ℝ) (hv : physical o ie rho a (ρ a) = Matrix.diagonal fun f => ((v f : ℝ) : ℂ))
    (hw : physical o' ie' rho' a (ρ' a) = Matrix.diagonal fun f => ((w f : ℝ) : ℂ)) :
    ∃ x y : Fin n → ℝ, (∀ f, evalFlavorAtNode (atTime o ie rho b (ρ b)) f ie rho = .ok (x f)) ∧
      (∀ f, evalFlavorAtNode (atTime o' ie' rho' b (ρ' b)) f ie' rho' = .ok (y f)) ∧ ∑ f, w f * x f = ∑ f, v f * y f := by
  refine ⟨_, _, fun f => c97_reading o ho.good rho ie ho.type b (ρ b) f, fun f => c97_reading o' ho'.good rho' ie' ho'.type b (ρ' b) f, ?_⟩
  obtain ⟨D, hD, hc⟩ := hl
  by_cases h3 : n = 3
  · exact reverse_core c hd hrev hab hD (fun t ht hn => ⟨(hc t ht hn).1, (hc t ht hn).2.1⟩)
      (c97_motion_partial c dens ye hn o ie rho ho ρ a b (.inl h3) hs)
      (c97_motion_partial c (fun t => dens (a + b - t)) (fun t => ye (a + b - t)) hn o' ie' rho' ho' ρ' a b (.inl h3) hs') v w hv hw
  · exact reverse_core c (F := fun t => effDens (dens t) (ye t)) (G := fun t => effYe (ye t)) hd hrev hab hD
      (fun t ht hn => eff_continuous (hc t ht hn).1 (hc t ht hn).2.1 ((hc t ht hn).2.2.resolve_left h3)) (physical_eff c dens ye hn ho hs)
      (physical_eff c (fun t => dens (a + b - t)) (fun t => ye (a + b - t)) hn ho' hs') v w hv hw

/-- C130: in terms of probabilities. Started as flavour `α`, the first object reads in flavour `β` what the second, started as `β`, reads in
`α`. -/
theorem c130_probability (c : ℝ) (dens ye : ℝ → ℝ) (hn : 3 ≤ n) (o o' : Obj n) (ie rho ie' rho' : Nat) (ho : Prepared o ie rho)
    (ho' : Prepared o' ie' rho') (hd : DiagonalMasses o) (hrev : Reversed o o' ie rho ie' rho') (ρ ρ' : ℝ → Mat n) (a b : ℝ) (hab : a ≤ b)
    (hl : Piecewise n dens ye a b)
    (hs : Solves (motion c dens ye (Fin.castLE hn) o ie rho) ρ a b)
    (hs' : Solves (motion c (fun t => dens (a + b - t)) (fun t => ye (a + b - t)) (Fin.castLE hn) o' ie' rho') ρ' a b)
    (α β : Fin n) (hv : physical o ie rho a (ρ a) = projector α) (hw : physical o' ie' rho' a (ρ' a) = projector β) :
    evalFlavorAtNode (atTime o ie rho b (ρ b)) β ie rho = evalFlavorAtNode (atTime o' ie' rho' b (ρ' b)) α ie' rho' := by
  have hp : ∀ γ : Fin n, (projector γ : Mat n) = Matrix.diagonal fun f => (((if f = γ then 1 else 0 : ℝ)) : ℂ) := by
    intro γ
    rw [← sum_projectors]
    simp
  obtain ⟨x, y, hx, hy, h⟩ := c130_reverse c dens ye hn o o' ie rho ie' rho' ho ho' hd hrev ρ ρ' a b hab hl hs hs' _ _
    (hv.trans (hp α)) (hw.trans (hp β))
  simp only [ite_mul, one_mul, zero_mul, Finset.sum_ite_eq', Finset.mem_univ, if_true] at h
  rw [hx, hy, h]

/-- C130: a medium that looks the same from both ends, as the Earth does along a chord, and a mixing matrix without phases: the same object,
started as `α` and read in `β` or the other way round, gives the same. -/
theorem c130_chord (c : ℝ) (dens ye : ℝ → ℝ) (hn : 3 ≤ n) (o : Obj n) (ie rho : Nat) (ho : Prepared o ie rho) (hd : DiagonalMasses o)
    (real : ∀ i j, star (o.mixing rho i j) = o.mixing rho i j) (ρ ρ' : ℝ → Mat n) (a b : ℝ) (hab : a ≤ b)
    (same : ∀ t ∈ Icc a b, dens (a + b - t) = dens t ∧ ye (a + b - t) = ye t)
    (hl : Piecewise n dens ye a b)
    (hs : Solves (motion c dens ye (Fin.castLE hn) o ie rho) ρ a b) (hs' : Solves (motion c dens ye (Fin.castLE hn) o ie rho) ρ' a b)
    (α β : Fin n) (hv : physical o ie rho a (ρ a) = projector α) (hw : physical o ie rho a (ρ' a) = projector β) :
    evalFlavorAtNode (atTime o ie rho b (ρ b)) β ie rho = evalFlavorAtNode (atTime o ie rho b (ρ' b)) α ie rho := by
  refine c130_probability c dens ye hn o o ie rho ie rho ho ho hd ⟨fun i j => (real i j).symm, rfl, rfl, rfl, Iff.rfl⟩ ρ ρ' a b hab hl hs ?_
    α β hv hw
  refine hs'.congr fun t ht => ?_
  unfold motion
  dsimp only
  rw [(same t ⟨ht.1, ht.2.le⟩).1, (same t ⟨ht.1, ht.2.le⟩).2]

/-- C130: through the Earth. The medium is what the Earth made from any accepted table reports along a chord from end to end; the mixing
matrix has no phases. (Partial: with sterile flavours the electron fraction of the table is taken not to go below `1e-10`; it might cross this
value infinitely often.) -/
theorem c130_earth_partial (c : ℝ) (u : Bodies.Units) (hkm : 0 < u.km) (xs rs ys : List ℝ) (body : Bodies.Body) (hb : Bodies.mkEarth xs rs ys = .ok body)
    (L : ℝ) (h0 : 0 ≤ L) (hL : L ≤ 2 * 6371 * u.km) (dens ye : ℝ → ℝ)
    (medium : ∀ x ∈ Icc 0 L, Bodies.density u body (Bodies.mkEarthTrack x 0 L L) = .ok (dens x) ∧
      Bodies.ye u body (Bodies.mkEarthTrack x 0 L L) = .ok (ye x))
    (hn : 3 ≤ n) (hye : n = 3 ∨ ∀ t ∈ Icc 0 L, 1 / 10 ^ 10 ≤ ye t) (o : Obj n) (ie rho : Nat) (ho : Prepared o ie rho)
    (hd : DiagonalMasses o) (real : ∀ i j, star (o.mixing rho i j) = o.mixing rho i j) (ρ ρ' : ℝ → Mat n)
    (hs : Solves (motion c dens ye (Fin.castLE hn) o ie rho) ρ 0 L) (hs' : Solves (motion c dens ye (Fin.castLE hn) o ie rho) ρ' 0 L)
    (α β : Fin n) (hv : physical o ie rho 0 (ρ 0) = projector α) (hw : physical o ie rho 0 (ρ' 0) = projector β) :
    evalFlavorAtNode (atTime o ie rho L (ρ L)) β ie rho = evalFlavorAtNode (atTime o ie rho L (ρ' L)) α ie rho := by
  refine c130_chord c dens ye hn o ie rho ho hd real ρ ρ' 0 L h0 (fun t ht => ?_) ?_ hs hs' α β hv hw
  · obtain ⟨tab, _, rfl⟩ := Bodies.map_ok hb
    obtain ⟨h1, h2⟩ := Bodies.c34_earth_symmetric u ⟨.earth tab 6371, false⟩ tab 6371 t 0 L L (by norm_num) rfl
    have ht' : L - t ∈ Icc 0 L := ⟨by linarith [ht.2], by linarith [ht.1]⟩
    rw [(medium _ ht').1, (medium _ ht).1] at h1
    rw [(medium _ ht').2, (medium _ ht).2] at h2
    rw [zero_add]
    exact ⟨Outcome.ok.inj h1, Outcome.ok.inj h2⟩
  · obtain ⟨F, G, hF, hG, h⟩ := Bodies.c96_earth_continuous u hkm xs rs ys body hb 0 L L h0 hL
    refine ⟨∅, Set.finite_empty, fun t ht _ => ?_⟩
    have hm : Icc 0 L ∈ 𝓝 t := Icc_mem_nhds ht.1 ht.2
    refine ⟨?_, ?_, ?_⟩
    · refine hF.continuousAt.congr ?_
      filter_upwards [hm] with s hs
      exact Outcome.ok.inj ((h s).1.symm.trans (medium s hs).1)
    · refine hG.continuousAt.congr ?_
      filter_upwards [hm] with s hs
      exact Outcome.ok.inj ((h s).2.symm.trans (medium s hs).2)
    · refine hye.imp_right fun hy => ?_
      filter_upwards [hm] with s hs
      exact ⟨fun hc => absurd hc (not_lt.2 (hy s hs)), fun hc => absurd hc (not_lt.2 (hy t ⟨ht.1.le, ht.2.le⟩))⟩

/-- C130: which parameters reverse an object. With the same angles and opposite phases the mixing matrices are conjugate, for neutrinos and
antineutrinos; without phases they are real. -/
theorem c130_phases (pairs : List (Fin n × Fin n)) (p q : Params) (o : Obj n) (rho : Nat) (ha : q.angle = p.angle) (hq : ∀ i j, q.phase i j = -p.phase i j)
    (i j : Fin n) :
    (withParams pairs q o).mixing rho i j = star ((withParams pairs p o).mixing rho i j) ∧
    ((∀ k l, p.phase k l = 0) → star ((withParams pairs p o).mixing rho i j) = (withParams pairs p o).mixing rho i j) := by
  have hc : ∀ p q : Params, q.angle = p.angle → (∀ i j, q.phase i j = -p.phase i j) →
      (withParams pairs q o).mixing rho i j = star ((withParams pairs p o).mixing rho i j) := by
    intro p q ha hq
    show mixingMatrix pairs (cpFix o.nt n rho q) i j = star (mixingMatrix pairs (cpFix o.nt n rho p) i j)
    have e : mixingMatrix pairs (cpFix o.nt n rho q) = (mixingMatrix pairs (cpFix o.nt n rho p)).map (starRingEnd ℂ) := by
      by_cases h : anti o.nt rho
      · obtain ⟨h1, h2⟩ := cpFix_anti h n p
        obtain ⟨h3, h4⟩ := cpFix_anti h n q
        refine mixingMatrix_conj pairs _ _ (by rw [h1, h3, ha]) fun ij _ => ?_
        rw [h2, h4, hq]
        split <;> rfl
      · rw [cpFix_nu h, cpFix_nu h]
        exact mixingMatrix_conj pairs _ _ ha fun ij _ => hq _ _
    rw [e]
    rfl
  refine ⟨hc p q ha hq, fun h => (hc p p rfl fun k l => by rw [h, neg_zero]).symm⟩

/-- C130: equal contents of all flavours stay equal, whatever the medium. -/
theorem c130_equal (c : ℝ) (dens ye : ℝ → ℝ) (hn : 3 ≤ n) (o : Obj n) (ie rho : Nat) (ho : Prepared o ie rho) (ρ : ℝ → Mat n) (a b : ℝ)
    (hs : Solves (motion c dens ye (Fin.castLE hn) o ie rho) ρ a b) (x : ℝ)
    (start : physical o ie rho a (ρ a) = Matrix.diagonal fun _ => (x : ℂ)) (t : ℝ) (ht : t ∈ Icc a b) (f : Fin n) :
    evalFlavorAtNode (atTime o ie rho t (ρ t)) f ie rho = .ok x := by
  have hσ : Solves (fun t => flavourHamiltonian c (effDens (dens t) (ye t)) (effYe (ye t)) o ie rho) (fun _ => Matrix.diagonal fun _ : Fin n => (x : ℂ)) a b := by
    refine ⟨∅, Set.finite_empty, fun i j => continuousOn_const, fun t _ _ i j => ?_⟩
    refine (hasDerivWithinAt_const t (Ici t) _).congr_deriv ?_
    rw [← Matrix.smul_one_eq_diagonal, Matrix.mul_smul, Matrix.smul_mul, Matrix.mul_one, Matrix.one_mul, sub_self, smul_zero]
    rfl
  have h := (physical_eff c dens ye hn ho hs).determined (fun t _ => flavourHamiltonian_hermitian c _ _ ho.good ie rho) hσ start t ht
  rw [c97_reading o ho.good rho ie ho.type]
  exact congrArg _ (by rw [h, Matrix.diagonal_apply_eq, Complex.ofReal_re])

/-- C130: one run for each initial flavour. Of what each gives in one flavour, at any time and in any medium, the sum is one. -/
theorem c130_columns (c : ℝ) (dens ye : ℝ → ℝ) (hn : 3 ≤ n) (o : Obj n) (ie rho : Nat) (ho : Prepared o ie rho) (ρ : Fin n → ℝ → Mat n) (a b : ℝ)
    (hs : ∀ α, Solves (motion c dens ye (Fin.castLE hn) o ie rho) (ρ α) a b) (start : ∀ α, physical o ie rho a (ρ α a) = projector α)
    (t : ℝ) (ht : t ∈ Icc a b) (f : Fin n) :
    ∃ x : Fin n → ℝ, (∀ α, evalFlavorAtNode (atTime o ie rho t (ρ α t)) f ie rho = .ok (x α)) ∧ ∑ α, x α = 1 := by
  refine ⟨_, fun α => c97_reading o ho.good rho ie ho.type t (ρ α t) f, ?_⟩
  have hσ : Solves (fun t => flavourHamiltonian c (effDens (dens t) (ye t)) (effYe (ye t)) o ie rho) (fun _ => (1 : Mat n)) a b := by
    refine ⟨∅, Set.finite_empty, fun i j => continuousOn_const, fun t _ _ i j => ?_⟩
    refine (hasDerivWithinAt_const t (Ici t) _).congr_deriv ?_
    rw [Matrix.mul_one, Matrix.one_mul, sub_self, smul_zero]
    rfl
  have h := (Solves.sum fun α => physical_eff c dens ye hn ho (hs α)).determined (fun t _ => flavourHamiltonian_hermitian c _ _ ho.good ie rho) hσ (by
    simp only [start]
    have := sum_projectors (n := n) fun _ => 1
    simpa using this) t ht
  have h' := congrArg (fun A : Mat n => (A f f).re) h
  simpa [Matrix.sum_apply] using h'

/-- C130: in vacuum only the ratio of distance and energy counts. -/
theorem c130_scale (c : ℝ) (ye ye' : ℝ → ℝ) (hn : 3 ≤ n) (o o' : Obj n) (ie rho ie' rho' : Nat) (ho : Prepared o ie rho) (ho' : Prepared o' ie' rho')
    (hd : DiagonalMasses o) (hosc : o.ioscillations = true) (hosc' : o'.ioscillations = true) (hm : o'.mixing rho' = o.mixing rho)
    (hdm : o'.dm2 = o.dm2) (ρ ρ' : ℝ → Mat n) (b b' : ℝ) (hs : Solves (motion c (fun _ => 0) ye (Fin.castLE hn) o ie rho) ρ o.tini b)
    (hs' : Solves (motion c (fun _ => 0) ye' (Fin.castLE hn) o' ie' rho') ρ' o'.tini b') (α β : Fin n)
    (start : physical o ie rho o.tini (ρ o.tini) = projector α) (start' : physical o' ie' rho' o'.tini (ρ' o'.tini) = projector α) (t t' : ℝ)
    (ht : t ∈ Icc o.tini b) (ht' : t' ∈ Icc o'.tini b') (ratio : (t' - o'.tini) / o'.energies ie' = (t - o.tini) / o.energies ie) :
    evalFlavorAtNode (atTime o' ie' rho' t' (ρ' t')) β ie' rho' = evalFlavorAtNode (atTime o ie rho t (ρ t)) β ie rho := by
  obtain ⟨d, hd⟩ := hd
  rw [c97_vacuum c ye hn o ie rho ho d hd hosc ρ b hs α β start t ht,
    c97_vacuum c ye' hn o' ie' rho' ho' d (hdm.trans hd) hosc' ρ' b' hs' α β start' t' ht', hm]
  have e : ∀ j : Fin n, ((d j : ℂ) / (2 * o'.energies ie') * (t' - o'.tini)) = (d j / (2 * o.energies ie) * (t - o.tini)) := by
    intro j
    have : (d j / (2 * o'.energies ie') * (t' - o'.tini)) = (d j / (2 * o.energies ie) * (t - o.tini)) := by
      calc _ = d j / 2 * ((t' - o'.tini) / o'.energies ie') := by rw [← div_div]; ring
        _ = _ := by rw [ratio, ← div_div]; ring
    exact_mod_cast congrArg (Complex.ofReal) this
  simp only [e]

/-! ## Examples -/

/-- In the mass basis and in a uniform medium there is a solution from every stored state. -/
theorem uniform_solution (c d y : ℝ) (hy : 1 / 10 ^ 10 ≤ y) (hn : 3 ≤ n) {o : Obj n} {ie rho : Nat} (ho : Prepared o ie rho) (hb : o.basis = .mass)
    (A : Mat n) (a b : ℝ) : ∃ ρ : ℝ → Mat n, ρ a = A ∧ Solves (motion c (fun _ => d) (fun _ => y) (Fin.castLE hn) o ie rho) ρ a b := by
  refine ⟨fun t => uTransform (h0 o (o.energies ie) + matter c d y o rho) (t - a) A, ?_, ?_⟩
  · dsimp only
    unfold uTransform
    rw [sub_self, neg_zero, phase_zero_time, Matrix.one_mul, Matrix.mul_one]
  · rw [show motion c (fun _ => d) (fun _ => y) (Fin.castLE hn) o ie rho = fun _ => h0 o (o.energies ie) + matter c d y o rho from
      funext fun t => by rw [motion_eq c _ _ hn ho t hy, if_pos hb]]
    exact solves_constant _ _ _ _

theorem mix45_real (i j : Fin 3) : star (mix45 i j) = mix45 i j := by
  fin_cases i <;> fin_cases j <;> simp [mix45, Complex.conj_ofReal]

/-- The object of the examples, started with one flavour. -/
noncomputable def beam (α : Fin 3) : Obj 3 := fill (demo .mass) (fun _ _ f => if f = α then 1 else 0) .flavor

theorem beam_prepared (α : Fin 3) : Prepared (beam α) 1 1 :=
  c97_prepared (demo .mass) (demo_ready .mass) rfl _ .flavor 1 1 (show 1 < 2 by decide) (show 1 < 2 by decide)

theorem beam_start (α : Fin 3) : physical (beam α) 1 1 (beam α).t ((beam α).state 1 1) = projector α := by
  refine (c97_initial (demo .mass) (demo_ready .mass) rfl _ 1 1 (show 1 < 2 by decide) (show 1 < 2 by decide)).trans ?_
  rw [← sum_projectors]
  simp

/-- Antineutrinos in uniform matter, mixed by 45 degrees: the hypotheses of the first three theorems hold with the same object twice. -/
example (α β : Fin 3) (b : ℝ) (hab : (beam 0).t ≤ b) : ∃ ρ ρ' : ℝ → Mat 3,
    Reversed (beam 0) (beam 0) 1 1 1 1 ∧ Piecewise 3 (fun _ => 5) (fun _ => 1 / 2) (beam 0).t b ∧
    Solves (motion 1 (fun _ => 5) (fun _ => 1 / 2) (Fin.castLE (le_refl 3)) (beam 0) 1 1) ρ (beam 0).t b ∧
    physical (beam 0) 1 1 (beam 0).t (ρ (beam 0).t) = projector α ∧ physical (beam 0) 1 1 (beam 0).t (ρ' (beam 0).t) = projector β ∧
    evalFlavorAtNode (atTime (beam 0) 1 1 b (ρ b)) β 1 1 = evalFlavorAtNode (atTime (beam 0) 1 1 b (ρ' b)) α 1 1 := by
  have hb : (beam 0).basis = .mass := by simp [beam, fill, iniH0, setIniFlavorProjectors, demo]
  obtain ⟨ρ, h1, h2⟩ := uniform_solution 1 5 (1 / 2) (by norm_num) (le_refl 3) (beam_prepared 0) hb ((beam α).state 1 1) (beam 0).t b
  obtain ⟨ρ', h3, h4⟩ := uniform_solution 1 5 (1 / 2) (by norm_num) (le_refl 3) (beam_prepared 0) hb ((beam β).state 1 1) (beam 0).t b
  have hst : ∀ γ, physical (beam 0) 1 1 (beam 0).t ((beam γ).state 1 1) = projector γ := by
    intro γ
    refine Eq.trans ?_ (beam_start γ)
    unfold physical
    simp [beam, fill, iniH0, setIniFlavorProjectors, demo]
  have hr : ∀ i j, star ((beam 0).mixing 1 i j) = (beam 0).mixing 1 i j := mix45_real
  have hd : DiagonalMasses (beam 0) := diagonal_fill (demo .mass) (demo_ready .mass) _ _
  have hl : Piecewise 3 (fun _ => 5) (fun _ => 1 / 2) (beam 0).t b := ⟨∅, Set.finite_empty, fun _ _ _ => ⟨continuousAt_const, continuousAt_const, .inl rfl⟩⟩
  refine ⟨ρ, ρ', ⟨fun i j => (hr i j).symm, rfl, rfl, rfl, Iff.rfl⟩, hl, h2, by rw [h1, hst], by rw [h3, hst], ?_⟩
  exact c130_chord 1 _ _ (le_refl 3) (beam 0) 1 1 (beam_prepared 0) hd hr ρ ρ' _ b hab (fun _ _ => ⟨rfl, rfl⟩) hl h2 h4 α β
    (by rw [h1, hst]) (by rw [h3, hst])

/-- A uniform Earth, the table beginning outside of it, and a chord of 2000 km. -/
example (α β : Fin 3) : ∃ body, Bodies.mkEarth [2, 3, 4] [5, 4, 3] [1 / 2, 1 / 3, 1 / 4] = .ok body ∧
    (∀ x ∈ Icc (0 : ℝ) 2000, Bodies.density ⟨1, 1⟩ body (Bodies.mkEarthTrack x 0 2000 2000) = .ok 5 ∧
      Bodies.ye ⟨1, 1⟩ body (Bodies.mkEarthTrack x 0 2000 2000) = .ok (1 / 2)) ∧
    ∃ ρ ρ' : ℝ → Mat 3, physical (beam 0) 1 1 0 (ρ 0) = projector α ∧ physical (beam 0) 1 1 0 (ρ' 0) = projector β ∧
      Solves (motion 1 (fun _ => 5) (fun _ => 1 / 2) (Fin.castLE (le_refl 3)) (beam 0) 1 1) ρ 0 2000 ∧
      evalFlavorAtNode (atTime (beam 0) 1 1 2000 (ρ 2000)) β 1 1 = evalFlavorAtNode (atTime (beam 0) 1 1 2000 (ρ' 2000)) α 1 1 := by
  obtain ⟨tab, ht⟩ := Bodies.tab_some [2, 3, 4] [5, 4, 3] [1 / 2, 1 / 3, 1 / 4] rfl rfl (by decide) (by norm_num)
  have hbody : Bodies.mkEarth [2, 3, 4] [5, 4, 3] [1 / 2, 1 / 3, 1 / 4] = .ok ⟨.earth tab 6371, false⟩ := by
    simp only [Bodies.mkEarth, ht, Outcome.map]
  obtain ⟨f, g, hf, hg, h⟩ := Bodies.c96_earth ⟨1, 1⟩ one_pos _ _ _ _ hbody
  have hm : ∀ x ∈ Icc (0 : ℝ) 2000, Bodies.density ⟨1, 1⟩ ⟨.earth tab 6371, false⟩ (Bodies.mkEarthTrack x 0 2000 2000) = .ok 5 ∧
      Bodies.ye ⟨1, 1⟩ ⟨.earth tab 6371, false⟩ (Bodies.mkEarthTrack x 0 2000 2000) = .ok (1 / 2) := by
    intro x hx
    have hle : Bodies.chordFraction 6371 (2000 / 1) (x / 1) ≤ 2 := by
      unfold Bodies.chordFraction
      rw [div_le_iff₀ (by norm_num)]
      refine Real.sqrt_le_iff.2 ⟨by norm_num, ?_⟩
      nlinarith [hx.1, hx.2]
    obtain ⟨h1, h2⟩ := h x 0 2000 2000 (by norm_num) (by norm_num)
    exact ⟨h1.trans (congrArg _ (hf.before 2 5 _ rfl rfl hle)), h2.trans (congrArg _ (hg.before 2 (1 / 2) _ rfl rfl hle))⟩
  have hb : (beam 0).basis = .mass := by simp [beam, fill, iniH0, setIniFlavorProjectors, demo]
  obtain ⟨ρ, h1, h2⟩ := uniform_solution 1 5 (1 / 2) (by norm_num) (le_refl 3) (beam_prepared 0) hb ((beam α).state 1 1) 0 2000
  obtain ⟨ρ', h3, h4⟩ := uniform_solution 1 5 (1 / 2) (by norm_num) (le_refl 3) (beam_prepared 0) hb ((beam β).state 1 1) 0 2000
  have hst : ∀ γ, physical (beam 0) 1 1 0 ((beam γ).state 1 1) = projector γ := by
    intro γ
    refine Eq.trans ?_ (beam_start γ)
    unfold physical
    simp [beam, fill, iniH0, setIniFlavorProjectors, demo]
  refine ⟨_, hbody, hm, ρ, ρ', by rw [h1, hst], by rw [h3, hst], h2, ?_⟩
  exact c130_earth_partial 1 ⟨1, 1⟩ one_pos _ _ _ _ hbody 2000 (by norm_num) (by norm_num) (fun _ => 5) (fun _ => 1 / 2) hm (le_refl 3) (.inl rfl) (beam 0) 1 1
    (beam_prepared 0) (diagonal_fill (demo .mass) (demo_ready .mass) _ _) mix45_real ρ ρ' h2 h4 α β (by rw [h1, hst]) (by rw [h3, hst])

/-- A phase of one between the first and the third state, reversed. -/
example (i j : Fin 3) : (withParams [(0, 1), (0, 2), (1, 2)] ⟨fun _ _ => 1, fun k l => if (k, l) = (0, 2) then -1 else 0⟩ (demo .mass)).mixing 1 i j =
    star ((withParams [(0, 1), (0, 2), (1, 2)] ⟨fun _ _ => 1, fun k l => if (k, l) = (0, 2) then 1 else 0⟩ (demo .mass)).mixing 1 i j) :=
  (c130_phases _ ⟨fun _ _ => 1, fun k l => if (k, l) = (0, 2) then 1 else 0⟩ ⟨fun _ _ => 1, fun k l => if (k, l) = (0, 2) then -1 else 0⟩ _ 1 rfl
    (fun k l => by dsimp only; split <;> simp) i j).1

/-- Contents of two in every flavour, in matter. -/
example (b : ℝ) : ∃ ρ : ℝ → Mat 3, Solves (motion 1 (fun _ => 5) (fun _ => 1 / 2) (Fin.castLE (le_refl 3)) (beam 0) 1 1) ρ 0 b ∧
    ∀ t ∈ Icc 0 b, ∀ f, evalFlavorAtNode (atTime (beam 0) 1 1 t (ρ t)) f 1 1 = .ok 2 := by
  have hb : (beam 0).basis = .mass := by simp [beam, fill, iniH0, setIniFlavorProjectors, demo]
  have hU : mix45ᴴ * mix45 = 1 := mix45_unitary.star_mul
  obtain ⟨ρ, h1, h2⟩ := uniform_solution 1 5 (1 / 2) (by norm_num) (le_refl 3) (beam_prepared 0) hb ((2 : ℂ) • 1) 0 b
  refine ⟨ρ, h2, fun t ht f => c130_equal 1 _ _ (le_refl 3) (beam 0) 1 1 (beam_prepared 0) ρ 0 b h2 2 ?_ t ht f⟩
  rw [h1]
  unfold physical
  rw [if_pos hb, show (beam 0).mixing 1 = mix45 from rfl, Matrix.mul_smul, Matrix.smul_mul, Matrix.mul_one, hU, Matrix.smul_one_eq_diagonal]
  simp

/-- Three runs in matter. -/
example (b : ℝ) : ∃ ρ : Fin 3 → ℝ → Mat 3, (∀ α, Solves (motion 1 (fun _ => 5) (fun _ => 1 / 2) (Fin.castLE (le_refl 3)) (beam 0) 1 1) (ρ α) 0 b) ∧
    ∀ t ∈ Icc 0 b, ∀ f, ∃ x : Fin 3 → ℝ, (∀ α, evalFlavorAtNode (atTime (beam 0) 1 1 t (ρ α t)) f 1 1 = .ok (x α)) ∧ ∑ α, x α = 1 := by
  have hb : (beam 0).basis = .mass := by simp [beam, fill, iniH0, setIniFlavorProjectors, demo]
  have hst : ∀ γ, physical (beam 0) 1 1 0 ((beam γ).state 1 1) = projector γ := by
    intro γ
    refine Eq.trans ?_ (beam_start γ)
    unfold physical
    simp [beam, fill, iniH0, setIniFlavorProjectors, demo]
  choose ρ h1 h2 using fun α => uniform_solution 1 5 (1 / 2) (by norm_num) (le_refl 3) (beam_prepared 0) hb ((beam α).state 1 1) 0 b
  exact ⟨ρ, h2, fun t ht f => c130_columns 1 _ _ (le_refl 3) (beam 0) 1 1 (beam_prepared 0) ρ 0 b h2 (fun α => by rw [h1, hst]) t ht f⟩

/-- Equal contents with a sterile flavour in matter without electrons, where the potentials of the code are wrong. -/
example : ∃ ρ : ℝ → Mat 4, Solves (motion 1 (fun _ => 1) (fun _ => 0) (Fin.castLE (by decide)) sterile 0 0) ρ 0 1 ∧
    ∀ t ∈ Icc (0 : ℝ) 1, ∀ f, evalFlavorAtNode (atTime sterile 0 0 t (ρ t)) f 0 0 = .ok 2 := by
  have hs : Solves (motion 1 (fun _ => 1) (fun _ => 0) (Fin.castLE (by decide)) sterile 0 0) (fun _ => (2 : ℂ) • (1 : Mat 4)) 0 1 := by
    refine ⟨∅, Set.finite_empty, fun i j => continuousOn_const, fun t _ _ i j => ?_⟩
    refine (hasDerivWithinAt_const t (Ici t) _).congr_deriv ?_
    rw [Matrix.mul_smul, Matrix.smul_mul, Matrix.mul_one, Matrix.one_mul, sub_self, smul_zero]
    rfl
  refine ⟨_, hs, fun t ht f => c130_equal 1 _ _ (by decide) sterile 0 0 c97_neutrons_violated.1 _ 0 1 hs 2 ?_ t ht f⟩
  have hz : h0 sterile (sterile.energies 0) = 0 := by
    unfold h0; rw [show sterile.dm2 = 0 from rfl, smul_zero, ite_self]
  unfold physical
  rw [hz, uTransform_zero_ham, ite_self, show sterile.mixing 0 = 1 from rfl, Matrix.conjTranspose_one, Matrix.one_mul, Matrix.mul_one,
    Matrix.smul_one_eq_diagonal]
  simp

/-- Twice the energy and twice the way. -/
example (α β : Fin 3) : ∃ ρ ρ' : ℝ → Mat 3,
    let o := fill { demo .interaction with energies := fun _ => 1 } (fun _ _ f => if f = α then 1 else 0) .flavor
    let o' := fill (demo .interaction) (fun _ _ f => if f = α then 1 else 0) .flavor
    evalFlavorAtNode (atTime o' 1 1 (o'.tini + 3) (ρ' (o'.tini + 3))) β 1 1 = evalFlavorAtNode (atTime o 1 1 (o.tini + 6) (ρ (o.tini + 6))) β 1 1 := by
  let o1 : Obj 3 := { demo .interaction with energies := fun _ => 1 }
  have hr1 : Ready o1 := ⟨fun _ => rfl, fun _ => mix45_unitary, rfl⟩
  let o := fill o1 (fun _ _ f => if f = α then 1 else 0) .flavor
  let o' := fill (demo .interaction) (fun _ _ f => if f = α then 1 else 0) .flavor
  have hp : Prepared o 1 1 := c97_prepared o1 hr1 rfl _ .flavor 1 1 (show 1 < 2 by decide) (show 1 < 2 by decide)
  have hp' : Prepared o' 1 1 :=
    c97_prepared (demo .interaction) (demo_ready .interaction) rfl _ .flavor 1 1 (show 1 < 2 by decide) (show 1 < 2 by decide)
  obtain ⟨ρ, h1, h2⟩ := vacuum_solution 1 (fun _ => 1) (le_refl 3) hp (o.state 1 1) (o.tini + 6)
  obtain ⟨ρ', h3, h4⟩ := vacuum_solution 1 (fun _ => 1) (le_refl 3) hp' (o'.state 1 1) (o'.tini + 3)
  have hs : physical o 1 1 o.tini (ρ o.tini) = projector α := by
    have ht : o.t = o.tini := by simp only [o, o1, fill, iniH0, setIniFlavorProjectors, demo, if_true]
    rw [h1, ← ht]
    refine (c97_initial o1 hr1 rfl _ 1 1 (show 1 < 2 by decide) (show 1 < 2 by decide)).trans ?_
    rw [← sum_projectors]
    simp
  have hs' : physical o' 1 1 o'.tini (ρ' o'.tini) = projector α := by
    have ht : o'.t = o'.tini := by simp only [o', fill, iniH0, setIniFlavorProjectors, demo, if_true]
    rw [h3, ← ht]
    refine (c97_initial (demo .interaction) (demo_ready _) rfl _ 1 1 (show 1 < 2 by decide) (show 1 < 2 by decide)).trans ?_
    rw [← sum_projectors]
    simp
  refine ⟨ρ, ρ', c130_scale 1 (fun _ => 1) (fun _ => 1) (le_refl 3) o o' 1 1 1 1 hp hp' (diagonal_fill o1 hr1 _ _) rfl rfl rfl rfl ρ ρ' _ _ h2 h4 α β hs hs'
    _ _ ⟨by linarith, le_rfl⟩ ⟨by linarith, le_rfl⟩ ?_⟩
  rw [add_sub_cancel_left, add_sub_cancel_left]
  have e1 : o.energies 1 = 1 := rfl
  have e2 : o'.energies 1 = 1 / 2 := rfl
  rw [e1, e2]
  norm_num

end Verif.Density
