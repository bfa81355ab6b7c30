import Verif.NewPhys.Motion

/-!
# C127: with new physics, what is read is the solution of the Schrödinger equation with the new term
-/

namespace Verif.NewPhys

open Matrix Density
open scoped ComplexOrder

/-! ## Specification -/

/-- Antineutrinos see the new term with the opposite sign. -/
noncomputable def flip (nt : Matter.NT) (rho : Nat) : ℝ := if nt = .antineutrino ∨ (nt = .both ∧ rho = 1) then -1 else 1

/-- The Hamiltonian in flavour space with non-standard interactions of strength `eps`: in units of the potential of electrons, times the three down quarks
that go with each. -/
noncomputable def nsiHamiltonian (c dens ye eps : ℝ) (o : Obj 3) (ie rho : Nat) : Op :=
  flavourHamiltonian c dens ye o ie rho + (flip o.nt rho * (3 * (c * dens * ye))) • muTau eps

/-- The Hamiltonian in flavour space with the operator `A` growing with a power of the energy. -/
noncomputable def lvHamiltonian (c dens ye : ℝ) (power : Int) (A : Op) (o : Obj 3) (ie rho : Nat) : Op :=
  flavourHamiltonian c dens ye o ie rho + (flip o.nt rho * o.energies ie ^ power) • A

/-! ## Lemmas -/

theorem flip_cases {o : Obj 3} {ie rho : Nat} (ho : Prepared o ie rho) :
    ((rho = 0 ∧ kind o.nt = .both) ∨ kind o.nt = .neutrino) ∧ flip o.nt rho = 1 ∧ ¬((rho = 1 ∧ kind o.nt = .both) ∨ kind o.nt = .antineutrino) ∨
    ¬((rho = 0 ∧ kind o.nt = .both) ∨ kind o.nt = .neutrino) ∧ flip o.nt rho = -1 ∧ ((rho = 1 ∧ kind o.nt = .both) ∨ kind o.nt = .antineutrino) := by
  have ht := ho.type
  have hn := ho.good.ready.nrhos
  rw [hn] at ht
  cases hk : o.nt with
  | neutrino => left; simp [kind, flip]
  | antineutrino => right; simp [kind, flip]
  | both =>
    rw [hk] at ht
    have : rho = 0 ∨ rho = 1 := by simp at ht; omega
    rcases this with rfl | rfl
    · left; simp [kind, flip]
    · right; simp [kind, flip]

theorem nsi_ok (c : ℝ) (dens ye : ℝ → ℝ) {o : Obj 3} {ie rho : Nat} (ho : Prepared o ie rho) (s : Nsi) (t : ℝ) :
    nsiMotion c dens ye o s ie rho t = .ok (motion c dens ye (Fin.castLE (le_refl 3)) o ie rho t +
      (flip o.nt rho * (3 * (c * dens t * ye t))) • Density.evolve (h0 o (o.energies ie)) (t - o.tini) s.op) := by
  have hh := h0_hermitian ho.good.dm2 (o.energies ie)
  have he : s.preDerive (nsiTurn o) t ie = Density.evolve (h0 o (o.energies ie)) (t - o.tini) s.op := by
    unfold Nsi.preDerive nsiTurn
    rw [ho.h0s, turn_eq hh]
  unfold nsiMotion nsiHI
  dsimp only
  rw [he]
  rcases flip_cases ho with ⟨h1, h2, -⟩ | ⟨h1, h2, h3⟩
  · rw [if_pos h1, h2, one_mul, Complex.coe_smul]
  · rw [if_neg h1, if_pos h3, h2, Complex.coe_smul, neg_smul, one_smul, neg_mul, one_mul, neg_smul]

theorem lv_ok (c : ℝ) (dens ye : ℝ → ℝ) {o : Obj 3} {ie rho : Nat} (ho : Prepared o ie rho) (s : Lv) (hs : s.isSet = true) (t : ℝ) :
    lvMotion c dens ye o s ie rho t = .ok (motion c dens ye (Fin.castLE (le_refl 3)) o ie rho t +
      (flip o.nt rho * o.energies ie ^ s.power) • Density.evolve (h0 o (o.energies ie)) (t - o.tini) s.op) := by
  have hh := h0_hermitian ho.good.dm2 (o.energies ie)
  unfold lvMotion Lv.preDerive
  rw [hs]
  simp only [Bool.not_true, Bool.false_eq_true, if_false, Outcome.bind]
  unfold Lv.HI lvTurn
  dsimp only
  rw [turn_eq hh]
  rcases flip_cases ho with ⟨-, h2, h3⟩ | ⟨-, h2, h3⟩
  · rw [if_neg h3, h2, Complex.coe_smul]
  · rw [if_pos h3, h2, Complex.coe_smul, one_mul]

theorem unrotate {U : Op} (hU : Uᴴ * U = 1) (A : Op) : Uᴴ * rotate U A * U = A := by
  unfold rotate
  calc _ = (Uᴴ * U) * A * (Uᴴ * U) := by simp only [Matrix.mul_assoc]
    _ = _ := by rw [hU, Matrix.one_mul, Matrix.mul_one]

theorem muTau_hermitian (eps : ℝ) : (muTau eps).IsHermitian := by
  ext a b
  fin_cases a <;> fin_cases b <;> simp [muTau]

theorem rotate_hermitian (U : Op) {A : Op} (h : A.IsHermitian) : (rotate U A).IsHermitian := Matrix.isHermitian_mul_mul_conjTranspose U h

/-- Whatever was called, the operator is Hermitian. -/
theorem nsi_op_hermitian (h : List NsiCall) : ∀ s : Nsi, s.op.IsHermitian → (s.run h).op.IsHermitian := by
  induction h with
  | nil => intro s hs; exact hs
  | cons c h ih =>
    intro s hs
    cases c with
    | setMutau e => exact ih (s.setMutau e) (by simp only [Nsi.setMutau, nsiMatrix_eq]; exact rotate_hermitian _ (muTau_hermitian e))
    | setMixing U => exact ih (s.setMixing U) hs
    | read e U => exact ih (s.read e U) hs

theorem motion_hermitian (c : ℝ) (dens ye : ℝ → ℝ) {o : Obj 3} {ie rho : Nat} (ho : Prepared o ie rho) (t : ℝ) :
    (motion c dens ye (Fin.castLE (le_refl 3)) o ie rho t).IsHermitian := by
  have hh := h0_hermitian ho.good.dm2 (o.energies ie)
  have hb : ∀ f, (o.b1 rho f).IsHermitian := fun f => by rw [ho.good.b1 rho f ho.type]; exact toB1_hermitian _ (projector_hermitian f)
  have hk : (preDerive o t).h0s = o.h0s := by unfold preDerive; split <;> rfl
  refine c55_hermitian _ _ _ _ _ _ _ _ (fun f => ?_) (by rw [hk, ho.h0s]; exact hh)
  by_cases h : o.basis = .mass
  · have : preDerive o t = o := by unfold preDerive; rw [if_neg fun x => x.1 h]
    rw [this, ho.fresh (Or.inl h)]; exact hb f
  · rw [preDerive_projectors ho t h, ← turn_eq hh]
    exact Matrix.isHermitian_mul_mul_conjTranspose _ (hb f)

theorem evolved_hermitian {o : Obj 3} {ie rho : Nat} (ho : Prepared o ie rho) (t x : ℝ) {A : Op} (hA : A.IsHermitian) :
    (x • Density.evolve (h0 o (o.energies ie)) (t - o.tini) A).IsHermitian := by
  rw [← turn_eq (h0_hermitian ho.good.dm2 (o.energies ie))]
  exact real_smul_hermitian x (Matrix.isHermitian_mul_mul_conjTranspose _ hA)

theorem conserved {o : Obj 3} {ie rho : Nat} (ho : Prepared o ie rho) {H ρ : ℝ → Op} {a b : ℝ} (hH : ∀ t, (H t).IsHermitian)
    (hs : Solves H ρ a b) (h0 : (ρ a).PosSemidef) (t : ℝ) (ht : t ∈ Set.Icc a b) :
    ∃ c₀ c : Fin 3 → ℝ, (∀ f, evalFlavorAtNode (atTime o ie rho a (ρ a)) f ie rho = .ok (c₀ f)) ∧
      (∀ f, evalFlavorAtNode (atTime o ie rho t (ρ t)) f ie rho = .ok (c f)) ∧ ∑ f, c f = ∑ f, c₀ f ∧ ∀ f, 0 ≤ c f ∧ c f ≤ ∑ f, c₀ f := by
  have hherm : ∀ t ∈ Set.Icc a b, (ρ t).IsHermitian := by
    intro t ht
    have := (hs.star fun t _ => hH t).determined (fun t _ => hH t) hs (by exact h0.1) t ht
    exact this
  obtain ⟨c₀, c, h1, h2, h3, h4⟩ := c55_integrated o ho.good rho ie ho.type H ρ a b hs hherm a t ⟨le_refl a, ht.1.trans ht.2⟩ ht
  exact ⟨c₀, c, h1, h2, h3, h4 h0⟩

/-! ## Non-standard interactions -/

/-- C127, partial: after any calls, in any medium and for either type, the equation of motion has a Hamiltonian at all times, and while the stored state
follows it, the state in flavour space follows the Schrödinger equation with the term of the strength last given. Missing: the mass basis as the
working basis (`c127_mass_violated`), antineutrinos if CP is violated (`c127_antineutrino_violated`), and the mixing changed after the operator was set
(`c88_nsi_mixing_violated`). -/
theorem c127_nsi_partial (c : ℝ) (dens ye : ℝ → ℝ) (o : Obj 3) (ie rho : Nat) (ho : Prepared o ie rho) (hb : o.basis ≠ .mass) (eps : ℝ) (U : Op)
    (h : List NsiCall) (hf : noLaterMixing h true = true) (hmix : lastMix h U = o.mixing rho) :
    ∃ H : ℝ → Op, (∀ t, nsiMotion c dens ye o ((Nsi.make eps U).run h) ie rho t = .ok (H t)) ∧
      ∀ (ρ : ℝ → Op) (a b : ℝ), Solves H ρ a b →
        Solves (fun t => nsiHamiltonian c (dens t) (ye t) (lastEps h eps) o ie rho) (fun t => physical o ie rho t (ρ t)) a b := by
  obtain ⟨h1, h2, h3⟩ := nsi_run h (Nsi.make eps U) true (fun _ => by simp [Nsi.make, nsiMatrix_eq])
  have hop : ((Nsi.make eps U).run h).op = rotate (o.mixing rho) (muTau (lastEps h eps)) := by
    rw [h3 hf, h2, h1]
    show rotate (lastMix h U) (muTau (lastEps h eps)) = _
    rw [hmix]
  refine ⟨_, fun t => nsi_ok c dens ye ho _ t, fun ρ a b hs => ?_⟩
  have hm := added_motion c dens ye (fun t => flip o.nt rho * (3 * (c * dens t * ye t))) ho hb _ ρ a b hs
  rw [hop, unrotate (ho.good.ready.mixing rho).star_mul] at hm
  exact hm

/-- So what is read at any time is the diagonal of the solution of that equation with the same start. -/
theorem c127_nsi_reading_partial (c : ℝ) (dens ye : ℝ → ℝ) (o : Obj 3) (ie rho : Nat) (ho : Prepared o ie rho) (hb : o.basis ≠ .mass) (eps : ℝ)
    (U : Op) (h : List NsiCall) (hf : noLaterMixing h true = true) (hmix : lastMix h U = o.mixing rho) (H ρ σ : ℝ → Op) (a b : ℝ)
    (hH : ∀ t, nsiMotion c dens ye o ((Nsi.make eps U).run h) ie rho t = .ok (H t)) (hs : Solves H ρ a b)
    (hσ : Solves (fun t => nsiHamiltonian c (dens t) (ye t) (lastEps h eps) o ie rho) σ a b) (start : σ a = physical o ie rho a (ρ a)) (t : ℝ)
    (ht : t ∈ Set.Icc a b) (f : Fin 3) : evalFlavorAtNode (atTime o ie rho t (ρ t)) f ie rho = .ok (σ t f f).re := by
  obtain ⟨H', h1, h2⟩ := c127_nsi_partial c dens ye o ie rho ho hb eps U h hf hmix
  have : H' = H := funext fun t => Outcome.ok.inj ((h1 t).symm.trans (hH t))
  subst this
  rw [c97_reading o ho.good rho ie ho.type, hσ.determined (fun t _ => ?_) (h2 ρ a b hs) start t ht]
  exact (flavourHamiltonian_hermitian c (dens t) (ye t) ho.good ie rho).add (real_smul_hermitian _ (muTau_hermitian _))

/-- C127: whatever was called, in either working basis and for either type, the total flux is conserved and every flavour stays between nothing and it. -/
theorem c127_nsi_conserved (c : ℝ) (dens ye : ℝ → ℝ) (o : Obj 3) (ie rho : Nat) (ho : Prepared o ie rho) (eps : ℝ) (U : Op) (h : List NsiCall) :
    ∃ H : ℝ → Op, (∀ t, nsiMotion c dens ye o ((Nsi.make eps U).run h) ie rho t = .ok (H t)) ∧
      ∀ (ρ : ℝ → Op) (a b : ℝ), Solves H ρ a b → (ρ a).PosSemidef → ∀ t ∈ Set.Icc a b, ∃ c₀ c : Fin 3 → ℝ,
        (∀ f, evalFlavorAtNode (atTime o ie rho a (ρ a)) f ie rho = .ok (c₀ f)) ∧
        (∀ f, evalFlavorAtNode (atTime o ie rho t (ρ t)) f ie rho = .ok (c f)) ∧ ∑ f, c f = ∑ f, c₀ f ∧ ∀ f, 0 ≤ c f ∧ c f ≤ ∑ f, c₀ f := by
  have hop := nsi_op_hermitian h (Nsi.make eps U) (by simp only [Nsi.make, nsiMatrix_eq]; exact rotate_hermitian _ (muTau_hermitian eps))
  refine ⟨_, fun t => nsi_ok c dens ye ho _ t, fun ρ a b hs hp t ht => ?_⟩
  exact conserved ho (fun t => (motion_hermitian c dens ye ho t).add (evolved_hermitian ho t _ hop)) hs hp t ht

/-! ## Lorentz violation -/

/-- C127, partial: the same for Lorentz violation, with the operator and the power last given. Without an operator there is no equation of motion: the
evolution is refused. Missing: as for `c127_nsi_partial`. -/
theorem c127_lv_partial (c : ℝ) (dens ye : ℝ → ℝ) (o : Obj 3) (ie rho : Nat) (ho : Prepared o ie rho) (hb : o.basis ≠ .mass) (U : Op) (emu mutau : ℂ)
    (op : Op) (h : List LvCall) :
    (given h none = none → ∀ t, lvMotion c dens ye o ((Lv.make U emu mutau op).run h) ie rho t = .throws) ∧
    ∀ A, given h none = some A → lvMix h U = o.mixing rho →
      ∃ H : ℝ → Op, (∀ t, lvMotion c dens ye o ((Lv.make U emu mutau op).run h) ie rho t = .ok (H t)) ∧
        ∀ (ρ : ℝ → Op) (a b : ℝ), Solves H ρ a b →
          Solves (fun t => lvHamiltonian c (dens t) (ye t) (lvPower h 1) A o ie rho) (fun t => physical o ie rho t (ρ t)) a b := by
  obtain ⟨h1, h2, h3⟩ := lv_run h (Lv.make U emu mutau op) none rfl
  refine ⟨fun hn t => ?_, fun A hA hmix => ?_⟩
  · rw [hn] at h1
    have h1 : ((Lv.make U emu mutau op).run h).isSet = false := h1
    unfold lvMotion Lv.preDerive
    rw [h1]; rfl
  · rw [hA] at h1
    obtain ⟨h1, h4⟩ := h1
    refine ⟨_, fun t => lv_ok c dens ye ho _ h1 t, fun ρ a b hs => ?_⟩
    have hm := added_motion c dens ye (fun _ => flip o.nt rho * o.energies ie ^ ((Lv.make U emu mutau op).run h).power) ho hb _ ρ a b hs
    rw [h4, h2, show (Lv.make U emu mutau op).mix = U from rfl, hmix, unrotate (ho.good.ready.mixing rho).star_mul, h3] at hm
    exact hm

/-- So what is read at any time is the diagonal of the solution of that equation with the same start, if the operator is Hermitian. -/
theorem c127_lv_reading_partial (c : ℝ) (dens ye : ℝ → ℝ) (o : Obj 3) (ie rho : Nat) (ho : Prepared o ie rho) (hb : o.basis ≠ .mass) (U : Op)
    (emu mutau : ℂ) (op : Op) (h : List LvCall) (A : Op) (hA : given h none = some A) (hA' : A.IsHermitian) (hmix : lvMix h U = o.mixing rho)
    (H ρ σ : ℝ → Op) (a b : ℝ) (hH : ∀ t, lvMotion c dens ye o ((Lv.make U emu mutau op).run h) ie rho t = .ok (H t)) (hs : Solves H ρ a b)
    (hσ : Solves (fun t => lvHamiltonian c (dens t) (ye t) (lvPower h 1) A o ie rho) σ a b) (start : σ a = physical o ie rho a (ρ a)) (t : ℝ)
    (ht : t ∈ Set.Icc a b) (f : Fin 3) : evalFlavorAtNode (atTime o ie rho t (ρ t)) f ie rho = .ok (σ t f f).re := by
  obtain ⟨H', h1, h2⟩ := (c127_lv_partial c dens ye o ie rho ho hb U emu mutau op h).2 A hA hmix
  have : H' = H := funext fun t => Outcome.ok.inj ((h1 t).symm.trans (hH t))
  subst this
  rw [c97_reading o ho.good rho ie ho.type, hσ.determined (fun t _ => ?_) (h2 ρ a b hs) start t ht]
  exact (flavourHamiltonian_hermitian c (dens t) (ye t) ho.good ie rho).add (real_smul_hermitian _ hA')

/-- C127: with a Hermitian operator, in either working basis, the total flux is conserved and every flavour stays between nothing and it. -/
theorem c127_lv_conserved (c : ℝ) (dens ye : ℝ → ℝ) (o : Obj 3) (ie rho : Nat) (ho : Prepared o ie rho) (U : Op) (emu mutau : ℂ) (op : Op)
    (h : List LvCall) (A : Op) (hA : given h none = some A) (hA' : A.IsHermitian) :
    ∃ H : ℝ → Op, (∀ t, lvMotion c dens ye o ((Lv.make U emu mutau op).run h) ie rho t = .ok (H t)) ∧
      ∀ (ρ : ℝ → Op) (a b : ℝ), Solves H ρ a b → (ρ a).PosSemidef → ∀ t ∈ Set.Icc a b, ∃ c₀ c : Fin 3 → ℝ,
        (∀ f, evalFlavorAtNode (atTime o ie rho a (ρ a)) f ie rho = .ok (c₀ f)) ∧
        (∀ f, evalFlavorAtNode (atTime o ie rho t (ρ t)) f ie rho = .ok (c f)) ∧ ∑ f, c f = ∑ f, c₀ f ∧ ∀ f, 0 ≤ c f ∧ c f ≤ ∑ f, c₀ f := by
  obtain ⟨h1, -, -⟩ := lv_run h (Lv.make U emu mutau op) none rfl
  rw [hA] at h1
  obtain ⟨h1, h4⟩ := h1
  refine ⟨_, fun t => lv_ok c dens ye ho _ h1 t, fun ρ a b hs hp t ht => ?_⟩
  exact conserved ho (fun t => (motion_hermitian c dens ye ho t).add (evolved_hermitian ho t _ (by rw [h4]; exact rotate_hermitian _ hA'))) hs hp t ht

/-- In the mass basis, in vacuum, the stored state seen from the rotating frame follows a Hamiltonian in which the masses count twice. -/
theorem c127_mass_doubled (c : ℝ) (ye : ℝ → ℝ) (o : Obj 3) (ie rho : Nat) (ho : Prepared o ie rho) (hb : o.basis = .mass) (U : Op) (emu mutau : ℂ)
    (op : Op) (h : List LvCall) (A : Op) (hA : given h none = some A) :
    ∃ H : ℝ → Op, (∀ t, lvMotion c (fun _ => 0) ye o ((Lv.make U emu mutau op).run h) ie rho t = .ok (H t)) ∧
      ∀ (ρ : ℝ → Op) (a b : ℝ), Solves H ρ a b →
        Solves (fun _ => h0 o (o.energies ie) + (h0 o (o.energies ie) + (flip o.nt rho * o.energies ie ^ lvPower h 1) • rotate (lvMix h U) A))
          (fun t => uTransform (h0 o (o.energies ie)) (t - o.tini) (ρ t)) a b := by
  obtain ⟨h1, h2, h3⟩ := lv_run h (Lv.make U emu mutau op) none rfl
  rw [hA] at h1
  obtain ⟨h1, h4⟩ := h1
  refine ⟨_, fun t => lv_ok c _ ye ho _ h1 t, fun ρ a b hs => ?_⟩
  have e := fun t => added_motion_mass c ye (fun _ => flip o.nt rho * o.energies ie ^ ((Lv.make U emu mutau op).run h).power) ho hb
    ((Lv.make U emu mutau op).run h).op t
  simp only [e] at hs
  have := hs.picture (V := fun _ => h0 o (o.energies ie) + (flip o.nt rho * o.energies ie ^ ((Lv.make U emu mutau op).run h).power) •
    ((Lv.make U emu mutau op).run h).op)
  rw [h4, h2, h3] at this
  exact this

/-! ## Examples -/

/-- Three neutrino flavours, one node of energy 1/2, no mixing, in the working basis given; the third mass squared difference is 6. -/
noncomputable def heavy (basis : Basis) : Obj 3 where
  nt := .neutrino
  ne := 1
  nrhos := 1
  basis := basis
  ienergy := true
  itrack := true
  ibody := true
  istate := true
  ioscillations := true
  full := false
  energies := fun _ => 1 / 2
  differences := fun i => if i = 2 then 6 else 0
  mixing := fun _ => 1
  b0 := fun f => projector f
  b1 := fun _ f => projector f
  evolB1 := fun _ f _ => projector f
  dm2 := Matrix.diagonal fun i => (((if i = 2 then 6 else 0 : ℝ)) : ℂ)
  h0s := fun _ => Matrix.diagonal fun i => (((if i = 2 then 6 else 0 : ℝ)) : ℂ)
  state := fun _ _ => 0
  trackStart := 0
  t := 0
  tini := 0

theorem heavy_h0 (b : Basis) : h0 (heavy b) ((heavy b).energies 0) = Matrix.diagonal fun i => (((if i = 2 then 6 else 0 : ℝ)) : ℂ) := by
  unfold h0
  rw [if_pos (show (heavy b).ioscillations = true from rfl), show (heavy b).energies 0 = 1 / 2 from rfl]
  norm_num [heavy]

theorem real_diagonal_hermitian (d : Fin 3 → ℝ) : (Matrix.diagonal fun i => (d i : ℂ) : Op).IsHermitian := by
  rw [Matrix.IsHermitian, Matrix.diagonal_conjTranspose]
  congr 1
  funext i
  exact Complex.conj_ofReal _

theorem one_toB1 (f : Fin 3) : toB1 (1 : Op) (projector f) = projector f := by
  unfold toB1; rw [Matrix.conjTranspose_one, Matrix.one_mul, Matrix.mul_one]

theorem heavy_prepared (b : Basis) : Prepared (heavy b) 0 0 :=
  ⟨⟨⟨fun _ => rfl, fun _ => by show Unitary (1 : Op); unfold Unitary; rw [Matrix.conjTranspose_one, Matrix.one_mul], rfl⟩, rfl,
    fun _ f _ => (one_toB1 f).symm, real_diagonal_hermitian _⟩, Nat.zero_lt_one, Nat.zero_lt_one, (heavy_h0 b).symm, fun _ _ => rfl⟩

/-- The hypotheses of the theorems above hold for an object whose strength was set again after the mixing, and the Hamiltonian has the term. -/
example : Prepared (heavy .interaction) 0 0 ∧ (heavy .interaction).basis ≠ .mass ∧
    noLaterMixing [.setMixing 1, .setMutau 2] true = true ∧ lastMix [.setMixing 1, .setMutau 2] swap01 = (heavy .interaction).mixing 0 ∧
    nsiHamiltonian 1 1 1 2 (heavy .interaction) 0 0 1 2 = 6 := by
  refine ⟨heavy_prepared _, by simp [heavy], rfl, rfl, ?_⟩
  have e : flavourHamiltonian 1 1 1 (heavy .interaction) 0 0 1 2 = 0 := by
    unfold flavourHamiltonian
    rw [heavy_h0, show (heavy .interaction).mixing 0 = 1 from rfl]
    simp
  unfold nsiHamiltonian
  rw [Matrix.add_apply, e, Matrix.smul_apply]
  simp [flip, heavy, muTau]
  norm_num

/-- The operator used below, given as a matrix: with the masses it adds up to one that mixes the second and third flavour. -/
noncomputable def opposing : Op := !![0, 0, 0; 0, 3, 4; 0, 4, -9]

theorem opposing_hermitian : opposing.IsHermitian := by
  ext a b
  fin_cases a <;> fin_cases b <;> simp [opposing]

example : given [.setMatrix opposing, .setPower 0] none = some opposing ∧ lvMix [.setMatrix opposing, .setPower 0] 1 = (heavy .interaction).mixing 0 :=
  ⟨rfl, rfl⟩

/-! ## Where the claim fails -/

/-- A Hamiltonian given with its eigenvectors. -/
theorem phase_similar {H Q Q' : Op} {d : Fin 3 → ℝ} (hQ : Q * Q' = 1) (e : H = Q * (Matrix.diagonal fun i => (d i : ℂ)) * Q') (t : ℝ) :
    phase H t = Q * (Matrix.diagonal fun i => Complex.exp (Complex.I * (d i * t : ℝ))) * Q' := by
  have hi : Q⁻¹ = Q' := Matrix.inv_eq_right_inv hQ
  have hu : IsUnit Q := by rw [Matrix.isUnit_iff_isUnit_det]; exact Matrix.isUnit_det_of_right_inverse hQ
  rw [← phase_diagonal, e, ← hi]
  unfold phase
  rw [← Matrix.exp_conj _ _ hu, Matrix.mul_smul, Matrix.smul_mul]

/-- An equal mixture of the second and third flavour. -/
noncomputable def halfHalf : Op := !![0, 0, 0; 0, 1 / 2, 1 / 2; 0, 1 / 2, 1 / 2]

/-- Vacuum and operator together. -/
theorem opposing_sum : (Matrix.diagonal fun i => (((if i = 2 then 6 else 0 : ℝ)) : ℂ)) + opposing = (!![0, 0, 0; 0, 3, 4; 0, 4, -3] : Op) := by
  ext a b
  fin_cases a <;> fin_cases b <;> (simp [opposing]; try norm_num)

theorem opposing_phase : phase (!![0, 0, 0; 0, 3, 4; 0, 4, -3] : Op) (Real.pi / 10) =
    !![1, 0, 0; 0, 3 / 5 * Complex.I, 4 / 5 * Complex.I; 0, 4 / 5 * Complex.I, -(3 / 5 * Complex.I)] ∧
    phase (!![0, 0, 0; 0, 3, 4; 0, 4, -3] : Op) (-(Real.pi / 10)) =
    !![1, 0, 0; 0, -(3 / 5 * Complex.I), -(4 / 5 * Complex.I); 0, -(4 / 5 * Complex.I), 3 / 5 * Complex.I] := by
  have hQ : (!![1, 0, 0; 0, 2, -1; 0, 1, 2] : Op) * !![1, 0, 0; 0, 2 / 5, 1 / 5; 0, -(1 / 5), 2 / 5] = 1 := by
    ext a b
    fin_cases a <;> fin_cases b <;> simp [Matrix.mul_apply, Fin.sum_univ_three] <;> norm_num
  have e : (!![0, 0, 0; 0, 3, 4; 0, 4, -3] : Op) = (!![1, 0, 0; 0, 2, -1; 0, 1, 2] : Op) *
      (Matrix.diagonal fun i => ((![0, 5, -5] i : ℝ) : ℂ)) * !![1, 0, 0; 0, 2 / 5, 1 / 5; 0, -(1 / 5), 2 / 5] := by
    rw [Matrix.diagonal_fin_three]
    ext a b
    fin_cases a <;> fin_cases b <;> simp [Matrix.mul_apply, Fin.sum_univ_three] <;> norm_num
  have i1 : Complex.exp (Complex.I * ((5 * (Real.pi / 10) : ℝ) : ℂ)) = Complex.I := by
    rw [show Complex.I * ((5 * (Real.pi / 10) : ℝ) : ℂ) = Real.pi / 2 * Complex.I by push_cast; ring, Complex.exp_pi_div_two_mul_I]
  have i2 : Complex.exp (Complex.I * ((-5 * (Real.pi / 10) : ℝ) : ℂ)) = -Complex.I := by
    rw [show Complex.I * ((-5 * (Real.pi / 10) : ℝ) : ℂ) = -(Real.pi / 2 * Complex.I) by push_cast; ring, Complex.exp_neg, Complex.exp_pi_div_two_mul_I,
      Complex.inv_I]
  have i3 : Complex.exp (Complex.I * ((5 * -(Real.pi / 10) : ℝ) : ℂ)) = -Complex.I := by
    rw [show (5 * -(Real.pi / 10) : ℝ) = -5 * (Real.pi / 10) by ring]; exact i2
  have i4 : Complex.exp (Complex.I * ((-5 * -(Real.pi / 10) : ℝ) : ℂ)) = Complex.I := by
    rw [show (-5 * -(Real.pi / 10) : ℝ) = 5 * (Real.pi / 10) by ring]; exact i1
  have d1 : (Matrix.diagonal fun i => Complex.exp (Complex.I * ((![0, 5, -5] i * (Real.pi / 10) : ℝ) : ℂ)) : Op) =
      !![1, 0, 0; 0, Complex.I, 0; 0, 0, -Complex.I] := by
    rw [Matrix.diagonal_fin_three]
    simp only [Matrix.cons_val, i1, i2, zero_mul, Complex.ofReal_zero, mul_zero, Complex.exp_zero]
  have d2 : (Matrix.diagonal fun i => Complex.exp (Complex.I * ((![0, 5, -5] i * -(Real.pi / 10) : ℝ) : ℂ)) : Op) =
      !![1, 0, 0; 0, -Complex.I, 0; 0, 0, Complex.I] := by
    rw [Matrix.diagonal_fin_three]
    simp only [Matrix.cons_val, i3, i4, zero_mul, Complex.ofReal_zero, mul_zero, Complex.exp_zero]
  constructor
  · rw [phase_similar hQ e, d1]
    ext a b
    fin_cases a <;> fin_cases b <;> simp [Matrix.mul_apply, Fin.sum_univ_three] <;> ring
  · rw [phase_similar hQ e, d2]
    ext a b
    fin_cases a <;> fin_cases b <;> simp [Matrix.mul_apply, Fin.sum_univ_three] <;> ring

/-- Two solutions of the same equation if what they differ by commutes with the state. -/
theorem solves_commuting {H H' ρ : ℝ → Op} {a b : ℝ} (hs : Solves H ρ a b) (hc : ∀ t, (H' t - H t) * ρ t = ρ t * (H' t - H t)) : Solves H' ρ a b := by
  obtain ⟨S, hS, hs⟩ := hs
  refine ⟨S, hS, hs.cont, fun t ht hn => ?_⟩
  have hd := hs.deriv t ht hn
  have e : H' t * ρ t - ρ t * H' t = H t * ρ t - ρ t * H t := by
    have := hc t
    rw [Matrix.sub_mul, Matrix.mul_sub] at this
    rw [sub_eq_sub_iff_sub_eq_sub]
    exact this
  rw [e]
  exact hd

theorem uTransform_neg (H A : Op) (t : ℝ) : uTransform (-H) t A = Density.evolve H t A := by
  have : ∀ t, phase (-H) t = phase H (-t) := by
    intro t
    unfold phase
    congr 1
    rw [smul_neg, ← neg_smul]
    congr 1
    push_cast; ring
  unfold uTransform Density.evolve
  rw [this, this, neg_neg]

theorem evolve_product (D : Op) (t : ℝ) (A B : Op) : Density.evolve D t A * Density.evolve D t B = Density.evolve D t (A * B) := by
  unfold Density.evolve
  calc _ = phase D t * A * (phase D (-t) * phase D t) * B * phase D (-t) := by simp only [Matrix.mul_assoc]
    _ = _ := by rw [phase_neg', Matrix.mul_one]; simp only [Matrix.mul_assoc]

theorem evolve_self (D : Op) (t : ℝ) : Density.evolve D t D = D := by
  unfold Density.evolve
  rw [← phase_commute, Matrix.mul_assoc, phase_neg, Matrix.mul_one]

/-- In the interaction picture a state of masses and operator together is stored as a rotating one, follows the equation of motion, and is read as four
parts of the second flavour and one of the third at all times. -/
example (b : ℝ) : Prepared (heavy .interaction) 0 0 ∧ ∃ (H ρ : ℝ → Op),
    (∀ t, lvMotion 1 (fun _ => 0) (fun _ => 1) (heavy .interaction) ((Lv.make 1 0 0 0).run [.setMatrix opposing, .setPower 0]) 0 0 t = .ok (H t)) ∧
    Solves H ρ 0 b ∧ (ρ 0).IsHermitian ∧
    ∀ t, physical (heavy .interaction) 0 0 t (ρ t) = !![0, 0, 0; 0, 4 / 5, 2 / 5; 0, 2 / 5, 1 / 5] := by
  have ho := heavy_prepared .interaction
  have hz : matter 1 0 1 (heavy .interaction) 0 = 0 := by
    unfold matter Matter.matterTerm Matter.flavourPotential
    simp only [mul_zero, zero_mul, ite_self, zero_smul, Finset.sum_const_zero]
  generalize hD : (Matrix.diagonal fun i => (((if i = 2 then 6 else 0 : ℝ)) : ℂ) : Op) = D
  generalize hP : (!![0, 0, 0; 0, 4 / 5, 2 / 5; 0, 2 / 5, 1 / 5] : Op) = P
  have hop : ((Lv.make 1 0 0 0).run [.setMatrix opposing, .setPower 0]).op = opposing := by
    show rotate 1 opposing = opposing
    unfold rotate; rw [Matrix.conjTranspose_one, Matrix.one_mul, Matrix.mul_one]
  have hcomm : (D + opposing) * P = P * (D + opposing) := by
    rw [← hD, opposing_sum, ← hP]
    ext a b
    fin_cases a <;> fin_cases b <;> simp [Matrix.mul_apply, Fin.sum_univ_three] <;> norm_num
  refine ⟨ho, fun t => Density.evolve D t opposing, fun t => Density.evolve D t P, fun t => ?_, ?_, ?_, fun t => ?_⟩
  · rw [lv_ok 1 _ _ ho _ rfl t, motion_vacuum 1 _ _ (le_refl 3) ho t rfl, if_neg (by simp [heavy]), hz, heavy_h0, hop, hD,
      show (heavy .interaction).tini = 0 from rfl, sub_zero, show ((Lv.make 1 0 0 0).run [.setMatrix opposing, .setPower 0]).power = 0 from rfl,
      zpow_zero, mul_one]
    congr 1
    simp [flip, heavy, Density.evolve]
  · have h := solves_constant (-D) P 0 b
    simp only [sub_zero, uTransform_neg] at h
    refine solves_commuting h fun t => ?_
    have e : Density.evolve D t opposing - -D = Density.evolve D t (D + opposing) := by
      rw [evolve_add D t D opposing, evolve_self, sub_neg_eq_add, add_comm]
    rw [e, evolve_product, evolve_product, hcomm]
  · dsimp only
    rw [evolve_zero_time, ← hP]
    ext a b
    fin_cases a <;> fin_cases b <;> simp
  · unfold physical
    rw [if_neg (by simp [heavy]), heavy_h0, hD, show (heavy .interaction).tini = 0 from rfl, sub_zero, show (heavy .interaction).mixing 0 = 1 from rfl,
      Matrix.conjTranspose_one, Matrix.one_mul, Matrix.mul_one]
    unfold uTransform Density.evolve
    calc _ = (phase D (-t) * phase D t) * P * (phase D (-t) * phase D t) := by simp only [Matrix.mul_assoc]
      _ = P := by rw [phase_neg', Matrix.one_mul, Matrix.mul_one]

/-- C127 fails in the mass basis, already in vacuum: the operator is rotated as if in the interaction picture, the state is not. An equal mixture of the
second and third flavour stays one for all times, though under the masses and the operator 49 parts of 50 should have become the second flavour. -/
theorem c127_mass_violated : Prepared (heavy .mass) 0 0 ∧ opposing.IsHermitian ∧ ∃ (H ρ σ : ℝ → Op),
    (∀ t, lvMotion 1 (fun _ => 0) (fun _ => 1) (heavy .mass) ((Lv.make 1 0 0 0).run [.setMatrix opposing, .setPower 0]) 0 0 t = .ok (H t)) ∧
    Solves H ρ 0 (Real.pi / 10) ∧ Solves (fun _ => lvHamiltonian 1 0 1 0 opposing (heavy .mass) 0 0) σ 0 (Real.pi / 10) ∧
    σ 0 = physical (heavy .mass) 0 0 0 (ρ 0) ∧ σ 0 = halfHalf ∧
    evalFlavorAtNode (atTime (heavy .mass) 0 0 (Real.pi / 10) (ρ (Real.pi / 10))) 1 0 0 = .ok (1 / 2) ∧
    (σ (Real.pi / 10) 1 1).re = 49 / 50 := by
  have ho := heavy_prepared .mass
  let D : Op := Matrix.diagonal fun i => (((if i = 2 then 6 else 0 : ℝ)) : ℂ)
  have hphys : ∀ t B, physical (heavy .mass) 0 0 t B = B := by
    intro t B
    unfold physical
    rw [if_pos (show (heavy .mass).basis = .mass from rfl), show (heavy .mass).mixing 0 = 1 from rfl, Matrix.conjTranspose_one, Matrix.one_mul, Matrix.mul_one]
  have hop : ((Lv.make 1 0 0 0).run [.setMatrix opposing, .setPower 0]).op = opposing := by
    show rotate 1 opposing = opposing
    unfold rotate; rw [Matrix.conjTranspose_one, Matrix.one_mul, Matrix.mul_one]
  have hH : ∀ t, lvMotion 1 (fun _ => 0) (fun _ => 1) (heavy .mass) ((Lv.make 1 0 0 0).run [.setMatrix opposing, .setPower 0]) 0 0 t =
      .ok (Density.evolve D t (D + opposing)) := by
    intro t
    rw [lv_ok 1 _ _ ho _ rfl t, added_motion_mass 1 _ (fun _ => flip (heavy .mass).nt 0 *
      (heavy .mass).energies 0 ^ ((Lv.make 1 0 0 0).run [.setMatrix opposing, .setPower 0]).power) ho rfl, heavy_h0, hop,
      show (heavy .mass).tini = 0 from rfl, sub_zero]
    congr 3
    rw [show ((Lv.make 1 0 0 0).run [.setMatrix opposing, .setPower 0]).power = 0 from rfl, zpow_zero, mul_one]
    simp [flip, heavy]
  have hlv : lvHamiltonian 1 0 1 0 opposing (heavy .mass) 0 0 = !![0, 0, 0; 0, 3, 4; 0, 4, -3] := by
    unfold lvHamiltonian flavourHamiltonian Matter.flavourPotential
    rw [heavy_h0, show (heavy .mass).mixing 0 = 1 from rfl, Matrix.conjTranspose_one, Matrix.one_mul, Matrix.mul_one, zpow_zero, mul_one, ← opposing_sum]
    simp [flip, heavy]
  have hcomm : (D + (D + opposing)) * halfHalf = halfHalf * (D + (D + opposing)) := by
    ext a b
    fin_cases a <;> fin_cases b <;> simp [D, opposing, halfHalf, Matrix.mul_apply, Fin.sum_univ_three] <;> norm_num
  have hev := evolve_product D
  have hDD := evolve_self D
  have hρ : Solves (fun t => Density.evolve D t (D + opposing)) (fun t => Density.evolve D t halfHalf) 0 (Real.pi / 10) := by
    have h := solves_constant (-D) halfHalf 0 (Real.pi / 10)
    simp only [sub_zero, uTransform_neg] at h
    refine solves_commuting h fun t => ?_
    have e : Density.evolve D t (D + opposing) - -D = Density.evolve D t (D + (D + opposing)) := by
      rw [evolve_add D t D (D + opposing), hDD, sub_neg_eq_add, add_comm]
    rw [e, hev, hev, hcomm]
  refine ⟨ho, opposing_hermitian, fun t => Density.evolve D t (D + opposing), fun t => Density.evolve D t halfHalf,
    fun t => uTransform !![0, 0, 0; 0, 3, 4; 0, 4, -3] (t - 0) halfHalf, hH, hρ, ?_, ?_, ?_, ?_, ?_⟩
  · rw [hlv]; exact solves_constant _ _ _ _
  · rw [hphys]; dsimp only
    unfold uTransform Density.evolve
    rw [sub_self, neg_zero, phase_zero_time, phase_zero_time]
  · dsimp only
    unfold uTransform
    rw [sub_self, neg_zero, phase_zero_time, Matrix.one_mul, Matrix.mul_one]
  · rw [c97_reading (heavy .mass) ho.good 0 0 Nat.zero_lt_one, hphys]
    dsimp only
    rw [evolve_diagonal]
    simp [halfHalf]
  · dsimp only
    unfold uTransform
    rw [sub_zero, opposing_phase.1, opposing_phase.2]
    simp [halfHalf, Matrix.mul_apply, Fin.sum_univ_three]
    norm_num

/-- A mixing with the largest angle between the first and the third state and the phase π/2. -/
noncomputable def cpMixing : Op := !![0, 0, -Complex.I; 0, 1, 0; -Complex.I, 0, 0]

/-- Neutrinos and antineutrinos with that mixing, of opposite phase, and equal masses, in the interaction picture. -/
noncomputable def cpObject : Obj 3 where
  nt := .both
  ne := 1
  nrhos := 2
  basis := .interaction
  ienergy := true
  itrack := true
  ibody := true
  istate := true
  ioscillations := true
  full := false
  energies := fun _ => 1
  differences := fun _ => 0
  mixing := fun rho => if rho = 1 then cpMixing.map star else cpMixing
  b0 := fun f => projector f
  b1 := fun rho f => toB1 (if rho = 1 then cpMixing.map star else cpMixing) (projector f)
  evolB1 := fun rho f _ => toB1 (if rho = 1 then cpMixing.map star else cpMixing) (projector f)
  dm2 := 0
  h0s := fun _ => 0
  state := fun _ _ => 0
  trackStart := 0
  t := 0
  tini := 0

theorem cp_unitary : cpMixing * cpMixingᴴ = 1 ∧ (cpMixing.map star) * (cpMixing.map star)ᴴ = 1 := by
  constructor <;>
  · ext a b
    fin_cases a <;> fin_cases b <;> simp [cpMixing, Matrix.mul_apply, Fin.sum_univ_three]

theorem cp_h0 : h0 cpObject (cpObject.energies 0) = 0 := by
  unfold h0; rw [show cpObject.dm2 = 0 from rfl, smul_zero, ite_self]

theorem cp_prepared (rho : Nat) (hr : rho < 2) : Prepared cpObject 0 rho := by
  refine ⟨⟨⟨fun _ => rfl, fun r => ?_, rfl⟩, rfl, fun _ _ _ => rfl, Matrix.isHermitian_zero⟩, Nat.zero_lt_one, hr, cp_h0.symm, fun _ _ => rfl⟩
  show (if r = 1 then cpMixing.map star else cpMixing) * (if r = 1 then cpMixing.map star else cpMixing)ᴴ = 1
  split
  · exact cp_unitary.2
  · exact cp_unitary.1

/-- The operator of the neutrinos, in the flavour basis of the antineutrinos, has the wrong sign. -/
theorem cp_operator : (cpMixing.map star)ᴴ * rotate cpMixing (muTau 1) * cpMixing.map star = -muTau 1 := by
  have e1 : cpMixingᴴ = !![0, 0, Complex.I; 0, 1, 0; Complex.I, 0, 0] := by
    ext a b
    fin_cases a <;> fin_cases b <;> simp [cpMixing]
  have e2 : (cpMixing.map star)ᴴ = !![0, 0, -Complex.I; 0, 1, 0; -Complex.I, 0, 0] := by
    ext a b
    fin_cases a <;> fin_cases b <;> simp [cpMixing]
  have e3 : cpMixing.map star = !![0, 0, Complex.I; 0, 1, 0; Complex.I, 0, 0] := by
    ext a b
    fin_cases a <;> fin_cases b <;> simp [cpMixing]
  unfold rotate
  rw [e2, e3, e1]
  ext a b
  fin_cases a <;> fin_cases b <;> simp [cpMixing, muTau, Matrix.mul_apply, Fin.sum_univ_three]

/-- A mixture of the second and third flavour with a phase. -/
noncomputable def phased : Op := !![0, 0, 0; 0, 1 / 2, -(Complex.I / 2); 0, Complex.I / 2, 1 / 2]

/-- The evolution of that mixture under a term between its flavours. -/
theorem phased_evolves (x k t : ℝ) (w : ℂ) (hw : Complex.exp (Complex.I * ((k * t : ℝ) : ℂ)) * Complex.exp (Complex.I * ((k * t : ℝ) : ℂ)) = w)
    (hw' : w * w = -1) :
    uTransform ((Matrix.diagonal fun i => ((![x, 0, 0] i : ℝ) : ℂ)) + k • muTau 1) t phased 1 1 = 1 / 2 - Complex.I * w / 2 := by
  have hQ : (!![1, 0, 0; 0, 1, 1; 0, 1, -1] : Op) * !![1, 0, 0; 0, 1 / 2, 1 / 2; 0, 1 / 2, -(1 / 2)] = 1 := by
    ext a b
    fin_cases a <;> fin_cases b <;> simp [Matrix.mul_apply, Fin.sum_univ_three] <;> norm_num
  have e : ((Matrix.diagonal fun i => ((![x, 0, 0] i : ℝ) : ℂ)) + k • muTau 1 : Op) = (!![1, 0, 0; 0, 1, 1; 0, 1, -1] : Op) *
      (Matrix.diagonal fun i => ((![x, k, -k] i : ℝ) : ℂ)) * !![1, 0, 0; 0, 1 / 2, 1 / 2; 0, 1 / 2, -(1 / 2)] := by
    rw [Matrix.diagonal_fin_three, Matrix.diagonal_fin_three]
    ext a b
    fin_cases a <;> fin_cases b <;> simp [Matrix.mul_apply, Fin.sum_univ_three, muTau] <;> ring
  have hz : ∀ s : ℝ, (Matrix.diagonal fun i => Complex.exp (Complex.I * ((![x, k, -k] i * s : ℝ) : ℂ)) : Op) =
      !![Complex.exp (Complex.I * ((x * s : ℝ) : ℂ)), 0, 0; 0, Complex.exp (Complex.I * ((k * s : ℝ) : ℂ)), 0;
        0, 0, Complex.exp (Complex.I * ((-k * s : ℝ) : ℂ))] := by
    intro s
    rw [Matrix.diagonal_fin_three]
    simp only [Matrix.cons_val]
  have h2 : Complex.exp (Complex.I * ((-k * t : ℝ) : ℂ)) * Complex.exp (Complex.I * ((k * t : ℝ) : ℂ)) = 1 := by
    rw [← Complex.exp_add, ← mul_add, ← Complex.ofReal_add, neg_mul, neg_add_cancel, Complex.ofReal_zero, mul_zero, Complex.exp_zero]
  have n1 : (k * -t : ℝ) = -k * t := by ring
  have n2 : (-k * -t : ℝ) = k * t := by ring
  unfold uTransform
  rw [phase_similar hQ e, phase_similar hQ e, hz, hz, n1, n2]
  generalize Complex.exp (Complex.I * ((k * t : ℝ) : ℂ)) = u at *
  generalize Complex.exp (Complex.I * ((-k * t : ℝ) : ℂ)) = v at *
  have h3 : v * v = -w := by
    have e1 : (v * v) * w = 1 := by
      rw [← hw]
      linear_combination (v * u + 1) * h2
    linear_combination -w * e1 + v * v * hw'
  simp [phased, Matrix.mul_apply, Fin.sum_univ_three]
  linear_combination (1 / 2) * h2 - Complex.I / 4 * hw + Complex.I / 4 * h3

/-- C127 fails for antineutrinos if CP is violated: the operator is rotated with the mixing of the neutrinos. A mixture of the second and third flavour
in matter becomes the second flavour, and should become the third. -/
theorem c127_antineutrino_violated : Prepared cpObject 0 0 ∧ Prepared cpObject 0 1 ∧ cpObject.mixing 0 = cpMixing ∧
    cpObject.mixing 1 = cpMixing.map star ∧ ∃ (H ρ σ : ℝ → Op),
    (∀ t, nsiMotion 1 (fun _ => 1) (fun _ => 1) cpObject (Nsi.make 1 cpMixing) 0 1 t = .ok (H t)) ∧
    Solves H ρ 0 (Real.pi / 12) ∧ Solves (fun _ => nsiHamiltonian 1 1 1 1 cpObject 0 1) σ 0 (Real.pi / 12) ∧
    σ 0 = physical cpObject 0 1 0 (ρ 0) ∧ σ 0 = phased ∧
    evalFlavorAtNode (atTime cpObject 0 1 (Real.pi / 12) (ρ (Real.pi / 12))) 1 0 1 = .ok 1 ∧ (σ (Real.pi / 12) 1 1).re = 0 := by
  have ho := cp_prepared 1 (by decide)
  have hU' : cpObject.mixing 1 * (cpObject.mixing 1)ᴴ = 1 := ho.good.ready.mixing 1
  have hU : (cpObject.mixing 1)ᴴ * cpObject.mixing 1 = 1 := (ho.good.ready.mixing 1).star_mul
  have hflip : flip cpObject.nt 1 = -1 := by simp [flip, cpObject]
  let K : Op := Matrix.diagonal fun i => ((![-1, 0, 0] i : ℝ) : ℂ)
  have hK : flavourHamiltonian 1 1 1 cpObject 0 1 = K := by
    unfold flavourHamiltonian Matter.flavourPotential
    rw [cp_h0, Matrix.mul_zero, Matrix.zero_mul, zero_add]
    congr 1
    funext i
    fin_cases i <;> simp [cpObject]
  have hop : (Nsi.make 1 cpMixing).op = rotate cpMixing (muTau 1) := by simp [Nsi.make, nsiMatrix_eq]
  have back : ∀ A : Op, cpObject.mixing 1 * ((cpObject.mixing 1)ᴴ * A * cpObject.mixing 1) * (cpObject.mixing 1)ᴴ = A := by
    intro A
    calc _ = (cpObject.mixing 1 * (cpObject.mixing 1)ᴴ) * A * (cpObject.mixing 1 * (cpObject.mixing 1)ᴴ) := by simp only [Matrix.mul_assoc]
      _ = _ := by rw [hU', Matrix.one_mul, Matrix.mul_one]
  have forth : ∀ A : Op, (cpObject.mixing 1)ᴴ * (cpObject.mixing 1 * A * (cpObject.mixing 1)ᴴ) * cpObject.mixing 1 = A := by
    intro A
    calc _ = ((cpObject.mixing 1)ᴴ * cpObject.mixing 1) * A * ((cpObject.mixing 1)ᴴ * cpObject.mixing 1) := by simp only [Matrix.mul_assoc]
      _ = _ := by rw [hU, Matrix.one_mul, Matrix.mul_one]
  have hH : ∀ t, nsiMotion 1 (fun _ => 1) (fun _ => 1) cpObject (Nsi.make 1 cpMixing) 0 1 t =
      .ok (cpObject.mixing 1 * (K + (3 : ℝ) • muTau 1) * (cpObject.mixing 1)ᴴ) := by
    intro t
    rw [nsi_ok 1 _ _ ho, motion_eq 1 _ _ (le_refl 3) ho t (by norm_num), if_neg (by simp [cpObject]), cp_h0, evolve_zero_ham, evolve_zero_ham, hflip]
    congr 1
    rw [← back (matter 1 1 1 cpObject 1 + (-1 * (3 * (1 * 1 * 1)) : ℝ) • (Nsi.make 1 cpMixing).op)]
    congr 2
    have hf := flavour_form 1 1 1 ho
    rw [cp_h0, zero_add, hK] at hf
    rw [Matrix.mul_add, Matrix.add_mul, ← hf, Matrix.mul_smul, Matrix.smul_mul, hop, show cpObject.mixing 1 = cpMixing.map star from rfl, cp_operator]
    congr 1
    rw [smul_neg, ← neg_smul]
    norm_num
  have hphys : ∀ t B, physical cpObject 0 1 t B = (cpObject.mixing 1)ᴴ * B * cpObject.mixing 1 := by
    intro t B
    unfold physical
    rw [if_neg (by simp [cpObject]), cp_h0, uTransform_zero_ham]
  have hn : nsiHamiltonian 1 1 1 1 cpObject 0 1 = K + (-3 : ℝ) • muTau 1 := by
    unfold nsiHamiltonian
    rw [hK, hflip]
    norm_num
  refine ⟨cp_prepared 0 (by decide), ho, rfl, rfl, _,
    fun t => cpObject.mixing 1 * uTransform (K + (3 : ℝ) • muTau 1) (t - 0) phased * (cpObject.mixing 1)ᴴ,
    fun t => uTransform (K + (-3 : ℝ) • muTau 1) (t - 0) phased, hH, (solves_constant _ _ _ _).conj _ _ hU, ?_, ?_, ?_, ?_, ?_⟩
  · rw [hn]; exact solves_constant _ _ _ _
  · rw [hphys]; dsimp only
    rw [forth]
    unfold uTransform
    rw [sub_self, neg_zero, phase_zero_time, phase_zero_time]
  · dsimp only
    unfold uTransform
    rw [sub_self, neg_zero, phase_zero_time, Matrix.one_mul, Matrix.mul_one]
  · rw [c97_reading cpObject ho.good 1 0 (show 1 < 2 by decide), hphys]
    dsimp only
    rw [forth, sub_zero, phased_evolves (-1) 3 (Real.pi / 12) Complex.I _ Complex.I_mul_I]
    · rw [Complex.I_mul_I]; norm_num
    · rw [← Complex.exp_add, show Complex.I * ((3 * (Real.pi / 12) : ℝ) : ℂ) + Complex.I * ((3 * (Real.pi / 12) : ℝ) : ℂ) = Real.pi / 2 * Complex.I by
        push_cast; ring, Complex.exp_pi_div_two_mul_I]
  · dsimp only
    rw [sub_zero, phased_evolves (-1) (-3) (Real.pi / 12) (-Complex.I) _ (by rw [neg_mul_neg, Complex.I_mul_I])]
    · rw [mul_neg, Complex.I_mul_I]; norm_num
    · rw [← Complex.exp_add, show Complex.I * ((-3 * (Real.pi / 12) : ℝ) : ℂ) + Complex.I * ((-3 * (Real.pi / 12) : ℝ) : ℂ) =
        -(Real.pi / 2 * Complex.I) by push_cast; ring, Complex.exp_neg, Complex.exp_pi_div_two_mul_I, Complex.inv_I]

end Verif.NewPhys
