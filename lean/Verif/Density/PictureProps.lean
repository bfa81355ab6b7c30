import Verif.Density.Picture
import Verif.Density.ShortcutProps
import Verif.Density.AverageProps

/-!
# Property C97: what is read after an evolution is the solution of the Schrödinger equation in flavour space, in either working basis
-/

namespace Verif.Density

open Matrix
open Matter (NT)
open scoped ComplexOrder

variable {n : Nat}

/-! ## Specification -/

/-- The Hamiltonian in flavour space: vacuum term in the flavour basis plus the potential of each flavour on the diagonal, reversed for
antineutrinos. -/
noncomputable def flavourHamiltonian (c dens ye : ℝ) (o : Obj n) (ie rho : Nat) : Mat n :=
  (o.mixing rho)ᴴ * h0 o (o.energies ie) * o.mixing rho +
    Matrix.diagonal fun f : Fin n =>
      (((if o.nt = .antineutrino ∨ (o.nt = .both ∧ rho = 1) then -1 else 1) * Matter.flavourPotential c dens ye f : ℝ) : ℂ)

/-- The state in flavour space for which the matrix `A`, stored at time `t`, stands: in the mass basis `A` is the state in the basis of mass
states, otherwise it is the state in the interaction picture that started at `tini`. -/
noncomputable def physical (o : Obj n) (ie rho : Nat) (t : ℝ) (A : Mat n) : Mat n :=
  (o.mixing rho)ᴴ * (if o.basis = .mass then A else uTransform (h0 o (o.energies ie)) (t - o.tini) A) * o.mixing rho

/-- An object ready to evolve: as `Good`, the vacuum Hamiltonians of the nodes are in place, and the projectors that are not rotated during
the evolution are the initial ones. -/
structure Prepared (o : Obj n) (ie rho : Nat) : Prop where
  good : Good o
  node : ie < o.ne
  type : rho < o.nrhos
  h0s : o.h0s ie = h0 o (o.energies ie)
  fresh : o.basis = .mass ∨ o.ioscillations = false → ∀ f, o.evolB1 rho f ie = o.b1 rho f

/-! ## Lemmas -/

theorem evolve_add (H : Mat n) (t : ℝ) (A B : Mat n) : evolve H t (A + B) = evolve H t A + evolve H t B := by
  simp only [evolve, Matrix.mul_add, Matrix.add_mul]

theorem evolve_smul (H : Mat n) (t x : ℝ) (A : Mat n) : evolve H t (x • A) = x • evolve H t A := by
  simp only [evolve, Matrix.mul_smul, Matrix.smul_mul]

theorem evolve_zero_ham (t : ℝ) (A : Mat n) : evolve 0 t A = A := by
  simp only [evolve, phase_zero_matrix, Matrix.one_mul, Matrix.mul_one]

theorem uTransform_zero_ham (t : ℝ) (A : Mat n) : uTransform 0 t A = A := by
  simp only [uTransform, phase_zero_matrix, Matrix.one_mul, Matrix.mul_one]

theorem sum_projectors (x : Fin n → ℝ) : ∑ f, x f • (projector f : Mat n) = Matrix.diagonal fun f => ((x f : ℝ) : ℂ) := by
  ext i j
  rw [Matrix.sum_apply, Matrix.diagonal_apply]
  by_cases hij : i = j
  · subst hij
    rw [if_pos rfl, Finset.sum_eq_single i]
    · simp [projector]
    · intro f _ hf
      simp [projector, hf]
    · intro h; exact absurd (Finset.mem_univ i) h
  · rw [if_neg hij]
    apply Finset.sum_eq_zero
    intro f _
    simp only [projector, Matrix.smul_apply, Matrix.single_apply]
    rw [if_neg (fun h => hij (h.1.symm.trans h.2)), smul_zero]

/-- The potential of the medium in the basis of mass states. -/
noncomputable def matter (c dens ye : ℝ) (o : Obj n) (rho : Nat) : Mat n :=
  Matter.matterTerm c dens ye (decide (o.nt = .antineutrino ∨ (o.nt = .both ∧ rho = 1))) n
    (fun f => if h : f < n then o.b1 rho ⟨f, h⟩ else 0)

theorem matter_flavour (c dens ye : ℝ) {o : Obj n} (ho : Good o) {rho : Nat} (hr : rho < o.nrhos) :
    (o.mixing rho)ᴴ * matter c dens ye o rho * o.mixing rho =
      Matrix.diagonal fun f : Fin n =>
        (((if o.nt = .antineutrino ∨ (o.nt = .both ∧ rho = 1) then -1 else 1) * Matter.flavourPotential c dens ye f : ℝ) : ℂ) := by
  have hU : (o.mixing rho)ᴴ * o.mixing rho = 1 := (ho.ready.mixing rho).star_mul
  have hb : ∀ f, (o.mixing rho)ᴴ * o.b1 rho f * o.mixing rho = projector f := by
    intro f
    rw [ho.b1 rho f hr]
    unfold toB1
    calc _ = ((o.mixing rho)ᴴ * o.mixing rho) * projector f * ((o.mixing rho)ᴴ * o.mixing rho) := by simp only [Matrix.mul_assoc]
      _ = _ := by rw [hU, Matrix.one_mul, Matrix.mul_one]
  unfold matter Matter.matterTerm
  rw [Finset.sum_range fun f => ((if decide (o.nt = .antineutrino ∨ (o.nt = .both ∧ rho = 1)) = true then (-1 : ℝ) else 1) *
    Matter.flavourPotential c dens ye f) • (if h : f < n then o.b1 rho ⟨f, h⟩ else 0), Matrix.mul_sum, Matrix.sum_mul]
  have e : ∀ f : Fin n, (o.mixing rho)ᴴ * (((if decide (o.nt = .antineutrino ∨ (o.nt = .both ∧ rho = 1)) = true then (-1 : ℝ) else 1) *
      Matter.flavourPotential c dens ye f) • (if h : f.val < n then o.b1 rho ⟨f, h⟩ else 0)) * o.mixing rho =
      ((if o.nt = .antineutrino ∨ (o.nt = .both ∧ rho = 1) then (-1 : ℝ) else 1) * Matter.flavourPotential c dens ye f) • projector f := by
    intro f
    rw [dif_pos f.isLt, Matrix.mul_smul, Matrix.smul_mul]
    simp only [decide_eq_true_eq]
    rw [show (⟨f.val, f.isLt⟩ : Fin n) = f from rfl, hb f]
  rw [Finset.sum_congr rfl fun f _ => e f]
  rw [sum_projectors]

/-- During an evolution outside the mass basis the projectors are those of the interaction picture. -/
theorem preDerive_projectors {o : Obj n} {ie rho : Nat} (ho : Prepared o ie rho) (t : ℝ) (hb : o.basis ≠ .mass) (f : Fin n) :
    (preDerive o t).evolB1 rho f ie = evolve (h0 o (o.energies ie)) (t - o.tini) (o.b1 rho f) := by
  unfold preDerive
  by_cases hosc : o.ioscillations = true
  · rw [if_pos ⟨hb, hosc⟩]
    show (if rho < o.nrhos ∧ ie < o.ne then id (evolve (o.h0s ie) (t - o.tini) (o.b1 rho f)) else o.evolB1 rho f ie) = _
    rw [if_pos ⟨ho.type, ho.node⟩, ho.h0s]; rfl
  · rw [if_neg (fun h => hosc h.2), ho.fresh (Or.inr (by simpa using hosc)) f]
    have : h0 o (o.energies ie) = 0 := by unfold h0; rw [if_neg hosc]
    rw [this, evolve_zero_ham]

/-- The Hamiltonian of the equation of motion: the potential, rotating with the vacuum Hamiltonian in the interaction picture, or vacuum
Hamiltonian plus potential. -/
theorem motion_eq (c : ℝ) (dens ye : ℝ → ℝ) (hn : 3 ≤ n) {o : Obj n} {ie rho : Nat} (ho : Prepared o ie rho) (t : ℝ) (hye : 1 / 10 ^ 10 ≤ ye t) :
    motion c dens ye (Fin.castLE hn) o ie rho t =
      if o.basis = .mass then h0 o (o.energies ie) + matter c (dens t) (ye t) o rho
      else evolve (h0 o (o.energies ie)) (t - o.tini) (matter c (dens t) (ye t) o rho) := by
  have h0' : (0 : Nat) < n := by omega
  have h1' : (1 : Nat) < n := by omega
  have h2' : (2 : Nat) < n := by omega
  by_cases hb : o.basis = .mass
  · rw [if_pos hb]
    have hp : preDerive o t = o := by unfold preDerive; rw [if_neg (fun h => h.1 hb)]
    unfold motion
    rw [hp, show (fun f => o.evolB1 rho f ie) = fun f => o.b1 rho f from funext (ho.fresh (Or.inl hb)),
      hamiltonian_full c (dens t) (ye t) hye hn o rho ie hb ho.h0s]
    rfl
  · rw [if_neg hb]
    have hfield : (preDerive o t).nt = o.nt ∧ (preDerive o t).basis = o.basis := by
      unfold preDerive; split <;> exact ⟨rfl, rfl⟩
    have hev := preDerive_projectors ho t hb
    unfold motion hamiltonian matter
    rw [hfield.1, hfield.2, if_neg hb, Matter.c52_potential_partial c (dens t) (ye t) hye o.nt rho n hn,
      Matter.matterTerm_three _ _ _ _ n hn, Matter.matterTerm_three _ _ _ _ n hn]
    simp only [h0', h1', h2', dif_pos, Nat.zero_lt_succ, Nat.one_lt_succ_succ, Nat.lt_succ_self, Fin.castLE_mk, hev, evolve_add, evolve_smul]

/-- Without matter the electron fraction does not matter. -/
theorem motion_vacuum (c : ℝ) (dens ye : ℝ → ℝ) (hn : 3 ≤ n) {o : Obj n} {ie rho : Nat} (ho : Prepared o ie rho) (t : ℝ) (hd : dens t = 0) :
    motion c dens ye (Fin.castLE hn) o ie rho t =
      if o.basis = .mass then h0 o (o.energies ie) + matter c (dens t) (ye t) o rho
      else evolve (h0 o (o.energies ie)) (t - o.tini) (matter c (dens t) (ye t) o rho) := by
  have e1 : motion c dens ye (Fin.castLE hn) o ie rho t = motion c dens (fun _ => 1) (Fin.castLE hn) o ie rho t := by
    unfold motion hamiltonian Matter.hi Matter.potentials
    simp only [hd, mul_zero, zero_mul, ite_self]
  have e2 : matter c (dens t) (ye t) o rho = matter c (dens t) 1 o rho := by
    unfold matter Matter.matterTerm Matter.flavourPotential
    simp only [hd, mul_zero, zero_mul, ite_self]
  rw [e1, e2, motion_eq c dens (fun _ => 1) hn ho t (by norm_num)]

/-- With three flavours the potentials for matter almost without electrons, wrong as they are (C52), differ from the right ones by a
multiple of the identity. -/
theorem motion_three (c : ℝ) (dens ye : ℝ → ℝ) {o : Obj n} {ie rho : Nat} (hn : 3 ≤ n) (h3 : n = 3) (ho : Prepared o ie rho) (t : ℝ)
    (hye : ye t < 1 / 10 ^ 10) : ∃ x : ℝ, motion c dens ye (Fin.castLE hn) o ie rho t =
      (if o.basis = .mass then h0 o (o.energies ie) + matter c (dens t) (ye t) o rho
      else evolve (h0 o (o.energies ie)) (t - o.tini) (matter c (dens t) (ye t) o rho)) + x • (1 : Mat n) := by
  subst h3
  have hU' : (o.mixing rho) * (o.mixing rho)ᴴ = 1 := ho.good.ready.mixing rho
  have hsum : o.b1 rho 0 + o.b1 rho 1 + o.b1 rho 2 = 1 := by
    have := sum_b1 (ho.good.ready.mixing rho)
    rw [Fin.sum_univ_three] at this
    rw [ho.good.b1 rho 0 ho.type, ho.good.b1 rho 1 ho.type, ho.good.b1 rho 2 ho.type, this]
  -- the potential of the code in terms of any three vectors that add up to the identity
  have key : ∀ (p : Nat → Mat 3) (h : Mat 3), p 0 + p 1 + p 2 = 1 →
      Matter.hi c (dens t) (ye t) o.nt .interaction rho p h =
        Matter.matterTerm c (dens t) (ye t) (decide (o.nt = .antineutrino ∨ (o.nt = .both ∧ rho = 1))) 3 p +
          ((if Matter.anti o.nt rho then -1 else 1) * (c * dens t * (1 + (1 - ye t) / 2))) • (1 : Mat 3) := by
    intro p h hp
    have ha : Matter.anti o.nt rho = decide (o.nt = .antineutrino ∨ (o.nt = .both ∧ rho = 1)) := by
      unfold Matter.anti; cases o.nt <;> simp
    rw [Matter.matterTerm_three _ _ _ _ 3 (le_refl 3), ← ha, ← hp]
    unfold Matter.hi Matter.potentials
    dsimp only
    rw [if_pos hye, if_neg (by simp)]
    by_cases hx : Matter.anti o.nt rho = true
    · simp only [hx, if_true]
      module
    · simp only [hx, Bool.false_eq_true, if_false]
      module
  by_cases hb : o.basis = .mass
  · have hp : preDerive o t = o := by unfold preDerive; rw [if_neg (fun h => h.1 hb)]
    refine ⟨(if Matter.anti o.nt rho then -1 else 1) * (c * dens t * (1 + (1 - ye t) / 2)), ?_⟩
    unfold motion hamiltonian
    rw [hp, if_pos hb, if_pos hb, show (fun f => o.evolB1 rho f ie) = fun f => o.b1 rho f from funext (ho.fresh (Or.inl hb)), ho.h0s]
    have e : ∀ (p : Nat → Mat 3) (h : Mat 3), Matter.hi c (dens t) (ye t) o.nt .mass rho p h =
        Matter.hi c (dens t) (ye t) o.nt .interaction rho p h + h := by
      intro p h; simp [Matter.hi]
    rw [e, key _ _ (by exact hsum)]
    unfold matter
    simp only [Fin.castLE_rfl, id]
    abel
  · have hfield : (preDerive o t).nt = o.nt ∧ (preDerive o t).basis = o.basis := by
      unfold preDerive; split <;> exact ⟨rfl, rfl⟩
    have hev := preDerive_projectors ho t hb
    refine ⟨(if Matter.anti o.nt rho then -1 else 1) * (c * dens t * (1 + (1 - ye t) / 2)), ?_⟩
    unfold motion hamiltonian
    rw [hfield.1, hfield.2, if_neg hb, if_neg hb]
    have hs : evolve (h0 o (o.energies ie)) (t - o.tini) (o.b1 rho 0) + evolve (h0 o (o.energies ie)) (t - o.tini) (o.b1 rho 1) +
        evolve (h0 o (o.energies ie)) (t - o.tini) (o.b1 rho 2) = 1 := by
      rw [← evolve_add, ← evolve_add, hsum, evolve_one]
    rw [key _ _ (by simp only [hev]; exact hs)]
    congr 1
    unfold matter
    rw [Matter.matterTerm_three _ _ _ _ 3 (le_refl 3), Matter.matterTerm_three _ _ _ _ 3 (le_refl 3)]
    simp only [dif_pos, Nat.zero_lt_succ, Nat.one_lt_succ_succ, Nat.lt_succ_self, Fin.castLE_mk, hev, evolve_add, evolve_smul]

theorem flavourHamiltonian_hermitian (c dens ye : ℝ) {o : Obj n} (ho : Good o) (ie rho : Nat) :
    (flavourHamiltonian c dens ye o ie rho).IsHermitian := by
  have h := h0_hermitian ho.dm2 (o.energies ie)
  refine Matrix.IsHermitian.add ?_ ?_
  · rw [Matrix.IsHermitian, Matrix.conjTranspose_mul, Matrix.conjTranspose_mul, h.eq, Matrix.conjTranspose_conjTranspose, Matrix.mul_assoc]
  · rw [Matrix.IsHermitian, Matrix.diagonal_conjTranspose]
    congr 1
    funext f
    exact Complex.conj_ofReal _

/-! ## C97 -/

/-- What is read is the diagonal of the state in flavour space. -/
theorem c97_reading (o : Obj n) (ho : Good o) (rho ie : Nat) (hr : rho < o.nrhos) (t : ℝ) (A : Mat n) (f : Fin n) :
    evalFlavorAtNode (atTime o ie rho t A) f ie rho = .ok (physical o ie rho t A f f).re := by
  have hg := good_atTime ho ie rho t A
  rw [eval_eq hg hr]
  have hst : (atTime o ie rho t A).state ie rho = A := if_pos ⟨rfl, rfl⟩
  rw [hst]
  have hop : op (atTime o ie rho t A) rho f ie =
      if o.basis = .mass then o.b1 rho f else evolve (h0 o (o.energies ie)) (t - o.tini) (o.b1 rho f) := rfl
  rw [hop]
  unfold physical
  by_cases hb : o.basis = .mass
  · rw [if_pos hb, if_pos hb, ho.b1 rho f hr]
    unfold toB1
    rw [dot_move, dot_projector_left]
  · rw [if_neg hb, if_neg hb, ho.b1 rho f hr]
    unfold evolve uTransform toB1
    rw [dot_move, dot_move, dot_projector_left]

/-- Setting flavour contents sets the diagonal state in flavour space. -/
theorem c97_initial (o : Obj n) (ho : Ready o) (he : o.ienergy = true) (v : Nat → Nat → Fin n → ℝ) (i r : Nat) (hi : i < o.ne)
    (hr : r < o.nrhos) :
    physical (fill o v .flavor) i r (fill o v .flavor).t ((fill o v .flavor).state i r) = Matrix.diagonal fun f => ((v i r f : ℝ) : ℂ) := by
  have hst : (fill o v .flavor).state i r = ∑ j, v i r j • toB1 (o.mixing r) (projector j) := by
    unfold fill iniH0 setIniFlavorProjectors
    simp only [he, if_true, foldl_finRange, hi, hr, and_self, ho.b0]
  have ht : (fill o v .flavor).t - (fill o v .flavor).tini = 0 := by
    unfold fill iniH0 setIniFlavorProjectors
    simp only [he, if_true, sub_self]
  have hm : (fill o v .flavor).mixing r = o.mixing r := by
    unfold fill iniH0 setIniFlavorProjectors
    simp only [he, if_true]
  have hU : (o.mixing r)ᴴ * o.mixing r = 1 := (ho.mixing r).star_mul
  have hz : ∀ H A : Mat n, uTransform H 0 A = A := by
    intro H A
    unfold uTransform
    rw [neg_zero, phase_zero_time, Matrix.one_mul, Matrix.mul_one]
  unfold physical
  rw [ht, hz, ite_self, hst, hm, Matrix.mul_sum, Matrix.sum_mul]
  have e : ∀ j : Fin n, (o.mixing r)ᴴ * (v i r j • toB1 (o.mixing r) (projector j)) * o.mixing r = v i r j • projector j := by
    intro j
    unfold toB1
    rw [Matrix.mul_smul, Matrix.smul_mul]
    congr 1
    calc _ = ((o.mixing r)ᴴ * o.mixing r) * projector j * ((o.mixing r)ᴴ * o.mixing r) := by simp only [Matrix.mul_assoc]
      _ = _ := by rw [hU, Matrix.one_mul, Matrix.mul_one]
  rw [Finset.sum_congr rfl fun j _ => e j]
  rw [sum_projectors]

/-- While the stored state follows the equation of motion given to the integrator, in either working basis, the state in flavour space
follows the Schrödinger equation with the Hamiltonian of vacuum and matter. Missing: electron fractions below 1e-10 if there are sterile
flavours (`c97_neutrons_violated`). -/
theorem c97_motion_partial (c : ℝ) (dens ye : ℝ → ℝ) (hn : 3 ≤ n) (o : Obj n) (ie rho : Nat) (ho : Prepared o ie rho) (ρ : ℝ → Mat n) (a b : ℝ)
    (hye : n = 3 ∨ ∀ t ∈ Set.Ico a b, dens t = 0 ∨ 1 / 10 ^ 10 ≤ ye t) (hs : Solves (motion c dens ye (Fin.castLE hn) o ie rho) ρ a b) :
    Solves (fun t => flavourHamiltonian c (dens t) (ye t) o ie rho) (fun t => physical o ie rho t (ρ t)) a b := by
  have hU' : (o.mixing rho) * (o.mixing rho)ᴴ = 1 := ho.good.ready.mixing rho
  have hH : ∀ t, flavourHamiltonian c (dens t) (ye t) o ie rho =
      (o.mixing rho)ᴴ * (h0 o (o.energies ie) + matter c (dens t) (ye t) o rho) * o.mixing rho := by
    intro t
    unfold flavourHamiltonian
    rw [← matter_flavour c (dens t) (ye t) ho.good ho.type, Matrix.mul_add, Matrix.add_mul]
  have hs' : Solves (fun t => h0 o (o.energies ie) + matter c (dens t) (ye t) o rho)
      (fun t => if o.basis = .mass then ρ t else uTransform (h0 o (o.energies ie)) (t - o.tini) (ρ t)) a b := by
    have hm : ∀ t ∈ Set.Ico a b, ∃ x : ℝ, motion c dens ye (Fin.castLE hn) o ie rho t =
        (if o.basis = .mass then h0 o (o.energies ie) + matter c (dens t) (ye t) o rho
        else evolve (h0 o (o.energies ie)) (t - o.tini) (matter c (dens t) (ye t) o rho)) + x • (1 : Mat n) := by
      intro t ht
      by_cases hy : 1 / 10 ^ 10 ≤ ye t
      · exact ⟨0, by rw [motion_eq c dens ye hn ho t hy, zero_smul, add_zero]⟩
      · rcases hye with h3 | h
        · exact motion_three c dens ye hn h3 ho t (not_le.1 hy)
        · rcases h t ht with h | h
          · exact ⟨0, by rw [motion_vacuum c dens ye hn ho t h, zero_smul, add_zero]⟩
          · exact absurd h hy
    have hc : ∀ (A B : Mat n) (x : ℝ), (A + x • (1 : Mat n)) * B - B * (A + x • (1 : Mat n)) = A * B - B * A := by
      intro A B x
      rw [Matrix.add_mul, Matrix.mul_add, Matrix.smul_mul, Matrix.mul_smul, Matrix.one_mul, Matrix.mul_one]
      abel
    obtain ⟨S, hS, hs⟩ := hs
    by_cases hb : o.basis = .mass
    · simp only [if_pos hb]
      refine ⟨S, hS, hs.cont, fun t ht hn => ?_⟩
      have := hs.deriv t ht hn
      obtain ⟨x, hx⟩ := hm t ht
      rw [hx, if_pos hb, hc] at this
      exact this
    · simp only [if_neg hb]
      refine Solves.picture (V := fun t => matter c (dens t) (ye t) o rho) _ _ ⟨S, hS, hs.cont, fun t ht hn => ?_⟩
      have := hs.deriv t ht hn
      obtain ⟨x, hx⟩ := hm t ht
      rw [hx, if_neg hb, hc] at this
      exact this
  have h := hs'.conj (o.mixing rho)ᴴ (o.mixing rho) hU'
  simp only [hH]
  exact h

/-- So what is read at any time is determined by the state in flavour space at the start: if `σ` solves the Schrödinger equation with the same
start, flavour `f` is read as its diagonal element. -/
theorem c97_solution_partial (c : ℝ) (dens ye : ℝ → ℝ) (hn : 3 ≤ n) (o : Obj n) (ie rho : Nat) (ho : Prepared o ie rho) (ρ σ : ℝ → Mat n) (a b : ℝ)
    (hye : n = 3 ∨ ∀ t ∈ Set.Ico a b, dens t = 0 ∨ 1 / 10 ^ 10 ≤ ye t) (hs : Solves (motion c dens ye (Fin.castLE hn) o ie rho) ρ a b)
    (hσ : Solves (fun t => flavourHamiltonian c (dens t) (ye t) o ie rho) σ a b) (h0 : σ a = physical o ie rho a (ρ a)) (t : ℝ)
    (ht : t ∈ Set.Icc a b) (f : Fin n) : evalFlavorAtNode (atTime o ie rho t (ρ t)) f ie rho = .ok (σ t f f).re := by
  rw [c97_reading o ho.good rho ie ho.type]
  have hm := c97_motion_partial c dens ye hn o ie rho ho ρ a b hye hs
  rw [hσ.determined (fun t _ => flavourHamiltonian_hermitian c (dens t) (ye t) ho.good ie rho) hm h0 t ht]

/-- The working basis does not matter: two objects that differ in it, and in how they store the state, read the same at all times if they
do at the start, as states in flavour space. -/
theorem c97_basis_partial (c : ℝ) (dens ye : ℝ → ℝ) (hn : 3 ≤ n) (o o' : Obj n) (ie rho : Nat) (ho : Prepared o ie rho) (ho' : Prepared o' ie rho)
    (same : o'.mixing rho = o.mixing rho ∧ o'.dm2 = o.dm2 ∧ o'.energies ie = o.energies ie ∧ o'.ioscillations = o.ioscillations ∧ o'.nt = o.nt)
    (ρ ρ' : ℝ → Mat n) (a b : ℝ) (hye : n = 3 ∨ ∀ t ∈ Set.Ico a b, dens t = 0 ∨ 1 / 10 ^ 10 ≤ ye t)
    (hs : Solves (motion c dens ye (Fin.castLE hn) o ie rho) ρ a b) (hs' : Solves (motion c dens ye (Fin.castLE hn) o' ie rho) ρ' a b)
    (start : physical o' ie rho a (ρ' a) = physical o ie rho a (ρ a)) (t : ℝ) (ht : t ∈ Set.Icc a b) (f : Fin n) :
    evalFlavorAtNode (atTime o' ie rho t (ρ' t)) f ie rho = evalFlavorAtNode (atTime o ie rho t (ρ t)) f ie rho := by
  have hm := c97_motion_partial c dens ye hn o ie rho ho ρ a b hye hs
  have e : ∀ t, flavourHamiltonian c (dens t) (ye t) o' ie rho = flavourHamiltonian c (dens t) (ye t) o ie rho := by
    intro t
    unfold flavourHamiltonian h0
    rw [same.1, same.2.1, same.2.2.1, same.2.2.2.1, same.2.2.2.2]
  have hm' : Solves (fun t => flavourHamiltonian c (dens t) (ye t) o' ie rho) (fun t => physical o ie rho t (ρ t)) a b := by
    simp only [e]; exact hm
  rw [c97_solution_partial c dens ye hn o' ie rho ho' ρ' _ a b hye hs' hm' start.symm t ht f, c97_reading o ho.good rho ie ho.type]

/-- In vacuum: a beam of flavour `α` at the start of the clock is read as flavour `β` at time `t` with the textbook probability. -/
theorem c97_vacuum (c : ℝ) (ye : ℝ → ℝ) (hn : 3 ≤ n) (o : Obj n) (ie rho : Nat) (ho : Prepared o ie rho) (d : Fin n → ℝ)
    (hd : o.dm2 = Matrix.diagonal fun i => (d i : ℂ)) (hosc : o.ioscillations = true) (ρ : ℝ → Mat n) (b : ℝ)
    (hs : Solves (motion c (fun _ => 0) ye (Fin.castLE hn) o ie rho) ρ o.tini b) (α β : Fin n)
    (start : physical o ie rho o.tini (ρ o.tini) = projector α) (t : ℝ) (ht : t ∈ Set.Icc o.tini b) :
    evalFlavorAtNode (atTime o ie rho t (ρ t)) β ie rho =
      .ok (Complex.normSq (∑ j, star (o.mixing rho j β) * Complex.exp (-Complex.I * (d j / (2 * o.energies ie) * (t - o.tini))) * o.mixing rho j α)) := by
  have hU' : (o.mixing rho) * (o.mixing rho)ᴴ = 1 := ho.good.ready.mixing rho
  have hU : (o.mixing rho)ᴴ * o.mixing rho = 1 := (ho.good.ready.mixing rho).star_mul
  have hH : ∀ y, flavourHamiltonian c 0 y o ie rho = (o.mixing rho)ᴴ * h0 o (o.energies ie) * o.mixing rho := by
    intro y
    unfold flavourHamiltonian Matter.flavourPotential
    rw [add_eq_left]
    ext i j
    simp [Matrix.diagonal_apply]
  have hsol := (solves_constant (h0 o (o.energies ie)) (toB1 (o.mixing rho) (projector α)) o.tini b).conj (o.mixing rho)ᴴ (o.mixing rho) hU'
  have hz : uTransform (h0 o (o.energies ie)) (o.tini - o.tini) (toB1 (o.mixing rho) (projector α)) = toB1 (o.mixing rho) (projector α) := by
    unfold uTransform
    rw [sub_self, neg_zero, phase_zero_time, Matrix.one_mul, Matrix.mul_one]
  rw [c97_solution_partial c (fun _ => 0) ye hn o ie rho ho ρ _ o.tini b (Or.inr fun _ _ => Or.inl rfl) hs (by simp only [hH]; exact hsol) (by
    rw [start, hz]
    unfold toB1
    calc _ = ((o.mixing rho)ᴴ * o.mixing rho) * projector α * ((o.mixing rho)ᴴ * o.mixing rho) := by simp only [Matrix.mul_assoc]
      _ = _ := by rw [hU, Matrix.one_mul, Matrix.mul_one]) t ht β]
  have hd0 : h0 o (o.energies ie) = Matrix.diagonal fun i => ((d i / (2 * o.energies ie) : ℝ) : ℂ) := by
    unfold h0
    rw [if_pos hosc, hd]
    ext i j
    rw [Matrix.smul_apply, Matrix.diagonal_apply, Matrix.diagonal_apply]
    split
    · rw [Complex.real_smul, ← Complex.ofReal_mul]
      congr 1
      rw [mul_comm, ← mul_div_assoc, ← mul_div_assoc, mul_one, div_div]
    · exact smul_zero _
  have hp := phase_star (h0_hermitian ho.good.dm2 (o.energies ie)) (-(t - o.tini))
  rw [neg_neg] at hp
  let M : Mat n := (o.mixing rho)ᴴ * phase (h0 o (o.energies ie)) (-(t - o.tini)) * o.mixing rho
  have hM : (o.mixing rho)ᴴ * uTransform (h0 o (o.energies ie)) (t - o.tini) (toB1 (o.mixing rho) (projector α)) * o.mixing rho =
      toB1 M (projector α) := by
    unfold uTransform toB1
    rw [← hp]
    simp only [M, Matrix.conjTranspose_mul, Matrix.conjTranspose_conjTranspose, Matrix.mul_assoc]
  rw [hM, toB1_apply]
  have hMe : M β α = ∑ j, star (o.mixing rho j β) * Complex.exp (-Complex.I * (d j / (2 * o.energies ie) * (t - o.tini))) * o.mixing rho j α := by
    show ((o.mixing rho)ᴴ * phase (h0 o (o.energies ie)) (-(t - o.tini)) * o.mixing rho) β α = _
    rw [hd0, phase_diagonal, Matrix.mul_apply]
    apply Finset.sum_congr rfl
    intro j _
    rw [Matrix.mul_diagonal, Matrix.conjTranspose_apply]
    congr 3
    push_cast
    ring
  rw [← hMe]
  congr 1
  rw [Complex.star_def, Complex.mul_conj, Complex.ofReal_re]

/-! ## Examples -/

/-- Setting an initial state prepares every node and type. -/
theorem c97_prepared (o : Obj n) (ho : Ready o) (he : o.ienergy = true) (v : Nat → Nat → Fin n → ℝ) (b : Basis) (ie rho : Nat)
    (hi : ie < o.ne) (hr : rho < o.nrhos) : Prepared (fill o v b) ie rho where
  good := good_fill o ho he v b
  node := by
    unfold fill iniH0 setIniFlavorProjectors
    simp only [he, if_true]
    exact hi
  type := by
    unfold fill iniH0 setIniFlavorProjectors
    simp only [he, if_true]
    exact hr
  h0s := by
    unfold fill iniH0 setIniFlavorProjectors h0
    simp only [he, if_true, hi]
  fresh := by
    intro _ f
    unfold fill iniH0 setIniFlavorProjectors
    simp only [he, if_true, hi, hr, and_self]

/-- In vacuum there is a solution from every stored state, in both working bases. -/
theorem vacuum_solution (c : ℝ) (ye : ℝ → ℝ) (hn : 3 ≤ n) {o : Obj n} {ie rho : Nat} (ho : Prepared o ie rho) (A : Mat n) (b : ℝ) :
    ∃ ρ : ℝ → Mat n, ρ o.tini = A ∧ Solves (motion c (fun _ => 0) ye (Fin.castLE hn) o ie rho) ρ o.tini b := by
  have hz : ∀ y, matter c 0 y o rho = 0 := by
    intro y
    unfold matter Matter.matterTerm Matter.flavourPotential
    simp only [mul_zero, zero_mul, ite_self, zero_smul, Finset.sum_const_zero]
  have hm : ∀ t, motion c (fun _ => 0) ye (Fin.castLE hn) o ie rho t = if o.basis = .mass then h0 o (o.energies ie) else 0 := by
    intro t
    rw [motion_vacuum c (fun _ => 0) ye hn ho t rfl, hz]
    split
    · rw [add_zero]
    · unfold evolve; rw [Matrix.mul_zero, Matrix.zero_mul]
  refine ⟨fun t => uTransform (if o.basis = .mass then h0 o (o.energies ie) else 0) (t - o.tini) A, ?_, ?_⟩
  · dsimp only
    unfold uTransform
    rw [sub_self, neg_zero, phase_zero_time, Matrix.one_mul, Matrix.mul_one]
  · rw [show motion c (fun _ => 0) ye (Fin.castLE hn) o ie rho = fun _ => if o.basis = .mass then h0 o (o.energies ie) else 0 from funext hm]
    exact solves_constant _ _ _ _

/-- For antineutrinos at the second node, in both working bases, the hypotheses of the theorems above hold. -/
example (basis : Basis) (α : Fin 3) (b : ℝ) :
    let o := fill (demo basis) (fun _ _ f => if f = α then 1 else 0) .flavor
    Prepared o 1 1 ∧ DiagonalMasses o ∧ ∃ ρ : ℝ → Mat 3, Solves (motion 1 (fun _ => 0) (fun _ => 1) (Fin.castLE (le_refl 3)) o 1 1) ρ o.tini b ∧
      physical o 1 1 o.tini (ρ o.tini) = projector α := by
  intro o
  have hp : Prepared o 1 1 := c97_prepared (demo basis) (demo_ready basis) rfl _ .flavor 1 1 (show 1 < 2 by decide) (show 1 < 2 by decide)
  refine ⟨hp, diagonal_fill (demo basis) (demo_ready basis) _ _, ?_⟩
  obtain ⟨ρ, h1, h2⟩ := vacuum_solution 1 (fun _ => 1) (le_refl 3) hp (o.state 1 1) b
  refine ⟨ρ, h2, ?_⟩
  have hi := c97_initial (demo basis) (demo_ready basis) rfl (fun _ _ f => if f = α then 1 else 0) 1 1 (show 1 < 2 by decide)
    (show 1 < 2 by decide)
  have ht : o.t = o.tini := by
    simp only [o, fill, iniH0, setIniFlavorProjectors, demo, if_true]
  rw [h1, ← ht]
  refine hi.trans ?_
  rw [← sum_projectors]
  simp

/-- C97: the flavour basis is refused as the working basis. The mass basis and the interaction picture are accepted, and an initial state
given after that leaves the object ready to evolve in that basis, its reported state being the fluxes given. -/
theorem c97_select (o : Obj n) (ho : Ready o) (he : o.ienergy = true) (b : Basis) :
    (setBasis o b = .throws ↔ b = .flavor) ∧
    (b ≠ .flavor → ∃ o', setBasis o b = .ok o' ∧ ∀ v ie rho, ie < o.ne → rho < o.nrhos →
      (fill o' v .flavor).basis = b ∧ Prepared (fill o' v .flavor) ie rho ∧
      physical (fill o' v .flavor) ie rho (fill o' v .flavor).t ((fill o' v .flavor).state ie rho) =
        Matrix.diagonal fun f => ((v ie rho f : ℝ) : ℂ)) := by
  refine ⟨?_, fun hb => ?_⟩
  · unfold setBasis
    by_cases h : b = .flavor
    · simp [h]
    · simp [h]
  · have hr : Ready ({ o with basis := b } : Obj n) := ⟨ho.b0, ho.mixing, ho.nrhos⟩
    refine ⟨{ o with basis := b }, if_neg hb, fun v ie rho hi hrho => ⟨?_, ?_, ?_⟩⟩
    · unfold fill iniH0 setIniFlavorProjectors
      simp only [he, if_true]
    · exact c97_prepared _ hr he v .flavor ie rho hi hrho
    · exact c97_initial _ hr he v ie rho hi hrho

/-- The mass basis selected for an object created in the interaction picture. -/
example : ∃ o', setBasis (demo .interaction) .mass = .ok o' ∧ (fill o' (fun _ _ _ => 1) .flavor).basis = .mass ∧
    Prepared (fill o' (fun _ _ _ => 1) .flavor) 1 1 := by
  obtain ⟨o', h, h'⟩ := (c97_select (demo .interaction) (demo_ready .interaction) rfl .mass).2 (by decide)
  have h' := h' (fun _ _ _ => 1) 1 1 (show 1 < 2 by decide) (show 1 < 2 by decide)
  exact ⟨o', h, h'.1, h'.2.1⟩

/-! ## Where the claim fails -/

/-- The working basis can be changed at any time, but the stored state is not converted. Here half an oscillation has turned all of the first
flavour into the second; selecting the mass basis turns it back. -/
theorem c97_basis_change_violated : ∃ o o' : Obj 3, Good o ∧ setBasis o .mass = .ok o' ∧
    o = { evolveProjectors (fill (demo1 .interaction) (fun _ _ f => if f = 0 then 1 else 0) .flavor) id o.t with t := o.t } ∧
    evalFlavorAtNode o 0 0 0 = .ok 0 ∧ evalFlavorAtNode o 1 0 0 = .ok 1 ∧
    evalFlavorAtNode o' 0 0 0 = .ok 1 ∧ evalFlavorAtNode o' 1 0 0 = .ok 0 := by
  obtain ⟨o, ho, he, h0, h1, h2⟩ := c73_interaction_picture_violated
  have key : ∀ f, evalFlavorAtNode (shortcut 0 0 0 0 (Fin.castLE (le_refl 3)) o) f 0 0 = evalFlavorAtNode ({ o with basis := .mass } : Obj 3) f 0 0 := by
    intro f
    have hst : (shortcut 0 0 0 0 (Fin.castLE (le_refl 3)) o).state 0 0 = o.state 0 0 := by
      unfold shortcut
      dsimp only
      split
      · unfold uTransform
        rw [neg_zero, phase_zero_time, Matrix.one_mul, Matrix.mul_one]
      · rfl
    have e1 : (shortcut 0 0 0 0 (Fin.castLE (le_refl 3)) o).basis = .mass := rfl
    have e2 : (shortcut 0 0 0 0 (Fin.castLE (le_refl 3)) o).ienergy = o.ienergy := rfl
    have e3 : (shortcut 0 0 0 0 (Fin.castLE (le_refl 3)) o).nt = o.nt := rfl
    have e4 : (shortcut 0 0 0 0 (Fin.castLE (le_refl 3)) o).b1 = o.b1 := rfl
    unfold evalFlavorAtNode
    rw [hst, e1, e2, e3, e4, if_pos rfl, if_pos rfl]
  exact ⟨o, { o with basis := .mass }, ho, rfl, he, h0, h1, (key 0).symm.trans (h2 0 0 0).1, (key 1).symm.trans (h2 0 0 0).2⟩

/-- An object with one sterile flavour and no mixing. -/
noncomputable def sterile : Obj 4 where
  nt := .neutrino
  ne := 1
  nrhos := 1
  basis := .mass
  ienergy := true
  itrack := true
  ibody := true
  istate := true
  ioscillations := true
  full := false
  energies := fun _ => 1
  differences := fun _ => 0
  mixing := fun _ => 1
  b0 := fun f => projector f
  b1 := fun _ f => projector f
  evolB1 := fun _ f _ => projector f
  dm2 := 0
  h0s := fun _ => 0
  state := fun _ _ => 0
  trackStart := 0
  t := 0
  tini := 0

/-- In matter without electrons, with a sterile flavour, the state does not follow the Schrödinger equation: the potential of the active
flavours has the wrong sign and twice the size, and their coherence with the sterile one turns the other way. Density and constant are 1;
the matrix element (0,3) starts at 1 and at time π should be i and is -1. -/
theorem c97_neutrons_violated : Prepared sterile 0 0 ∧ ∃ ρ σ : ℝ → Mat 4,
    Solves (motion 1 (fun _ => 1) (fun _ => 0) (Fin.castLE (by decide)) sterile 0 0) ρ 0 Real.pi ∧
    Solves (fun _ => flavourHamiltonian 1 1 0 sterile 0 0) σ 0 Real.pi ∧
    σ 0 = physical sterile 0 0 0 (ρ 0) ∧ σ 0 0 3 = 1 ∧
    σ Real.pi 0 3 = Complex.I ∧ physical sterile 0 0 Real.pi (ρ Real.pi) 0 3 = -1 := by
  have hU : Unitary (1 : Mat 4) := by unfold Unitary; rw [Matrix.conjTranspose_one, Matrix.one_mul]
  have hb1 : ∀ f : Fin 4, toB1 (1 : Mat 4) (projector f) = projector f := by
    intro f; unfold toB1; rw [Matrix.conjTranspose_one, Matrix.one_mul, Matrix.mul_one]
  have hg : Good sterile := ⟨⟨fun _ => rfl, fun _ => hU, rfl⟩, rfl, fun _ f _ => (hb1 f).symm, Matrix.isHermitian_zero⟩
  have h0z : h0 sterile (sterile.energies 0) = 0 := by
    unfold h0; rw [show sterile.dm2 = 0 from rfl, smul_zero, ite_self]
  have hp : Prepared sterile 0 0 := ⟨hg, Nat.zero_lt_one, Nat.zero_lt_one, h0z.symm, fun _ _ => rfl⟩
  have hm : ∀ t, motion 1 (fun _ => 1) (fun _ => 0) (Fin.castLE (by decide)) sterile 0 0 t =
      Matrix.diagonal fun i : Fin 4 => (((if i = 3 then 0 else 1 : ℝ)) : ℂ) := by
    intro t
    have hd : preDerive sterile t = sterile := by unfold preDerive; rw [if_neg (fun h => h.1 rfl)]
    unfold motion hamiltonian
    rw [hd]
    unfold Matter.hi Matter.potentials Matter.anti
    ext i j
    fin_cases i <;> fin_cases j <;> simp [sterile, projector]
  have hf : flavourHamiltonian 1 1 0 sterile 0 0 = Matrix.diagonal fun i : Fin 4 => (((if i = 3 then 0 else -(1 / 2) : ℝ)) : ℂ) := by
    unfold flavourHamiltonian Matter.flavourPotential
    rw [h0z, Matrix.mul_zero, Matrix.zero_mul, zero_add]
    congr 1
    funext i
    fin_cases i <;> simp [sterile] <;> norm_num
  let A : Mat 4 := Matrix.of fun _ _ => 1
  have hu : ∀ (d : Fin 4 → ℝ) (t : ℝ), uTransform (Matrix.diagonal fun i => (d i : ℂ)) t A 0 3 = Complex.exp (Complex.I * ((d 3 - d 0) * t : ℝ)) := by
    intro d t
    have := evolve_diagonal d (-t) A 0 3
    unfold evolve at this
    rw [neg_neg] at this
    unfold uTransform
    rw [this, show A 0 3 = 1 from rfl, mul_one]
    congr 2
    push_cast; ring
  have hphys : ∀ t B, physical sterile 0 0 t B = B := by
    intro t B
    unfold physical
    rw [if_pos (show sterile.basis = .mass from rfl), show sterile.mixing 0 = 1 from rfl, Matrix.conjTranspose_one, Matrix.one_mul, Matrix.mul_one]
  have hz : ∀ H : Mat 4, uTransform H (0 - 0) A = A := by
    intro H
    unfold uTransform
    rw [sub_self, neg_zero, phase_zero_time, Matrix.one_mul, Matrix.mul_one]
  refine ⟨hp, fun t => uTransform (Matrix.diagonal fun i : Fin 4 => (((if i = 3 then 0 else 1 : ℝ)) : ℂ)) (t - 0) A,
    fun t => uTransform (Matrix.diagonal fun i : Fin 4 => (((if i = 3 then 0 else -(1 / 2) : ℝ)) : ℂ)) (t - 0) A, ?_, ?_, ?_, ?_, ?_, ?_⟩
  · rw [funext hm]; exact solves_constant _ _ _ _
  · rw [hf]; exact solves_constant _ _ _ _
  · rw [hphys]; dsimp only; rw [hz, hz]
  · dsimp only; rw [hz]; rfl
  · dsimp only; rw [hu, if_pos rfl, if_neg (by decide), show Complex.I * (((0 - -(1 / 2)) * (Real.pi - 0) : ℝ) : ℂ) = Real.pi / 2 * Complex.I by push_cast; ring,
      Complex.exp_pi_div_two_mul_I]
  · rw [hphys]; dsimp only; rw [hu, if_pos rfl, if_neg (by decide), show Complex.I * (((0 - 1) * (Real.pi - 0) : ℝ) : ℂ) = -(Real.pi * Complex.I) by push_cast; ring,
      Complex.exp_neg, Complex.exp_pi_mul_I]
    norm_num

end Verif.Density
