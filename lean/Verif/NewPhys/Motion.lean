import Verif.NewPhys.Props
import Verif.Density.PictureProps

/-!
# The equation of motion with new physics (examples/NSI/NSI.h, examples/LV/LV.h)

The two classes override `HI` and fill their operators in `AddToPreDerive`, which `PreDerive` (nuSQuIDS.cpp 278-297) calls in every working basis.
Joined here with the equation of motion of the base class (`Density.motion`). Both assert three flavours.
-/

namespace Verif.NewPhys

open Matrix Density

/-! ## Model -/

/-- The `NT` of the base class. -/
def kind : Matter.NT → NT
  | .neutrino => .neutrino
  | .antineutrino => .antineutrino
  | .both => .both

/-- The matrix `NSI.Evolve` multiplies with (NSI.h 19): the Hamiltonian is the one kept for the node. -/
noncomputable def nsiTurn (o : Obj 3) (ei : Nat) (x : ℝ) : Op := phase (o.h0s ei) (x - o.tini)

/-- The matrix `LVP.Evolve` multiplies with (LV.h 28-29): the Hamiltonian is computed anew. -/
noncomputable def lvTurn (o : Obj 3) (ei : Nat) (x : ℝ) : Op := phase (h0 o (o.energies ei)) (x - o.tini)

/-- `HI` of NSI.h 36-51 after `PreDerive(t)`; `c` is `HI_prefactor`, which the constructor (80) sets as the base class sets `HI_constants`. -/
noncomputable def nsiMotion (c : ℝ) (dens ye : ℝ → ℝ) (o : Obj 3) (s : Nsi) (ie rho : Nat) (t : ℝ) : Outcome Op :=
  nsiHI (kind o.nt) rho (c * dens t * ye t) (motion c dens ye (Fin.castLE (le_refl 3)) o ie rho t) (s.preDerive (nsiTurn o) t ie)

/-- `HI` of LV.h 63-74 after `PreDerive(t)`. -/
noncomputable def lvMotion (c : ℝ) (dens ye : ℝ → ℝ) (o : Obj 3) (s : Lv) (ie rho : Nat) (t : ℝ) : Outcome Op :=
  (s.preDerive (lvTurn o) t).bind fun ev =>
    .ok (s.HI (kind o.nt) rho (o.energies ie) (motion c dens ye (Fin.castLE (le_refl 3)) o ie rho t) (ev ie))

/-! ## Lemmas -/

theorem commutator_shift (A B : Op) (x : ℝ) : (A + x • (1 : Op)) * B - B * (A + x • (1 : Op)) = A * B - B * A := by
  rw [Matrix.add_mul, Matrix.mul_add, Matrix.smul_mul, Matrix.mul_smul, Matrix.one_mul, Matrix.mul_one]
  abel

/-- The equation of motion of the base class in either basis, up to a multiple of the identity. -/
theorem motion_form (c : ℝ) (dens ye : ℝ → ℝ) {o : Obj 3} {ie rho : Nat} (ho : Prepared o ie rho) (t : ℝ) : ∃ x : ℝ,
    motion c dens ye (Fin.castLE (le_refl 3)) o ie rho t =
      (if o.basis = .mass then h0 o (o.energies ie) + matter c (dens t) (ye t) o rho
      else Density.evolve (h0 o (o.energies ie)) (t - o.tini) (matter c (dens t) (ye t) o rho)) + x • (1 : Op) := by
  by_cases hy : 1 / 10 ^ 10 ≤ ye t
  · exact ⟨0, by rw [motion_eq c dens ye (le_refl 3) ho t hy, zero_smul, add_zero]⟩
  · exact motion_three c dens ye (le_refl 3) rfl ho t (not_le.1 hy)

/-- `Evolve` of the two models. -/
theorem turn_eq {H : Op} (h : H.IsHermitian) (t : ℝ) (A : Op) : evolve (phase H t) A = Density.evolve H t A := by
  unfold evolve Density.evolve
  rw [phase_star h]

theorem flavour_form (c dens ye : ℝ) {o : Obj 3} {ie rho : Nat} (ho : Prepared o ie rho) :
    flavourHamiltonian c dens ye o ie rho =
      (o.mixing rho)ᴴ * (h0 o (o.energies ie) + matter c dens ye o rho) * o.mixing rho := by
  unfold flavourHamiltonian
  rw [← matter_flavour c dens ye ho.good ho.type, Matrix.mul_add, Matrix.add_mul]

/-- The interaction picture with a further operator that rotates as the projectors do. -/
theorem added_motion (c : ℝ) (dens ye g : ℝ → ℝ) {o : Obj 3} {ie rho : Nat} (ho : Prepared o ie rho) (hb : o.basis ≠ .mass) (A : Op)
    (ρ : ℝ → Op) (a b : ℝ)
    (hs : Solves (fun t => motion c dens ye (Fin.castLE (le_refl 3)) o ie rho t + g t • Density.evolve (h0 o (o.energies ie)) (t - o.tini) A) ρ a b) :
    Solves (fun t => flavourHamiltonian c (dens t) (ye t) o ie rho + g t • ((o.mixing rho)ᴴ * A * o.mixing rho))
      (fun t => physical o ie rho t (ρ t)) a b := by
  have hU' : (o.mixing rho) * (o.mixing rho)ᴴ = 1 := ho.good.ready.mixing rho
  have h1 : Solves (fun t => Density.evolve (h0 o (o.energies ie)) (t - o.tini) (matter c (dens t) (ye t) o rho + g t • A)) ρ a b := by
    obtain ⟨S, hS, hs⟩ := hs
    refine ⟨S, hS, hs.cont, fun t ht hn => ?_⟩
    have hd := hs.deriv t ht hn
    obtain ⟨x, hx⟩ := motion_form c dens ye ho t
    rw [hx, if_neg hb, add_right_comm, commutator_shift, ← evolve_smul, ← evolve_add] at hd
    exact hd
  have h2 := (h1.picture _ _).conj (o.mixing rho)ᴴ (o.mixing rho) hU'
  have e : ∀ t, flavourHamiltonian c (dens t) (ye t) o ie rho + g t • ((o.mixing rho)ᴴ * A * o.mixing rho) =
      (o.mixing rho)ᴴ * (h0 o (o.energies ie) + (matter c (dens t) (ye t) o rho + g t • A)) * o.mixing rho := by
    intro t
    rw [flavour_form c _ _ ho]
    simp only [Matrix.mul_add, Matrix.add_mul, Matrix.mul_smul, Matrix.smul_mul, add_assoc]
  have e2 : ∀ t, physical o ie rho t (ρ t) = (o.mixing rho)ᴴ * uTransform (h0 o (o.energies ie)) (t - o.tini) (ρ t) * o.mixing rho := by
    intro t
    unfold physical
    rw [if_neg hb]
  simp only [e, e2]
  exact h2

/-- In the mass basis the operator rotates though the state does not: seen from the frame that rotates with it, the masses count twice. -/
theorem added_motion_mass (c : ℝ) (ye g : ℝ → ℝ) {o : Obj 3} {ie rho : Nat} (ho : Prepared o ie rho) (hb : o.basis = .mass) (A : Op) (t : ℝ) :
    motion c (fun _ => 0) ye (Fin.castLE (le_refl 3)) o ie rho t + g t • Density.evolve (h0 o (o.energies ie)) (t - o.tini) A =
      Density.evolve (h0 o (o.energies ie)) (t - o.tini) (h0 o (o.energies ie) + g t • A) := by
  have hz : matter c 0 (ye t) o rho = 0 := by
    unfold matter Matter.matterTerm Matter.flavourPotential
    simp only [mul_zero, zero_mul, ite_self, zero_smul, Finset.sum_const_zero]
  rw [motion_vacuum c (fun _ => 0) ye (le_refl 3) ho t rfl, if_pos hb, hz, add_zero, evolve_add, evolve_smul]
  congr 1
  unfold Density.evolve
  rw [← phase_commute, Matrix.mul_assoc, phase_neg, Matrix.mul_one]

end Verif.NewPhys
