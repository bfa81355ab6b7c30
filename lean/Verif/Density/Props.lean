import Verif.Density.Lemmas

namespace Verif.Density

open Matrix
open Matter (NT)
open scoped ComplexOrder

variable {n : Nat}

/-! ## C54 -/

/-- What `iniProjectors` leaves and nothing changes: mass projectors, a unitary mixing matrix for each type, and two types if and only if
both are propagated. -/
structure Ready (o : Obj n) : Prop where
  b0 : ∀ f, o.b0 f = projector f
  mixing : ∀ r, Unitary (o.mixing r)
  nrhos : o.nrhos = if o.nt = .both then 2 else 1

theorem fill_flavour (o : Obj n) (ho : Ready o) (v : Nat → Nat → Fin n → ℝ) (he : o.ienergy = true) (i r : Nat) (hi : i < o.ne)
    (hr : r < o.nrhos) (f : Fin n) : evalFlavorAtNode (fill o v .flavor) f i r = .ok (v i r f) := by
  have hd : dot (toB1 (o.mixing r) (projector f)) (∑ j, v i r j • toB1 (o.mixing r) (projector j)) = v i r f := by
    rw [dot_sum]
    simp only [dot_smul, dot_b1 (ho.mixing r)]
    simp
  have hg : ¬(r ≠ 0 ∧ o.nt ≠ .both) := by
    rintro ⟨h1, h2⟩
    have := ho.nrhos
    rw [if_neg h2] at this
    omega
  unfold evalFlavorAtNode expectation fill iniH0 setIniFlavorProjectors
  simp only [he, if_true, hi, hr, and_self, foldl_finRange, ho.b0, sub_self, evolve_zero_time, if_neg hg]
  rw [dot_comm (∑ _, _), hd]
  simp

theorem fill_mass (o : Obj n) (ho : Ready o) (v : Nat → Nat → Fin n → ℝ) (he : o.ienergy = true) (i r : Nat) (hi : i < o.ne)
    (hr : r < o.nrhos) (f : Fin n) : evalMassAtNode (fill o v .mass) f i r = .ok (v i r f) := by
  have hd : dot (projector f) (∑ j, v i r j • projector j) = v i r f := by
    rw [dot_sum]
    simp only [dot_smul, dot_projector]
    simp
  have hg : ¬(r ≠ 0 ∧ o.nt ≠ .both) := by
    rintro ⟨h1, h2⟩
    have := ho.nrhos
    rw [if_neg h2] at this
    omega
  unfold evalMassAtNode expectation fill iniH0 setIniFlavorProjectors
  simp only [he, if_true, hi, hr, and_self, foldl_finRange, ho.b0, sub_self, evolve_zero_time, if_neg hg]
  rw [dot_comm (∑ _, _), hd]
  simp

/-- C54: after an accepted `Set_initial_state`, reading back in the basis it was given in returns the input for each flavour, node and
particle type, in every working basis and for every unitary mixing: all three overloads. -/
theorem c54_read_back (o : Obj n) (ho : Ready o) (o' : Obj n) :
    (∀ len v, setInitial1 o len v .flavor = .ok o' → ∀ f, evalFlavorAtNode o' f 0 0 = .ok (v f)) ∧
    (∀ len v, setInitial1 o len v .mass = .ok o' → ∀ f, evalMassAtNode o' f 0 0 = .ok (v f)) ∧
    (∀ l0 l1 v, setInitial2 o l0 l1 v .flavor = .ok o' → ∀ f i, i < o.ne → evalFlavorAtNode o' f i 0 = .ok (v i f)) ∧
    (∀ l0 l1 v, setInitial2 o l0 l1 v .mass = .ok o' → ∀ f i, i < o.ne → evalMassAtNode o' f i 0 = .ok (v i f)) ∧
    (∀ l0 l1 l2 v, setInitial3 o l0 l1 l2 v .flavor = .ok o' → ∀ f i r, i < o.ne → r < o.nrhos → evalFlavorAtNode o' f i r = .ok (v i r f)) ∧
    (∀ l0 l1 l2 v, setInitial3 o l0 l1 l2 v .mass = .ok o' → ∀ f i r, i < o.ne → r < o.nrhos → evalMassAtNode o' f i r = .ok (v i r f)) := by
  have hr : 0 < o.nrhos := by rw [ho.nrhos]; split <;> omega
  have hc : ∀ b, checked o b = true → o.ienergy = true := by
    intro b h; simp only [checked, Bool.and_eq_true] at h; exact h.2
  refine ⟨?_, ?_, ?_, ?_, ?_, ?_⟩
  · intro len v h f
    unfold setInitial1 at h
    split at h
    · rename_i hk
      cases h
      exact fill_flavour o ho (fun _ _ j => v j) (hc _ hk.2.2.2.2) 0 0 (by omega) hr f
    · cases h
  · intro len v h f
    unfold setInitial1 at h
    split at h
    · rename_i hk
      cases h
      exact fill_mass o ho (fun _ _ j => v j) (hc _ hk.2.2.2.2) 0 0 (by omega) hr f
    · cases h
  · intro l0 l1 v h f i hi
    unfold setInitial2 at h
    split at h
    · rename_i hk
      cases h
      exact fill_flavour o ho (fun i _ j => v i j) (hc _ hk.2.2.2.2) i 0 hi hr f
    · cases h
  · intro l0 l1 v h f i hi
    unfold setInitial2 at h
    split at h
    · rename_i hk
      cases h
      exact fill_mass o ho (fun i _ j => v i j) (hc _ hk.2.2.2.2) i 0 hi hr f
    · cases h
  · intro l0 l1 l2 v h f i r hi hr
    unfold setInitial3 at h
    split at h
    · rename_i hk
      cases h
      exact fill_flavour o ho v (hc _ hk.2.2.2.2.2) i r hi hr f
    · cases h
  · intro l0 l1 l2 v h f i r hi hr
    unfold setInitial3 at h
    split at h
    · rename_i hk
      cases h
      exact fill_mass o ho v (hc _ hk.2.2.2.2.2) i r hi hr f
    · cases h

/-- C54: the single-energy readers without a node index agree, also after a constant-density shortcut (`full`). -/
theorem c54_read_back_single (o : Obj n) (ho : Ready o) (len : Nat) (v : Fin n → ℝ) (o' : Obj n) (f : Fin n) :
    (setInitial1 o len v .flavor = .ok o' → evalFlavor1 o' f = .ok (v f)) ∧ (setInitial1 o len v .mass = .ok o' → evalMass1 o' f = .ok (v f)) := by
  have hr : 0 < o.nrhos := by rw [ho.nrhos]; split <;> omega
  have hc : ∀ b, checked o b = true → o.ienergy = true := by
    intro b h; simp only [checked, Bool.and_eq_true] at h; exact h.2
  constructor
  · intro h
    unfold setInitial1 at h
    split at h
    · rename_i hk
      cases h
      have he := hc _ hk.2.2.2.2
      have h1 := fill_flavour o ho (fun _ _ j => v j) he 0 0 (by omega) hr f
      have hb1 : (fill o (fun _ _ j => v j) .flavor).evolB1 0 f 0 = (fill o (fun _ _ j => v j) .flavor).b1 0 f := by
        unfold fill iniH0 setIniFlavorProjectors
        simp only [he, if_true, hk.2.2.2.1, hr, and_self, Nat.zero_lt_one]
      have ht : (fill o (fun _ _ j => v j) .flavor).t - (fill o (fun _ _ j => v j) .flavor).tini = 0 := by
        unfold fill iniH0 setIniFlavorProjectors
        simp only [he, if_true, sub_self]
      have hen : (fill o (fun _ _ j => v j) .flavor).ienergy = true := by
        unfold fill iniH0 setIniFlavorProjectors; simp only [he, if_true]
      have hne : (fill o (fun _ _ j => v j) .flavor).ne = 1 := by
        unfold fill iniH0 setIniFlavorProjectors; simp only [he, if_true, hk.2.2.2.1]
      unfold evalFlavorAtNode at h1
      unfold evalFlavor1
      rw [if_neg (by rw [hen]; simp), if_neg (by simp)] at h1
      rw [if_neg (by rw [hen]; simp), if_neg (by rw [hne]; simp)]
      split
      · rename_i hb; rw [if_pos hb] at h1; exact h1
      · rename_i hb
        rw [if_neg hb] at h1
        split
        · rw [hb1]
          unfold expectation at h1
          rw [ht, evolve_zero_time, dot_comm] at h1
          exact h1
        · exact h1
    · cases h
  · intro h
    unfold setInitial1 at h
    split at h
    · rename_i hk
      cases h
      have he := hc _ hk.2.2.2.2
      have h1 := fill_mass o ho (fun _ _ j => v j) he 0 0 (by omega) hr f
      have hen : (fill o (fun _ _ j => v j) .mass).ienergy = true := by
        unfold fill iniH0 setIniFlavorProjectors; simp only [he, if_true]
      have hne : (fill o (fun _ _ j => v j) .mass).ne = 1 := by
        unfold fill iniH0 setIniFlavorProjectors; simp only [he, if_true, hk.2.2.2.1]
      unfold evalMassAtNode at h1
      unfold evalMass1
      rw [if_neg (by rw [hen]; simp), if_neg (by simp)] at h1
      rw [if_neg (by rw [hen]; simp), if_neg (by rw [hne]; simp)]
      exact h1
    · cases h

/-- C54: with energies, body and track set, and extents as the object wants them, each overload accepts flavour and mass states. -/
theorem c54_accepted (o : Obj n) (hn : 0 < n) (hne : 0 < o.ne) (ht : o.itrack = true) (hb : o.ibody = true) (he : o.ienergy = true) (b : Basis)
    (hbasis : b = .flavor ∨ b = .mass) :
    (o.nt ≠ .both → o.ne = 1 → ∀ v, ∃ o', setInitial1 o n v b = .ok o') ∧
    (o.nt ≠ .both → ∀ v, ∃ o', setInitial2 o o.ne n v b = .ok o') ∧
    (o.nt = .both → 0 < o.nrhos → ∀ v, ∃ o', setInitial3 o o.ne o.nrhos n v b = .ok o') := by
  have hc : checked o b = true := by
    unfold checked
    rw [ht, hb, he]
    rcases hbasis with rfl | rfl <;> rfl
  refine ⟨fun h1 h2 v => ?_, fun h1 v => ?_, fun h1 h2 v => ?_⟩
  · exact ⟨fill o (fun _ _ j => v j) b, by unfold setInitial1; rw [if_pos ⟨by omega, rfl, h1, h2, hc⟩]⟩
  · exact ⟨fill o (fun i _ j => v i j) b, by
      unfold setInitial2; rw [if_pos ⟨(Nat.mul_pos hne hn).ne', rfl, rfl, h1, hc⟩]⟩
  · exact ⟨fill o v b, by
      unfold setInitial3; rw [if_pos ⟨(Nat.mul_pos (Nat.mul_pos hne h2) hn).ne', rfl, rfl, rfl, h1, hc⟩]⟩

/-- The square root of one half. -/
noncomputable def root : ℝ := √(1 / 2)

theorem root_mul : (root : ℂ) * (root : ℂ) = 1 / 2 := by
  rw [← Complex.ofReal_mul, root, Real.mul_self_sqrt (by norm_num)]; norm_num

/-- Rotation by 45 degrees in the plane of the first two states. -/
noncomputable def mix45 : Mat 3 := !![(root : ℂ), root, 0; -root, root, 0; 0, 0, 1]

theorem mix45_unitary : Unitary mix45 := by
  have h := root_mul
  unfold Unitary
  ext i j
  fin_cases i <;> fin_cases j <;>
    simp [mix45, Matrix.mul_apply, Fin.sum_univ_three, Matrix.conjTranspose_apply] <;> linear_combination 2 * h

/-- Three flavours, two types, two nodes, mixing of 45 degrees. -/
noncomputable def demo (basis : Basis) : Obj 3 where
  nt := .both
  ne := 2
  nrhos := 2
  basis := basis
  ienergy := true
  itrack := true
  ibody := true
  istate := false
  ioscillations := true
  full := false
  energies := fun _ => 1 / 2
  differences := fun i => if i = 1 then 1 else 0
  mixing := fun _ => mix45
  b0 := fun f => projector f
  b1 := fun _ _ => 0
  evolB1 := fun _ _ _ => 0
  dm2 := 0
  h0s := fun _ => 0
  state := fun _ _ => 0
  trackStart := 5
  t := 0
  tini := 0

theorem demo_ready (b : Basis) : Ready (demo b) := ⟨fun _ => rfl, fun _ => mix45_unitary, rfl⟩

example (v : Nat → Nat → Fin 3 → ℝ) : ∃ o', setInitial3 (demo .interaction) 2 2 3 v .flavor = .ok o' ∧
    ∀ f i r, i < 2 → r < 2 → evalFlavorAtNode o' f i r = .ok (v i r f) := by
  have h : setInitial3 (demo .interaction) 2 2 3 v .flavor = .ok (fill (demo .interaction) v .flavor) := by
    unfold setInitial3
    rw [if_pos]
    simp [demo, checked]
  exact ⟨_, h, (c54_read_back (demo .interaction) (demo_ready _) _).2.2.2.2.1 2 2 3 v h⟩

example (v : Fin 3 → ℝ) (f : Fin 3) : ∃ o', setInitial1 { demo .mass with nt := .neutrino, nrhos := 1, ne := 1, full := true } 3 v .flavor = .ok o' ∧
    evalFlavor1 o' f = .ok (v f) := by
  have hr : Ready ({ demo .mass with nt := .neutrino, nrhos := 1, ne := 1, full := true } : Obj 3) :=
    ⟨fun _ => rfl, fun _ => mix45_unitary, rfl⟩
  have h : setInitial1 { demo .mass with nt := .neutrino, nrhos := 1, ne := 1, full := true } 3 v .flavor =
      .ok (fill { demo .mass with nt := .neutrino, nrhos := 1, ne := 1, full := true } (fun _ _ j => v j) .flavor) := by
    unfold setInitial1
    rw [if_pos]
    simp [demo, checked]
  exact ⟨_, h, (c54_read_back_single _ hr 3 v _ f).1 h⟩

end Verif.Density
