import Verif.Density.MixingLemmas
import Verif.Density.Props

namespace Verif.Density

open Matrix
open Matter (NT)

variable {n : Nat}

/-! ## Specification -/

/-- The type `rho` is antineutrinos. -/
def IsAnti (nt : NT) (rho : Nat) : Prop := nt = .antineutrino ∨ (nt = .both ∧ rho = 1)

/-- Complex conjugate of each entry. -/
noncomputable def conj (U : Mat n) : Mat n := U.map (starRingEnd ℂ)

/-- The projector on flavour `f` for mixing matrix `U`. -/
noncomputable def flavourProjector (U : Mat n) (f : Fin n) : Mat n := U * projector f * Uᴴ

/-- Only flavour `a` at all nodes and types. -/
def pure (a : Fin n) : Nat → Nat → Fin n → ℝ := fun _ _ f => if f = a then 1 else 0

/-- C76: flipping phases before each rotation and back after it leaves the parameters as they were, and the stored projectors are those of the
mixing matrix for neutrinos and of its complex conjugate for antineutrinos; entries of other types and nodes are not touched. For any
order `pairs` of rotations about two different axes given with the smaller index first. -/
theorem c76_projectors (pairs : List (Fin n × Fin n)) (hp : ∀ ij ∈ pairs, ij.1 < ij.2) (nt : NT) (nrhos ne : Nat) (s : Projectors n)
    (hb : ∀ f, s.b0 f = projector f) :
    (setIniLoops pairs nt nrhos ne s).params = s.params ∧ (setIniLoops pairs nt nrhos ne s).b0 = s.b0 ∧
    ∀ rho f,
      (rho < nrhos → ¬IsAnti nt rho → (setIniLoops pairs nt nrhos ne s).b1 rho f = flavourProjector (mixingMatrix pairs s.params) f ∧
        ∀ e, e < ne → (setIniLoops pairs nt nrhos ne s).evolB1 rho f e = flavourProjector (mixingMatrix pairs s.params) f) ∧
      (rho < nrhos → IsAnti nt rho → (setIniLoops pairs nt nrhos ne s).b1 rho f = flavourProjector (conj (mixingMatrix pairs s.params)) f ∧
        ∀ e, e < ne → (setIniLoops pairs nt nrhos ne s).evolB1 rho f e = flavourProjector (conj (mixingMatrix pairs s.params)) f) ∧
      (¬rho < nrhos → (setIniLoops pairs nt nrhos ne s).b1 rho f = s.b1 rho f) ∧
      ∀ e, ¬(rho < nrhos ∧ e < ne) → (setIniLoops pairs nt nrhos ne s).evolB1 rho f e = s.evolB1 rho f e := by
  unfold setIniLoops
  rw [setIni_loop]
  refine ⟨rfl, rfl, fun rho f => ⟨fun hr ha => ?_, fun hr ha => ?_, fun hr => ?_, fun e he => ?_⟩⟩
  · have hm : cpFix nt n rho s.params = s.params := cpFix_nu ha n _
    dsimp only
    refine ⟨?_, fun e he => ?_⟩
    · rw [if_pos (List.mem_range.2 hr), hm, hb]; rfl
    · rw [if_pos ⟨List.mem_range.2 hr, he⟩, hm, hb]; rfl
  · obtain ⟨h1, h2⟩ := cpFix_anti (nt := nt) (rho := rho) ha n s.params
    have hm : mixingMatrix pairs (cpFix nt n rho s.params) = conj (mixingMatrix pairs s.params) := by
      refine mixingMatrix_conj pairs _ _ h1 fun ij hij => ?_
      rw [h2, if_pos ⟨hp ij hij, ij.2.2⟩]
    dsimp only
    refine ⟨?_, fun e he => ?_⟩
    · rw [if_pos (List.mem_range.2 hr), hm, hb]; rfl
    · rw [if_pos ⟨List.mem_range.2 hr, he⟩, hm, hb]; rfl
  · dsimp only
    rw [if_neg (fun h => hr (List.mem_range.1 h))]
  · dsimp only
    rw [if_neg (fun h => he ⟨List.mem_range.1 h.1, h.2⟩)]

/-- C76: `iniProjectors` leaves the same, with the mass projectors, whatever was there before. -/
theorem c76_initial_projectors (pairs : List (Fin n × Fin n)) (hp : ∀ ij ∈ pairs, ij.1 < ij.2) (nt : NT) (nrhos ne : Nat) (s : Projectors n) :
    (iniLoops pairs nt nrhos ne s).params = s.params ∧
    ∀ f, (iniLoops pairs nt nrhos ne s).b0 f = projector f ∧ ∀ rho, rho < nrhos →
      (¬IsAnti nt rho → (iniLoops pairs nt nrhos ne s).b1 rho f = flavourProjector (mixingMatrix pairs s.params) f ∧
        ∀ e, e < ne → (iniLoops pairs nt nrhos ne s).evolB1 rho f e = flavourProjector (mixingMatrix pairs s.params) f) ∧
      (IsAnti nt rho → (iniLoops pairs nt nrhos ne s).b1 rho f = flavourProjector (conj (mixingMatrix pairs s.params)) f ∧
        ∀ e, e < ne → (iniLoops pairs nt nrhos ne s).evolB1 rho f e = flavourProjector (conj (mixingMatrix pairs s.params)) f) := by
  unfold iniLoops
  dsimp only
  rw [b1_loop, evol_types]
  dsimp only
  refine ⟨rfl, fun f => ⟨rfl, fun rho hr => ⟨fun ha => ?_, fun ha => ?_⟩⟩⟩
  · have hm : cpFix nt n rho s.params = s.params := cpFix_nu ha n _
    refine ⟨?_, fun e he => ?_⟩
    · rw [if_pos (List.mem_range.2 hr), hm]; rfl
    · rw [if_pos ⟨List.mem_range.2 hr, he⟩, hm]; rfl
  · obtain ⟨h1, h2⟩ := cpFix_anti (nt := nt) (rho := rho) ha n s.params
    have hm : mixingMatrix pairs (cpFix nt n rho s.params) = conj (mixingMatrix pairs s.params) := by
      refine mixingMatrix_conj pairs _ _ h1 fun ij hij => ?_
      rw [h2, if_pos ⟨hp ij hij, ij.2.2⟩]
    refine ⟨?_, fun e he => ?_⟩
    · rw [if_pos (List.mem_range.2 hr), hm]; rfl
    · rw [if_pos ⟨List.mem_range.2 hr, he⟩, hm]; rfl

/-- The object whose mixing matrices are those the loops use with parameters `p`. -/
noncomputable def withParams (pairs : List (Fin n × Fin n)) (p : Params) (o : Obj n) : Obj n :=
  { o with mixing := fun rho => mixingMatrix pairs (cpFix o.nt n rho p) }

/-- C76: the model of the loops agrees with the one C54-C56 and C73 are proved for, and its mixing matrices are unitary. -/
theorem c76_refines (pairs : List (Fin n × Fin n)) (hp : ∀ ij ∈ pairs, ij.1 ≠ ij.2) (p : Params) (o : Obj n) :
    (setIniFlavorProjectors (withParams pairs p o)).b1 = (setIniLoops pairs o.nt o.nrhos o.ne ⟨p, o.b0, o.b1, o.evolB1⟩).b1 ∧
    (setIniFlavorProjectors (withParams pairs p o)).evolB1 = (setIniLoops pairs o.nt o.nrhos o.ne ⟨p, o.b0, o.b1, o.evolB1⟩).evolB1 ∧
    ∀ rho, Unitary ((withParams pairs p o).mixing rho) := by
  refine ⟨?_, ?_, fun rho => mixingMatrix_unitary pairs hp _⟩
  · unfold setIniLoops
    rw [setIni_loop]
    funext rho f
    by_cases h : rho < o.nrhos <;> simp [setIniFlavorProjectors, withParams, List.mem_range, h]
  · unfold setIniLoops
    rw [setIni_loop]
    funext rho f e
    by_cases h : rho < o.nrhos <;> by_cases h2 : e < o.ne <;> simp [setIniFlavorProjectors, withParams, List.mem_range, h, h2]

theorem fold_transpose (l : List (Fin n)) (d : Fin n → ℝ) (b : Fin n → Mat n) (hb : ∀ f, (b f)ᵀ = b f) (z : Mat n) (hz : zᵀ = z) :
    (l.foldl (fun s i => if 1 ≤ i.val then s + d i • b i else s) z)ᵀ = l.foldl (fun s i => if 1 ≤ i.val then s + d i • b i else s) z := by
  induction l generalizing z with
  | nil => exact hz
  | cons x xs ih =>
    rw [List.foldl_cons]
    apply ih
    split
    · rw [Matrix.transpose_add, Matrix.transpose_smul, hb, hz]
    · exact hz

theorem fill_reading (o : Obj n) (he : o.ienergy = true) (hbm : o.basis ≠ .mass) (hb : ∀ f, o.b0 f = projector f) (ie : Nat)
    (hi : ie < o.ne) (t : ℝ) :
    ∃ H : Mat n, Hᵀ = H ∧ (∀ rho', rho' < o.nrhos → (rho' = 0 ∨ o.nt = .both) → ∀ a b : Fin n,
      evalFlavorAtNode { fill o (pure a) .flavor with t := t } b ie rho' = .ok (dot (toB1 (o.mixing rho') (projector a))
        (evolve H (t - o.trackStart) (toB1 (o.mixing rho') (projector b))))) := by
  let dm2 : Mat n := (List.finRange n).foldl (fun s i => if 1 ≤ i.val then s + o.differences i • o.b0 i else s) 0
  refine ⟨if o.ioscillations then (1 / 2 / o.energies ie) • dm2 else 0, ?_, fun rho' hr' hnt' a b => ?_⟩
  · split
    · rw [Matrix.transpose_smul, fold_transpose _ _ _ (fun f => by rw [hb f, transpose_projector]) 0 Matrix.transpose_zero]
    · exact Matrix.transpose_zero
  · have hg : ¬(rho' ≠ 0 ∧ o.nt ≠ .both) := by rintro ⟨h1, h2⟩; rcases hnt' with h | h <;> contradiction
    have hs : ∑ j, pure a ie rho' j • toB1 (o.mixing rho') (projector j) = toB1 (o.mixing rho') (projector a) := by
      rw [Finset.sum_eq_single a]
      · simp [pure]
      · intro c _ hc; simp [pure, hc]
      · simp
    unfold evalFlavorAtNode expectation fill iniH0 setIniFlavorProjectors
    simp only [he, if_true, hi, hr', and_self, foldl_finRange, if_neg hg, h0]
    rw [if_neg (by simp), if_neg hbm]
    simp only [hb, hs]
    congr 2
    simp only [dm2, hb]

/-- C76: CPT in vacuum. An object with both types and mixing parameters `p`, filled with flavour `a` and read later at any time, gives for
neutrinos appearing as `b` what it gives, filled with `b`, for antineutrinos appearing as `a`; in any number of flavours, for all angles,
phases, mass differences and energies, working basis not the mass basis (there the state itself evolves, C55). -/
theorem c76_cpt (pairs : List (Fin n × Fin n)) (hp : ∀ ij ∈ pairs, ij.1 < ij.2) (p : Params) (o : Obj n) (he : o.ienergy = true)
    (hnt : o.nt = .both) (hnr : o.nrhos = 2) (hbm : o.basis ≠ .mass) (hb : ∀ f, o.b0 f = projector f) (a b : Fin n) (ie : Nat) (hi : ie < o.ne)
    (t : ℝ) :
    ∃ x, evalFlavorAtNode { fill (withParams pairs p o) (pure a) .flavor with t := t } b ie 0 = .ok x ∧
      evalFlavorAtNode { fill (withParams pairs p o) (pure b) .flavor with t := t } a ie 1 = .ok x := by
  obtain ⟨H, hH, hread⟩ := fill_reading (withParams pairs p o) he hbm hb ie hi t
  have h0 := hread 0 (by show 0 < o.nrhos; omega) (Or.inl rfl) a b
  have h1 := hread 1 (by show 1 < o.nrhos; omega) (Or.inr hnt) b a
  refine ⟨_, h0, ?_⟩
  rw [h1]
  have hm0 : (withParams pairs p o).mixing 0 = mixingMatrix pairs p := by
    show mixingMatrix pairs (cpFix o.nt n 0 p) = _
    rw [cpFix_nu]
    rintro (h | h)
    · rw [hnt] at h; cases h
    · exact absurd h.2 (by decide)
  have hm1 : (withParams pairs p o).mixing 1 = (mixingMatrix pairs p).map (starRingEnd ℂ) := by
    obtain ⟨q1, q2⟩ := cpFix_anti (nt := o.nt) (rho := 1) (Or.inr ⟨hnt, rfl⟩) n p
    refine mixingMatrix_conj pairs _ _ q1 fun ij hij => ?_
    rw [q2, if_pos ⟨hp ij hij, ij.2.2⟩]
  rw [hm0, hm1, ← dot_transpose (toB1 (Matrix.map _ _) _), transpose_evolve hH, transpose_toB1_conj, transpose_toB1_conj, dot_evolve_move, dot_comm]

/-- C76: with all phases zero antineutrinos oscillate as neutrinos do. -/
theorem c76_no_phases (pairs : List (Fin n × Fin n)) (hp : ∀ ij ∈ pairs, ij.1 < ij.2) (p : Params) (hz : ∀ i j, i < j → j < n → p.phase i j = 0)
    (o : Obj n) (he : o.ienergy = true) (hnt : o.nt = .both) (hnr : o.nrhos = 2) (hbm : o.basis ≠ .mass) (hb : ∀ f, o.b0 f = projector f)
    (a b : Fin n) (ie : Nat) (hi : ie < o.ne) (t : ℝ) :
    ∃ x, evalFlavorAtNode { fill (withParams pairs p o) (pure a) .flavor with t := t } b ie 0 = .ok x ∧
      evalFlavorAtNode { fill (withParams pairs p o) (pure a) .flavor with t := t } b ie 1 = .ok x := by
  obtain ⟨H, _, hread⟩ := fill_reading (withParams pairs p o) he hbm hb ie hi t
  have h0 := hread 0 (by show 0 < o.nrhos; omega) (Or.inl rfl) a b
  have h1 := hread 1 (by show 1 < o.nrhos; omega) (Or.inr hnt) a b
  refine ⟨_, h0, ?_⟩
  rw [h1]
  have hm : ∀ rho, (withParams pairs p o).mixing rho = mixingMatrix pairs p := by
    intro rho
    show mixingMatrix pairs (cpFix o.nt n rho p) = _
    by_cases ha : anti o.nt rho
    · obtain ⟨q1, q2⟩ := cpFix_anti ha n p
      refine mixingMatrix_congr pairs _ _ q1 fun ij hij => ?_
      rw [q2, if_pos ⟨hp ij hij, ij.2.2⟩, hz _ _ (hp ij hij) ij.2.2, neg_zero]
    · rw [cpFix_nu ha]
  rw [hm, hm]

/-- Three flavours in the usual order of rotations, with a phase of 90 degrees. -/
def demoPairs : List (Fin 3 × Fin 3) := [(1, 2), (0, 2), (0, 1)]

noncomputable def demoParams : Params := ⟨fun _ _ => 1, fun i j => if i = 0 ∧ j = 2 then Real.pi / 2 else 0⟩

example (t : ℝ) : ∃ x, evalFlavorAtNode { fill (withParams demoPairs demoParams (demo .interaction)) (pure 0) .flavor with t := t } 1 1 0 = .ok x ∧
    evalFlavorAtNode { fill (withParams demoPairs demoParams (demo .interaction)) (pure 1) .flavor with t := t } 0 1 1 = .ok x :=
  c76_cpt demoPairs (by decide) demoParams (demo .interaction) rfl rfl rfl (by decide) (fun _ => rfl) 0 1 1 (by decide) t

/-- The phase really changes sign: the antineutrino rotation differs from the neutrino rotation. -/
example : (cpFix .both 3 1 demoParams).phase 0 2 = -(Real.pi / 2) ∧ (cpFix .both 3 0 demoParams).phase 0 2 = Real.pi / 2 := by
  constructor
  · obtain ⟨_, h⟩ := cpFix_anti (nt := .both) (rho := 1) (Or.inr ⟨rfl, rfl⟩) 3 demoParams
    rw [h]; simp [demoParams]
  · rw [cpFix_nu (by unfold anti; decide)]; simp [demoParams]

end Verif.Density
