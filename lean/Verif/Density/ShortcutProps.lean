import Verif.Density.EvolProps

namespace Verif.Density

open Matrix
open Matter (NT)
open scoped ComplexOrder

variable {n : Nat}

/-! ## Phases of a projector -/

theorem phase_projector (k : Fin n) (t : ℝ) :
    phase (projector k : Mat n) t = Matrix.diagonal fun i => if i = k then Complex.exp (Complex.I * t) else 1 := by
  have e : (Complex.I * (t : ℂ)) • (projector k : Mat n) = Matrix.diagonal fun i => if i = k then Complex.I * t else 0 := by
    ext a b
    unfold projector
    rw [Matrix.smul_apply, Matrix.single_apply, Matrix.diagonal_apply]
    by_cases hab : a = b
    · subst hab
      by_cases hak : a = k
      · subst hak; simp
      · simp [hak, Ne.symm hak]
    · rw [if_neg hab, if_neg]
      · simp
      · rintro ⟨rfl, rfl⟩; exact hab rfl
  unfold phase
  rw [e, Matrix.exp_diagonal]
  congr 1
  funext i
  rw [Pi.coe_exp, ← Complex.exp_eq_exp_ℂ]
  split
  · rfl
  · exact Complex.exp_zero

/-- After half an oscillation the two maximally mixed flavours are exchanged. -/
theorem half_turn : evolve (projector 1) Real.pi (toB1 mix45 (projector 0)) = toB1 mix45 (projector 1) ∧
    evolve (projector 1) Real.pi (toB1 mix45 (projector 1)) = toB1 mix45 (projector 0) ∧
    evolve (projector 1) Real.pi (toB1 mix45 (projector 2)) = toB1 mix45 (projector 2) := by
  have h1 : Complex.exp (Complex.I * (Real.pi : ℝ)) = -1 := by rw [mul_comm]; exact Complex.exp_pi_mul_I
  have h2 : Complex.exp (Complex.I * ((-Real.pi : ℝ) : ℂ)) = -1 := by
    rw [Complex.ofReal_neg, mul_neg, Complex.exp_neg, h1]; norm_num
  unfold evolve
  rw [phase_projector, phase_projector, h1, h2, mix45_zero, mix45_one, mix45_two]
  refine ⟨?_, ?_, ?_⟩ <;> ext i j <;> rw [Matrix.mul_diagonal, Matrix.diagonal_mul] <;> fin_cases i <;> fin_cases j <;> simp

/-! ## C56: oscillations switched off -/

theorem demo_h0s (v : Nat → Nat → Fin 3 → ℝ) : (fill (demo1 .interaction) v .flavor).h0s 0 = projector 1 ∧
    (fill (demo1 .interaction) v .flavor).dm2 = projector 1 := by
  have hd : (fill (demo1 .interaction) v .flavor).dm2 = projector 1 := by
    unfold fill iniH0 setIniFlavorProjectors
    simp only [demo1, demo, if_true]
    have : (List.finRange 3) = [0, 1, 2] := rfl
    rw [this]
    simp
  refine ⟨?_, hd⟩
  have : (fill (demo1 .interaction) v .flavor).h0s 0 = (1 / 2 / (1 / 2) : ℝ) • (fill (demo1 .interaction) v .flavor).dm2 := by
    unfold fill iniH0 setIniFlavorProjectors h0
    simp only [demo1, demo, if_true, Nat.zero_lt_one]
  rw [this, hd]
  norm_num

/-- C56, disagreement: an evolution in the interaction basis leaves the stored projectors rotated; switched off, oscillations no longer rotate
the ones the contents are read with. Here a content of -1 stays and an unrelated flavour gains 1. -/
theorem c56_switched_off_violated : ∃ o o' : Obj 3, Good o ∧
    o = { evolveProjectors (fill (demo1 .interaction) minusOne .flavor) id o.t with ioscillations := false, t := o.t } ∧
    (evalFlavorAtNode o 0 0 0 = .ok (-1) ∧ evalFlavorAtNode o 1 0 0 = .ok 0) ∧ positivize o = .ok o' ∧
    evalFlavorAtNode o' 0 0 0 = .ok (-1) ∧ evalFlavorAtNode o' 1 0 0 = .ok 1 := by
  let p := fill (demo1 .interaction) minusOne .flavor
  have hg : Good p := good_fill (demo1 .interaction) (demo1_ready _) rfl _ _
  have hf := fill_demo_op .interaction minusOne
  have hp1 : p.nrhos = 1 ∧ p.ne = 1 ∧ p.tini = 5 ∧ p.basis = .interaction := by
    refine ⟨?_, ?_, ?_, ?_⟩ <;> simp [p, fill, iniH0, setIniFlavorProjectors, demo1, demo]
  let o : Obj 3 := { evolveProjectors p id (5 + Real.pi) with ioscillations := false, t := 5 + Real.pi }
  have ho : Good o := ⟨⟨hg.ready.b0, hg.ready.mixing, hg.ready.nrhos⟩, hg.ienergy, hg.b1, hg.dm2⟩
  have hop : ∀ f, op o 0 f 0 = toB1 mix45 (projector f) := by
    intro f
    have h0z : h0 o (o.energies 0) = 0 := by unfold h0; rfl
    have hb : o.basis ≠ .mass := by rw [show o.basis = .interaction from hp1.2.2.2]; simp
    unfold op
    rw [if_neg hb, h0z]
    unfold evolve
    rw [phase_zero_matrix, phase_zero_matrix, Matrix.one_mul, Matrix.mul_one]
    exact (hf f).2.1
  have hD : o.evolB1 0 0 0 = toB1 mix45 (projector 1) := by
    show (if 0 < p.nrhos ∧ 0 < p.ne then id (evolve (p.h0s 0) (5 + Real.pi - p.tini) (p.b1 0 0)) else p.evolB1 0 0 0) = _
    have ht : 5 + Real.pi - (5 : ℝ) = Real.pi := by ring
    rw [if_pos (by rw [hp1.1, hp1.2.1]; simp), hp1.2.2.1, ht, (hf 0).2.1, (demo_h0s minusOne).1, half_turn.1]
    rfl
  have hst : o.state 0 0 = (-1 : ℝ) • op o 0 0 0 := by
    rw [hop]
    exact (hf 0).2.2.trans (sum_minusOne _)
  have hr : 0 < o.nrhos := by rw [show o.nrhos = 1 from hp1.1]; exact Nat.zero_lt_one
  have d : ∀ f, dot (op o 0 f 0) (toB1 mix45 (projector 1)) = if f = 1 then 1 else 0 := by
    intro f; rw [← hop 1, dot_op ho hr]
  obtain ⟨o', h1, h2⟩ := positivize_demo o ho hp1.1 hp1.2.1 _ hD hst (by rw [d]; norm_num) (by rw [d, if_neg (by decide : ¬(2 : Fin 3) = 1)])
  refine ⟨o, o', ho, rfl, ⟨?_, ?_⟩, h1, ?_, ?_⟩
  · rw [eval_eq ho hr, hst, dot_smul, dot_op ho hr, if_pos rfl, mul_one]
  · rw [eval_eq ho hr, hst, dot_smul, dot_op ho hr, if_neg (by decide), mul_zero]
  · rw [h2, d, if_pos rfl, if_neg (by decide)]; norm_num
  · rw [h2, d, if_pos rfl, if_neg (by decide)]; norm_num

/-! ## C73 -/

/-- The Hamiltonian of the medium at a node: vacuum term plus the potential of each flavour. -/
noncomputable def fullHamiltonian (c dens ye : ℝ) (o : Obj n) (rho ie : Nat) : Mat n :=
  h0 o (o.energies ie) + Matter.matterTerm c dens ye (decide (o.nt = .antineutrino ∨ (o.nt = .both ∧ rho = 1))) n
    (fun f => if h : f < n then o.b1 rho ⟨f, h⟩ else 0)

theorem hamiltonian_full (c dens ye : ℝ) (hye : 1 / 10 ^ 10 ≤ ye) (hn : 3 ≤ n) (o : Obj n) (rho ie : Nat) (hb : o.basis = .mass)
    (hh : o.h0s ie = h0 o (o.energies ie)) :
    hamiltonian c dens ye o (Fin.castLE hn) (fun f => o.b1 rho f) ie rho = fullHamiltonian c dens ye o rho ie := by
  unfold hamiltonian fullHamiltonian
  rw [if_pos hb, hh]
  have e : ∀ (p : Nat → Mat n) (h : Mat n), Matter.hi c dens ye o.nt .mass rho p h = Matter.hi c dens ye o.nt .interaction rho p h + h := by
    intro p h; simp [Matter.hi]
  rw [e, Matter.c52_potential_partial c dens ye hye o.nt rho n hn, Matter.matterTerm_three _ _ _ _ n hn, Matter.matterTerm_three _ _ _ _ n hn, add_comm]
  have h0 : (0 : Nat) < n := by omega
  have h1 : (1 : Nat) < n := by omega
  have h2 : (2 : Nat) < n := by omega
  simp only [h0, h1, h2, dif_pos, Nat.zero_lt_succ, Nat.one_lt_succ_succ, Nat.lt_succ_self, Fin.castLE_mk]

theorem shortcut_state (c dens ye length : ℝ) (fl : Fin 3 → Fin n) (o : Obj n) (rho ie : Nat) (hi : ie < o.ne) (hr : rho < o.nrhos) :
    (shortcut c dens ye length fl o).state ie rho =
      uTransform (hamiltonian c dens ye { o with full := true, basis := .mass, t := o.t + length } fl (fun f => o.evolB1 rho f ie) ie rho)
        length (o.state ie rho) := if_pos ⟨hi, hr⟩

/-- C73, partial: for a state that is in the Schrödinger picture (fresh, or evolved in the mass basis) the constant-density shortcut gives the
value at the end of the track of the solution of the equation of motion with the vacuum plus matter Hamiltonian, forwards and backwards,
and both readings are traces with the flavour projectors. Missing: electron fractions below 1e-10 (C52) and states left by an evolution in
the interaction basis (`c73_interaction_picture_violated`). -/
theorem c73_shortcut_exact_partial (c dens ye length : ℝ) (hye : 1 / 10 ^ 10 ≤ ye) (hn : 3 ≤ n) (o : Obj n) (ho : Good o) (rho ie : Nat)
    (hr : rho < o.nrhos) (hi : ie < o.ne) (hfresh : ∀ f, o.evolB1 rho f ie = o.b1 rho f) (hh : o.h0s ie = h0 o (o.energies ie))
    (hpic : o.basis = .mass ∨ o.t = o.tini) :
    (∀ ρ a, 0 ≤ length → Solves (fun _ => fullHamiltonian c dens ye o rho ie) ρ a (a + length) → ρ a = o.state ie rho →
      (shortcut c dens ye length (Fin.castLE hn) o).state ie rho = ρ (a + length)) ∧
    (∀ ρ a, length ≤ 0 → Solves (fun _ => fullHamiltonian c dens ye o rho ie) ρ (a + length) a → ρ a = o.state ie rho →
      (shortcut c dens ye length (Fin.castLE hn) o).state ie rho = ρ (a + length)) ∧
    (∀ f, evalFlavorAtNode o f ie rho = .ok (dot (toB1 (o.mixing rho) (projector f)) (o.state ie rho)) ∧
      evalFlavorAtNode (shortcut c dens ye length (Fin.castLE hn) o) f ie rho =
        .ok (dot (toB1 (o.mixing rho) (projector f)) ((shortcut c dens ye length (Fin.castLE hn) o).state ie rho))) := by
  have hg : Good (shortcut c dens ye length (Fin.castLE hn) o) :=
    ⟨⟨ho.ready.b0, ho.ready.mixing, ho.ready.nrhos⟩, ho.ienergy, ho.b1, ho.dm2⟩
  have hst := shortcut_state c dens ye length (Fin.castLE hn) o rho ie hi hr
  have hev : (fun f => o.evolB1 rho f ie) = fun f => o.b1 rho f := funext hfresh
  have hH : hamiltonian c dens ye { o with full := true, basis := .mass, t := o.t + length } (Fin.castLE hn) (fun f => o.evolB1 rho f ie) ie rho =
      fullHamiltonian c dens ye o rho ie := by
    rw [hev]
    exact hamiltonian_full c dens ye hye hn { o with full := true, basis := .mass, t := o.t + length } rho ie rfl hh
  rw [hH] at hst
  refine ⟨?_, ?_, ?_⟩
  · intro ρ a hl hs ha
    rw [hst, ← ha, hs.unique (a + length) ⟨by linarith, le_refl _⟩]
    congr 1; ring
  · intro ρ a hl hs ha
    have h := hs.unique a ⟨by linarith, le_refl _⟩
    have e : a - (a + length) = -length := by ring
    rw [hst, ← ha, h, e]
    unfold uTransform
    rw [neg_neg]
    calc _ = (phase (fullHamiltonian c dens ye o rho ie) (-length) * phase (fullHamiltonian c dens ye o rho ie) length) * ρ (a + length) *
          (phase (fullHamiltonian c dens ye o rho ie) (-length) * phase (fullHamiltonian c dens ye o rho ie) length) := by simp only [Matrix.mul_assoc]
      _ = _ := by rw [phase_neg', Matrix.one_mul, Matrix.mul_one]
  · intro f
    constructor
    · rw [eval_eq ho hr]
      unfold op
      rcases hpic with h | h
      · rw [if_pos h, ho.b1 rho f hr]
      · rw [h, sub_self, evolve_zero_time, ite_self, ho.b1 rho f hr]
    · rw [eval_eq hg hr]
      unfold op
      rw [if_pos (show (shortcut c dens ye length (Fin.castLE hn) o).basis = .mass from rfl)]
      have : (shortcut c dens ye length (Fin.castLE hn) o).b1 rho f = toB1 (o.mixing rho) (projector f) := ho.b1 rho f hr
      rw [this]

/-- The hypotheses hold after setting an initial state, and there is a solution. -/
example (c dens length : ℝ) (hl : 0 ≤ length) :
    (shortcut c dens (1 / 2) length (Fin.castLE (le_refl 3)) (fill (demo .interaction) (fun _ _ _ => 1) .flavor)).state 1 1 =
      uTransform (fullHamiltonian c dens (1 / 2) (fill (demo .interaction) (fun _ _ _ => 1) .flavor) 1 1) length
        ((fill (demo .interaction) (fun _ _ _ => 1) .flavor).state 1 1) := by
  have h := (c73_shortcut_exact_partial c dens (1 / 2) length (by norm_num) (le_refl 3) (fill (demo .interaction) (fun _ _ _ => 1) .flavor)
    (good_fill (demo .interaction) (demo_ready _) rfl _ _) 1 1 (by simp [fill, iniH0, setIniFlavorProjectors, demo])
    (by simp [fill, iniH0, setIniFlavorProjectors, demo]) (by intro f; simp [fill, iniH0, setIniFlavorProjectors, demo])
    (by simp [fill, iniH0, setIniFlavorProjectors, demo, h0]) (Or.inr (by simp [fill, iniH0, setIniFlavorProjectors, demo]))).1
    (fun t => uTransform (fullHamiltonian c dens (1 / 2) (fill (demo .interaction) (fun _ _ _ => 1) .flavor) 1 1) (t - 0)
        ((fill (demo .interaction) (fun _ _ _ => 1) .flavor).state 1 1)) 0 hl (solves_constant _ _ _ _) (by
      unfold uTransform; rw [sub_self, neg_zero, phase_zero_time, Matrix.one_mul, Matrix.mul_one])
  rw [h]; congr 1; ring

/-- C73, disagreement: an evolution in the interaction basis leaves the state in the interaction picture; the shortcut takes it for one in the
Schrödinger picture. Here half an oscillation in vacuum (which leaves the interaction-picture state as it was) turned all of one flavour
into another; after the shortcut over a track of length zero it is the first flavour again. -/
theorem c73_interaction_picture_violated : ∃ o : Obj 3, Good o ∧
    o = { evolveProjectors (fill (demo1 .interaction) (fun _ _ f => if f = 0 then 1 else 0) .flavor) id o.t with t := o.t } ∧
    evalFlavorAtNode o 0 0 0 = .ok 0 ∧ evalFlavorAtNode o 1 0 0 = .ok 1 ∧
    ∀ c dens ye, evalFlavorAtNode (shortcut c dens ye 0 (Fin.castLE (le_refl 3)) o) 0 0 0 = .ok 1 ∧
      evalFlavorAtNode (shortcut c dens ye 0 (Fin.castLE (le_refl 3)) o) 1 0 0 = .ok 0 := by
  let v : Nat → Nat → Fin 3 → ℝ := fun _ _ f => if f = 0 then 1 else 0
  let p := fill (demo1 .interaction) v .flavor
  have hg : Good p := good_fill (demo1 .interaction) (demo1_ready _) rfl _ _
  have hf := fill_demo_op .interaction v
  have hp1 : p.nrhos = 1 ∧ p.ne = 1 ∧ p.tini = 5 ∧ p.basis = .interaction ∧ p.energies 0 = 1 / 2 ∧ p.ioscillations = true := by
    refine ⟨?_, ?_, ?_, ?_, ?_, ?_⟩ <;> simp [p, fill, iniH0, setIniFlavorProjectors, demo1, demo]
  let o : Obj 3 := { evolveProjectors p id (5 + Real.pi) with t := 5 + Real.pi }
  have ho : Good o := ⟨⟨hg.ready.b0, hg.ready.mixing, hg.ready.nrhos⟩, hg.ienergy, hg.b1, hg.dm2⟩
  have hr : 0 < o.nrhos := by rw [show o.nrhos = 1 from hp1.1]; exact Nat.zero_lt_one
  have hb : o.basis ≠ .mass := by rw [show o.basis = .interaction from hp1.2.2.2.1]; simp
  have hh : h0 o (o.energies 0) = projector 1 := by
    show (if p.ioscillations = true then (1 / 2 / p.energies 0) • p.dm2 else 0) = _
    rw [if_pos hp1.2.2.2.2.2, hp1.2.2.2.2.1, (demo_h0s v).2]
    norm_num
  have ht : o.t - o.tini = Real.pi := by
    show 5 + Real.pi - p.tini = _
    rw [hp1.2.2.1]; ring
  have hst : o.state 0 0 = toB1 mix45 (projector 0) := by
    show p.state 0 0 = _
    rw [(hf 0).2.2]
    simp [v]
  have hop : ∀ f, op o 0 f 0 = evolve (projector 1) Real.pi (toB1 mix45 (projector f)) := by
    intro f
    unfold op
    rw [if_neg hb, hh, ht]
    exact congrArg _ (hf f).2.1
  refine ⟨o, ho, rfl, ?_, ?_, ?_⟩
  · rw [eval_eq ho hr, hst, hop, half_turn.1, dot_b1 mix45_unitary, if_neg (by decide)]
  · rw [eval_eq ho hr, hst, hop, half_turn.2.1, dot_b1 mix45_unitary, if_pos rfl]
  · intro c dens ye
    have hg' : Good (shortcut c dens ye 0 (Fin.castLE (le_refl 3)) o) :=
      ⟨⟨ho.ready.b0, ho.ready.mixing, ho.ready.nrhos⟩, ho.ienergy, ho.b1, ho.dm2⟩
    have hst' : (shortcut c dens ye 0 (Fin.castLE (le_refl 3)) o).state 0 0 = toB1 mix45 (projector 0) := by
      have h := shortcut_state c dens ye 0 (Fin.castLE (le_refl 3)) o 0 0 (by rw [show o.ne = 1 from hp1.2.1]; exact Nat.zero_lt_one) hr
      rw [h, hst]
      unfold uTransform
      rw [neg_zero, phase_zero_time, Matrix.one_mul, Matrix.mul_one]
    have hop' : ∀ f, op (shortcut c dens ye 0 (Fin.castLE (le_refl 3)) o) 0 f 0 = toB1 mix45 (projector f) := by
      intro f
      unfold op
      rw [if_pos (show (shortcut c dens ye 0 (Fin.castLE (le_refl 3)) o).basis = .mass from rfl)]
      exact (hf f).2.1
    constructor
    · rw [eval_eq hg' hr, hst', hop', dot_b1 mix45_unitary, if_pos rfl]
    · rw [eval_eq hg' hr, hst', hop', dot_b1 mix45_unitary, if_neg (by decide)]

end Verif.Density
