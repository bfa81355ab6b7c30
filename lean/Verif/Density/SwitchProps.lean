import Verif.Density.Switch

/-!
# Property C110: oscillations may be switched off or on between evolutions
-/

namespace Verif.Density

open Matrix
open Matter (NT)

variable {n : Nat}

/-! ## Specification -/

/-- Every flavour and mass content, at every node and of every type, is read alike in `o` and `o'`. -/
def ReadsAlike (o o' : Obj n) : Prop :=
  ∀ f ie rho, evalFlavorAtNode o' f ie rho = evalFlavorAtNode o f ie rho ∧ evalMassAtNode o' f ie rho = evalMassAtNode o f ie rho

/-- The projectors used for the interactions are the same at all nodes, as `UpdateInteractions` takes for granted when oscillations are
off (nuSQuIDS.cpp 662-677). -/
def SameAtAllNodes (o : Obj n) : Prop := ∀ rho f e e', rho < o.nrhos → e < o.ne → e' < o.ne → o.evolB1 rho f e = o.evolB1 rho f e'

/-! ## What holds -/

/-- C110, partial: the switch changes nothing that is read in the mass basis or before the clock has moved, or if it is set to what it
was. Missing: elsewhere (`c110_off_violated`, `c110_on_violated`). -/
theorem c110_reading_partial (o : Obj n) (b : Bool) (h : o.basis = .mass ∨ o.t = o.tini ∨ b = o.ioscillations) :
    ReadsAlike o (setOscillations o b) := by
  intro f ie rho
  rcases h with h | h | h
  · unfold evalFlavorAtNode evalMassAtNode
    have hb : (setOscillations o b).basis = .mass := h
    rw [if_pos hb, if_pos h, if_pos hb, if_pos h]
    exact ⟨rfl, rfl⟩
  · have ht : (setOscillations o b).t - (setOscillations o b).tini = 0 := sub_eq_zero.2 h
    unfold evalFlavorAtNode evalMassAtNode expectation
    rw [ht, sub_eq_zero.2 h]
    simp only [evolve_zero_time]
    exact ⟨rfl, rfl⟩
  · subst h
    exact ⟨rfl, rfl⟩

/-- The clock at its start, in the interaction basis. -/
example : (fill (demo .interaction) (fun _ _ f => if f = 0 then 1 else 0) .flavor).basis = .interaction ∧
    ReadsAlike (fill (demo .interaction) (fun _ _ f => if f = 0 then 1 else 0) .flavor)
      (setOscillations (fill (demo .interaction) (fun _ _ f => if f = 0 then 1 else 0) .flavor) false) := by
  refine ⟨by simp [fill, iniH0, setIniFlavorProjectors, demo], c110_reading_partial _ _ (Or.inr (Or.inl ?_))⟩
  simp [fill, iniH0, setIniFlavorProjectors, demo]

/-- C110: mass contents are never changed by the switch, whatever the time and the working basis. -/
theorem c110_masses (o : Obj n) (ho : Ready o) (hd : DiagonalMasses o) (b : Bool) (f : Fin n) (ie rho : Nat) :
    evalMassAtNode (setOscillations o b) f ie rho = evalMassAtNode o f ie rho := by
  have e : ∀ p : Obj n, DiagonalMasses p → (∀ f, p.b0 f = projector f) →
      expectation p (p.b0 f) rho ie = dot (p.state ie rho) (projector f) := by
    intro p hp hb
    obtain ⟨d, hd⟩ := h0_diagonal hp (p.energies ie)
    unfold expectation
    rw [hd, hb f, dot_evolve_diagonal]
  unfold evalMassAtNode
  rw [e o hd ho.b0, e (setOscillations o b) hd ho.b0]
  rfl

/-- A state of definite flavour after some time in the interaction basis. -/
example (t : ℝ) (b : Bool) (f : Fin 3) :
    let o : Obj 3 := { fill (demo .interaction) (fun _ _ f => if f = 0 then 1 else 0) .flavor with t := t }
    evalMassAtNode (setOscillations o b) f 1 1 = evalMassAtNode o f 1 1 := by
  intro o
  have h := good_fill (demo .interaction) (demo_ready .interaction) rfl (fun _ _ f => if f = 0 then 1 else 0) .flavor
  exact c110_masses o ⟨h.ready.b0, h.ready.mixing, h.ready.nrhos⟩
    (diagonal_fill (demo .interaction) (demo_ready .interaction) (fun _ _ f => if f = 0 then 1 else 0) .flavor) b f 1 1

/-- C110: after the switch a new initial state puts everything in order, whatever happened to the object before: it is ready to evolve with
the new setting, and without oscillations every flavour keeps the content given at all later times, in any matter. -/
theorem c110_restart (c : ℝ) (dens ye : ℝ → ℝ) (hn : 3 ≤ n) (o : Obj n) (ho : Ready o) (he : o.ienergy = true) (b : Bool)
    (v : Nat → Nat → Fin n → ℝ) (ie rho : Nat) (hi : ie < o.ne) (hr : rho < o.nrhos) :
    Prepared (fill (setOscillations o b) v .flavor) ie rho ∧ (fill (setOscillations o b) v .flavor).ioscillations = b ∧
    (b = false → ∀ (ρ : ℝ → Mat n) (T : ℝ), (n = 3 ∨ ∀ t ∈ Set.Ico o.trackStart T, dens t = 0 ∨ 1 / 10 ^ 10 ≤ ye t) →
      Solves (motion c dens ye (Fin.castLE hn) (fill (setOscillations o b) v .flavor) ie rho) ρ o.trackStart T →
      ρ o.trackStart = (fill (setOscillations o b) v .flavor).state ie rho → ∀ t ∈ Set.Icc o.trackStart T, ∀ f,
        evalFlavorAtNode (atTime (fill (setOscillations o b) v .flavor) ie rho t (ρ t)) f ie rho = .ok (v ie rho f)) := by
  have ho' : Ready (setOscillations o b) := ⟨ho.b0, ho.mixing, ho.nrhos⟩
  have he' : (setOscillations o b).ienergy = true := he
  have hp := c97_prepared (setOscillations o b) ho' he' v .flavor ie rho hi hr
  have hosc : (fill (setOscillations o b) v .flavor).ioscillations = b := by
    unfold fill iniH0 setIniFlavorProjectors
    simp only [he', if_true]
    rfl
  refine ⟨hp, hosc, ?_⟩
  intro hb ρ T hye hs h0' t ht f
  have ht0 : (fill (setOscillations o b) v .flavor).t = o.trackStart := by
    unfold fill iniH0 setIniFlavorProjectors
    simp only [he', if_true]
    rfl
  have hstart : physical (fill (setOscillations o b) v .flavor) ie rho o.trackStart (ρ o.trackStart) =
      Matrix.diagonal fun f => ((v ie rho f : ℝ) : ℂ) := by
    rw [h0', ← ht0]
    exact c97_initial (setOscillations o b) ho' he' v ie rho hi hr
  have hH : ∀ t, ∃ d : Fin n → ℂ, flavourHamiltonian c (dens t) (ye t) (fill (setOscillations o b) v .flavor) ie rho = Matrix.diagonal d := by
    intro t
    have hz : h0 (fill (setOscillations o b) v .flavor) ((fill (setOscillations o b) v .flavor).energies ie) = 0 := by
      unfold h0; rw [hosc, hb]; rfl
    unfold flavourHamiltonian
    rw [hz, Matrix.mul_zero, Matrix.zero_mul, zero_add]
    exact ⟨_, rfl⟩
  have hσ : Solves (fun t => flavourHamiltonian c (dens t) (ye t) (fill (setOscillations o b) v .flavor) ie rho)
      (fun _ => Matrix.diagonal fun f => ((v ie rho f : ℝ) : ℂ)) o.trackStart T := by
    refine ⟨∅, Set.finite_empty, fun _ _ => continuousOn_const, fun t _ _ i j => ?_⟩
    obtain ⟨d, hd⟩ := hH t
    rw [hd, Matrix.diagonal_mul_diagonal, Matrix.diagonal_mul_diagonal]
    refine (hasDerivWithinAt_const _ _ _).congr_deriv ?_
    rw [show (fun i => d i * ((v ie rho i : ℝ) : ℂ)) = fun i => ((v ie rho i : ℝ) : ℂ) * d i from funext fun i => mul_comm _ _, sub_self, smul_zero]
    rfl
  rw [c97_solution_partial c dens ye hn _ ie rho hp ρ _ o.trackStart T hye hs hσ hstart.symm t ht f]
  rw [Matrix.diagonal_apply_eq, Complex.ofReal_re]

/-- An object whose clock has moved and whose projectors are rotated: switched off and given a new state, it keeps it in vacuum. -/
example (basis : Basis) (x : ℝ) : ∃ ρ : ℝ → Mat 3,
    let o := evolveProjectors (fill (demo basis) (fun _ _ _ => 1) .flavor) id x
    Solves (motion 1 (fun _ => 0) (fun _ => 1) (Fin.castLE (le_refl 3)) (fill (setOscillations o false) (fun _ _ f => if f = 2 then 4 else 0) .flavor) 1 1)
      ρ 5 9 ∧ evalFlavorAtNode (atTime (fill (setOscillations o false) (fun _ _ f => if f = 2 then 4 else 0) .flavor) 1 1 8 (ρ 8)) 2 1 1 = .ok 4 := by
  let o := evolveProjectors (fill (demo basis) (fun _ _ _ => 1) .flavor) id x
  have hg : Good (fill (demo basis) (fun _ _ _ => 1) .flavor) := good_fill (demo basis) (demo_ready basis) rfl _ _
  have ho : Ready o := ⟨hg.ready.b0, hg.ready.mixing, hg.ready.nrhos⟩
  have hs : o.trackStart = 5 ∧ o.ne = 2 ∧ o.nrhos = 2 := by
    refine ⟨?_, ?_, ?_⟩ <;> simp [o, evolveProjectors, fill, iniH0, setIniFlavorProjectors, demo]
  have hr := c110_restart 1 (fun _ => 0) (fun _ => 1) (le_refl 3) o ho hg.ienergy false (fun _ _ f => if f = 2 then 4 else 0) 1 1
    (by rw [hs.2.1]; decide) (by rw [hs.2.2]; decide)
  have ht : (fill (setOscillations o false) (fun _ _ f => if f = 2 then 4 else 0) .flavor).tini = 5 := by
    rw [← hs.1]
    simp [o, setOscillations, evolveProjectors, fill, iniH0, setIniFlavorProjectors, demo]
  obtain ⟨ρ, h1, h2⟩ := vacuum_solution 1 (fun _ => 1) (le_refl 3) hr.1
    ((fill (setOscillations o false) (fun _ _ f => if f = 2 then 4 else 0) .flavor).state 1 1) 9
  rw [ht] at h1 h2
  refine ⟨ρ, h2, ?_⟩
  have := hr.2.2 rfl ρ 9 (Or.inl rfl)
  rw [hs.1] at this
  exact (this h2 h1 8 ⟨by norm_num, by norm_num⟩ 2).trans (by simp)

/-- C110, partial: with oscillations off when the initial state was set, and since then, the projectors of all nodes are the same. Missing:
oscillations switched off later (`c110_nodes_violated`). -/
theorem c110_nodes_partial (o : Obj n) (he : o.ienergy = true) (v : Nat → Nat → Fin n → ℝ) (b : Basis) (t : ℝ) :
    SameAtAllNodes (preDerive (fill (setOscillations o false) v b) t) := by
  have hp : preDerive (fill (setOscillations o false) v b) t = fill (setOscillations o false) v b := by
    have hosc : (fill (setOscillations o false) v b).ioscillations = false := by
      unfold fill iniH0 setIniFlavorProjectors setOscillations
      simp only [he, if_true]
    unfold preDerive
    rw [if_neg (fun h => by rw [hosc] at h; exact absurd h.2 (by decide))]
  rw [hp]
  intro rho f e e' hr h1 h2
  unfold fill iniH0 setIniFlavorProjectors setOscillations at hr h1 h2 ⊢
  simp only [he, if_true] at hr h1 h2 ⊢
  rw [if_pos ⟨hr, h1⟩, if_pos ⟨hr, h2⟩]

example : SameAtAllNodes (preDerive (fill (setOscillations (demo .interaction) false) (fun _ _ _ => 1) .flavor) 7) ∧ (demo .interaction).ne = 2 :=
  ⟨c110_nodes_partial _ rfl _ _ _, rfl⟩

/-! ## Where it fails -/

/-- Half an oscillation in vacuum: the first flavour has become the second. The projectors are those of the last call of the derivative. -/
noncomputable def halfway (on : Bool) (basis : Basis) : Obj 3 :=
  { preDerive (fill (setOscillations (demo1 basis) on) (fun _ _ f => if f = 0 then 1 else 0) .flavor) (5 + Real.pi) with t := 5 + Real.pi }

theorem halfway_fields (on : Bool) (basis : Basis) : (halfway on basis).nrhos = 1 ∧ (halfway on basis).ne = 1 ∧ (halfway on basis).tini = 5 ∧
    (halfway on basis).basis = basis ∧ (halfway on basis).energies 0 = 1 / 2 ∧ (halfway on basis).ioscillations = on ∧
    (halfway on basis).nt = .neutrino ∧ (halfway on basis).ienergy = true := by
  unfold halfway preDerive evolveProjectors
  split <;> (refine ⟨?_, ?_, ?_, ?_, ?_, ?_, ?_, ?_⟩ <;> simp [fill, iniH0, setIniFlavorProjectors, setOscillations, demo1, demo])

theorem halfway_b1 (on : Bool) (basis : Basis) (f : Fin 3) : (halfway on basis).b1 0 f = toB1 mix45 (projector f) := by
  unfold halfway preDerive evolveProjectors
  split <;> simp [fill, iniH0, setIniFlavorProjectors, setOscillations, demo1, demo]

theorem halfway_state (on : Bool) (basis : Basis) : (halfway on basis).state 0 0 = toB1 mix45 (projector 0) := by
  unfold halfway preDerive evolveProjectors
  split <;> simp [fill, iniH0, setIniFlavorProjectors, setOscillations, demo1, demo, foldl_finRange]

theorem halfway_dm2 (on : Bool) (basis : Basis) : (halfway on basis).dm2 = projector 1 := by
  have e : (List.finRange 3) = [0, 1, 2] := rfl
  unfold halfway preDerive evolveProjectors
  split <;> (simp only [fill, iniH0, setIniFlavorProjectors, setOscillations, demo1, demo, if_true]; rw [e]; simp)

theorem halfway_h0 (on : Bool) (basis : Basis) (b : Bool) :
    h0 (setOscillations (halfway on basis) b) ((halfway on basis).energies 0) = if b then projector 1 else 0 := by
  unfold h0
  rw [(halfway_fields on basis).2.2.2.2.1]
  show (if b = true then (1 / 2 / (1 / 2) : ℝ) • (halfway on basis).dm2 else 0) = _
  rw [halfway_dm2]
  norm_num

theorem halfway_good (b : Bool) : Good (setOscillations (halfway true .interaction) b) := by
  have hg := good_fill (setOscillations (demo1 .interaction) true) ⟨fun _ => rfl, fun _ => mix45_unitary, rfl⟩ rfl
    (fun _ _ f => if f = 0 then 1 else 0) .flavor
  unfold halfway preDerive
  split <;> exact ⟨⟨hg.ready.b0, hg.ready.mixing, hg.ready.nrhos⟩, hg.ienergy, hg.b1, hg.dm2⟩

theorem setOscillations_same (o : Obj n) (b : Bool) (h : o.ioscillations = b) : setOscillations o b = o := by
  subst h; rfl

theorem halfway_eval (on : Bool) (b : Bool) (f : Fin 3) : evalFlavorAtNode (setOscillations (halfway on .interaction) b) f 0 0 =
    .ok (if f = (if b then 1 else 0) then 1 else 0) := by
  have hf := halfway_fields on .interaction
  unfold evalFlavorAtNode expectation
  rw [if_neg (show ¬(setOscillations (halfway on .interaction) b).ienergy = false by
    rw [show (setOscillations (halfway on .interaction) b).ienergy = true from hf.2.2.2.2.2.2.2]; decide),
    if_neg (show ¬((0 : Nat) ≠ 0 ∧ _) by simp),
    if_neg (show ¬(setOscillations (halfway on .interaction) b).basis = .mass by
      rw [show (setOscillations (halfway on .interaction) b).basis = .interaction from hf.2.2.2.1]; decide)]
  have ht : (setOscillations (halfway on .interaction) b).t - (setOscillations (halfway on .interaction) b).tini = Real.pi := by
    show 5 + Real.pi - (halfway on .interaction).tini = _
    rw [hf.2.2.1]; ring
  rw [ht, show (setOscillations (halfway on .interaction) b).b1 0 f = _ from halfway_b1 on .interaction f,
    show (setOscillations (halfway on .interaction) b).state 0 0 = _ from halfway_state on .interaction,
    show (setOscillations (halfway on .interaction) b).energies 0 = (halfway on .interaction).energies 0 from rfl, halfway_h0]
  cases b
  · simp only [Bool.false_eq_true, if_false]
    rw [evolve_zero_ham, dot_b1 mix45_unitary]
    by_cases h : f = 0
    · subst h; rfl
    · rw [if_neg h, if_neg (Ne.symm h)]
  · simp only [if_true]
    fin_cases f
    · simp only [Fin.zero_eta]; rw [half_turn.1, dot_b1 mix45_unitary, if_neg (by decide)]
    · simp only [Fin.mk_one]; rw [half_turn.2.1, dot_b1 mix45_unitary, if_pos rfl, if_pos trivial]
    · show Outcome.ok (dot _ (evolve _ _ (toB1 mix45 (projector 2)))) = _
      rw [half_turn.2.2, dot_b1 mix45_unitary]; simp

/-- C110, disagreement: in the interaction basis the switch undoes the oscillations that have taken place: here all of the first flavour has
become the second, and switching off turns it back at once. -/
theorem c110_off_violated : ∃ o : Obj 3, Good o ∧ o.ioscillations = true ∧ evalFlavorAtNode o 0 0 0 = .ok 0 ∧ evalFlavorAtNode o 1 0 0 = .ok 1 ∧
    evalFlavorAtNode (setOscillations o false) 0 0 0 = .ok 1 ∧ evalFlavorAtNode (setOscillations o false) 1 0 0 = .ok 0 := by
  have hf := halfway_fields true .interaction
  have e : setOscillations (halfway true .interaction) true = halfway true .interaction := setOscillations_same _ _ hf.2.2.2.2.2.1
  have h := halfway_eval true true
  rw [e] at h
  have hg : Good (halfway true .interaction) := e ▸ halfway_good true
  refine ⟨halfway true .interaction, hg, hf.2.2.2.2.2.1, ?_, ?_, ?_, ?_⟩
  · rw [h]; simp
  · rw [h]; simp
  · rw [halfway_eval]; simp
  · rw [halfway_eval]; simp

/-- C110, disagreement: switched on, oscillations are taken to have been on since the initial state: here nothing has happened to the first
flavour, and at once all of it is read as the second. -/
theorem c110_on_violated : ∃ o : Obj 3, o.ioscillations = false ∧ evalFlavorAtNode o 0 0 0 = .ok 1 ∧ evalFlavorAtNode o 1 0 0 = .ok 0 ∧
    evalFlavorAtNode (setOscillations o true) 0 0 0 = .ok 0 ∧ evalFlavorAtNode (setOscillations o true) 1 0 0 = .ok 1 := by
  have hf := halfway_fields false .interaction
  have e : setOscillations (halfway false .interaction) false = halfway false .interaction := setOscillations_same _ _ hf.2.2.2.2.2.1
  have h := halfway_eval false false
  rw [e] at h
  refine ⟨halfway false .interaction, hf.2.2.2.2.2.1, ?_, ?_, ?_, ?_⟩
  · rw [h]; simp
  · rw [h]; simp
  · rw [halfway_eval]; simp
  · rw [halfway_eval]; simp

/-- In the mass basis the equation of motion does not depend on the switch: the vacuum Hamiltonian is the one stored with the initial
state. -/
theorem c110_mass_deaf (c : ℝ) (dens ye : ℝ → ℝ) (fl : Fin 3 → Fin n) (o : Obj n) (hb : o.basis = .mass) (b : Bool) (ie rho : Nat) :
    motion c dens ye fl (setOscillations o b) ie rho = motion c dens ye fl o ie rho := by
  funext t
  have h1 : preDerive (setOscillations o b) t = setOscillations o b := by unfold preDerive; rw [if_neg (fun h => h.1 hb)]
  have h2 : preDerive o t = o := by unfold preDerive; rw [if_neg (fun h => h.1 hb)]
  unfold motion
  rw [h1, h2]
  rfl

example (t : ℝ) : motion 1 (fun _ => 1) (fun _ => 1) id (setOscillations (halfway true .mass) false) 0 0 t =
    motion 1 (fun _ => 1) (fun _ => 1) id (halfway true .mass) 0 0 t := by
  rw [c110_mass_deaf _ _ _ _ _ (halfway_fields true .mass).2.2.2.1]

/-- C110, disagreement: in the mass basis switching oscillations off after the initial state has no effect: in vacuum all of the first
flavour still becomes the second. -/
theorem c110_mass_violated : ∃ (o : Obj 3) (ρ : ℝ → Mat 3), o = setOscillations (fill (demo1 .mass) (fun _ _ f => if f = 0 then 1 else 0) .flavor) false ∧
    Solves (motion 1 (fun _ => 0) (fun _ => 1) (Fin.castLE (le_refl 3)) o 0 0) ρ 5 (5 + Real.pi) ∧ ρ 5 = o.state 0 0 ∧ o.t = 5 ∧
    evalFlavorAtNode o 0 0 0 = .ok 1 ∧
    evalFlavorAtNode (atTime o 0 0 (5 + Real.pi) (ρ (5 + Real.pi))) 0 0 0 = .ok 0 ∧
    evalFlavorAtNode (atTime o 0 0 (5 + Real.pi) (ρ (5 + Real.pi))) 1 0 0 = .ok 1 := by
  let v : Nat → Nat → Fin 3 → ℝ := fun _ _ f => if f = 0 then 1 else 0
  let p := fill (demo1 .mass) v .flavor
  let o := setOscillations p false
  have hf := fill_demo_op .mass v
  have hp1 : p.nrhos = 1 ∧ p.ne = 1 ∧ p.tini = 5 ∧ p.t = 5 ∧ p.basis = .mass ∧ p.energies 0 = 1 / 2 ∧ p.ioscillations = true ∧ p.dm2 = projector 1 := by
    have e : (List.finRange 3) = [0, 1, 2] := rfl
    refine ⟨?_, ?_, ?_, ?_, ?_, ?_, ?_, ?_⟩ <;> simp [p, fill, iniH0, setIniFlavorProjectors, demo1, demo, e]
  have hg : Good p := good_fill (demo1 .mass) (demo1_ready _) rfl _ _
  have hpp : Prepared p 0 0 := c97_prepared (demo1 .mass) (demo1_ready _) rfl v .flavor 0 0 (by simp [demo1]) (by simp [demo1])
  have hgo : Good o := ⟨⟨hg.ready.b0, hg.ready.mixing, hg.ready.nrhos⟩, hg.ienergy, hg.b1, hg.dm2⟩
  have hr : 0 < o.nrhos := by rw [show o.nrhos = 1 from hp1.1]; exact Nat.zero_lt_one
  have hst : p.state 0 0 = toB1 mix45 (projector 0) := by
    rw [(hf 0).2.2]
    simp [v]
  have hh : h0 p (p.energies 0) = projector 1 := by
    unfold h0
    rw [if_pos hp1.2.2.2.2.2.2.1, hp1.2.2.2.2.2.1, hp1.2.2.2.2.2.2.2]
    norm_num
  have hz : ∀ y, matter 1 0 y p 0 = 0 := by
    intro y
    unfold matter Matter.matterTerm Matter.flavourPotential
    simp only [mul_zero, zero_mul, ite_self, zero_smul, Finset.sum_const_zero]
  have hm : motion 1 (fun _ => 0) (fun _ => 1) (Fin.castLE (le_refl 3)) o 0 0 = fun _ => projector 1 := by
    rw [show o = setOscillations p false from rfl, c110_mass_deaf _ _ _ _ p hp1.2.2.2.2.1]
    funext t
    rw [motion_vacuum 1 (fun _ => 0) (fun _ => 1) (le_refl 3) hpp t rfl, hz, if_pos hp1.2.2.2.2.1, add_zero, hh]
  have hρ : uTransform (projector 1) (5 + Real.pi - 5) (toB1 mix45 (projector 0)) = toB1 mix45 (projector 1) := by
    rw [show (5 : ℝ) + Real.pi - 5 = Real.pi by ring]
    exact half_turn_back 0 _ half_turn.2.1
  refine ⟨o, fun t => uTransform (projector 1) (t - 5) (toB1 mix45 (projector 0)), rfl, ?_, ?_, hp1.2.2.2.1, ?_, ?_, ?_⟩
  · rw [hm]
    exact solves_constant _ _ _ _
  · dsimp only
    rw [sub_self]
    unfold uTransform
    rw [neg_zero, phase_zero_time, Matrix.one_mul, Matrix.mul_one]
    exact hst.symm
  · rw [eval_eq hgo hr]
    have : op o 0 0 0 = toB1 mix45 (projector 0) := by
      unfold op; rw [if_pos (show o.basis = .mass from hp1.2.2.2.2.1)]; exact (hf 0).2.1
    rw [this, show o.state 0 0 = _ from hst, dot_b1 mix45_unitary, if_pos rfl]
  all_goals
    rw [eval_eq (good_atTime hgo 0 0 _ _) hr]
    dsimp only
    have hs : ∀ A, (atTime o 0 0 (5 + Real.pi) A).state 0 0 = A := fun A => by unfold atTime; simp
    have ho : ∀ f A, op (atTime o 0 0 (5 + Real.pi) A) 0 f 0 = toB1 mix45 (projector f) := by
      intro f A; unfold op; rw [if_pos (show (atTime o 0 0 (5 + Real.pi) A).basis = .mass from hp1.2.2.2.2.1)]; exact (hf f).2.1
    rw [hs, ho, hρ, dot_b1 mix45_unitary]
    simp

theorem halfway_evolved (f : Fin 3) : (halfway true .interaction).evolB1 0 f 0 = evolve (projector 1) Real.pi (toB1 mix45 (projector f)) := by
  have hb : (fill (setOscillations (demo1 .interaction) true) (fun _ _ f => if f = 0 then 1 else 0) .flavor).basis = .interaction := by
    simp [fill, iniH0, setIniFlavorProjectors, setOscillations, demo1, demo]
  have ho : (fill (setOscillations (demo1 .interaction) true) (fun _ _ f => if f = 0 then 1 else 0) .flavor).ioscillations = true := by
    simp [fill, iniH0, setIniFlavorProjectors, setOscillations, demo1, demo]
  have hp := c97_prepared (setOscillations (demo1 .interaction) true) ⟨fun _ => rfl, fun _ => mix45_unitary, rfl⟩ rfl
    (fun _ _ f => if f = 0 then 1 else 0) .flavor 0 0 (by simp [demo1, setOscillations]) (by simp [demo1, setOscillations])
  have h := preDerive_projectors hp (5 + Real.pi) (by rw [hb]; decide) f
  refine h.trans ?_
  have h1 : h0 (fill (setOscillations (demo1 .interaction) true) (fun _ _ f => if f = 0 then 1 else 0) .flavor)
      ((fill (setOscillations (demo1 .interaction) true) (fun _ _ f => if f = 0 then 1 else 0) .flavor).energies 0) = projector 1 := by
    have e : (List.finRange 3) = [0, 1, 2] := rfl
    unfold h0
    rw [if_pos ho]
    simp [fill, iniH0, setIniFlavorProjectors, setOscillations, demo1, demo, e]
  have h2 : (fill (setOscillations (demo1 .interaction) true) (fun _ _ f => if f = 0 then 1 else 0) .flavor).tini = 5 := by
    simp [fill, iniH0, setIniFlavorProjectors, setOscillations, demo1, demo]
  have h3 : (fill (setOscillations (demo1 .interaction) true) (fun _ _ f => if f = 0 then 1 else 0) .flavor).b1 0 f = toB1 mix45 (projector f) := by
    simp [fill, iniH0, setIniFlavorProjectors, setOscillations, demo1, demo]
  rw [h1, h2, h3, show (5 : ℝ) + Real.pi - 5 = Real.pi by ring]

theorem halfway_mixing : (halfway true .interaction).mixing 0 = mix45 := by
  unfold halfway preDerive evolveProjectors
  split <;> simp [fill, iniH0, setIniFlavorProjectors, setOscillations, demo1, demo]

/-- C110, disagreement: switched off in the interaction basis, the projectors of the last step stay in use: here muon neutrinos feel the
potential of the electrons. -/
theorem c110_projectors_violated : ∃ o : Obj 3, Good o ∧ o.ioscillations = false ∧ o.nt = .neutrino ∧ ∀ t,
    (o.mixing 0)ᴴ * motion 1 (fun _ => 1) (fun _ => 1) (Fin.castLE (le_refl 3)) o 0 0 t * o.mixing 0 =
      Matrix.diagonal fun f : Fin 3 => ((Matter.flavourPotential 1 1 1 (if f = 1 then 0 else if f = 0 then 1 else 2) : ℝ) : ℂ) := by
  have hf := halfway_fields true .interaction
  refine ⟨setOscillations (halfway true .interaction) false, halfway_good false, rfl, hf.2.2.2.2.2.2.1, fun t => ?_⟩
  have hp : preDerive (setOscillations (halfway true .interaction) false) t = setOscillations (halfway true .interaction) false := by
    unfold preDerive
    rw [if_neg (fun h => absurd h.2 (by simp [setOscillations]))]
  have hm : motion 1 (fun _ => 1) (fun _ => 1) (Fin.castLE (le_refl 3)) (setOscillations (halfway true .interaction) false) 0 0 t =
      toB1 mix45 (projector 1) := by
    unfold motion hamiltonian Matter.hi Matter.potentials
    rw [hp]
    have h1 : (setOscillations (halfway true .interaction) false).nt = .neutrino := hf.2.2.2.2.2.2.1
    have h2 : (setOscillations (halfway true .interaction) false).basis = .interaction := hf.2.2.2.1
    have h3 : (setOscillations (halfway true .interaction) false).evolB1 0 0 0 = toB1 mix45 (projector 1) :=
      (halfway_evolved 0).trans half_turn.1
    rw [h1, h2]
    have h4 : ¬(1 : ℝ) < 1 / 10 ^ 10 := by norm_num
    simp only [Matter.anti, reduceCtorEq, if_false, h4, decide_false, Nat.zero_lt_succ, dif_pos]
    rw [show (Fin.castLE (le_refl 3) ⟨0, Nat.zero_lt_succ 2⟩ : Fin 3) = 0 from rfl, h3]
    norm_num
  rw [hm, show (setOscillations (halfway true .interaction) false).mixing 0 = mix45 from halfway_mixing]
  have hU : mix45ᴴ * mix45 = 1 := mix45_unitary.star_mul
  have : mix45ᴴ * toB1 mix45 (projector 1) * mix45 = projector 1 := by
    unfold toB1
    calc _ = (mix45ᴴ * mix45) * projector 1 * (mix45ᴴ * mix45) := by simp only [Matrix.mul_assoc]
      _ = _ := by rw [hU, Matrix.one_mul, Matrix.mul_one]
  rw [this]
  ext i j
  fin_cases i <;> fin_cases j <;> simp [projector, Matter.flavourPotential]

/-- Two nodes, the second of half the energy. -/
noncomputable def twoNodes : Obj 3 := { demo .interaction with energies := fun e => if e = 0 then 1 / 2 else 1 / 4 }

/-- C110, disagreement: switched off after some oscillation in the interaction basis, the projectors differ between nodes. -/
theorem c110_nodes_violated : ∃ (o : Obj 3) (t : ℝ), Ready o ∧ o.ienergy = true ∧ ∀ t',
    ¬SameAtAllNodes (preDerive (setOscillations (preDerive (fill o (fun _ _ f => if f = 0 then 1 else 0) .flavor) t) false) t') := by
  refine ⟨twoNodes, 5 + Real.pi, ⟨fun _ => rfl, fun _ => mix45_unitary, rfl⟩, rfl, fun t' => ?_⟩
  let p := fill twoNodes (fun _ _ f => if f = 0 then 1 else 0) .flavor
  let q := setOscillations (preDerive p (5 + Real.pi)) false
  have hq : preDerive q t' = q := by
    unfold preDerive
    rw [if_neg (fun h => absurd h.2 (by simp [q, setOscillations]))]
  have e : (List.finRange 3) = [0, 1, 2] := rfl
  have hp1 : p.basis = .interaction ∧ p.ioscillations = true ∧ p.tini = 5 ∧ p.dm2 = projector 1 ∧ p.b1 0 0 = toB1 mix45 (projector 0) ∧
      p.energies 0 = 1 / 2 ∧ p.energies 1 = 1 / 4 ∧ p.nrhos = 2 ∧ p.ne = 2 := by
    refine ⟨?_, ?_, ?_, ?_, ?_, ?_, ?_, ?_, ?_⟩ <;> simp [p, fill, iniH0, setIniFlavorProjectors, twoNodes, demo, e]
  have hr : Ready twoNodes := ⟨fun _ => rfl, fun _ => mix45_unitary, rfl⟩
  have hpr : ∀ ie, ie < 2 → Prepared p ie 0 := fun ie hi => c97_prepared twoNodes hr rfl _ .flavor ie 0 hi (show 0 < 2 by decide)
  have hev : ∀ ie, ie < 2 → q.evolB1 0 0 ie = evolve ((1 / 2 / p.energies ie : ℝ) • (projector 1 : Mat 3)) Real.pi (toB1 mix45 (projector 0)) := by
    intro ie hi
    have h := preDerive_projectors (hpr ie hi) (5 + Real.pi) (by rw [hp1.1]; decide) 0
    unfold h0 at h
    rw [if_pos hp1.2.1, hp1.2.2.2.1, hp1.2.2.1, hp1.2.2.2.2.1, show (5 : ℝ) + Real.pi - 5 = Real.pi by ring] at h
    exact h
  have hne : preDerive p (5 + Real.pi) = evolveProjectors p id (5 + Real.pi) := by
    unfold preDerive; rw [if_pos ⟨by rw [hp1.1]; decide, hp1.2.1⟩]
  have hn : q.nrhos = 2 ∧ q.ne = 2 := by
    have h1 : q.nrhos = (preDerive p (5 + Real.pi)).nrhos := rfl
    have h2 : q.ne = (preDerive p (5 + Real.pi)).ne := rfl
    rw [h1, h2, hne]
    exact ⟨hp1.2.2.2.2.2.2.2.1, hp1.2.2.2.2.2.2.2.2⟩
  intro hs
  have hs : SameAtAllNodes q := by rw [← hq]; exact hs
  have h := hs 0 0 0 1 (by rw [hn.1]; decide) (by rw [hn.2]; decide) (by rw [hn.2]; decide)
  rw [hev 0 (by decide), hev 1 (by decide), hp1.2.2.2.2.2.1, hp1.2.2.2.2.2.2.1, evolve_smul_ham, evolve_smul_ham,
    show (1 / 2 / (1 / 2) : ℝ) * Real.pi = Real.pi by ring, show (1 / 2 / (1 / 4) : ℝ) * Real.pi = Real.pi + Real.pi by ring,
    ← evolve_twice, half_turn.1, half_turn.2.1] at h
  have := congrArg (fun A => dot (toB1 mix45 (projector 0)) A) h
  simp only [dot_b1 mix45_unitary] at this
  simp at this

end Verif.Density
