import Verif.Density.BackProps

/-!
# C99, C100, C101: where the constant-density shortcut breaks them
-/

namespace Verif.Density

open Matrix
open Matter (NT)
open Update (Net Shape NonNeg)
open scoped ComplexOrder

/-! ### The object of the witnesses -/

/-- One type, one node, maximal mixing, mass basis; all of it is of the first flavour. The clock stands at five. -/
noncomputable def turner : Obj 3 := fill (demo1 .mass) (fun _ _ f => if f = 0 then 1 else 0) .flavor

theorem turner_prepared : AllPrepared turner := fun e r he hr => c97_prepared (demo1 .mass) (demo1_ready .mass) rfl _ .flavor e r he hr

theorem turner_state : turner.state 0 0 = toB1 mix45 (projector 0) := by
  rw [show turner.state 0 0 = _ from (fill_demo_op .mass _ 0).2.2, Fin.sum_univ_three]
  simp

theorem turner_h0 : h0 turner (turner.energies 0) = projector 1 := by
  have hd : turner.dm2 = projector 1 := by
    unfold turner fill iniH0 setIniFlavorProjectors
    simp only [demo1, demo, if_true]
    have : (List.finRange 3) = [0, 1, 2] := rfl
    rw [this]
    simp
  have : h0 turner (turner.energies 0) = (1 / 2 / (1 / 2) : ℝ) • turner.dm2 := rfl
  rw [this, hd]
  norm_num

/-- No matter, no sources, no interactions. -/
noncomputable def empty : Setting 3 := (inert false fun _ _ _ _ => 0).off

/-- A track of half an oscillation length through a vacuum; `constant` is what its body says of its density. -/
noncomputable def half (constant : Bool) : Leg := ⟨⟨fun _ => 0, fun _ => 1 / 2, fun _ _ _ _ => 0⟩, constant, 0, Real.pi⟩

theorem half_along (constant : Bool) (u : ℝ) : empty.along (half constant).med u = empty := rfl

theorem empty_sane (o : Obj 3) (a b : ℝ) : Sane empty o a b := by
  refine ⟨fun t _ => ?_, fun _ _ _ _ _ => le_refl _, fun h => absurd h (by simp [empty, Setting.off, inert, cascade])⟩
  constructor <;> intros <;> (simp [Setting.net, empty, Setting.off, inert, cascade]; try norm_num)

theorem turner_evolves (a b : ℝ) : Evolves empty (le_refl 3) turner (fun t _ _ => uTransform (projector 1) (t - 5) (toB1 mix45 (projector 0))) a b := by
  have hh : ∀ k : Fin 3, (projector k : Mat 3).IsHermitian := fun k => by
    unfold Matrix.IsHermitian projector
    ext i j
    simp only [Matrix.conjTranspose_apply]
    fin_cases i <;> fin_cases j <;> fin_cases k <;> simp
  refine .smooth (fun e r _ _ i j => (uTransform_continuous _ _ _ i j).continuousOn) (fun t _ e r he hr => ?_)
    (fun t _ e r he hr => uTransform_hermitian (hh 1) _ ?_)
  · have he0 : e = 0 := by have : e < 1 := he; omega
    have hr0 : r = 0 := by have : r < 1 := hr; omega
    subst he0; subst hr0
    refine (uTransform_deriv (projector 1) (toB1 mix45 (projector 0)) 5 t _).congr ?_
    unfold Setting.velocity
    rw [motion_vacuum empty.c empty.dens empty.ye (le_refl 3) (turner_prepared 0 0 he hr) t rfl, if_pos (show turner.basis = .mass from rfl), turner_h0,
      gamma_eq, show empty.iint = false from rfl, gain_off (le_refl 3) turner_prepared (fun h => absurd h (by simp [empty, Setting.off, inert, cascade])) rfl rfl he hr]
    have hm : matter empty.c (empty.dens t) (empty.ye t) turner 0 = 0 := by
      unfold matter Matter.matterTerm Matter.flavourPotential
      simp [show empty.dens t = 0 from rfl]
    rw [hm]
    simp
  · unfold toB1
    exact Matrix.isHermitian_mul_mul_conjTranspose _ (hh 0)

theorem turn_half : uTransform (projector 1) Real.pi (toB1 mix45 (projector 0)) = toB1 mix45 (projector 1) := by
  have h1 : Complex.exp (Complex.I * (Real.pi : ℝ)) = -1 := by rw [mul_comm]; exact Complex.exp_pi_mul_I
  have h2 : Complex.exp (Complex.I * ((-Real.pi : ℝ) : ℂ)) = -1 := by
    rw [Complex.ofReal_neg, mul_neg, Complex.exp_neg, h1]; norm_num
  rw [← half_turn.1]
  unfold uTransform evolve
  rw [phase_projector, phase_projector, h1, h2]

theorem turn_whole : uTransform (projector 1) (Real.pi + Real.pi) (toB1 mix45 (projector 0)) = toB1 mix45 (projector 0) := by
  have h1 : Complex.exp (Complex.I * ((Real.pi + Real.pi : ℝ) : ℂ)) = 1 := by
    rw [mul_comm, Complex.ofReal_add, ← two_mul]; exact Complex.exp_two_pi_mul_I
  have h2 : Complex.exp (Complex.I * ((-(Real.pi + Real.pi) : ℝ) : ℂ)) = 1 := by
    rw [Complex.ofReal_neg, mul_neg, Complex.exp_neg, h1]; norm_num
  unfold uTransform
  rw [phase_projector, phase_projector, h1, h2]
  simp

theorem turner_reads {o : Obj 3} (h : Same turner o) (k : Fin 3) (hs : o.state 0 0 = toB1 mix45 (projector k)) (f : Fin 3) :
    evalFlavorAtNode o f 0 0 = .ok (if f = k then 1 else 0) := by
  have hp := h.prepared turner_prepared 0 0 (by rw [h.ne]; exact Nat.one_pos) (by rw [h.nrhos]; exact Nat.one_pos)
  rw [eval_eq hp.good hp.type, hs]
  have hb : o.b1 0 f = toB1 mix45 (projector f) := by rw [h.b1]; exact (fill_demo_op .mass _ f).2.1
  unfold op
  rw [if_pos (show o.basis = .mass from h.basis), hb, dot_b1 mix45_unitary]

/-- C100, disagreement: the constant-density shortcut switches the integrator off and nothing switches it on again. Here two halves of an
oscillation: integrated, they give back the first flavour; if the first takes the shortcut, the second moves the clock and nothing else. -/
theorem c100_shortcut_violated :
    let ls := [half true, half false]
    let T : Traveller 3 := ⟨turner, 0, false, true⟩
    (∃ T₁ T₂, Journey empty (le_refl 3) ls T T₁ ∧ Journey empty (le_refl 3) ls { T with allow := true } T₂) ∧
    ∀ T₁ T₂, Journey empty (le_refl 3) ls T T₁ → Journey empty (le_refl 3) ls { T with allow := true } T₂ →
      T₁.o.t = T₂.o.t ∧ ∀ f, evalFlavorAtNode T₁.o f 0 0 = .ok (if f = 0 then 1 else 0) ∧ evalFlavorAtNode T₂.o f 0 0 = .ok (if f = 1 then 1 else 0) := by
  intro ls T
  have hpi := Real.pi_pos
  have htau : empty.tab.tau = true → turner.nt = .both := fun h => absurd h (by simp [empty, Setting.off, inert, cascade])
  have hherm : ∀ e r, e < turner.ne → r < turner.nrhos → (turner.state e r).IsHermitian := fun e r he hr => by
    have he0 : e = 0 := by have : e < 1 := he; omega
    have hr0 : r = 0 := by have : r < 1 := hr; omega
    subst he0; subst hr0
    have := (turner_evolves 5 5).hermitian 5 ⟨le_refl _, le_refl _⟩ 0 0 he hr
    rw [sub_self] at this
    rw [turner_state]
    unfold uTransform at this
    rwa [neg_zero, phase_zero_time, Matrix.one_mul, Matrix.mul_one] at this
  have hlen : ∀ c, (half c).length = Real.pi := fun c => sub_zero _
  have hw : wayLength ls = Real.pi + Real.pi := by simp [wayLength, ls, hlen]
  have hno : ∀ l ∈ ls, ¬l.Shortcut empty T.allow := fun l _ h => absurd h.2.2 (by simp [T])
  have hfw : ∀ l ∈ ls, l.xini ≤ l.xend := fun l hl => by
    simp only [ls, List.mem_cons, List.not_mem_nil, or_false] at hl
    rcases hl with rfl | rfl <;> exact hpi.le
  have hthr : Through (half true).med 0 ls :=
    ⟨⟨∅, Set.finite_empty, fun _ _ _ => ⟨rfl, rfl, rfl⟩⟩, ⟨∅, Set.finite_empty, fun _ _ _ => ⟨rfl, rfl, rfl⟩⟩, trivial⟩
  have hstart : ∀ e r, e < turner.ne → r < turner.nrhos → uTransform (projector 1) (turner.t - 5) (toB1 mix45 (projector 0)) = turner.state e r := by
    intro e r he hr
    have he0 : e = 0 := by have : e < 1 := he; omega
    have hr0 : r = 0 := by have : r < 1 := hr; omega
    subst he0; subst hr0
    rw [turner_state, show turner.t = 5 from rfl, sub_self]
    unfold uTransform
    rw [neg_zero, phase_zero_time, Matrix.one_mul, Matrix.mul_one]
  have ht5 : turner.t = 5 := rfl
  refine ⟨?_, fun T₁ T₂ h1 h2 => ?_⟩
  · obtain ⟨T₁, h1, _⟩ := c100_leg_by_leg empty (le_refl 3) (half true).med ls 0 T (fun t _ _ => uTransform (projector 1) (t - 5) (toB1 mix45 (projector 0)))
      turner_prepared htau rfl rfl rfl (fun l hl => ⟨hfw l hl, hno l hl⟩) hthr (turner_evolves _ _) hstart
    let Ta : Traveller 3 := enter (half true) { T with allow := true }
    let Tb : Traveller 3 := { Ta with
      o := shortcut empty.c 0 (1 / 2) (half true).length (Fin.castLE (le_refl 3)) Ta.o
      numerics := false }
    let Tc : Traveller 3 := enter (half false) Tb
    let Td : Traveller 3 := { Tc with o := { preDerive Tc.o (5 + Real.pi) with t := Tc.o.t + (half false).length } }
    refine ⟨T₁, Td, h1, Tb, ⟨rfl, rfl, rfl, rfl, 5, Set.left_mem_uIcc, ?_⟩, Td, ⟨rfl, rfl, rfl, rfl, 5 + Real.pi, ?_, ?_⟩, rfl⟩
    · rw [if_pos ⟨rfl, rfl, rfl⟩]
      rfl
    · show (5 + Real.pi : ℝ) ∈ Set.uIcc (5 + (half true).length) (5 + (half true).length + (half false).length)
      rw [hlen]
      exact Set.left_mem_uIcc
    · rw [if_neg (fun h => absurd h.1 (by simp [half])), if_neg (show ¬(enter (half false) Tb).numerics = true by simp [enter, Tb])]
  · obtain ⟨ρ, hev, hst, hs, ht⟩ := Journey.follows empty (le_refl 3) (half true).med ls 0 T T₁ h1 turner_prepared htau hherm hfw (.inl hno) (.inl rfl) hthr
    have hT₁ : T₁.o.state 0 0 = toB1 mix45 (projector 0) := by
      have h00 : (0 : Nat) < turner.ne ∧ (0 : Nat) < turner.nrhos := ⟨Nat.one_pos, Nat.one_pos⟩
      rw [(hst 0 0 h00.1 h00.2).2, c98_determined empty (le_refl 3) turner turner_prepared ρ _ turner.t (turner.t + wayLength ls) (empty_sane _ _ _) hev
        (turner_evolves _ _) 0 (fun e r _ he hr => (hst e r he hr).1.trans (hstart e r he hr).symm) (turner.t + wayLength ls)
        ⟨by rw [hw]; linarith, le_refl _⟩ 0 0 (le_refl _) h00.1 h00.2, hw, ht5, show (5 : ℝ) + (Real.pi + Real.pi) - 5 = Real.pi + Real.pi by ring, turn_whole]
    obtain ⟨T₁', k1, T₂', k2, k3⟩ := h2
    have k3 : T₂ = T₂' := k3
    let Te := enter (half true) { T with allow := true }
    have hpath : Path empty (half true) Te :=
      ⟨by show turner.t - (turner.t - 0) = 0; ring, fun _ => rfl, fun _ => ⟨rfl, rfl, fun _ _ _ _ => ⟨rfl, rfl⟩⟩⟩
    have hse : Same turner Te.o := same_enter (half true) { T with allow := true }
    obtain ⟨σ, kev, kst, ks, kt, _, ka, kn⟩ := k1.follows hpath (hse.prepared turner_prepared) htau (fun e r he hr => hherm e r he hr)
    have kst0 := kst 0 0 Nat.one_pos Nat.one_pos
    have hT₁' : T₁'.o.state 0 0 = toB1 mix45 (projector 1) := by
      have kev' : Evolves empty (le_refl 3) turner σ turner.t (turner.t + Real.pi) := by
        have := hse.evolves kev
        rw [hlen, show Te.o.t = turner.t from rfl, min_eq_left (by linarith), max_eq_right (by linarith)] at this
        exact this
      rw [kst0.2, hlen]
      show σ (turner.t + Real.pi) 0 0 = _
      rw [c98_determined empty (le_refl 3) turner turner_prepared σ _ turner.t (turner.t + Real.pi) (empty_sane _ _ _) kev'
        (turner_evolves _ _) 0 (fun e r _ he hr => (kst e r he hr).1.trans (hstart e r he hr).symm) (turner.t + Real.pi) ⟨by linarith, le_refl _⟩ 0 0 (le_refl _)
        Nat.one_pos Nat.one_pos, ht5, show (5 : ℝ) + Real.pi - 5 = Real.pi by ring, turn_half]
    have kn : T₁'.numerics = false := by rw [kn, if_pos ⟨rfl, rfl, rfl⟩]
    obtain ⟨_, _, _, _, τ, _, k2⟩ := k2
    rw [if_neg (fun h => absurd h.1 (by simp [half])), if_neg (by rw [show (enter (half false) T₁').numerics = _ from kn]; simp)] at k2
    have hs2 : Same turner T₂.o := by
      rw [k3, k2]
      exact ((hse.trans ks).trans (same_enter (half false) T₁')).trans (same_derived _ _ _ _)
    have hst2 : T₂.o.state 0 0 = toB1 mix45 (projector 1) := by
      rw [k3, k2, ← hT₁']
      show (preDerive (enter (half false) T₁').o τ).state 0 0 = _
      rw [preDerive_fields]
      rfl
    refine ⟨?_, fun f => ⟨turner_reads hs 0 hT₁ f, turner_reads hs2 1 hst2 f⟩⟩
    rw [ht, hw, k3, k2]
    show turner.t + (Real.pi + Real.pi) = T₁'.o.t + (half false).length
    rw [kt, hlen, hlen]
    show _ = turner.t + Real.pi + Real.pi
    ring

theorem same_atTime {n : Nat} (o : Obj n) (e r : Nat) (t : ℝ) (A : Mat n) : Same o (atTime o e r t A) :=
  ⟨rfl, rfl, rfl, rfl, rfl, rfl, rfl, rfl, rfl, rfl, rfl, rfl, rfl, rfl, fun u => preDerive_other o t u o.trackStart _ o.ibody o.itrack o.full⟩

/-- C99, disagreement: the constant-density shortcut is taken with sources on as well, and leaves them out. Here one neutrino of the second
flavour is emitted per unit length along five: integrated there are five, with the shortcut none. -/
theorem c99_shortcut_violated :
    let s := inert false fun _ _ _ f => if f = 1 then 1 else 0
    let l : Leg := ⟨⟨fun _ => 0, fun _ => 1 / 2, fun _ _ _ f => if f = 1 then 1 else 0⟩, true, 0, 5⟩
    let T : Traveller 3 := ⟨emptyDemo .mass, 0, false, true⟩
    s.tab.sources = true ∧ ∃ T₁ T₂, EvolveState s (le_refl 3) l (enter l T) T₁ ∧ EvolveState s (le_refl 3) l (enter l { T with allow := true }) T₂ ∧
      ∀ e r f, e < 2 → r < 2 → evalFlavorAtNode T₁.o f e r = .ok (if f = 1 then 5 else 0) ∧ evalFlavorAtNode T₂.o f e r = .ok 0 := by
  intro s l T
  have hp := emptyDemo_prepared .mass
  have hzero : ∀ e r, e < 2 → r < 2 → (emptyDemo .mass).state e r = 0 := by
    intro e r he hr
    have : (emptyDemo .mass).state e r = (List.finRange 3).foldl (fun s j => s + (0 : ℝ) • (emptyDemo .mass).b1 r j) 0 := if_pos ⟨he, hr⟩
    rw [this, foldl_sum]
    simp
  have hse := same_enter l T
  have hev : Evolves s (le_refl 3) (enter l T).o (fun t e r => (t - 5) • (enter l T).o.evolB1 r 1 e) 5 10 := by
    refine fed_by_source s _ (hse.prepared hp) rfl 1 (fun _ => 1) (fun t => t - 5) 5 10 (fun t st e r _ _ => inert_gamma _ _ _ _ _ _ _) (fun t st e r he hr => ?_)
      fun t => (hasDerivAt_id t).sub_const 5
    have := inert_gain false (fun _ _ _ f => if f = 1 then 1 else 0) (enter l T).o (hse.prepared hp) rfl 1 (fun _ => 1) (fun t e r f _ _ _ => rfl) t st e r he hr
    rw [this, copies_one rfl (Or.inl rfl), one_mul]
  have hlen : l.length = 5 := sub_zero _
  let T₁ : Traveller 3 := { enter l T with
    o := { preDerive (enter l T).o 5 with
      t := (enter l T).o.t + l.length
      state := fun e r => if e < (enter l T).o.ne ∧ r < (enter l T).o.nrhos then ((enter l T).o.t + l.length - 5) • (enter l T).o.evolB1 r 1 e else (enter l T).o.state e r } }
  let T₂ : Traveller 3 := { enter l { T with allow := true } with
    o := shortcut s.c 0 (1 / 2) l.length (Fin.castLE (le_refl 3)) (enter l { T with allow := true }).o
    numerics := false }
  refine ⟨rfl, T₁, T₂, ⟨rfl, rfl, rfl, rfl, 5, Set.left_mem_uIcc, ?_⟩, ⟨rfl, rfl, rfl, rfl, 5, Set.left_mem_uIcc, ?_⟩, ?_⟩
  · rw [if_neg (fun h => absurd h.2.2 (by simp [T, enter])), if_pos (show (enter l T).numerics = true from rfl)]
    refine ⟨s.old, fun t e r => (t - 5) • (enter l T).o.evolB1 r 1 e, ?_, fun e r he hr => ?_, rfl⟩
    · have : min (enter l T).o.t ((enter l T).o.t + l.length) = 5 ∧ max (enter l T).o.t ((enter l T).o.t + l.length) = 10 := by
        rw [hlen, show (enter l T).o.t = 5 from rfl]
        norm_num
      rw [this.1, this.2]
      exact hev
    · show ((5 : ℝ) - 5) • _ = (emptyDemo .mass).state e r
      rw [sub_self, zero_smul, hzero e r he hr]
  · rw [if_pos ⟨rfl, rfl, rfl⟩]
  · intro e r f he hr
    constructor
    · have hs1 : Same (atTime (emptyDemo .mass) e r 10 ((5 : ℝ) • (emptyDemo .mass).evolB1 r 1 e)) T₁.o :=
        ((same_atTime (emptyDemo .mass) e r 10 _).symm.trans hse).trans (same_derived _ _ _ _)
      have hst : T₁.o.state e r = (5 : ℝ) • (emptyDemo .mass).evolB1 r 1 e := by
        refine (if_pos ⟨he, hr⟩).trans ?_
        rw [hlen, show (enter l T).o.t = 5 from rfl, show (5 : ℝ) + 5 - 5 = 5 by norm_num]
        rfl
      have ht : T₁.o.t = 10 := by
        show (5 : ℝ) + l.length = 10
        rw [hlen]
        norm_num
      rw [(hs1.readings (e := e) (r := r) ht (hst.trans (if_pos ⟨rfl, rfl⟩).symm) f).1]
      exact emptyDemo_reading .mass 1 5 10 e r he hr f
    · have hst : (shortcut s.c 0 (1 / 2) l.length (Fin.castLE (le_refl 3)) (enter l { T with allow := true }).o).state e r = 0 := by
        rw [shortcut_state _ _ _ _ _ _ _ _ he hr, show (enter l { T with allow := true }).o.state e r = 0 from hzero e r he hr]
        unfold uTransform
        rw [Matrix.mul_zero, Matrix.zero_mul]
      unfold evalFlavorAtNode expectation
      rw [hst]
      have hn : (emptyDemo .mass).nt = .both := rfl
      show (if (emptyDemo .mass).ienergy = false then _ else if r ≠ 0 ∧ (emptyDemo .mass).nt ≠ .both then _ else _) = _
      rw [if_neg (by simp [show (emptyDemo .mass).ienergy = true from rfl]), if_neg (by rw [hn]; simp)]
      simp [dot]

end Verif.Density
