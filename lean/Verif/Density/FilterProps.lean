import Verif.Density.Filter
import Verif.Density.SourceProps

/-!
# C106: the low-pass filter

The full claim: a low-pass filter removes fast oscillations from the evolution and nothing else. Switched off, or with all frequencies below
the ramp, it changes nothing. Oscillating neutrinos keep their number and no flavour becomes negative. Absorption removes neutrinos, and the
evolution does not depend on the working basis. The last two do not hold.
-/

namespace Verif.Density

open Matrix
open Update
open scoped ComplexOrder

variable {n : Nat}

/-! ## Specification -/

/-- The angular frequency at which two mass states oscillate in vacuum, `Δm²/2E`. -/
noncomputable def frequency (o : Obj n) (e : Nat) (i j : Fin n) : ℝ := ((o.dm2 i i).re - (o.dm2 j j).re) / (2 * o.energies e)

theorem frequency_eq {o : Obj n} {e r : Nat} (ho : Prepared o e r) (hosc : o.ioscillations = true) (i j : Fin n) :
    (o.h0s e i i).re - (o.h0s e j j).re = frequency o e i j := by
  rw [ho.h0s, h0, if_pos hosc]
  simp only [Matrix.smul_apply, Complex.real_smul, Complex.re_ofReal_mul]
  unfold frequency
  rw [div_div, ← mul_sub, div_mul_eq_mul_div, one_mul]

/-! ## Theorems -/

/-- C106: without a positive cut-off, in the mass basis, without oscillations, or if no two mass states oscillate faster than the lower end
of the ramp at any node, the integrator is given the equation without filter. -/
theorem c106_neutral (k : LowPass) (g : ℝ → ℝ) (hg : k.Factor g) (s : Setting n) (hn : 3 ≤ n) (o : Obj n) (ho : AllPrepared o)
    (h : k.cutoff ≤ 0 ∨ o.basis = .mass ∨ o.ioscillations = false ∨ ∀ e < o.ne, ∀ i j, |frequency o e i j| ≤ k.cutoff - k.scale) :
    (∀ t st e r, s.velocityFiltered k g hn o t st e r = s.velocity hn o t st e r) ∧
    ∀ ρ a b, EvolvesFiltered s k g hn o ρ a b ↔ Evolves s hn o ρ a b := by
  have hp : ∀ t, preDeriveFiltered k g o t = preDerive o t := by
    intro t
    rw [preDeriveFiltered_fields]
    have e1 : preDerive o t = { o with evolB1 := (preDerive o t).evolB1 } := by
      unfold preDerive; split <;> rfl
    rw [e1]
    congr 1
    funext r f e
    by_cases hin : r < o.nrhos ∧ e < o.ne
    · rw [filtered_projector (ho e r hin.2 hin.1)]
      by_cases hc : o.basis ≠ .mass ∧ o.ioscillations = true ∧ 0 < k.cutoff
      · rw [if_pos hc]
        refine lowPass_pass (fun i j _ => ?_) _
        rw [frequency_eq (ho e r hin.2 hin.1) hc.2.1]
        refine hg.pass _ ?_
        rcases h with h | h | h | h
        · exact absurd hc.2.2 (not_lt.2 h)
        · exact absurd h hc.1
        · rw [hc.2.1] at h; exact absurd h (by simp)
        · exact h e hin.2 i j
      · rw [if_neg hc]
    · unfold preDeriveFiltered preDerive
      split
      · show (if r < o.nrhos ∧ e < o.ne then _ else o.evolB1 r f e) = if r < o.nrhos ∧ e < o.ne then _ else o.evolB1 r f e
        rw [if_neg hin, if_neg hin]
      · rfl
  have hv : ∀ t st e r, s.velocityFiltered k g hn o t st e r = s.velocity hn o t st e r := by
    intro t st e r
    unfold Setting.velocityFiltered Setting.velocity Setting.gammaFiltered Setting.gainFiltered Setting.gamma Setting.gain Setting.netFiltered
      motionFiltered motion
    simp only [hp t]
    rfl
  refine ⟨hv, fun ρ a b => ⟨?_, ?_⟩⟩
  · rintro ⟨S, hS, h1, h2, h3⟩
    refine ⟨S, hS, h1, fun t ht hn' e r he hr => ?_, h3⟩
    rw [← hv]
    exact h2 t ht hn' e r he hr
  · rintro ⟨S, hS, h1, h2, h3⟩
    refine ⟨S, hS, h1, fun t ht hn' e r he hr => ?_, h3⟩
    rw [hv]
    exact h2 t ht hn' e r he hr

/-- C106: the filtered projectors are Hermitian, each of trace one, and add up to one. -/
theorem c106_projectors (k : LowPass) (g : ℝ → ℝ) (hg : k.Factor g) (o : Obj n) (e r : Nat) (ho : Prepared o e r) (t : ℝ) :
    (∀ f, ((preDeriveFiltered k g o t).evolB1 r f e).IsHermitian ∧ ((preDeriveFiltered k g o t).evolB1 r f e).trace = 1) ∧
    ∑ f, (preDeriveFiltered k g o t).evolB1 r f e = 1 := by
  have hop : ∀ f, (preDerive o t).evolB1 r f e = op (atTime o e r t 0) r f e := projectors_op ho t 0
  have hgd := good_atTime ho.good e r t 0
  have hsum : ∑ f, (preDerive o t).evolB1 r f e = 1 := by
    simp only [hop]
    obtain ⟨W, hW, h⟩ := op_rotated hgd ho.type e
    simp only [h]
    exact sum_b1 hW
  refine ⟨fun f => ⟨filtered_hermitian hg ho t f, ?_⟩, ?_⟩
  · rw [filtered_projector ho]
    split
    · rw [lowPass_trace, hop, op_trace hgd ho.type]
    · rw [hop, op_trace hgd ho.type]
  · simp only [filtered_projector ho]
    by_cases hc : o.basis ≠ .mass ∧ o.ioscillations = true ∧ 0 < k.cutoff
    · simp only [if_pos hc]
      rw [lowPass_sum, hsum, lowPass_one]
    · simp only [if_neg hc]
      exact hsum

/-- C106: with oscillations only, whatever the factor, the flavour contents read at any two times have the same sum, and if the state is
positive at one of them the contents at the other lie between zero and that sum. -/
theorem c106_conserves (k : LowPass) (g : ℝ → ℝ) (s : Setting n) (hn : 3 ≤ n) (o : Obj n) (ho : AllPrepared o)
    (hi : s.iint = false) (hs : s.tab.sources = false) (ρ : ℝ → Nat → Nat → Mat n) (a b : ℝ) (h : EvolvesFiltered s k g hn o ρ a b)
    (e r : Nat) (he : e < o.ne) (hr : r < o.nrhos) (u t : ℝ) (hu : u ∈ Set.Icc a b) (ht : t ∈ Set.Icc a b) :
    ∃ c₀ c : Fin n → ℝ, (∀ f, evalFlavorAtNode (atTime o e r u (ρ u e r)) f e r = .ok (c₀ f)) ∧
      (∀ f, evalFlavorAtNode (atTime o e r t (ρ t e r)) f e r = .ok (c f)) ∧ ∑ f, c f = ∑ f, c₀ f ∧
      ((ρ u e r).PosSemidef → ∀ f, 0 ≤ c f ∧ c f ≤ ∑ f, c₀ f) := by
  refine c55_integrated o (ho e r he hr).good r e hr _ (fun t => ρ t e r) a b (h.solves hi hs he hr) (fun t ht => ?_) u t hu ht
  obtain ⟨_, _, _, _, h3⟩ := h
  exact h3 t ht e r he hr

theorem mass_reading {o : Obj n} (ho : Good o) (hd : DiagonalMasses o) {e r : Nat} (hr : r < o.nrhos) (t : ℝ) (A : Mat n) (i : Fin n) :
    evalMassAtNode (atTime o e r t A) i e r = .ok (A i i).re := by
  have hg : ¬(r ≠ 0 ∧ (atTime o e r t A).nt ≠ .both) := by
    rintro ⟨h1, h2⟩
    have := ho.ready.nrhos
    rw [if_neg (show ¬o.nt = .both from h2)] at this
    omega
  have hst : (atTime o e r t A).state e r = A := if_pos ⟨rfl, rfl⟩
  unfold evalMassAtNode expectation
  rw [if_neg (by rw [show (atTime o e r t A).ienergy = o.ienergy from rfl, ho.ienergy]; simp), if_neg hg, hst,
    show (atTime o e r t A).b0 i = projector i from ho.ready.b0 i]
  split
  · rw [dot_projector_left]
  · obtain ⟨d, hd'⟩ := h0_diagonal (o := atTime o e r t A) hd ((atTime o e r t A).energies e)
    rw [hd']
    have e1 : evolve (Matrix.diagonal fun i => (d i : ℂ)) ((atTime o e r t A).t - (atTime o e r t A).tini) (projector i) = projector i := by
      ext a b
      rw [evolve_diagonal]
      by_cases hab : a = b
      · subst hab; simp
      · have : (projector i : Mat n) a b = 0 := by
          unfold projector
          rw [Matrix.single_apply, if_neg]
          rintro ⟨rfl, rfl⟩
          exact hab rfl
        rw [this, mul_zero]
    rw [e1, dot_comm, dot_projector_left]

/-- C106: in the interaction basis, if the filter removes all oscillations at a node, matter no longer acts on the mass states: what is
read of each of them stays the same, whatever the medium. -/
theorem c106_frozen (k : LowPass) (g : ℝ → ℝ) (hg : k.Factor g) (s : Setting n) (hn : 3 ≤ n) (o : Obj n) (ho : AllPrepared o)
    (hd : DiagonalMasses o) (hi : s.iint = false) (hs : s.tab.sources = false) (hb : o.basis ≠ .mass) (hosc : o.ioscillations = true)
    (hk : 0 < k.cutoff) (ρ : ℝ → Nat → Nat → Mat n) (a b : ℝ) (h : EvolvesFiltered s k g hn o ρ a b) (e r : Nat) (he : e < o.ne)
    (hr : r < o.nrhos) (hf : ∀ i j, i ≠ j → k.cutoff + k.scale < |frequency o e i j|) (t : ℝ) (ht : t ∈ Set.Icc a b) (i : Fin n) :
    evalMassAtNode (atTime o e r t (ρ t e r)) i e r = evalMassAtNode (atTime o e r a (ρ a e r)) i e r := by
  have hp := ho e r he hr
  rw [mass_reading hp.good hd hr, mass_reading hp.good hd hr]
  have hz : ∀ t i j, i ≠ j → motionFiltered k g s.c s.dens s.ye (Fin.castLE hn) o e r t i j = 0 := by
    intro t i j hij
    refine motionFiltered_diagonal hb (fun f i j hij => ?_) i j hij
    rw [filtered_projector hp, if_pos ⟨hb, hosc, hk⟩]
    refine lowPass_stop (fun i j hij => ?_) _ hij
    rw [frequency_eq hp hosc]
    exact hg.stop _ (hf i j hij)
  obtain ⟨S, hS, hso⟩ := h.solves hi hs he hr
  have hcon := constant_off_complex (f := fun t => ρ t e r i i) hS (hso.cont i i) (fun u hu hn' => ?_) t ht
  · rw [hcon]
  · have := hso.deriv u hu hn' i i
    have ez : (-Complex.I • (motionFiltered k g s.c s.dens s.ye (Fin.castLE hn) o e r u * ρ u e r -
        ρ u e r * motionFiltered k g s.c s.dens s.ye (Fin.castLE hn) o e r u)) i i = 0 := by
      rw [Matrix.smul_apply, Matrix.sub_apply, Matrix.mul_apply, Matrix.mul_apply,
        Finset.sum_eq_single i (fun l _ hl => by rw [hz u i l (Ne.symm hl), zero_mul]) (by simp),
        Finset.sum_eq_single i (fun l _ hl => by rw [hz u l i hl, mul_zero]) (by simp), mul_comm, sub_self, smul_zero]
    rw [ez] at this
    exact this

theorem velocityFiltered_trace (s : Setting n) (k : LowPass) (g : ℝ → ℝ) (hn : 3 ≤ n) (o : Obj n) (t : ℝ) (st : Nat → Nat → Mat n) (e r : Nat) :
    (s.velocityFiltered k g hn o t st e r).trace =
      (s.gainFiltered k g o t st e r).trace - 2 * (s.gammaFiltered k g o t st e r * st e r).trace := by
  unfold Setting.velocityFiltered
  rw [Matrix.trace_add, Matrix.trace_sub, Matrix.trace_smul, Matrix.trace_sub, Matrix.trace_add,
    Matrix.trace_mul_comm (st e r) (motionFiltered _ _ _ _ _ _ _ _ _ _), Matrix.trace_mul_comm (st e r) (s.gammaFiltered k g o t st e r), sub_self, smul_zero]
  ring

/-- C106, partial: if three flavours are absorbed alike, the filter does not disturb the absorption: of the neutrinos at a node the rate
times their number is lost. Missing: flavours absorbed differently (`c106_absorption_violated`). -/
theorem c106_absorption_partial (k : LowPass) (g : ℝ → ℝ) (hg : k.Factor g) (s : Setting 3) (o : Obj 3) (ho : AllPrepared o) (hi : s.iint = true)
    (t : ℝ) (st : Nat → Nat → Mat 3) (e r : Nat) (he : e < o.ne) (hr : r < o.nrhos) (rate : ℝ)
    (hrate : ∀ f < 3, (s.net o t st).invINT (s.old t) (s.old t) r f e = rate) :
    (s.velocityFiltered k g (le_refl 3) o t st e r).trace = (s.gainFiltered k g o t st e r).trace - rate * (st e r).trace := by
  have hG : s.gammaFiltered k g o t st e r = (1 / 2 * rate) • (1 : Mat 3) := by
    have hsum := (c106_projectors k g hg o e r (ho e r he hr) t).2
    have hN : ∀ f, (s.netFiltered k g o t st).invINT (s.old t) (s.old t) r f e = (s.net o t st).invINT (s.old t) (s.old t) r f e := fun _ => rfl
    unfold Setting.gammaFiltered Net.gammaRho
    rw [if_pos hi]
    unfold Net.gamma
    rw [hN, hN, hN, hrate 0 (by omega), hrate 1 (by omega), hrate 2 (by omega), ← smul_add, ← smul_add, ← hsum, Fin.sum_univ_three]
    rfl
  rw [velocityFiltered_trace, hG, Matrix.smul_mul, Matrix.one_mul, Matrix.trace_smul, Complex.real_smul]
  push_cast
  ring

/-! ## Instances and violations -/

/-- A filter with a ramp from `cutoff - scale` to `cutoff + scale`. -/
noncomputable def ramp (k : LowPass) (w : ℝ) : ℝ :=
  if |w| ≤ k.cutoff - k.scale then 1 else if k.cutoff + k.scale < |w| then 0 else (k.cutoff + k.scale - |w|) / (2 * k.scale)

theorem ramp_factor (k : LowPass) (hs : 0 < k.scale) : k.Factor (ramp k) where
  even w := by unfold ramp; rw [abs_neg]
  nonneg w := by
    unfold ramp
    split
    · norm_num
    · split
      · exact le_refl _
      · rename_i h; exact div_nonneg (by linarith [not_lt.1 h]) (by linarith)
  le_one w := by
    unfold ramp
    split
    · exact le_refl _
    · rename_i h
      split
      · norm_num
      · rw [div_le_one (by linarith)]; linarith [not_le.1 h]
  pass w h := if_pos h
  stop w h := by
    unfold ramp
    rw [if_neg (by linarith), if_pos h]

/-- Three flavours, one node, levels 0, 1 and 2, no neutrinos yet. -/
noncomputable def prism (b : Basis) : Obj 3 := fill { demoThird with basis := b } (fun _ _ _ => 0) .flavor

theorem prism_fields (b : Basis) : (prism b).ne = 1 ∧ (prism b).nrhos = 1 ∧ (prism b).nt = .neutrino ∧ (prism b).basis = b ∧
    (prism b).ioscillations = true ∧ (prism b).tini = 5 := by
  unfold prism fill iniH0 setIniFlavorProjectors; simp [demoThird, demo1, demo]

theorem prism_prepared (b : Basis) : AllPrepared (prism b) := fun e r he hr =>
  c97_prepared { demoThird with basis := b } ⟨demoThird_ready.b0, demoThird_ready.mixing, demoThird_ready.nrhos⟩ rfl _ .flavor e r he hr

theorem prism_diagonal (b : Basis) : DiagonalMasses (prism b) :=
  diagonal_fill { demoThird with basis := b } ⟨demoThird_ready.b0, demoThird_ready.mixing, demoThird_ready.nrhos⟩ (fun _ _ _ => 0) .flavor

theorem prism_h0s (b : Basis) : (prism b).h0s 0 = Matrix.diagonal fun i => ((i.val : ℝ) : ℂ) := by
  have hdm : (prism b).dm2 = Matrix.diagonal fun i => ((i.val : ℝ) : ℂ) := by
    have : (prism b).dm2 = (List.finRange 3).foldl (fun s i => if 1 ≤ i.val then s + demoThird.differences i • demoThird.b0 i else s) 0 := by
      unfold prism fill iniH0 setIniFlavorProjectors
      simp [demoThird, demo1, demo]
    rw [this]
    ext i j
    fin_cases i <;> fin_cases j <;> simp [List.finRange_succ, demoThird, demo1, demo, projector]
  have he : (prism b).energies 0 = 1 / 2 := by
    unfold prism fill iniH0 setIniFlavorProjectors; simp [demoThird, demo1, demo]
  have hf := prism_fields b
  rw [(prism_prepared b 0 0 (by rw [hf.1]; exact Nat.one_pos) (by rw [hf.2.1]; exact Nat.one_pos)).h0s]
  unfold h0
  rw [if_pos hf.2.2.2.2.1, he, hdm]
  norm_num

theorem prism_frequency (b : Basis) (e : Nat) (he : e < (prism b).ne) (i j : Fin 3) : frequency (prism b) e i j = (i.val : ℝ) - (j.val : ℝ) := by
  have hf := prism_fields b
  have h0 : e = 0 := by rw [hf.1] at he; omega
  subst h0
  rw [← frequency_eq (prism_prepared b 0 0 he (by rw [hf.2.1]; exact Nat.one_pos)) hf.2.2.2.2.1, prism_h0s]
  simp

/-- At the start of the track the projectors are those of the mixing matrix. -/
theorem prism_projector (b : Basis) (f : Fin 3) : (preDerive (prism b) 5).evolB1 0 f 0 = toB1 mixThird (projector f) := by
  have hf := prism_fields b
  have hp := prism_prepared b 0 0 (by rw [hf.1]; exact Nat.one_pos) (by rw [hf.2.1]; exact Nat.one_pos)
  have hb : (prism b).b1 0 f = toB1 mixThird (projector f) := hp.good.b1 0 f hp.type
  rw [projectors_op hp 5 0]
  unfold op
  have e2 : (atTime (prism b) 0 0 5 0).b1 0 f = toB1 mixThird (projector f) := hb
  have e3 : (atTime (prism b) 0 0 5 0).t - (atTime (prism b) 0 0 5 0).tini = 0 := by
    show (5 : ℝ) - (prism b).tini = 0
    rw [hf.2.2.2.2.2]; norm_num
  rw [e2, e3, evolve_zero_time, ite_self]

/-- Only the first flavour is absorbed, with rate one; there is no regeneration. -/
noncomputable def trap : Setting 3 :=
  { cascade with
    tab := { cascade.tab with sigmaNC := fun _ _ _ _ => 0, sigmaCC := fun _ _ f _ => if f = 0 then 1 else 0, dNdE_NC := fun _ _ _ _ _ => 0 } }

theorem trap_rate (o : Obj 3) (t : ℝ) (st : Nat → Nat → Mat 3) (f : Nat) :
    (trap.net o t st).invINT (trap.old t) (trap.old t) 0 f 0 = if f = 0 then 1 else 0 := by
  have h1 : (trap.net o t st).invNC (trap.old t) 0 f 0 = 0 := by
    unfold Net.invNC Update.linAcc Update.forTargets Net.densities Matter.densities
    simp only [Setting.net, trap, cascade]
    norm_num
  have h2 : (trap.net o t st).invCC (trap.old t) 0 f 0 = if f = 0 then 1 else 0 := by
    unfold Net.invCC Update.linAcc Update.forTargets Net.densities Matter.densities
    simp only [Setting.net, trap, cascade]
    norm_num
  have h3 : (trap.net o t st).gr = false := rfl
  unfold Net.invINT
  rw [h1, h2, h3]
  simp

theorem trap_sane (o : Obj 3) (a b : ℝ) : Sane trap o a b := by
  refine ⟨fun t _ => ?_, fun _ _ _ _ _ => le_refl _, fun h => absurd h (by simp [trap, cascade])⟩
  constructor <;> intros <;> (simp [Setting.net, trap, cascade]; try norm_num)
  split <;> norm_num

theorem prism_filtered (k : LowPass) (g : ℝ → ℝ) (hk : 0 < k.cutoff) (f : Fin 3) : (preDeriveFiltered k g (prism .interaction) 5).evolB1 0 f 0 =
    lowPass g (Matrix.diagonal fun i => ((i.val : ℝ) : ℂ)) (toB1 mixThird (projector f)) := by
  have hf := prism_fields .interaction
  have hp := prism_prepared .interaction 0 0 (by rw [hf.1]; exact Nat.one_pos) (by rw [hf.2.1]; exact Nat.one_pos)
  rw [filtered_projector hp, if_pos ⟨by rw [hf.2.2.2.1]; decide, hf.2.2.2.2.1, hk⟩, prism_projector, prism_h0s]

theorem trap_gain (k : LowPass) (g : ℝ → ℝ) (t : ℝ) (st : Nat → Nat → Mat 3) : trap.gainFiltered k g (prism .interaction) t st 0 0 = 0 := by
  have hf := prism_fields .interaction
  have hs : Shape (trap.netFiltered k g (prism .interaction) t st) :=
    ⟨(prism_prepared .interaction 0 0 (by rw [hf.1]; exact Nat.one_pos) (by rw [hf.2.1]; exact Nat.one_pos)).good.ready.nrhos,
      fun h => absurd h (by simp [Setting.netFiltered, Setting.net, trap, cascade]), le_refl 3⟩
  have hne : (trap.netFiltered k g (prism .interaction) t st).ne = 1 := hf.1
  have h0 : ∀ a, (trap.netFiltered k g (prism .interaction) t st).total (trap.old t) (trap.netFiltered k g (prism .interaction) t st).flux 0 a 0 = 0 := by
    intro a
    have h1 : (trap.netFiltered k g (prism .interaction) t st).tau = false := rfl
    have h2 : (trap.netFiltered k g (prism .interaction) t st).gr = false := rfl
    unfold Net.total Net.ncSum
    rw [h1, h2, hne]
    simp
  unfold Setting.gainFiltered Net.interactionsRho
  rw [hf.2.2.2.2.1, show trap.iint = true from rfl]
  simp only [Bool.not_true, Bool.and_false, Bool.false_eq_true, if_false, Bool.false_and]
  rw [termOsc_spec _ hs _ 0 0 (by rw [show (trap.netFiltered k g (prism .interaction) t st).nrhos = 1 from hf.2.1]; exact Nat.one_pos)
    (by rw [hne]; exact Nat.one_pos), h0, h0, h0, show (trap.netFiltered k g (prism .interaction) t st).sources = false from rfl]
  simp

/-- A pure state on which the filtered projector of the first flavour is negative. -/
noncomputable def odd : Mat 3 := !![16, -12, 8; -12, 9, -6; 8, -6, 4]

theorem odd_pos : odd.PosSemidef := by
  have e : odd = Matrix.vecMulVec ![4, -3, 2] (star ![4, -3, 2]) := by
    ext i j
    fin_cases i <;> fin_cases j <;> simp [odd, Matrix.vecMulVec_apply] <;> norm_num
  rw [e]
  exact Matrix.posSemidef_vecMulVec_self_star _

theorem odd_gamma (k : LowPass) (g : ℝ → ℝ) (hg : k.Factor g) (hk : 0 < k.cutoff) (h1 : 1 ≤ k.cutoff - k.scale) (h2 : k.cutoff + k.scale < 2) :
    (trap.gammaFiltered k g (prism .interaction) 5 (fun _ _ => odd) 0 0 * odd).trace = -14 / 9 := by
  have g1 : g 1 = 1 := hg.pass 1 (by rw [abs_one]; exact h1)
  have g1' : g (-1) = 1 := by rw [hg.even, g1]
  have g2 : g 2 = 0 := hg.stop 2 (by rw [abs_two]; exact h2)
  have g2' : g (-2) = 0 := by rw [hg.even, g2]
  have hG : trap.gammaFiltered k g (prism .interaction) 5 (fun _ _ => odd) 0 0 =
      (1 / 2 : ℝ) • lowPass g (Matrix.diagonal fun i => ((i.val : ℝ) : ℂ)) (toB1 mixThird (projector 0)) := by
    have hN : ∀ f, (trap.netFiltered k g (prism .interaction) 5 fun _ _ => odd).invINT (trap.old 5) (trap.old 5) 0 f 0 = if f = 0 then 1 else 0 :=
      fun f => trap_rate (prism .interaction) 5 (fun _ _ => odd) f
    have hp : (trap.netFiltered k g (prism .interaction) 5 fun _ _ => odd).proj 0 0 0 = (preDeriveFiltered k g (prism .interaction) 5).evolB1 0 0 0 := rfl
    unfold Setting.gammaFiltered Net.gammaRho
    rw [if_pos (show trap.iint = true from rfl)]
    unfold Net.gamma
    rw [hN, hN, hN, hp, prism_filtered k g hk]
    simp
  rw [hG, Matrix.smul_mul, Matrix.trace_smul, Matrix.trace]
  simp only [Matrix.diag_apply, Matrix.mul_apply, Fin.sum_univ_three, lowPass, Matrix.of_apply, toB1_apply, Matrix.diagonal_apply_eq, Complex.ofReal_re]
  simp [mixThird, odd, g1, g1', g2, g2', show (1 : ℝ) - 2 = -1 by norm_num, show (2 : ℝ) - 1 = 1 by norm_num]
  norm_num

/-- C106, disagreement: with a cut-off between the frequencies, the filtered projector of a flavour is not positive. Where only that flavour
is absorbed, without regeneration and sources, the integrator is told to increase the number of neutrinos of some state, which without filter
it would reduce. -/
theorem c106_absorption_violated (k : LowPass) (g : ℝ → ℝ) (hg : k.Factor g) (hk : 0 < k.cutoff) (h1 : 1 ≤ k.cutoff - k.scale)
    (h2 : k.cutoff + k.scale < 2) : ∃ (s : Setting 3) (o : Obj 3) (A : Mat 3), AllPrepared o ∧ (∀ a b, Sane s o a b) ∧ o.ne = 1 ∧ o.nrhos = 1 ∧
      s.tab.sources = false ∧ A.PosSemidef ∧ (s.velocityFiltered k g (le_refl 3) o o.tini (fun _ _ => A) 0 0).trace = 28 / 9 ∧
      (s.velocity (le_refl 3) o o.tini (fun _ _ => A) 0 0).trace.re ≤ 0 := by
  have hf := prism_fields .interaction
  have hp := prism_prepared .interaction 0 0 (by rw [hf.1]; exact Nat.one_pos) (by rw [hf.2.1]; exact Nat.one_pos)
  refine ⟨trap, prism .interaction, odd, prism_prepared .interaction, fun a b => trap_sane _ a b, hf.1, hf.2.1, rfl, odd_pos, ?_, ?_⟩
  · rw [hf.2.2.2.2.2, velocityFiltered_trace, trap_gain, odd_gamma k g hg hk h1 h2, Matrix.trace_zero]
    norm_num
  · have h0 : ∀ t, trap.velocityFiltered ⟨0, 0⟩ (fun _ => 1) (le_refl 3) (prism .interaction) t (fun _ _ => odd) 0 0 =
        trap.velocity (le_refl 3) (prism .interaction) t (fun _ _ => odd) 0 0 := by
      intro t
      unfold Setting.velocityFiltered Setting.velocity Setting.gammaFiltered Setting.gainFiltered Setting.gamma Setting.gain Setting.netFiltered
        motionFiltered motion
      have hp : preDeriveFiltered ⟨0, 0⟩ (fun _ => 1) (prism .interaction) t = preDerive (prism .interaction) t := by
        unfold preDeriveFiltered preDerive evolveFiltered evolveProjectors
        simp
      simp only [hp]
      rfl
    rw [← h0, velocityFiltered_trace, trap_gain, Matrix.trace_zero, zero_sub, Complex.neg_re, neg_nonpos]
    have hG : trap.gammaFiltered ⟨0, 0⟩ (fun _ => 1) (prism .interaction) (prism .interaction).tini (fun _ _ => odd) 0 0 =
        trap.gamma (prism .interaction) (prism .interaction).tini (fun _ _ => odd) 0 0 := by
      unfold Setting.gammaFiltered Setting.gamma Setting.netFiltered
      have hp : preDeriveFiltered ⟨0, 0⟩ (fun _ => 1) (prism .interaction) (prism .interaction).tini = preDerive (prism .interaction) (prism .interaction).tini := by
        unfold preDeriveFiltered preDerive evolveFiltered evolveProjectors
        simp
      simp only [hp]
      rfl
    rw [hG]
    have hd := net_dot_nonneg (s := trap) hp (prism .interaction).tini (fun _ _ => odd) 0 odd_pos
    rw [gamma_eq, if_pos (show trap.iint = true from rfl), Finset.sum_range_succ, Finset.sum_range_succ, Finset.sum_range_succ, Finset.sum_range_zero,
      trap_rate, trap_rate, trap_rate]
    unfold dot at hd
    simp
    exact hd

/-- The medium of the other examples, without interactions. -/
noncomputable def vapour : Setting 3 := { cascade with iint := false }

/-- A pure state with a complex coherence. -/
noncomputable def tilted : Mat 3 := !![1, -Complex.I, 0; Complex.I, 1, 0; 0, 0, 0]

theorem tilted_pos : tilted.PosSemidef := by
  have e : tilted = Matrix.vecMulVec ![1, Complex.I, 0] (star ![1, Complex.I, 0]) := by
    ext i j
    fin_cases i <;> fin_cases j <;> simp [tilted, Matrix.vecMulVec_apply]
  rw [e]
  exact Matrix.posSemidef_vecMulVec_self_star _

/-- C106, disagreement: in the mass basis there is no filter, so that the result depends on the working basis. Two objects differ in the basis
only; with the same state at the start all readings agree. In the mass basis the content of the first mass state changes at a rate of 2/9,
in the interaction basis not at all, now and later. -/
theorem c106_bases_violated (k : LowPass) (g : ℝ → ℝ) (hg : k.Factor g) (hk : 0 < k.cutoff) (h1 : k.cutoff + k.scale < 1) :
    ∃ (s : Setting 3) (o o' : Obj 3) (A : Mat 3), AllPrepared o ∧ AllPrepared o' ∧ o = { o' with basis := .mass } ∧ o'.basis = .interaction ∧
      A.PosSemidef ∧
      (∀ f, evalFlavorAtNode (atTime o 0 0 o.tini A) f 0 0 = evalFlavorAtNode (atTime o' 0 0 o'.tini A) f 0 0 ∧
        evalMassAtNode (atTime o 0 0 o.tini A) f 0 0 = evalMassAtNode (atTime o' 0 0 o'.tini A) f 0 0) ∧
      (s.velocityFiltered k g (le_refl 3) o o.tini (fun _ _ => A) 0 0) 0 0 = 2 / 9 ∧
      ∀ ρ a b, EvolvesFiltered s k g (le_refl 3) o' ρ a b → ∀ t ∈ Set.Icc a b, ∀ i,
        evalMassAtNode (atTime o' 0 0 t (ρ t 0 0)) i 0 0 = evalMassAtNode (atTime o' 0 0 a (ρ a 0 0)) i 0 0 := by
  have hf := prism_fields .mass
  have hf' := prism_fields .interaction
  have hp := prism_prepared .mass 0 0 (by rw [hf.1]; exact Nat.one_pos) (by rw [hf.2.1]; exact Nat.one_pos)
  have hp' := prism_prepared .interaction 0 0 (by rw [hf'.1]; exact Nat.one_pos) (by rw [hf'.2.1]; exact Nat.one_pos)
  have hread : ∀ f, evalFlavorAtNode (atTime (prism .mass) 0 0 (prism .mass).tini tilted) f 0 0 =
      evalFlavorAtNode (atTime (prism .interaction) 0 0 (prism .interaction).tini tilted) f 0 0 := by
    intro f
    rw [hf.2.2.2.2.2, hf'.2.2.2.2.2, eval_eq (good_atTime hp.good 0 0 5 tilted) hp.type, eval_eq (good_atTime hp'.good 0 0 5 tilted) hp'.type,
      ← projectors_op hp, ← projectors_op hp', prism_projector, prism_projector]
    rfl
  refine ⟨vapour, prism .mass, prism .interaction, tilted, prism_prepared .mass, prism_prepared .interaction, ?_, hf'.2.2.2.1, tilted_pos,
    fun f => ⟨hread f, ?_⟩, ?_, ?_⟩
  · rfl
  · rw [mass_reading hp.good (prism_diagonal .mass) hp.type, mass_reading hp'.good (prism_diagonal .interaction) hp'.type]
  · rw [velocityFiltered_free rfl rfl, hf.2.2.2.2.2]
    have hq : ∀ f, (preDeriveFiltered k g (prism .mass) 5).evolB1 0 f 0 = toB1 mixThird (projector f) := fun f => by
      rw [filtered_projector hp, if_neg (fun h => h.1 hf.2.2.2.1), prism_projector]
    have hH : ∀ i j, motionFiltered k g vapour.c vapour.dens vapour.ye (Fin.castLE (le_refl 3)) (prism .mass) 0 0 5 i j =
        1 / 4 * toB1 mixThird (projector 0) i j - 1 / 4 * toB1 mixThird (projector 1) i j - 1 / 4 * toB1 mixThird (projector 2) i j +
          (Matrix.diagonal fun i => ((i.val : ℝ) : ℂ) : Mat 3) i j := by
      intro i j
      unfold motionFiltered hamiltonian Matter.hi
      dsimp only
      rw [preDeriveFiltered_fields]
      dsimp only
      simp only [hq, hf.2.2.2.1, hf.2.2.1, prism_h0s, if_true]
      simp [Matter.potentials, Matter.anti, vapour, cascade]
      norm_num
      ring
    rw [Matrix.smul_apply, Matrix.sub_apply, Matrix.mul_apply, Matrix.mul_apply, Fin.sum_univ_three, Fin.sum_univ_three]
    simp only [hH, toB1_apply]
    simp [mixThird, tilted]
    ring_nf
    simp
    norm_num
  · intro ρ a b h t ht i
    refine c106_frozen k g hg vapour (le_refl 3) (prism .interaction) (prism_prepared .interaction) (prism_diagonal .interaction) rfl rfl
      (by rw [hf'.2.2.2.1]; decide) hf'.2.2.2.2.1 hk ρ a b h 0 0 hp'.node hp'.type (fun i j hij => ?_) t ht i
    rw [prism_frequency .interaction 0 hp'.node]
    refine lt_of_lt_of_le h1 ?_
    fin_cases i <;> fin_cases j <;> first | exact absurd rfl hij | norm_num

/-- A cut-off above all frequencies of the example. -/
example (s : Setting 3) (t : ℝ) (st : Nat → Nat → Mat 3) :
    s.velocityFiltered ⟨4, 1⟩ (ramp ⟨4, 1⟩) (le_refl 3) (prism .interaction) t st 0 0 = s.velocity (le_refl 3) (prism .interaction) t st 0 0 := by
  refine (c106_neutral ⟨4, 1⟩ (ramp ⟨4, 1⟩) (ramp_factor _ (by norm_num)) s (le_refl 3) (prism .interaction) (prism_prepared _)
    (Or.inr (Or.inr (Or.inr fun e he i j => ?_)))).1 t st 0 0
  rw [prism_frequency _ e he]
  fin_cases i <;> fin_cases j <;> norm_num [abs_le]

/-- A cut-off between the frequencies changes a projector: the coherence of the outer mass states is lost. -/
example : (preDeriveFiltered ⟨3 / 2, 1 / 4⟩ (ramp ⟨3 / 2, 1 / 4⟩) (prism .interaction) 5).evolB1 0 0 0 0 2 = 0 ∧
    (preDerive (prism .interaction) 5).evolB1 0 0 0 0 2 = 2 / 9 ∧
    ∑ f, (preDeriveFiltered ⟨3 / 2, 1 / 4⟩ (ramp ⟨3 / 2, 1 / 4⟩) (prism .interaction) 5).evolB1 0 f 0 = 1 := by
  have hf := prism_fields .interaction
  refine ⟨?_, ?_, (c106_projectors ⟨3 / 2, 1 / 4⟩ (ramp _) (ramp_factor _ (by norm_num)) (prism .interaction) 0 0
    (prism_prepared _ 0 0 (by rw [hf.1]; exact Nat.one_pos) (by rw [hf.2.1]; exact Nat.one_pos)) 5).2⟩
  · rw [prism_filtered _ _ (by norm_num)]
    simp only [lowPass, Matrix.of_apply, Matrix.diagonal_apply_eq, Complex.ofReal_re]
    rw [if_neg (by decide), (ramp_factor ⟨3 / 2, 1 / 4⟩ (by norm_num)).stop _ (by norm_num), zero_smul]
  · rw [prism_projector, toB1_apply]
    simp [mixThird]
    norm_num

/-- The mass state of the middle level does not change while everything is filtered. -/
theorem still : EvolvesFiltered vapour ⟨1 / 2, 1 / 4⟩ (ramp ⟨1 / 2, 1 / 4⟩) (le_refl 3) (prism .interaction) (fun _ _ _ => projector 1) 0 1 := by
  have hf := prism_fields .interaction
  refine ⟨∅, Set.finite_empty, fun _ _ _ _ _ _ => continuousOn_const, fun t _ _ e r he hr => ?_, fun _ _ _ _ _ _ => projector_hermitian 1⟩
  rw [velocityFiltered_free rfl rfl]
  refine (Deriv.const _ _ _).congr ?_
  have hp := prism_prepared .interaction e r he hr
  have hz : ∀ i j, i ≠ j → motionFiltered ⟨1 / 2, 1 / 4⟩ (ramp ⟨1 / 2, 1 / 4⟩) vapour.c vapour.dens vapour.ye (Fin.castLE (le_refl 3)) (prism .interaction) e r t i j = 0 := by
    intro i j hij
    refine motionFiltered_diagonal (by rw [hf.2.2.2.1]; decide) (fun f i j hij => ?_) i j hij
    rw [filtered_projector hp, if_pos ⟨by rw [hf.2.2.2.1]; decide, hf.2.2.2.2.1, by norm_num⟩]
    refine lowPass_stop (fun i j hij => ?_) _ hij
    rw [frequency_eq hp hf.2.2.2.2.1, prism_frequency _ e he]
    refine (ramp_factor ⟨1 / 2, 1 / 4⟩ (by norm_num)).stop _ ?_
    fin_cases i <;> fin_cases j <;> first | exact absurd rfl hij | norm_num
  generalize motionFiltered ⟨1 / 2, 1 / 4⟩ (ramp ⟨1 / 2, 1 / 4⟩) vapour.c vapour.dens vapour.ye (Fin.castLE (le_refl 3)) (prism .interaction) e r t = H at hz
  symm
  rw [smul_eq_zero]
  right
  ext i j
  rw [Matrix.sub_apply, Matrix.mul_apply, Matrix.mul_apply, Fin.sum_univ_three, Fin.sum_univ_three]
  fin_cases i <;> fin_cases j <;> simp [projector, hz]

example (t : ℝ) (ht : t ∈ Set.Icc (0 : ℝ) 1) (i : Fin 3) :
    evalMassAtNode (atTime (prism .interaction) 0 0 t (projector 1)) i 0 0 = evalMassAtNode (atTime (prism .interaction) 0 0 0 (projector 1)) i 0 0 := by
  have hf := prism_fields .interaction
  have hp := prism_prepared .interaction 0 0 (by rw [hf.1]; exact Nat.one_pos) (by rw [hf.2.1]; exact Nat.one_pos)
  refine c106_frozen ⟨1 / 2, 1 / 4⟩ (ramp _) (ramp_factor _ (by norm_num)) vapour (le_refl 3) (prism .interaction) (prism_prepared _) (prism_diagonal _)
    rfl rfl (by rw [hf.2.2.2.1]; decide) hf.2.2.2.2.1 (by norm_num) _ 0 1 still 0 0 hp.node hp.type (fun i j hij => ?_) t ht i
  rw [prism_frequency _ 0 hp.node]
  fin_cases i <;> fin_cases j <;> first | exact absurd rfl hij | norm_num

example (t : ℝ) (ht : t ∈ Set.Icc (0 : ℝ) 1) : ∃ c₀ c : Fin 3 → ℝ,
    (∀ f, evalFlavorAtNode (atTime (prism .interaction) 0 0 0 (projector 1)) f 0 0 = .ok (c₀ f)) ∧
    (∀ f, evalFlavorAtNode (atTime (prism .interaction) 0 0 t (projector 1)) f 0 0 = .ok (c f)) ∧ ∑ f, c f = ∑ f, c₀ f := by
  have hf := prism_fields .interaction
  have hp := prism_prepared .interaction 0 0 (by rw [hf.1]; exact Nat.one_pos) (by rw [hf.2.1]; exact Nat.one_pos)
  obtain ⟨c₀, c, h1, h2, h3, _⟩ := c106_conserves _ _ vapour (le_refl 3) (prism .interaction) (prism_prepared _) rfl rfl _ 0 1 still 0 0 hp.node hp.type 0 t
    ⟨le_refl _, zero_le_one⟩ ht
  exact ⟨c₀, c, h1, h2, h3⟩

/-- All flavours absorbed with rate one by neutral currents. -/
example (k : LowPass) (g : ℝ → ℝ) (hg : k.Factor g) (t : ℝ) (st : Nat → Nat → Mat 3) :
    (cascade.velocityFiltered k g (le_refl 3) (prism .interaction) t st 0 0).trace =
      (cascade.gainFiltered k g (prism .interaction) t st 0 0).trace - 1 * (st 0 0).trace := by
  have hf := prism_fields .interaction
  refine (c106_absorption_partial k g hg cascade (prism .interaction) (prism_prepared _) rfl t st 0 0 (by rw [hf.1]; exact Nat.one_pos)
    (by rw [hf.2.1]; exact Nat.one_pos) 1 fun f _ => ?_).trans (by norm_num)
  have h1 : (cascade.net (prism .interaction) t st).invNC (cascade.old t) 0 f 0 = 1 := by
    unfold Net.invNC Update.linAcc Update.forTargets Net.densities Matter.densities
    simp only [Setting.net, cascade]
    norm_num
  have h2 : (cascade.net (prism .interaction) t st).invCC (cascade.old t) 0 f 0 = 0 := by
    unfold Net.invCC Update.linAcc Update.forTargets Net.densities Matter.densities
    simp only [Setting.net, cascade]
    norm_num
  have h3 : (cascade.net (prism .interaction) t st).gr = false := rfl
  unfold Net.invINT
  rw [h1, h2, h3]
  simp

/-- There are such filters. -/
example : LowPass.Factor ⟨3 / 2, 1 / 4⟩ (ramp ⟨3 / 2, 1 / 4⟩) ∧ LowPass.Factor ⟨1 / 2, 1 / 4⟩ (ramp ⟨1 / 2, 1 / 4⟩) :=
  ⟨ramp_factor _ (by norm_num), ramp_factor _ (by norm_num)⟩

end Verif.Density
