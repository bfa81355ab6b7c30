import Verif.Density.Stepwise

/-!
# C103: positivisation leaves an exact evolution alone
-/

namespace Verif.Density

open Matrix
open Matter (NT)
open Update (Net Shape NonNeg)
open scoped ComplexOrder

variable {n : Nat}

/-! ## Lemmas -/

/-- The rounds of an evolution whose number of steps is known. -/
theorem positivised_iff (s : Setting n) (hn : 3 ≤ n) (scale : ℝ) (l : Leg) (T T' : Traveller n) (hsc : scale ≠ 0) (hi : T.o.istate = true)
    (he : T.o.ienergy = true) (hno : ¬l.Shortcut s T.allow) (k : Int) (hk : toInt (l.length / scale) = some k) :
    EvolvePositivised s hn scale l (enter l T) T' ↔ Chain s hn l.med (List.replicate k.toNat scale ++ [l.xend - scale * k]) (enter l T) T' := by
  rw [chain_rounds]
  constructor
  · rintro ⟨_, _, _, _, _, _, k', hk', h⟩
    rw [hk] at hk'
    cases hk'
    exact h
  · intro h
    exact ⟨rfl, rfl, hi, he, hno, hsc, k, hk, h⟩

/-! ## C103 -/

/-- C103, partial: along a track that starts at zero, in an interacting medium with sensible tables, an object whose states are nowhere
negative is evolved with positivisation, in steps of any positive size, exactly if it is without, and both read the same: the exact
evolution gives `PositivizeFlavors` nothing to correct, and its steps add up to the track. Missing: tracks that start elsewhere
(`c103_offset_violated`) and tracks run backwards (`c103_backwards_violated`). -/
theorem c103_no_effect_partial (s : Setting n) (hn : 3 ≤ n) (scale : ℝ) (l : Leg) (T : Traveller n) (ho : AllPrepared T.o) (hi : T.o.istate = true)
    (he : T.o.ienergy = true) (hnum : T.numerics = true) (hpos : ∀ e r, e < T.o.ne → r < T.o.nrhos → (T.o.state e r).PosSemidef)
    (hs : Sane (s.along l.med T.o.t) T.o T.o.t (T.o.t + l.xend)) (hx0 : l.xini = 0) (hx1 : 0 ≤ l.xend) (hno : ¬l.Shortcut s T.allow)
    (hsc : 0 < scale) (hfit : l.xend / scale < 2 ^ 31) :
    ((∃ T₁, EvolvePositivised s hn scale l (enter l T) T₁) ↔ ∃ T₂, EvolveState s hn l (enter l T) T₂) ∧
      ∀ T₁ T₂, EvolvePositivised s hn scale l (enter l T) T₁ → EvolveState s hn l (enter l T) T₂ → ReadAlike T₂.o T₁.o := by
  have hsame := same_enter l T
  have hlen : l.length = l.xend := by unfold Leg.length; rw [hx0, sub_zero]
  have hoff : (enter l T).offset = T.o.t := by show T.o.t - l.xini = _; rw [hx0, sub_zero]
  have ht0 : (enter l T).o.t = T.o.t := rfl
  have hk : toInt (l.length / scale) = some ⌊l.xend / scale⌋ := by rw [hlen]; exact toInt_floor (by positivity) hfit
  obtain ⟨hd, hsum⟩ := steps_sum hsc hx1
  have hiff := fun T₁ => positivised_iff s hn scale l T T₁ hsc.ne' hi he hno _ hk
  have hs' : Sane (s.along l.med T.o.t) (enter l T).o T.o.t (T.o.t + l.xend) := sane_same hsame (le_refl _) (le_refl _) hs
  have hpath : Path s l (enter l T) := ⟨by show T.o.t - (T.o.t - l.xini) = _; ring, fun _ => hnum, fun h => absurd h hno⟩
  have hho : AllPrepared (enter l T).o := hsame.prepared ho
  have hstep : ∀ T₁, EvolvePositivised s hn scale l (enter l T) T₁ → ∃ ρ : ℝ → Nat → Nat → Mat n,
      Evolves (s.along l.med T.o.t) hn T.o ρ T.o.t (T.o.t + l.xend) ∧
      (∀ e r, e < T.o.ne → r < T.o.nrhos → ρ T.o.t e r = T.o.state e r ∧ T₁.o.state e r = ρ (T.o.t + l.xend) e r) ∧ Same T.o T₁.o ∧
      T₁.o.t = T.o.t + l.xend := by
    intro T₁ h
    obtain ⟨ρ, h1, h2, h3, h4⟩ := Chain.follows s hn l.med _ (enter l T) T₁ ((hiff T₁).1 h) hnum hd hho (by rw [hsum, hoff]; exact hs') hpos
    rw [hsum, hoff] at h1
    rw [hsum] at h2 h4
    exact ⟨ρ, hsame.evolves h1, h2, hsame.trans h3, h4⟩
  have hwhole : ∀ T₂, EvolveState s hn l (enter l T) T₂ → ∃ ρ : ℝ → Nat → Nat → Mat n,
      Evolves (s.along l.med T.o.t) hn T.o ρ T.o.t (T.o.t + l.xend) ∧
      (∀ e r, e < T.o.ne → r < T.o.nrhos → ρ T.o.t e r = T.o.state e r ∧ T₂.o.state e r = ρ (T.o.t + l.xend) e r) ∧ Same T.o T₂.o ∧
      T₂.o.t = T.o.t + l.xend := by
    intro T₂ h
    obtain ⟨ρ, h1, h2, h3, h4, _⟩ := h.follows hpath hho hs.tau fun e r he hr => (hpos e r he hr).1
    rw [hlen, hoff, ht0, min_eq_left (by linarith), max_eq_right (by linarith)] at h1
    rw [hlen] at h2 h4
    exact ⟨ρ, hsame.evolves h1, h2, hsame.trans h3, h4⟩
  refine ⟨⟨fun ⟨T₁, h⟩ => ?_, fun ⟨T₂, h⟩ => ?_⟩, fun T₁ T₂ h k => ?_⟩
  · obtain ⟨ρ, h1, h2, _⟩ := hstep T₁ h
    obtain ⟨T₂, ⟨U, h3, h4⟩, _⟩ := c100_leg_by_leg s hn l.med [l] 0 T ρ ho hs.tau hi he hnum (fun k hk => by
      rw [List.mem_singleton] at hk
      subst hk
      exact ⟨by rw [hx0]; exact hx1, hno⟩) ⟨⟨∅, Set.finite_empty, fun y _ _ => by rw [hx0, zero_add, sub_zero]; exact ⟨rfl, rfl, rfl⟩⟩, trivial⟩ (by
      rw [sub_zero, show wayLength [l] = l.xend by simp [wayLength, hlen]]
      exact h1) fun e r he hr => (h2 e r he hr).1
    exact ⟨U, h3⟩
  · obtain ⟨ρ, h1, h2, _⟩ := hwhole T₂ h
    obtain ⟨T₁, h3⟩ := Chain.exists s hn l.med _ (enter l T) ρ hnum hd hho (by rw [hsum, hoff]; exact hs') hpos (by
      rw [hsum, hoff]
      exact hsame.symm.evolves h1) fun e r he hr => (h2 e r he hr).1
    exact ⟨T₁, (hiff T₁).2 h3⟩
  · obtain ⟨ρ, h1, h2, h3, h4⟩ := hstep T₁ h
    obtain ⟨σ, k1, k2, k3, k4⟩ := hwhole T₂ k
    refine ⟨h4.trans k4.symm, fun e r f he hr => ?_⟩
    rw [k3.ne] at he
    rw [k3.nrhos] at hr
    have heq := c98_determined (s.along l.med T.o.t) hn T.o ho ρ σ T.o.t (T.o.t + l.xend) hs h1 k1 0
      (fun e r _ he hr => by rw [(h2 e r he hr).1, (k2 e r he hr).1]) (T.o.t + l.xend) ⟨by linarith, le_refl _⟩ e r (Nat.zero_le _) he hr
    have hst : T₁.o.state e r = T₂.o.state e r := by rw [(h2 e r he hr).2, (k2 e r he hr).2, heq]
    exact ⟨hst, (k3.symm.trans h3).readings (h4.trans k4.symm) hst f⟩

theorem walker_positive (e r : Nat) (he : e < walker.o.ne) (hr : r < walker.o.nrhos) : (walker.o.state e r).PosSemidef := by
  rw [walker_state e r he hr]
  refine smul_pos' Matrix.PosSemidef.one ?_
  split
  · simp
  · exact (Real.exp_pos _).le

theorem walker_free (l : Leg) : ¬l.Shortcut cascade walker.allow := fun h => absurd h.2.1 (by simp [cascade])

/-- A track of seven in two steps of three and one of one. -/
example : ∃ T₁ T₂, EvolvePositivised cascade (le_refl 3) 3 (stretch 0 7) (enter (stretch 0 7) walker) T₁ ∧
    EvolveState cascade (le_refl 3) (stretch 0 7) (enter (stretch 0 7) walker) T₂ ∧ ReadAlike T₂.o T₁.o := by
  obtain ⟨h1, h2⟩ := c103_no_effect_partial cascade (le_refl 3) 3 (stretch 0 7) walker walker_prepared rfl rfl rfl walker_positive
    (cascade_sane _ _ _) rfl (by unfold stretch; norm_num) (walker_free _) (by norm_num) (by unfold stretch; norm_num)
  obtain ⟨T₂, k, _⟩ := walker_step 0 7 (enter (stretch 0 7) walker) (same_enter _ walker) rfl ⟨rfl, rfl⟩ walker_state
  obtain ⟨T₁, h⟩ := h1.2 ⟨T₂, k⟩
  exact ⟨T₁, T₂, h, k, h2 T₁ T₂ h k⟩

/-- Of the walker, whatever rounds are made, the state is known. -/
theorem walker_chain (x y : ℝ) (ds : List ℝ) (hd : ∀ d ∈ ds, 0 ≤ d) :
    (∃ T', Chain cascade (le_refl 3) (stretch x y).med ds (enter (stretch x y) walker) T') ∧
      ∀ T', Chain cascade (le_refl 3) (stretch x y).med ds (enter (stretch x y) walker) T' →
        T'.o.t = ds.sum ∧ Same walker.o T'.o ∧ ∀ e r, e < 2 → r < 2 → T'.o.state e r = fed ds.sum e r := by
  have hsame := same_enter (stretch x y) walker
  have hp := hsame.prepared walker_prepared
  have h0 : (enter (stretch x y) walker).o.t = 0 := rfl
  have hsum : 0 ≤ ds.sum := List.sum_nonneg hd
  refine ⟨Chain.exists cascade (le_refl 3) _ ds (enter (stretch x y) walker) fed rfl hd hp (cascade_sane _ _ _) walker_positive
    (fed_evolves _ hp rfl _ _) fun e r he hr => (walker_state e r he hr).symm, fun T' h => ?_⟩
  obtain ⟨ρ, h1, h2, h3, h4⟩ := Chain.follows cascade (le_refl 3) _ ds _ T' h rfl hd hp (cascade_sane _ _ _) walker_positive
  rw [h0, zero_add] at h1 h2 h4
  refine ⟨h4, hsame.trans h3, fun e r he hr => ?_⟩
  rw [(h2 e r he hr).2]
  exact c98_determined cascade (le_refl 3) (enter (stretch x y) walker).o hp ρ fed 0 ds.sum (cascade_sane _ _ _) h1 (fed_evolves _ hp rfl _ _) 0
    (fun e r _ he hr => by rw [(h2 e r he hr).1]; exact walker_state e r he hr) ds.sum ⟨hsum, le_refl _⟩ e r (Nat.zero_le _) he hr

/-- What the walker reads at its upper node. -/
theorem walker_reads {T : Traveller 3} (hs : Same walker.o T.o) {t : ℝ} (hst : T.o.state 1 0 = fed t 1 0) (f : Fin 3) :
    evalFlavorAtNode T.o f 1 0 = .ok (Real.exp (-t)) := by
  have hp := hs.prepared walker_prepared 1 0 (by rw [hs.ne]; show 1 < 2; norm_num) (by rw [hs.nrhos]; show 0 < 2; norm_num)
  rw [eval_eq hp.good hp.type, hst]
  obtain ⟨W, hW, h⟩ := op_rotated hp.good hp.type 1
  have hone : dot (op T.o 0 f 1) (1 : Mat 3) = 1 := by
    rw [h, ← sum_b1 hW, dot_sum, Finset.sum_congr rfl fun g _ => dot_b1 hW f g, Finset.sum_ite_eq, if_pos (Finset.mem_univ _)]
  show Outcome.ok (dot _ ((if (1 : Nat) = 0 then t * Real.exp (-t) else Real.exp (-t)) • (1 : Mat 3))) = _
  rw [if_neg (by norm_num), dot_smul, hone, mul_one]

/-- How the walker is evolved, with positivisation in steps of one and without. -/
theorem walker_both (x y : ℝ) (k : Int) (hk : toInt ((stretch x y).length / 1) = some k) (hlast : 0 ≤ y - k) (hk0 : (k.toNat : ℝ) + (y - k) = 7) :
    (∃ T₁, EvolvePositivised cascade (le_refl 3) 1 (stretch x y) (enter (stretch x y) walker) T₁) ∧
    (∃ T₂, EvolveState cascade (le_refl 3) (stretch x y) (enter (stretch x y) walker) T₂) ∧
    (∀ T₁, EvolvePositivised cascade (le_refl 3) 1 (stretch x y) (enter (stretch x y) walker) T₁ →
      T₁.o.t = 7 ∧ ∀ f, evalFlavorAtNode T₁.o f 1 0 = .ok (Real.exp (-7))) := by
  have hiff := fun T₁ => positivised_iff cascade (le_refl 3) 1 (stretch x y) walker T₁ one_ne_zero rfl rfl (walker_free _) k hk
  have hsum : (List.replicate k.toNat (1 : ℝ) ++ [(stretch x y).xend - 1 * k]).sum = 7 := by
    rw [List.sum_append, List.sum_replicate, List.sum_singleton, nsmul_eq_mul, mul_one, one_mul]
    exact hk0
  have hd : ∀ d ∈ List.replicate k.toNat (1 : ℝ) ++ [(stretch x y).xend - 1 * k], 0 ≤ d := by
    intro d hd
    rcases List.mem_append.1 hd with h | h
    · rw [List.eq_of_mem_replicate h]; norm_num
    · rw [List.mem_singleton.1 h, one_mul]; exact hlast
  obtain ⟨⟨T₁, h1⟩, h2⟩ := walker_chain x y _ hd
  obtain ⟨T₂, h3, _⟩ := walker_step x y (enter (stretch x y) walker) (same_enter _ walker) rfl ⟨rfl, rfl⟩ walker_state
  refine ⟨⟨T₁, (hiff T₁).2 h1⟩, ⟨T₂, h3⟩, fun T₁ h => ?_⟩
  have hc := (hiff T₁).1 h
  obtain ⟨k1, k2, k3⟩ := h2 T₁ hc
  rw [hsum] at k1 k3
  exact ⟨k1, fun f => walker_reads k2 (k3 1 0 (by norm_num) (by norm_num)) f⟩

/-- C103, disagreement: with positivisation in steps of one, a track from five to seven is evolved by seven instead of two. What should
have been damped by `exp (-2)` is by `exp (-7)`. -/
theorem c103_offset_violated :
    (∃ T₁, EvolvePositivised cascade (le_refl 3) 1 (stretch 5 7) (enter (stretch 5 7) walker) T₁) ∧
    (∃ T₂, EvolveState cascade (le_refl 3) (stretch 5 7) (enter (stretch 5 7) walker) T₂) ∧
    (∀ T₁, EvolvePositivised cascade (le_refl 3) 1 (stretch 5 7) (enter (stretch 5 7) walker) T₁ →
      T₁.o.t = 7 ∧ ∀ f, evalFlavorAtNode T₁.o f 1 0 = .ok (Real.exp (-7))) ∧
    ∀ T₂, EvolveState cascade (le_refl 3) (stretch 5 7) (enter (stretch 5 7) walker) T₂ →
      T₂.o.t = 2 ∧ ∀ f, evalFlavorAtNode T₂.o f 1 0 = .ok (Real.exp (-2)) := by
  have hk : toInt ((stretch 5 7).length / 1) = some 2 := by
    rw [show (stretch 5 7).length / 1 = 2 by unfold stretch Leg.length; norm_num, toInt_floor (by norm_num) (by norm_num)]
    norm_num
  obtain ⟨h1, h2, h3⟩ := walker_both 5 7 2 hk (by norm_num) (by rw [show Int.toNat 2 = 2 from rfl]; norm_num)
  refine ⟨h1, h2, h3, fun T₂ h => ?_⟩
  have hsame := same_enter (stretch 5 7) walker
  have hp := hsame.prepared walker_prepared
  have h0 : (enter (stretch 5 7) walker).o.t = 0 := rfl
  have hl : (stretch 5 7).length = 2 := by unfold stretch Leg.length; norm_num
  obtain ⟨ρ, k1, k2, k3, k4, _⟩ := h.follows ⟨by show (0 : ℝ) - (0 - 5) = 5; norm_num, fun _ => rfl, fun h => absurd h (walker_free _)⟩ hp
    (fun h => absurd h (by simp [cascade])) walker_hermitian
  rw [h0, hl, zero_add] at k1 k2 k4
  rw [min_eq_left (by norm_num), max_eq_right (by norm_num)] at k1
  refine ⟨k4, walker_reads (hsame.trans k3) ?_⟩
  rw [(k2 1 0 (by show 1 < 2; norm_num) (by show 0 < 2; norm_num)).2]
  exact c98_determined cascade (le_refl 3) (enter (stretch 5 7) walker).o hp ρ fed 0 2 (cascade_sane _ _ _) k1 (fed_evolves _ hp rfl _ _) 0
    (fun e r _ he hr => by rw [(k2 e r he hr).1]; exact walker_state e r he hr) 2 ⟨by norm_num, le_refl _⟩ 1 0 (Nat.zero_le _)
    (by show 1 < 2; norm_num) (by show 0 < 2; norm_num)

/-- C103, disagreement: a track run backwards from seven to zero gives a negative number of steps, and the object is evolved forwards by
seven: where without positivisation the clock goes back by seven, the contents are damped by `exp (-7)`. -/
theorem c103_backwards_violated :
    (∃ T₁, EvolvePositivised cascade (le_refl 3) 1 (stretch 7 0) (enter (stretch 7 0) walker) T₁) ∧
    (∃ T₂, EvolveState cascade (le_refl 3) (stretch 7 0) (enter (stretch 7 0) walker) T₂) ∧
    (∀ T₁, EvolvePositivised cascade (le_refl 3) 1 (stretch 7 0) (enter (stretch 7 0) walker) T₁ →
      T₁.o.t = 7 ∧ ∀ f, evalFlavorAtNode T₁.o f 1 0 = .ok (Real.exp (-7))) ∧
    ∀ T₂, EvolveState cascade (le_refl 3) (stretch 7 0) (enter (stretch 7 0) walker) T₂ → T₂.o.t = -7 := by
  have hk : toInt ((stretch 7 0).length / 1) = some (-7) := by
    rw [show (stretch 7 0).length / 1 = -7 by unfold stretch Leg.length; norm_num]
    unfold toInt
    rw [if_neg (show ¬(0 : ℝ) ≤ -7 by norm_num), show ⌈(-7 : ℝ)⌉ = -7 by norm_num]
    decide
  obtain ⟨h1, h2, h3⟩ := walker_both 7 0 (-7) hk (by norm_num) (by rw [show Int.toNat (-7) = 0 from rfl]; norm_num)
  refine ⟨h1, h2, h3, fun T₂ h => ?_⟩
  obtain ⟨ρ, k1, k2, k3, k4, _⟩ := h.follows ⟨by show (0 : ℝ) - (0 - 7) = 7; norm_num, fun _ => rfl, fun h => absurd h (walker_free _)⟩
    ((same_enter (stretch 7 0) walker).prepared walker_prepared) (fun h => absurd h (by simp [cascade])) walker_hermitian
  rw [k4]
  show (0 : ℝ) + (0 - 7) = -7
  norm_num

end Verif.Density
