import Verif.Density.Resume

/-!
# C102: stopping, saving, reading and going on
-/

namespace Verif.Density

open Matrix
open Matter (NT)
open Update (Net Shape NonNeg)
open scoped ComplexOrder

variable {n : Nat}

/-! ## Spec -/

/-- The vacuum Hamiltonian is that of the mass differences. -/
def Current (o : Obj n) : Prop := o.dm2 = ∑ i : Fin n, if 1 ≤ i.val then o.differences i • (projector i : Mat n) else 0

/-! ## Lemmas -/

theorem dm2_sum (d : Fin n → ℝ) : (List.finRange n).foldl (fun s i => if 1 ≤ i.val then s + d i • (projector i : Mat n) else s) 0 =
    ∑ i : Fin n, if 1 ≤ i.val then d i • (projector i : Mat n) else 0 := by
  have h : (fun (s : Mat n) (i : Fin n) => if 1 ≤ i.val then s + d i • (projector i : Mat n) else s) =
      fun s i => s + if 1 ≤ i.val then d i • (projector i : Mat n) else 0 := by
    funext s i
    split <;> simp
  rw [h, foldl_sum, zero_add, ← List.ofFn_eq_map, List.sum_ofFn]

theorem load_fields (f : File n) : (load f).o.dm2 = (∑ i : Fin n, if 1 ≤ i.val then f.differences i • (projector i : Mat n) else 0) ∧
    (load f).o.differences = f.differences ∧ (load f).o.mixing = f.mixing ∧ (load f).o.nt = f.nt ∧ (load f).o.ne = f.ne ∧
    (load f).o.nrhos = (if f.nt = .both then 2 else 1) ∧ (load f).o.basis = .interaction ∧ (load f).o.ioscillations = f.oscillations ∧
    (load f).o.energies = f.energies ∧ (load f).o.t = f.time ∧ (load f).o.tini = f.timeInitial ∧ (load f).numerics = true ∧ (load f).allow = false ∧
    (load f).o.ienergy = true ∧ (∀ k, (load f).o.b0 k = projector k) ∧ (∀ r k, (load f).o.b1 r k = toB1 (f.mixing r) (projector k)) := by
  refine ⟨?_, rfl, rfl, rfl, rfl, rfl, rfl, rfl, rfl, rfl, rfl, rfl, rfl, rfl, fun _ => rfl, fun _ _ => rfl⟩
  rw [← dm2_sum]
  rfl

theorem load_state (f : File n) (e r : Nat) (he : e < f.ne) (hr : r < if f.nt = .both then 2 else 1) : (load f).o.state e r = f.state e r := if_pos ⟨he, hr⟩

theorem load_alike (T : Traveller n) (x : ℝ) (hg : Good T.o) (hc : Current T.o) (hb : T.o.basis = .interaction) : Alike T.o (load (save T x)).o := by
  obtain ⟨h1, _, h3, h4, h5, h6, h7, h8, h9, _, h11, _⟩ := load_fields (save T x)
  exact ⟨h4, h5, h6.trans hg.ready.nrhos.symm, h7.trans hb.symm, h8, fun e _ => by rw [h9]; rfl, fun r _ => by rw [h3]; rfl, h1.trans hc.symm, h11⟩

theorem evolve_zero (t : ℝ) (A : Mat n) : evolve 0 t A = A := by
  unfold evolve phase
  simp

theorem load_prepared (T : Traveller n) (x : ℝ) (hg : Good T.o) (hc : Current T.o) : AllPrepared (load (save T x)).o := by
  obtain ⟨h1, _, h3, h4, h5, h6, h7, h8, h9, _, h11, _, _, h14, h15, h16⟩ := load_fields (save T x)
  intro e r he hr
  refine ⟨⟨⟨h15, fun r => ?_, ?_⟩, h14, fun r k _ => ?_, ?_⟩, he, hr, if_pos he, fun hf k => ?_⟩
  · rw [h3]; exact hg.ready.mixing r
  · rw [h6, h4]
  · rw [h16, h3]
  · rw [h1.trans (show _ = T.o.dm2 from Eq.symm hc)]; exact hg.dm2
  · have hosc : (save T x).oscillations = false := by
      rcases hf with hf | hf
      · rw [h7] at hf; exact absurd hf (by decide)
      · rw [h8] at hf; exact hf
    have : (load (save T x)).o.evolB1 r k e = evolve (if e < (save T x).ne then (if (save T x).oscillations = true then _ else 0) else 0) _ (toB1 ((save T x).mixing r) (projector k)) :=
      if_pos ⟨hr, he⟩
    rw [this, hosc, h16]
    simp only [Bool.false_eq_true, if_false, ite_self]
    exact evolve_zero _ _

/-! ## C102 -/

/-- Setting the initial state makes the vacuum Hamiltonian that of the mass differences, and no evolution changes either. -/
theorem c102_current (o : Obj n) (ho : Ready o) (v : Nat → Nat → Fin n → ℝ) (b : Basis) (s : Setting n) (hn : 3 ≤ n) (ls : List Leg) (T T' : Traveller n)
    (hT : T.o = fill o v b) (hj : Journey s hn ls T T') : Current T.o ∧ Current T'.o := by
  have hc : Current T.o := by
    have : (fill o v b).dm2 = (List.finRange n).foldl (fun s i => if 1 ≤ i.val then s + o.differences i • o.b0 i else s) 0 ∧
        (fill o v b).differences = o.differences := by
      unfold fill iniH0 setIniFlavorProjectors
      dsimp only
      split <;> exact ⟨rfl, rfl⟩
    rw [hT]
    unfold Current
    rw [this.1, this.2, ← dm2_sum, show o.b0 = fun f => projector f from funext ho.b0]
  refine ⟨hc, ?_⟩
  clear hT
  induction ls generalizing T with
  | nil => rw [show T' = T from hj]; exact hc
  | cons l ls ih =>
    obtain ⟨U, h1, h2⟩ := hj
    refine ih U h2 ?_
    obtain ⟨_, _, _, _, τ, _, h1⟩ := h1
    have hk : (preDerive (enter l T).o τ).dm2 = T.o.dm2 ∧ (preDerive (enter l T).o τ).differences = T.o.differences := by
      rw [preDerive_fields]
      exact ⟨rfl, rfl⟩
    unfold Current at hc ⊢
    split at h1
    · rw [h1]; exact hc
    · split at h1
      · obtain ⟨_, _, _, _, h1⟩ := h1
        rw [h1]
        dsimp only
        rw [hk.1, hk.2]
        exact hc
      · rw [h1]
        dsimp only
        rw [hk.1, hk.2]
        exact hc

theorem walker_current : Current walker.o :=
  (c102_current { demo .interaction with trackStart := 0 } ⟨(demo_ready .interaction).b0, (demo_ready .interaction).mixing, (demo_ready .interaction).nrhos⟩
    _ .flavor cascade (le_refl 3) [] walker walker rfl rfl).1

example (T' : Traveller 3) (h : Journey cascade (le_refl 3) [stretch 0 1, stretch 5 7] walker T') : Current T'.o ∧ walker.o.dm2 ≠ 0 := by
  refine ⟨(c102_current { demo .interaction with trackStart := 0 }
    ⟨(demo_ready .interaction).b0, (demo_ready .interaction).mixing, (demo_ready .interaction).nrhos⟩ _ .flavor cascade (le_refl 3) _ walker T' rfl h).2, fun h => ?_⟩
  have h11 := congrFun (congrFun (walker_current.symm.trans h) 1) 1
  rw [Fin.sum_univ_three] at h11
  have hd : walker.o.differences = fun i => if i = 1 then 1 else 0 := rfl
  simp [hd, projector] at h11

/-- The object that is read from the file stands at the time of the saved one and reads the same. -/
theorem c102_read_partial (T : Traveller n) (x : ℝ) (hg : Good T.o) (ho : AllPrepared T.o) (hc : Current T.o) (hb : T.o.basis = .interaction) :
    AllPrepared (load (save T x)).o ∧ ReadAlike T.o (load (save T x)).o := by
  obtain ⟨_, _, _, _, h5, h6, _, _, _, h10, _⟩ := load_fields (save T x)
  have ha := load_alike T x hg hc hb
  have hp := load_prepared T x hg hc
  refine ⟨hp, h10, fun e r f he hr => ?_⟩
  have hst : (load (save T x)).o.state e r = T.o.state e r := load_state _ e r he (by rw [hg.ready.nrhos] at hr; exact hr)
  exact ⟨hst, ha.readings (ho e r he hr) (hp e r (by rwa [ha.ne]) (by rwa [ha.nrhos])) h10 hst f⟩

theorem walker_good : Good walker.o := (walker_prepared 0 0 (by show 0 < 2; norm_num) (by show 0 < 2; norm_num)).good

example (x : ℝ) : ReadAlike walker.o (load (save walker x)).o := (c102_read_partial walker x walker_good walker_prepared walker_current rfl).2

/-- The object that is read from the file stands at the position of the track that was saved, and its flavour projectors are already those
that the saved object uses at that time. -/
theorem c102_place_partial (T : Traveller n) (x : ℝ) (hg : Good T.o) (ho : AllPrepared T.o) (hc : Current T.o) (hb : T.o.basis = .interaction) :
    (load (save T x)).o.t - (load (save T x)).offset = x ∧
    ∀ e r f, e < T.o.ne → r < T.o.nrhos → (load (save T x)).o.evolB1 r f e = (preDerive T.o T.o.t).evolB1 r f e := by
  have ha := load_alike T x hg hc hb
  have hp := load_prepared T x hg hc
  refine ⟨show T.o.t - (T.o.t - x) = x by ring, fun e r f he hr => ?_⟩
  have hp' := hp e r (by rwa [ha.ne]) (by rwa [ha.nrhos])
  rw [← ha.proj (ho e r he hr) hp' T.o.t f]
  by_cases hosc : (load (save T x)).o.ioscillations = true
  · rw [show preDerive (load (save T x)).o T.o.t = evolveProjectors (load (save T x)).o id T.o.t from
      if_pos ⟨show Basis.interaction ≠ Basis.mass by decide, hosc⟩]
    have h1 : (load (save T x)).o.evolB1 r f e = evolve ((load (save T x)).o.h0s e) (T.o.t - T.o.tini) ((load (save T x)).o.b1 r f) := by
      rw [hp'.h0s]
      refine (if_pos ⟨hp'.type, hp'.node⟩).trans ?_
      show evolve (if e < T.o.ne then _ else _) _ _ = _
      rw [if_pos he]
      rfl
    exact h1.trans (if_pos ⟨hp'.type, hp'.node⟩).symm
  · rw [show preDerive (load (save T x)).o T.o.t = (load (save T x)).o from if_neg fun h => hosc h.2]

example (x : ℝ) (f : Fin 3) : (load (save walker x)).o.t - (load (save walker x)).offset = x ∧
    (load (save walker x)).o.evolB1 0 f 1 = (preDerive walker.o walker.o.t).evolB1 0 f 1 :=
  have h := c102_place_partial walker x walker_good walker_prepared walker_current rfl
  ⟨h.1, h.2 1 0 f (show 1 < 2 by decide) (show 0 < _ by decide)⟩

/-- C102, partial: an object in the interaction basis is saved and read; from there on the new object and the old one, taken along the same
tracks, read the same, wherever the track stood when it was saved. Missing: objects in the mass basis (`c102_mass_basis_violated`), with
sources (`c102_sources_violated`), and those that take the constant-density shortcut or positivise, which the file does not tell
(`c57_settings_violated`). -/
theorem c102_goes_on_partial (s : Setting n) (hn : 3 ≤ n) (T T₁ : Traveller n) (x : ℝ) (ls : List Leg) (hg : Good T.o) (ho : AllPrepared T.o)
    (hc : Current T.o) (hb : T.o.basis = .interaction) (hherm : ∀ e r, e < T.o.ne → r < T.o.nrhos → (T.o.state e r).IsHermitian)
    (hnum : T.numerics = true) (hsrc : s.tab.sources = false) (hl : ∀ l ∈ ls, l.xini ≤ l.xend ∧ ¬l.Shortcut s T.allow)
    (hs : ∀ l ∈ ls, ∀ u, Sane (s.along l.med u) T.o (u + l.xini) (u + l.xend))
    (htau : s.tab.tau = true → T.o.nt = .both) (hj : Journey s hn ls T T₁) :
    (∃ T₂, Journey s.reread hn ls (load (save T x)) T₂) ∧ ∀ T₂, Journey s.reread hn ls (load (save T x)) T₂ → ReadAlike T₁.o T₂.o := by
  have hre : s.reread = s := by
    unfold Setting.reread
    rw [← hsrc]
  rw [hre]
  obtain ⟨_, _, _, _, _, h6, _, _, _, h10, _, h12, h13, h14, _⟩ := load_fields (save T x)
  have ha := load_alike T x hg hc hb
  have hp := load_prepared T x hg hc
  have hst : ∀ e r, e < T.o.ne → r < T.o.nrhos → (T.o.state e r).IsHermitian ∧ (load (save T x)).o.state e r = T.o.state e r :=
    fun e r he hr => ⟨hherm e r he hr, load_state _ e r he (by rw [hg.ready.nrhos] at hr; exact hr)⟩
  have hno : ∀ l : Leg, ¬l.Shortcut s (load (save T x)).allow := fun l k => absurd k.2.2 (by rw [h13]; simp)
  refine ⟨Journey.copy s hn ls T (load (save T x)) T₁ hj ho hp ha h10 rfl h14 htau hst (fun l h => ⟨(hl l h).2, hno l⟩) hnum h12, fun T₂ hj' => ?_⟩
  obtain ⟨k1, k2, k3, k4, k5⟩ := Journey.alike s hn ls T (load (save T x)) T₁ T₂ hj hj' ho hp ha h10 hst
    (fun l h => ⟨(hl l h).1, (hl l h).2, hno l⟩) hnum h12 hs
  refine ⟨k4, fun e r f he hr => ?_⟩
  have hst := k5 e r he hr
  exact ⟨hst, k3.readings (k1 e r he hr) (k2 e r (by rwa [k3.ne]) (by rwa [k3.nrhos])) k4 hst f⟩

/-- After a track of one, saved and read, a track of two. -/
example (x : ℝ) : ∃ T T₁ T₂, Journey cascade (le_refl 3) [stretch 0 1] walker T ∧ Journey cascade (le_refl 3) [stretch 5 7] T T₁ ∧
    Journey cascade.reread (le_refl 3) [stretch 5 7] (load (save T x)) T₂ ∧ ReadAlike T₁.o T₂.o := by
  obtain ⟨T, h1, h2, h3, h4, h5⟩ := walker_step 0 1 (enter (stretch 0 1) walker) (same_enter _ walker) rfl ⟨rfl, rfl⟩ walker_state
  obtain ⟨T₁, k1⟩ := walker_journey [(5, 7)] T h2 h3 h5
  have hj : Journey cascade (le_refl 3) [stretch 0 1] walker T := ⟨T, h1, rfl⟩
  have hp := h2.prepared walker_prepared
  have hne : T.o.ne = 2 := h2.ne
  have hnr : T.o.nrhos = 2 := h2.nrhos
  have hcur := (c102_current { demo .interaction with trackStart := 0 }
    ⟨(demo_ready .interaction).b0, (demo_ready .interaction).mixing, (demo_ready .interaction).nrhos⟩ _ .flavor cascade (le_refl 3) _ walker T rfl hj).2
  obtain ⟨⟨T₂, k2⟩, k3⟩ := c102_goes_on_partial cascade (le_refl 3) T T₁ x [stretch 5 7] (hp 0 0 (by omega) (by omega)).good hp hcur h2.basis
    (fun e r he hr => by rw [h5 e r (by omega) (by omega)]; exact real_smul_hermitian _ Matrix.isHermitian_one) h3 rfl
    (fun l hl => by
      rw [List.mem_singleton] at hl
      subst hl
      exact ⟨by unfold stretch; norm_num, fun h => absurd h.2.1 (by simp [cascade])⟩)
    (fun l hl u => by
      rw [List.mem_singleton] at hl
      subst hl
      exact cascade_sane _ _ _) (fun h => absurd h (by simp [cascade])) k1
  exact ⟨T, T₁, T₂, hj, k1, k2, k3 T₂ k2⟩

/-- C102, disagreement: the working basis is not saved. Half an oscillation in the mass basis turns the first flavour into the second; read
from the file it is the first again. -/
theorem c102_mass_basis_violated :
    let T : Traveller 3 := ⟨turner, 0, false, true⟩
    (∃ T₁, Journey empty (le_refl 3) [half false] T T₁) ∧ ∀ T₁ x, Journey empty (le_refl 3) [half false] T T₁ → ∀ f,
      evalFlavorAtNode T₁.o f 0 0 = .ok (if f = 1 then 1 else 0) ∧ evalFlavorAtNode (load (save T₁ x)).o f 0 0 = .ok (if f = 0 then 1 else 0) := by
  intro T
  have hpi := Real.pi_pos
  have htau : empty.tab.tau = true → turner.nt = .both := fun h => absurd h (by simp [empty, Setting.off, inert, cascade])
  have hlen : (half false).length = Real.pi := sub_zero _
  have hw : wayLength [half false] = Real.pi := by simp [wayLength, hlen]
  have ht5 : turner.t = 5 := rfl
  have hstart : ∀ e r, e < turner.ne → r < turner.nrhos → uTransform (projector 1) (turner.t - 5) (toB1 mix45 (projector 0)) = turner.state e r := by
    intro e r he hr
    have he0 : e = 0 := by have : e < 1 := he; omega
    have hr0 : r = 0 := by have : r < 1 := hr; omega
    subst he0; subst hr0
    rw [turner_state, show turner.t = 5 from rfl, sub_self]
    unfold uTransform
    rw [neg_zero, phase_zero_time, Matrix.one_mul, Matrix.mul_one]
  have hherm : ∀ e r, e < turner.ne → r < turner.nrhos → (turner.state e r).IsHermitian := fun e r he hr => by
    rw [← hstart e r he hr]
    exact (turner_evolves 5 5).hermitian 5 ⟨le_refl _, le_refl _⟩ e r he hr
  have hno : ∀ l ∈ [half false], l.xini ≤ l.xend ∧ ¬l.Shortcut empty T.allow := fun l hl => by
    rw [List.mem_singleton] at hl
    subst hl
    exact ⟨hpi.le, fun h => absurd h.2.2 (by simp [T])⟩
  have hthr : Through (half true).med 0 [half false] := ⟨⟨∅, Set.finite_empty, fun _ _ _ => ⟨rfl, rfl, rfl⟩⟩, trivial⟩
  refine ⟨?_, fun T₁ x h f => ?_⟩
  · obtain ⟨T₁, h, _⟩ := c100_leg_by_leg empty (le_refl 3) (half true).med [half false] 0 T
      (fun t _ _ => uTransform (projector 1) (t - 5) (toB1 mix45 (projector 0))) turner_prepared htau rfl rfl rfl hno hthr (turner_evolves _ _) hstart
    exact ⟨T₁, h⟩
  · obtain ⟨ρ, hev, hst, hs, ht⟩ := Journey.follows empty (le_refl 3) (half true).med [half false] 0 T T₁ h turner_prepared htau hherm
      (fun l hl => (hno l hl).1) (.inl fun l hl => (hno l hl).2) (.inl rfl) hthr
    have h00 : (0 : Nat) < turner.ne ∧ (0 : Nat) < turner.nrhos := ⟨Nat.one_pos, Nat.one_pos⟩
    have hT₁ : T₁.o.state 0 0 = toB1 mix45 (projector 1) := by
      rw [(hst 0 0 h00.1 h00.2).2, c98_determined empty (le_refl 3) turner turner_prepared ρ _ turner.t (turner.t + wayLength [half false]) (empty_sane _ _ _) hev
        (turner_evolves _ _) 0 (fun e r _ he hr => (hst e r he hr).1.trans (hstart e r he hr).symm) (turner.t + wayLength [half false])
        ⟨by rw [hw]; linarith, le_refl _⟩ 0 0 (le_refl _) h00.1 h00.2, hw, ht5, show (5 : ℝ) + Real.pi - 5 = Real.pi by ring, turn_half]
    refine ⟨turner_reads hs 1 hT₁ f, ?_⟩
    have hg : Good T₁.o := (hs.prepared turner_prepared 0 0 (by rw [hs.ne]; exact h00.1) (by rw [hs.nrhos]; exact h00.2)).good
    have hcur : Current T₁.o := (c102_current (demo1 .mass) (demo1_ready .mass) _ .flavor empty (le_refl 3) _ T T₁ rfl h).2
    obtain ⟨h1, _, h3, h4, h5, h6, h7, h8, h9, h10, h11, _, _, h14, h15, h16⟩ := load_fields (save T₁ x)
    have hp := load_prepared T₁ x hg hcur 0 0 (by rw [h5]; show 0 < T₁.o.ne; rw [hs.ne]; exact h00.1) (by rw [h6]; split <;> norm_num)
    rw [eval_eq hp.good hp.type]
    have hh : h0 (load (save T₁ x)).o ((load (save T₁ x)).o.energies 0) = projector 1 := by
      rw [← turner_h0, h9]
      unfold h0
      rw [h8, h1.trans (Eq.symm hcur), hs.dm2]
      show (if T₁.o.ioscillations = true then (1 / 2 / T₁.o.energies 0) • _ else _) = _
      rw [hs.osc, hs.energies]
    have htime : (load (save T₁ x)).o.t - (load (save T₁ x)).o.tini = Real.pi := by
      rw [h10, h11]
      show T₁.o.t - T₁.o.tini = _
      rw [ht, hs.tini, hw]
      show (5 : ℝ) + Real.pi - 5 = _
      ring
    have hstate : (load (save T₁ x)).o.state 0 0 = toB1 mix45 (projector 1) := by
      rw [load_state _ 0 0 (by show 0 < T₁.o.ne; rw [hs.ne]; exact h00.1) (by split <;> norm_num)]
      exact hT₁
    have hb1 : (load (save T₁ x)).o.b1 0 f = toB1 mix45 (projector f) := by
      rw [h16]
      show toB1 (T₁.o.mixing 0) _ = _
      rw [hs.mixing]
      rfl
    unfold op
    rw [if_neg (by rw [h7]; decide), hh, htime, hb1, hstate]
    congr 1
    have hk := half_turn
    fin_cases f
    · rw [show (⟨0, by omega⟩ : Fin 3) = 0 from rfl, hk.1, dot_b1 mix45_unitary]
      rfl
    · rw [show (⟨1, by omega⟩ : Fin 3) = 1 from rfl, hk.2.1, dot_b1 mix45_unitary]
      rfl
    · rw [show (⟨2, by omega⟩ : Fin 3) = 2 from rfl, hk.2.2, dot_b1 mix45_unitary]
      rfl

/-- C102, disagreement: that sources are on is not saved. One neutrino of the second flavour is emitted per unit length along five: the
object that was saved finds five of them, the one that was read none. -/
theorem c102_sources_violated (x : ℝ) :
    let s := inert false fun _ _ _ f => if f = 1 then 1 else 0
    let l : Leg := ⟨⟨fun _ => 0, fun _ => 1 / 2, fun _ _ _ f => if f = 1 then 1 else 0⟩, false, 0, 5⟩
    let T : Traveller 3 := ⟨emptyDemo .interaction, 0, false, true⟩
    ∃ T₁ T₂, Journey s (le_refl 3) [l] T T₁ ∧ Journey s.reread (le_refl 3) [l] (load (save T x)) T₂ ∧
      ∀ e r f, e < 2 → r < 2 → evalFlavorAtNode T₁.o f e r = .ok (if f = 1 then 5 else 0) ∧ evalFlavorAtNode T₂.o f e r = .ok 0 := by
  intro s l T
  have hp := emptyDemo_prepared .interaction
  have hzero : ∀ e r, e < 2 → r < 2 → (emptyDemo .interaction).state e r = 0 := by
    intro e r he hr
    have : (emptyDemo .interaction).state e r = (List.finRange 3).foldl (fun s j => s + (0 : ℝ) • (emptyDemo .interaction).b1 r j) 0 := if_pos ⟨he, hr⟩
    rw [this, foldl_sum]
    simp
  have hlen : wayLength [l] = 5 := by simp [wayLength, l, Leg.length]
  have htau : s.tab.tau = true → (emptyDemo .interaction).nt = .both := fun h => absurd h (by simp [s, inert, cascade])
  have hno : ∀ k ∈ [l], k.xini ≤ k.xend ∧ ∀ s : Setting 3, ¬k.Shortcut s false := fun k hk => by
    rw [List.mem_singleton] at hk
    subst hk
    exact ⟨by simp [l], fun s h => absurd h.2.2 (by simp)⟩
  have hthr : Through l.med 0 [l] := ⟨⟨∅, Set.finite_empty, fun y _ _ => ⟨rfl, rfl, rfl⟩⟩, trivial⟩
  have hev : ∀ a b, Evolves s (le_refl 3) (emptyDemo .interaction) (fun t e r => (t - 5) • (emptyDemo .interaction).evolB1 r 1 e) a b := by
    intro a b
    refine fed_by_source s _ hp rfl 1 (fun _ => 1) (fun t => t - 5) a b (fun t st e r _ _ => inert_gamma _ _ _ _ _ _ _) (fun t st e r he hr => ?_)
      fun t => (hasDerivAt_id t).sub_const 5
    have := inert_gain false (fun _ _ _ f => if f = 1 then 1 else 0) (emptyDemo .interaction) hp rfl 1 (fun _ => 1) (fun t e r f _ _ _ => rfl) t st e r he hr
    rw [this, copies_one rfl (Or.inl rfl), one_mul]
  have hg : Good (emptyDemo .interaction) := (hp 0 0 (by show 0 < 2; norm_num) (by show 0 < 2; norm_num)).good
  have hcur : Current (emptyDemo .interaction) :=
    (c102_current { demo .interaction with ioscillations := false } ⟨(demo_ready .interaction).b0, (demo_ready .interaction).mixing, (demo_ready .interaction).nrhos⟩
      _ .flavor s (le_refl 3) [] T T rfl rfl).1
  have hp' := load_prepared T x hg hcur
  have hosc' : (load (save T x)).o.ioscillations = false := rfl
  have hev' : ∀ a b, Evolves s.reread (le_refl 3) (load (save T x)).o (fun t e r => (0 : ℝ) • (load (save T x)).o.evolB1 r 1 e) a b := by
    intro a b
    refine fed_by_source s.reread _ hp' hosc' 1 (fun _ => 0) (fun _ => 0) a b (fun t st e r _ _ => ?_) (fun t st e r he hr => ?_) fun t => hasDerivAt_const _ _
    · rw [gamma_eq]
      exact if_neg (by simp [s, Setting.reread, inert])
    · rw [gain_off (le_refl 3) hp' (fun h => absurd h (by simp [s, Setting.reread, inert, cascade])) rfl rfl he hr, zero_smul]
  have hst' : ∀ e r, e < 2 → r < 2 → (load (save T x)).o.state e r = 0 := fun e r he hr => (load_state (save T x) e r he hr).trans (hzero e r he hr)
  obtain ⟨T₁, k1, k2, k3⟩ := c100_leg_by_leg s (le_refl 3) l.med [l] 0 T (fun t e r => (t - 5) • (emptyDemo .interaction).evolB1 r 1 e) hp htau rfl rfl rfl
    (fun k hk => ⟨(hno k hk).1, (hno k hk).2 s⟩) hthr (hev _ _) (fun e r he hr => by
      show ((5 : ℝ) - 5) • _ = (emptyDemo .interaction).state e r
      rw [sub_self, zero_smul, hzero e r he hr])
  obtain ⟨T₂, q1, q2, q3⟩ := c100_leg_by_leg s.reread (le_refl 3) l.med [l] 0 (load (save T x)) (fun t e r => (0 : ℝ) • (load (save T x)).o.evolB1 r 1 e) hp' (fun h => absurd h (by simp [s, Setting.reread, inert, cascade]))
    rfl rfl rfl (fun k hk => ⟨(hno k hk).1, (hno k hk).2 _⟩) hthr (hev' _ _) (fun e r he hr => by
      rw [zero_smul]
      exact (hst' e r he hr).symm)
  obtain ⟨_, _, _, hs1, _⟩ := Journey.follows s (le_refl 3) l.med [l] 0 T T₁ k1 hp htau (fun e r he hr => by
    rw [show T.o.state e r = 0 from hzero e r he hr]; exact Matrix.isHermitian_zero) (fun k hk => (hno k hk).1) (.inl fun k hk => (hno k hk).2 s) (.inl rfl) hthr
  obtain ⟨_, _, _, hs2, _⟩ := Journey.follows s.reread (le_refl 3) l.med [l] 0 (load (save T x)) T₂ q1 hp' (fun h => absurd h (by simp [s, Setting.reread, inert, cascade]))
    (fun e r he hr => by rw [hst' e r he hr]; exact Matrix.isHermitian_zero) (fun k hk => (hno k hk).1) (.inl fun k hk => (hno k hk).2 _) (.inl rfl) hthr
  refine ⟨T₁, T₂, k1, q1, fun e r f he hr => ⟨?_, ?_⟩⟩
  · have hst : T₁.o.state e r = (5 : ℝ) • (emptyDemo .interaction).evolB1 r 1 e := by
      rw [k3 e r he hr, hlen, show T.o.t = 5 from rfl, show (5 : ℝ) + 5 - 5 = 5 by norm_num]
    have ht : T₁.o.t = 10 := by
      rw [k2, hlen, show T.o.t = 5 from rfl]
      norm_num
    have hs : Same (atTime (emptyDemo .interaction) e r 10 ((5 : ℝ) • (emptyDemo .interaction).evolB1 r 1 e)) T₁.o :=
      (same_atTime (emptyDemo .interaction) e r 10 _).symm.trans hs1
    rw [(hs.readings (e := e) (r := r) ht (hst.trans (if_pos ⟨rfl, rfl⟩).symm) f).1]
    exact emptyDemo_reading .interaction 1 5 10 e r he hr f
  · have hst : T₂.o.state e r = 0 := by rw [q3 e r he hr, zero_smul]
    have hpr := hs2.prepared hp' e r (by rw [hs2.ne]; exact he) (by rw [hs2.nrhos]; exact hr)
    rw [eval_eq hpr.good hpr.type, hst]
    simp [dot]

end Verif.Density
