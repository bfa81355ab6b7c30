import Verif.Density.Layers

/-!
# C105: every evolution has exactly one result
-/

namespace Verif.Density

open Set Matrix
open Matter (NT)
open Update (Net Shape NonNeg)
open scoped ComplexOrder

variable {n : Nat}

/-! ## Spec -/

/-- A leg through finitely many layers of a sane medium. -/
structure Leg.Tame (s : Setting n) (o : Obj n) (l : Leg) : Prop where
  layered : Layered (s.along l.med 0) (min l.xini l.xend) (max l.xini l.xend)
  sane : Sane (s.along l.med 0) o (min l.xini l.xend) (max l.xini l.xend)

/-- What one may start from, and where to: states without negative contents and forwards; or, if there is no tau regeneration, any states and
in both directions. -/
def Admissible (s : Setting n) (T : Traveller n) (ls : List Leg) : Prop :=
  ((∀ e r, e < T.o.ne → r < T.o.nrhos → (T.o.state e r).PosSemidef) ∧ ∀ l ∈ ls, l.xini ≤ l.xend) ∨
  ((∀ e r, e < T.o.ne → r < T.o.nrhos → (T.o.state e r).IsHermitian) ∧ ¬(s.iint = true ∧ s.tab.tau = true))

/-! ## Lemmas -/

theorem Tame.bounded {f : ℝ → ℝ} {a b : ℝ} (h : Density.Tame f a b) : ∃ B, ∀ t ∈ Ioo a b, f t ≤ B := by
  obtain ⟨g, hg, e⟩ := h
  obtain ⟨B, hB⟩ := (isCompact_Icc.image_of_continuousOn hg).bddAbove
  exact ⟨B, fun t ht => by rw [e t ht]; exact hB ⟨t, Ioo_subset_Icc_self ht, rfl⟩⟩

/-- Through layers the losses are bounded. -/
theorem Layered.bounded {s : Setting n} {o : Obj n} {a b : ℝ} (h : Layered s a b) (r f e : Nat) : Sane s o a b →
    ∃ B, ∀ t ∈ Ico a b, lossRate s o t r f e ≤ B := by
  induction h with
  | @one a b hab h =>
    intro hs
    have ht : Density.Tame (fun t => lossRate s o t r f e) a b := by
      unfold lossRate
      exact Tame.ite (fun _ => invINT_tame h hs s.old (fun _ _ _ => 0) r f e) fun _ => Tame.const 0
    obtain ⟨B, hB⟩ := Tame.bounded ht
    refine ⟨max B (lossRate s o a r f e), fun t ht => ?_⟩
    rcases eq_or_lt_of_le ht.1 with rfl | hlt
    · exact le_max_right _ _
    · exact (hB t ⟨hlt, ht.2⟩).trans (le_max_left _ _)
  | @«then» a b c h k ih ik =>
    intro hs
    obtain ⟨B, hB⟩ := ih (hs.sub (le_refl _) k.le)
    obtain ⟨B', hB'⟩ := ik (hs.sub h.le (le_refl _))
    refine ⟨max B B', fun t ht => ?_⟩
    rcases lt_or_ge t b with hlt | hge
    · exact (hB t ⟨ht.1, hlt⟩).trans (le_max_left _ _)
    · exact (hB' t ⟨hge, ht.2⟩).trans (le_max_right _ _)

theorem Layered.bounded_all {s : Setting n} {o : Obj n} {a b : ℝ} (h : Layered s a b) (hs : Sane s o a b) :
    ∃ B, ∀ t ∈ Ico a b, ∀ e r f, e < o.ne → r < o.nrhos → f < 3 → lossRate s o t r f e ≤ B := by
  choose B hB using fun r f e => h.bounded (o := o) r f e hs
  refine ⟨∑ e ∈ Finset.range o.ne, ∑ r ∈ Finset.range o.nrhos, ∑ f ∈ Finset.range 3, |B r f e|, fun t ht e r f he hr hf => ?_⟩
  refine (hB r f e t ht).trans ((le_abs_self _).trans ?_)
  have h1 : |B r f e| ≤ ∑ f ∈ Finset.range 3, |B r f e| :=
    Finset.single_le_sum (f := fun f => |B r f e|) (fun _ _ => abs_nonneg _) (Finset.mem_range.2 hf)
  have h2 : ∑ f ∈ Finset.range 3, |B r f e| ≤ ∑ r ∈ Finset.range o.nrhos, ∑ f ∈ Finset.range 3, |B r f e| :=
    Finset.single_le_sum (f := fun r => ∑ f ∈ Finset.range 3, |B r f e|) (fun _ _ => Finset.sum_nonneg fun _ _ => abs_nonneg _) (Finset.mem_range.2 hr)
  have h3 := Finset.single_le_sum (f := fun e => ∑ r ∈ Finset.range o.nrhos, ∑ f ∈ Finset.range 3, |B r f e|)
    (fun _ _ => Finset.sum_nonneg fun _ _ => Finset.sum_nonneg fun _ _ => abs_nonneg _) (Finset.mem_range.2 he)
  exact h1.trans (h2.trans h3)

theorem Tame.shift {F : Type} [TopologicalSpace F] {f : ℝ → F} {a b : ℝ} (u : ℝ) (h : Density.Tame f a b) :
    Density.Tame (fun t => f (t - u)) (a + u) (b + u) := by
  obtain ⟨g, hg, e⟩ := h
  refine ⟨fun t => g (t - u), hg.comp (by fun_prop) fun t ht => ⟨by linarith [ht.1], by linarith [ht.2]⟩, fun t ht => e _ ⟨by linarith [ht.1], by linarith [ht.2]⟩⟩

theorem Layered.shift {s : Setting n} {m : Medium} (u : ℝ) {s₀ : Setting n} {a b : ℝ} (h : Layered s₀ a b) (e : s₀ = s.along m 0) :
    Layered (s.along m u) (a + u) (b + u) := by
  subst e
  induction h with
  | @one a b hab h =>
    refine .one (by linarith) ⟨?_, ?_, fun e r f => ?_, ?_, ?_⟩
    · exact (Tame.shift u h.dens).congr fun t _ => by show m.dens (t - u) = m.dens (t - u - 0); rw [sub_zero]
    · exact (Tame.shift u h.ye).congr fun t _ => by show m.ye (t - u) = m.ye (t - u - 0); rw [sub_zero]
    · exact (Tame.shift u (h.ext e r f)).congr fun t _ => by show m.ext (t - u) e r f = m.ext (t - u - 0) e r f; rw [sub_zero]
    · refine h.poor.imp (fun h t ht => ?_) fun h t ht => ?_
      all_goals
        have := h (t - u) ⟨by linarith [ht.1], by linarith [ht.2]⟩
        rwa [show (s.along m 0).ye (t - u) = (s.along m u).ye t by show m.ye (t - u - 0) = m.ye (t - u); rw [sub_zero]] at this
    · refine h.thin.imp (fun h t ht => ?_) fun h t ht => ?_
      all_goals
        have := h (t - u) ⟨by linarith [ht.1], by linarith [ht.2]⟩
        rwa [show (s.along m 0).nucleons (t - u) = (s.along m u).nucleons t by
          unfold Setting.nucleons
          rw [show (s.along m 0).dens (t - u) = (s.along m u).dens t by show m.dens (t - u - 0) = m.dens (t - u); rw [sub_zero]]
          rfl] at this
  | «then» _ _ ih ik => exact .then ih ik

theorem sane_shift {s : Setting n} {m : Medium} {o : Obj n} (u : ℝ) {a b : ℝ} (h : Sane (s.along m 0) o a b) : Sane (s.along m u) o (a + u) (b + u) := by
  refine ⟨fun t ht => ?_, fun t ht e r f => ?_, h.tau⟩
  · have hd : (s.along m 0).dens (t - u) = (s.along m u).dens t := by show m.dens (t - u - 0) = m.dens (t - u); rw [sub_zero]
    have hy : (s.along m 0).ye (t - u) = (s.along m u).ye t := by show m.ye (t - u - 0) = m.ye (t - u); rw [sub_zero]
    obtain ⟨h1, h2, h3, h4, h5, h6, h7, h8, h9, h10, h11, h12, h13, h14, h15, h16⟩ := h.nonneg (t - u) ⟨by linarith [ht.1], by linarith [ht.2]⟩
    constructor
    all_goals first | assumption | skip
    all_goals (first | (show 0 ≤ s.tab.consts.gr * s.tab.consts.cm3 * (s.along m u).dens t; rw [← hd]; assumption) | (show 0 ≤ (s.along m u).ye t; rw [← hy]; assumption) |
      (show (s.along m u).ye t ≤ 1; rw [← hy]; assumption))
  · have := h.ext (t - u) ⟨by linarith [ht.1], by linarith [ht.2]⟩ e r f
    rwa [show (s.along m 0).ext (t - u) = (s.along m u).ext t by show m.ext (t - u - 0) = m.ext (t - u); rw [sub_zero]] at this

/-- Layers and sanity at the times of a leg. -/
theorem Leg.Tame.times {s : Setting n} {o : Obj n} {l : Leg} (h : l.Tame s o) {t u : ℝ} (ht : t - u = l.xini) :
    Layered (s.along l.med u) (min t (t + l.length)) (max t (t + l.length)) ∧ Sane (s.along l.med u) o (min t (t + l.length)) (max t (t + l.length)) := by
  have h1 := h.layered.shift u rfl
  have h2 := sane_shift u h.sane
  have e1 : l.xini + u = t := by linarith
  have e2 : l.xend + u = t + l.length := by unfold Leg.length; linarith
  rw [← min_add_add_right, ← max_add_add_right, e1, e2] at h1 h2
  exact ⟨h1, h2⟩

/-- Two travellers who cannot be told apart. -/
structure Indistinct (T T' : Traveller n) : Prop where
  same : Same T.o T'.o
  clock : T'.o.t = T.o.t
  state : ∀ e r, e < T.o.ne → r < T.o.nrhos → T'.o.state e r = T.o.state e r
  allow : T'.allow = T.allow
  numerics : T'.numerics = T.numerics

theorem Admissible.hermitian {s : Setting n} {T : Traveller n} {ls : List Leg} (h : Admissible s T ls) (e r : Nat) (he : e < T.o.ne) (hr : r < T.o.nrhos) :
    (T.o.state e r).IsHermitian := h.elim (fun h => (h.1 e r he hr).1) fun h => h.1 e r he hr

/-- A leg can be evolved. -/
theorem leg_exists {s : Setting n} (hn : 3 ≤ n) {l : Leg} {ls : List Leg} {T : Traveller n} (ho : AllPrepared T.o)
    (hset : T.o.ibody = true ∧ T.o.itrack = true ∧ T.o.istate = true ∧ T.o.ienergy = true) (ht : l.Tame s T.o) (ha : Admissible s T (l :: ls))
    (hp : Path s l T) : ∃ T', EvolveState s hn l T T' := by
  by_cases hsc : l.Shortcut s T.allow
  · refine ⟨{ T with
      o := shortcut s.c (l.med.dens (T.o.t - T.offset)) (l.med.ye (T.o.t - T.offset)) l.length (Fin.castLE hn) T.o
      numerics := false }, hset.1, hset.2.1, hset.2.2.1, hset.2.2.2, T.o.t, left_mem_uIcc, ?_⟩
    rw [if_pos (show l.constant = true ∧ s.iint = false ∧ T.allow = true from hsc)]
  · obtain ⟨hl, hs⟩ := ht.times hp.start
    have hex : ∃ ρ : ℝ → Nat → Nat → Mat n, (∀ e r, e < T.o.ne → r < T.o.nrhos → ρ T.o.t e r = T.o.state e r) ∧
        Evolves (s.along l.med T.offset) hn T.o ρ (min T.o.t (T.o.t + l.length)) (max T.o.t (T.o.t + l.length)) := by
      by_cases hdir : 0 ≤ l.length
      · rw [min_eq_left (by linarith), max_eq_right (by linarith)] at *
        refine hl.forward hn ho hs T.o.state ha.hermitian fun hi ht => ?_
        exact ha.elim (fun h => h.1) fun h => absurd ⟨hi, ht⟩ h.2
      · rw [min_eq_right (by linarith), max_eq_left (by linarith)] at *
        refine hl.backward hn ho hs ?_ T.o.state ha.hermitian
        exact ha.elim (fun h => absurd (sub_nonneg.2 (h.2 l List.mem_cons_self)) hdir) fun h => h.2
    obtain ⟨ρ, h0, h1⟩ := hex
    refine ⟨{ T with
      o := { preDerive T.o T.o.t with
        t := T.o.t + l.length
        state := fun e r => if e < T.o.ne ∧ r < T.o.nrhos then ρ (T.o.t + l.length) e r else T.o.state e r } },
      hset.1, hset.2.1, hset.2.2.1, hset.2.2.2, T.o.t, left_mem_uIcc, ?_⟩
    rw [if_neg (show ¬(l.constant = true ∧ s.iint = false ∧ T.allow = true) from hsc), if_pos (hp.numeric hsc)]
    exact ⟨s.old, ρ, h1, h0, rfl⟩

/-- What is left of the hypotheses after a leg. -/
theorem leg_after {s : Setting n} {hn : 3 ≤ n} {l : Leg} {ls : List Leg} {T T₁ : Traveller n} (ho : AllPrepared T.o) (ht : l.Tame s T.o)
    (ha : Admissible s T (l :: ls)) (hp : Path s l T) (h : EvolveState s hn l T T₁) : Admissible s T₁ ls := by
  obtain ⟨ρ, hev, hst, hs1, _, _, _, _⟩ := h.follows hp ho ht.sane.tau ha.hermitian
  obtain ⟨_, hs⟩ := ht.times hp.start
  have hmem : T.o.t + l.length ∈ Icc (min T.o.t (T.o.t + l.length)) (max T.o.t (T.o.t + l.length)) := ⟨min_le_right _ _, le_max_right _ _⟩
  rcases ha with ha | ha
  · left
    refine ⟨fun e r he hr => ?_, fun k hk => ha.2 k (List.mem_cons_of_mem _ hk)⟩
    rw [hs1.ne] at he
    rw [hs1.nrhos] at hr
    have hlen : 0 ≤ l.length := sub_nonneg.2 (ha.2 l List.mem_cons_self)
    rw [(hst e r he hr).2]
    refine (c98_positive _ hn T.o ho ρ _ _ hs hev (fun e r he hr => ?_) _ hmem e r he hr).1
    rw [min_eq_left (by linarith), (hst e r he hr).1]
    exact ha.1 e r he hr
  · right
    refine ⟨fun e r he hr => ?_, ha.2⟩
    rw [hs1.ne] at he
    rw [hs1.nrhos] at hr
    rw [(hst e r he hr).2]
    exact hev.hermitian _ hmem e r he hr

/-- Legs from starts that cannot be told apart end alike. -/
theorem leg_unique {s : Setting n} {hn : 3 ≤ n} {l : Leg} {ls : List Leg} {T U T₁ U₁ : Traveller n} (ho : AllPrepared T.o) (ht : l.Tame s T.o)
    (ha : Admissible s T (l :: ls)) (hp : Path s l T) (hTU : Indistinct T U) (hoff : U.offset = T.offset) (h : EvolveState s hn l T T₁)
    (k : EvolveState s hn l U U₁) : Indistinct T₁ U₁ := by
  have hpU : Path s l U := ⟨by rw [hTU.clock, hoff]; exact hp.start, by rw [hTU.allow, hTU.numerics]; exact hp.numeric,
    by rw [hTU.allow, hTU.same.basis]; exact hp.shortcut⟩
  obtain ⟨ρ, hev, hst, hs1, ht1, _, ha1, hn1⟩ := h.follows hp ho ht.sane.tau ha.hermitian
  obtain ⟨σ, kev, kst, ks1, kt1, _, ka1, kn1⟩ := k.follows hpU (hTU.same.prepared ho) (by rw [hTU.same.nt]; exact ht.sane.tau) (fun e r he hr => by
    rw [hTU.same.ne] at he
    rw [hTU.same.nrhos] at hr
    rw [hTU.state e r he hr]
    exact ha.hermitian e r he hr)
  rw [hTU.clock, hoff] at kev
  rw [hTU.clock] at kst kt1
  have kev' := hTU.same.evolves kev
  have kst' : ∀ e r, e < T.o.ne → r < T.o.nrhos → σ T.o.t e r = T.o.state e r ∧ U₁.o.state e r = σ (T.o.t + l.length) e r := fun e r he hr => by
    have := kst e r (by rwa [hTU.same.ne]) (by rwa [hTU.same.nrhos])
    exact ⟨this.1.trans (hTU.state e r he hr), this.2⟩
  obtain ⟨hl, hs⟩ := ht.times hp.start
  have heq : ∀ e r, e < T.o.ne → r < T.o.nrhos → ρ (T.o.t + l.length) e r = σ (T.o.t + l.length) e r := by
    intro e r he hr
    by_cases hdir : 0 ≤ l.length
    · rw [min_eq_left (by linarith), max_eq_right (by linarith)] at *
      exact c98_determined _ hn T.o ho ρ σ _ _ hs hev kev' 0 (fun e r _ he hr => by rw [(hst e r he hr).1, (kst' e r he hr).1]) _ ⟨by linarith, le_refl _⟩
        e r (Nat.zero_le _) he hr
    · rw [min_eq_right (by linarith), max_eq_left (by linarith)] at *
      obtain ⟨B, hB⟩ := hl.bounded_all hs
      exact Evolves.determined_back ho hs.tau hev kev' B hB (fun e r he hr => by rw [(hst e r he hr).1, (kst' e r he hr).1]) _ ⟨le_refl _, by linarith⟩ e r he hr
  refine ⟨hs1.symm.trans (hTU.same.trans ks1), kt1.trans ht1.symm, fun e r he hr => ?_, by rw [ka1, ha1, hTU.allow], by rw [kn1, hn1, hTU.allow, hTU.numerics]⟩
  rw [hs1.ne] at he
  rw [hs1.nrhos] at hr
  rw [(hst e r he hr).2, (kst' e r he hr).2, heq e r he hr]

theorem Indistinct.enter {T U : Traveller n} (h : Indistinct T U) (l : Leg) : Indistinct (Density.enter l T) (Density.enter l U) :=
  ⟨(same_enter l T).symm.trans (h.same.trans (same_enter l U)), h.clock, h.state, h.allow, h.numerics⟩

/-- What is needed of a way, and is left of it after each leg. -/
structure Going (s : Setting n) (T : Traveller n) (ls : List Leg) : Prop where
  prepared : AllPrepared T.o
  set : T.o.istate = true ∧ T.o.ienergy = true
  legs : ∀ l ∈ ls, l.Tame s T.o
  adm : Admissible s T ls
  sound : Sound s T ls
  num : T.numerics = true ∨ ∀ k ∈ ls, k.Shortcut s T.allow

theorem Leg.Tame.same {s : Setting n} {o o' : Obj n} (h : Same o o') {l : Leg} (k : l.Tame s o) : l.Tame s o' := by
  refine ⟨k.layered, fun t ht => ?_, k.sane.ext, by rw [h.nt]; exact k.sane.tau⟩
  rw [h.net]
  exact k.sane.nonneg t ht

theorem Going.entered {s : Setting n} {T : Traveller n} {l : Leg} {ls : List Leg} (h : Going s T (l :: ls)) :
    AllPrepared (enter l T).o ∧ l.Tame s (enter l T).o ∧ Admissible s (enter l T) (l :: ls) ∧ Path s l (enter l T) :=
  ⟨(same_enter l T).prepared h.prepared, (h.legs l List.mem_cons_self).same (same_enter l T), h.adm, h.sound.path h.num⟩

theorem Going.step {s : Setting n} {hn : 3 ≤ n} {T T₁ : Traveller n} {l : Leg} {ls : List Leg} (h : Going s T (l :: ls))
    (k : EvolveState s hn l (enter l T) T₁) : Going s T₁ ls := by
  obtain ⟨ho, ht, ha, hp⟩ := h.entered
  obtain ⟨_, _, _, hs1, _, _, ha1, hn1⟩ := k.follows hp ho ht.sane.tau ha.hermitian
  have hs := (same_enter l T).trans hs1
  have hal : T₁.allow = T.allow := ha1
  refine ⟨hs.prepared h.prepared, ⟨hs.istate.trans h.set.1, hs.ienergy.trans h.set.2⟩, fun k hk => (h.legs k (List.mem_cons_of_mem _ hk)).same hs,
    leg_after ho ht ha hp k, h.sound.tail hs.basis hal, ?_⟩
  rw [hal, hn1]
  by_cases hsc : l.constant = true ∧ s.iint = false ∧ (enter l T).allow = true
  · right
    rcases h.sound with h | ⟨_, _, _, h⟩
    · exact absurd hsc (h l List.mem_cons_self)
    · exact fun k hk => (List.pairwise_cons.1 h).1 k hk hsc
  · rw [if_neg hsc]
    exact h.num.imp id fun h k hk => h k (List.mem_cons_of_mem _ hk)

theorem Going.exists {s : Setting n} (hn : 3 ≤ n) (ls : List Leg) : ∀ T : Traveller n, Going s T ls → ∃ T', Journey s hn ls T T' := by
  induction ls with
  | nil => exact fun T _ => ⟨T, rfl⟩
  | cons l ls ih =>
    intro T h
    obtain ⟨ho, ht, ha, hp⟩ := h.entered
    obtain ⟨T₁, h1⟩ := leg_exists hn ho ⟨rfl, rfl, h.set.1, h.set.2⟩ ht ha hp
    obtain ⟨T', h2⟩ := ih T₁ (h.step h1)
    exact ⟨T', T₁, h1, h2⟩

theorem Going.unique {s : Setting n} (hn : 3 ≤ n) (ls : List Leg) : ∀ T U T' U' : Traveller n, Going s T ls → Indistinct T U → Journey s hn ls T T' →
    Journey s hn ls U U' → Indistinct T' U' := by
  induction ls with
  | nil =>
    intro T U T' U' _ h h1 h2
    rw [show T' = T from h1, show U' = U from h2]
    exact h
  | cons l ls ih =>
    rintro T U T' U' h hTU ⟨T₁, h1, h2⟩ ⟨U₁, k1, k2⟩
    obtain ⟨ho, ht, ha, hp⟩ := h.entered
    have hoff : (enter l U).offset = (enter l T).offset := by show U.o.t - l.xini = T.o.t - l.xini; rw [hTU.clock]
    exact ih T₁ U₁ T' U' (h.step h1) (leg_unique ho ht ha hp (hTU.enter l) hoff h1 k1) h2 k2

/-! ## The medium of the examples -/

/-- Both types, neutral and charged currents, tau regeneration and the Glashow resonance, protons and neutrons as targets; from time one on the
matter is three times as dense and has fewer electrons, and there are neutrinos emitted. -/
noncomputable def strata : Setting 3 where
  tab := {
    ne := 0, nrhos := 0, numneu := 0, nt := .both, tau := true, glashow := true, sources := true
    delE := fun _ => 1
    sigmaNC := fun _ _ _ _ => 1
    sigmaCC := fun trg _ _ _ => if trg = 0 then 1 else 2
    sigmaGR := fun _ => 3
    dNdE_NC := fun _ _ _ _ _ => 1
    dNdE_CC := fun _ _ _ _ _ => 1 / 2
    dNdE_GR := fun _ _ => 1 / 3
    tauAll := fun _ _ _ => 1
    tauLep := fun _ _ _ => 1 / 6
    consts := ⟨1, 1, 0, 1, 1, 1⟩
    targets := .protonNeutron
    density := 0, ye := 0, proj := fun _ _ _ => 0, state := fun _ _ => 0, dot := dot, ext := fun _ _ _ => 0 }
  iint := true
  c := 1
  dens := fun t => if t < 1 then 1 + t ^ 2 else 3 * (1 + t ^ 2)
  ye := fun t => if t < 1 then 1 / 2 else 2 / 5
  ext := fun t _ _ _ => if t < 1 then 0 else 1
  old := fun _ => 7

theorem strata_sane (o : Obj 3) (ho : o.nt = .both) (a b : ℝ) : Sane strata o a b := by
  refine ⟨fun t _ => ?_, fun t _ _ _ _ => ?_, fun _ => ho⟩
  · constructor <;> intros <;> simp only [Setting.net, strata] <;> (try split) <;> first | positivity | norm_num
  · simp only [strata]
    split <;> norm_num

theorem strata_layered : Layered strata 0 2 := by
  have hc : ∀ (f g : ℝ → ℝ) (x y : ℝ), Continuous g → (∀ t ∈ Ioo x y, f t = g t) → Density.Tame f x y := fun f g x y hg h => ⟨g, hg.continuousOn, h⟩
  have lo : ∀ {α : Type} (p q : α), ∀ t ∈ Ioo (0 : ℝ) 1, (if t < 1 then p else q) = p := fun p q t ht => if_pos ht.2
  have hi : ∀ {α : Type} (p q : α), ∀ t ∈ Ioo (1 : ℝ) 2, (if t < 1 then p else q) = q := fun p q t ht => if_neg (not_lt.2 ht.1.le)
  refine .then (b := 1) (.one (by norm_num) ⟨?_, ?_, fun _ _ _ => ?_, .inr fun t ht => ?_, .inr fun t ht => ?_⟩)
    (.one (by norm_num) ⟨?_, ?_, fun _ _ _ => ?_, .inr fun t ht => ?_, .inr fun t ht => ?_⟩)
  · exact hc _ (fun t => 1 + t ^ 2) _ _ (by fun_prop) fun t ht => lo _ _ t ht
  · exact hc _ (fun _ => 1 / 2) _ _ (by fun_prop) fun t ht => lo _ _ t ht
  · exact hc _ (fun _ => 0) _ _ (by fun_prop) fun t ht => lo _ _ t ht
  · show _ ≤ if t < 1 then (1 / 2 : ℝ) else 2 / 5
    rw [lo _ _ t ht]; norm_num
  · show _ ≤ 1 * 1 * (if t < 1 then 1 + t ^ 2 else 3 * (1 + t ^ 2)) * 2 / (0 + 1 + 1)
    rw [lo _ _ t ht]; nlinarith [sq_nonneg t]
  · exact hc _ (fun t => 3 * (1 + t ^ 2)) _ _ (by fun_prop) fun t ht => hi _ _ t ht
  · exact hc _ (fun _ => 2 / 5) _ _ (by fun_prop) fun t ht => hi _ _ t ht
  · exact hc _ (fun _ => 1) _ _ (by fun_prop) fun t ht => hi _ _ t ht
  · show _ ≤ if t < 1 then (1 / 2 : ℝ) else 2 / 5
    rw [hi _ _ t ht]; norm_num
  · show _ ≤ 1 * 1 * (if t < 1 then 1 + t ^ 2 else 3 * (1 + t ^ 2)) * 2 / (0 + 1 + 1)
    rw [hi _ _ t ht]; nlinarith [sq_nonneg t]

theorem walker_positive (e r : Nat) (he : e < walker.o.ne) (hr : r < walker.o.nrhos) : (walker.o.state e r).PosSemidef := by
  rw [walker_state e r he hr]
  unfold fed
  refine smul_pos' Matrix.PosSemidef.one ?_
  split <;> positivity

/-! ## C105 -/

/-- Forwards through finitely many layers, with whatever interactions, tau regeneration and sources: from every positive state there is one and
only one evolution. -/
theorem c105_forward (s : Setting n) (hn : 3 ≤ n) (o : Obj n) (ho : AllPrepared o) (a b : ℝ) (hl : Layered s a b) (hs : Sane s o a b)
    (st : Nat → Nat → Mat n) (hst : ∀ e r, e < o.ne → r < o.nrhos → (st e r).PosSemidef) :
    ∃ ρ : ℝ → Nat → Nat → Mat n, Evolves s hn o ρ a b ∧ (∀ e r, e < o.ne → r < o.nrhos → ρ a e r = st e r) ∧
      ∀ σ : ℝ → Nat → Nat → Mat n, Evolves s hn o σ a b → (∀ e r, e < o.ne → r < o.nrhos → σ a e r = st e r) →
        ∀ t ∈ Icc a b, ∀ e r, e < o.ne → r < o.nrhos → σ t e r = ρ t e r := by
  obtain ⟨ρ, h0, h1⟩ := hl.forward hn ho hs st (fun e r he hr => (hst e r he hr).1) fun _ _ => hst
  refine ⟨ρ, h1, h0, fun σ k1 k0 t ht e r he hr => ?_⟩
  exact c98_determined s hn o ho σ ρ a b hs k1 h1 0 (fun e r _ he hr => by rw [h0 e r he hr, k0 e r he hr]) t ht e r (Nat.zero_le _) he hr

/-- Through both layers of `strata`, with everything on. -/
example : ∃ ρ : ℝ → Nat → Nat → Mat 3, Evolves strata (le_refl 3) walker.o ρ 0 2 ∧ (∀ e r, e < 2 → r < 2 → ρ 0 e r = fed 0 e r) := by
  obtain ⟨ρ, h1, h2, _⟩ := c105_forward strata (le_refl 3) walker.o walker_prepared 0 2 strata_layered (strata_sane _ rfl _ _) walker.o.state walker_positive
  exact ⟨ρ, h1, fun e r he hr => (h2 e r he hr).trans (walker_state e r he hr)⟩

/-- Without tau regeneration the same from every state, at the start or at the end of the way. -/
theorem c105_either (s : Setting n) (hn : 3 ≤ n) (o : Obj n) (ho : AllPrepared o) (a b : ℝ) (hl : Layered s a b) (hs : Sane s o a b)
    (hno : ¬(s.iint = true ∧ s.tab.tau = true)) (t₀ : ℝ) (ht₀ : t₀ = a ∨ t₀ = b)
    (st : Nat → Nat → Mat n) (hst : ∀ e r, e < o.ne → r < o.nrhos → (st e r).IsHermitian) :
    ∃ ρ : ℝ → Nat → Nat → Mat n, Evolves s hn o ρ a b ∧ (∀ e r, e < o.ne → r < o.nrhos → ρ t₀ e r = st e r) ∧
      ∀ σ : ℝ → Nat → Nat → Mat n, Evolves s hn o σ a b → (∀ e r, e < o.ne → r < o.nrhos → σ t₀ e r = st e r) →
        ∀ t ∈ Icc a b, ∀ e r, e < o.ne → r < o.nrhos → σ t e r = ρ t e r := by
  rcases ht₀ with rfl | rfl
  · obtain ⟨ρ, h0, h1⟩ := hl.forward hn ho hs st hst fun hi ht => absurd ⟨hi, ht⟩ hno
    refine ⟨ρ, h1, h0, fun σ k1 k0 t ht e r he hr => ?_⟩
    exact c98_determined s hn o ho σ ρ _ b hs k1 h1 0 (fun e r _ he hr => by rw [h0 e r he hr, k0 e r he hr]) t ht e r (Nat.zero_le _) he hr
  · obtain ⟨ρ, h0, h1⟩ := hl.backward hn ho hs hno st hst
    obtain ⟨B, hB⟩ := hl.bounded_all hs
    refine ⟨ρ, h1, h0, fun σ k1 k0 t ht e r he hr => ?_⟩
    exact Evolves.determined_back ho hs.tau k1 h1 B hB (fun e r he hr => by rw [h0 e r he hr, k0 e r he hr]) t ht e r he hr

/-- A state that is not positive, back through `strata` without tau regeneration. -/
example : ∃ ρ : ℝ → Nat → Nat → Mat 3, Evolves { strata with tab := { strata.tab with tau := false } } (le_refl 3) walker.o ρ 0 2 ∧
    (∀ e r, e < 2 → r < 2 → ρ 2 e r = -1) := by
  have hl : ∀ {x y : ℝ}, Layered strata x y → Layered { strata with tab := { strata.tab with tau := false } } x y := by
    intro x y h
    induction h with
    | one hab h => exact .one hab ⟨h.dens, h.ye, h.ext, h.poor, h.thin⟩
    | «then» _ _ h k => exact .then h k
  have hs : Sane { strata with tab := { strata.tab with tau := false } } walker.o 0 2 := by
    have k := strata_sane walker.o rfl 0 2
    refine ⟨fun t ht => ?_, k.ext, fun h => absurd h (by simp)⟩
    obtain ⟨h1, h2, h3, h4, h5, h6, h7, h8, h9, h10, h11, h12, h13, h14, h15, h16⟩ := k.nonneg t ht
    exact ⟨h1, h2, h3, h4, h5, h6, h7, h8, h9, h10, h11, h12, h13, h14, h15, h16⟩
  obtain ⟨ρ, h1, h2, _⟩ := c105_either { strata with tab := { strata.tab with tau := false } } (le_refl 3) walker.o walker_prepared 0 2 (hl strata_layered) hs
    (by simp) 2 (.inr rfl) (fun _ _ => -1) fun _ _ _ _ => Matrix.isHermitian_one.neg
  exact ⟨ρ, h1, fun e r he hr => h2 e r he hr⟩

/-- Every admissible way can be gone, and wherever it is gone the clock and all states and readings at its end are the same. -/
theorem c105_journey (s : Setting n) (hn : 3 ≤ n) (ls : List Leg) (T : Traveller n) (ho : AllPrepared T.o) (hset : T.o.istate = true ∧ T.o.ienergy = true)
    (hlegs : ∀ l ∈ ls, l.Tame s T.o) (ha : Admissible s T ls) (hsound : Sound s T ls) (hnum : T.numerics = true) :
    ∃ T', Journey s hn ls T T' ∧ ∀ T'', Journey s hn ls T T'' → ReadAlike T'.o T''.o ∧ T''.numerics = T'.numerics := by
  have hg : Going s T ls := ⟨ho, hset, hlegs, ha, hsound, .inl hnum⟩
  obtain ⟨T', h⟩ := hg.exists hn ls T
  refine ⟨T', h, fun T'' k => ?_⟩
  have hal := hg.unique hn ls T T T' T'' ⟨Same.refl _, rfl, fun _ _ _ _ => rfl, rfl, rfl⟩ h k
  exact ⟨⟨hal.clock, fun e r f he hr => ⟨hal.state e r he hr, hal.same.readings hal.clock (hal.state e r he hr) f⟩⟩, hal.numerics⟩

/-- Through `strata` in two legs. -/
example : ∃ T', Journey strata (le_refl 3) [⟨⟨strata.dens, strata.ye, strata.ext⟩, false, 0, 2⟩, ⟨⟨strata.dens, strata.ye, strata.ext⟩, false, 0, 2⟩] walker T' := by
  have hm : strata.along ⟨strata.dens, strata.ye, strata.ext⟩ 0 = strata := by
    unfold Setting.along
    simp only [sub_zero]
  have hleg : Leg.Tame strata walker.o ⟨⟨strata.dens, strata.ye, strata.ext⟩, false, 0, 2⟩ := by
    constructor
    · show Layered (strata.along ⟨strata.dens, strata.ye, strata.ext⟩ 0) (min 0 2) (max 0 2)
      rw [hm, min_eq_left (by norm_num), max_eq_right (by norm_num)]
      exact strata_layered
    · show Sane (strata.along ⟨strata.dens, strata.ye, strata.ext⟩ 0) _ _ _
      rw [hm]
      exact strata_sane _ rfl _ _
  obtain ⟨T', h, _⟩ := c105_journey strata (le_refl 3) [⟨⟨strata.dens, strata.ye, strata.ext⟩, false, 0, 2⟩, ⟨⟨strata.dens, strata.ye, strata.ext⟩, false, 0, 2⟩] walker
    walker_prepared ⟨rfl, rfl⟩ (by
      intro l hl
      simp only [List.mem_cons, List.not_mem_nil, or_false, or_self] at hl
      rw [hl]
      exact hleg)
    (.inl ⟨walker_positive, by
      intro l hl
      simp only [List.mem_cons, List.not_mem_nil, or_false, or_self] at hl
      rw [hl]
      norm_num⟩)
    (.inl fun l hl h => by
      have := h.2.1
      simp [strata] at this) rfl
  exact ⟨T', h⟩

/-- Bodies of constant density, electron fraction and emission are one layer. -/
theorem c105_constant (s : Setting n) (l : Leg) (d y : ℝ) (g : Nat → Nat → Nat → ℝ) (hm : l.med = ⟨fun _ => d, fun _ => y, fun _ => g⟩) (o : Obj n)
    (hs : Sane (s.along l.med 0) o (min l.xini l.xend) (max l.xini l.xend)) : l.Tame s o := by
  refine ⟨.one min_le_max ⟨?_, ?_, fun e r f => ?_, ?_, ?_⟩, hs⟩
  · rw [hm]; exact Tame.const d
  · rw [hm]; exact Tame.const y
  · rw [hm]; exact Tame.const (g e r f)
  · rw [hm]
    exact (lt_or_ge y (1 / 10 ^ 10)).imp (fun h _ _ => h) fun h _ _ => h
  · rw [hm]
    exact (lt_or_ge (s.tab.consts.gr * s.tab.consts.cm3 * d * 2 / (s.tab.consts.me + s.tab.consts.mp + s.tab.consts.mn)) (1 / 10 ^ 10)).imp
      (fun h _ _ => h) fun h _ _ => h

example : (stretch 0 3).Tame cascade walker.o := c105_constant cascade (stretch 0 3) 1 (1 / 2) (fun _ _ _ => 0) rfl walker.o (cascade_sane _ _ _)

end Verif.Density
