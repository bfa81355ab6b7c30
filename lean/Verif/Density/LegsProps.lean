import Verif.Density.Legs

/-!
# C100: several tracks one after the other
-/

namespace Verif.Density

open Matrix
open Matter (NT)
open Update (Net Shape NonNeg)
open scoped ComplexOrder

variable {n : Nat}

/-! ## Spec -/

/-- The length of a way. -/
def wayLength (ls : List Leg) : ℝ := (ls.map Leg.length).sum

/-- Beginning at position `x` of the medium `W`, the legs pass through what `W` has there, but for finitely many positions of each. -/
def Through (W : Medium) : ℝ → List Leg → Prop
  | _, [] => True
  | x, l :: ls => (∃ E : Set ℝ, E.Finite ∧ ∀ y ∈ Set.Ico l.xini l.xend, y ∉ E →
      W.dens (x + (y - l.xini)) = l.med.dens y ∧ W.ye (x + (y - l.xini)) = l.med.ye y ∧ W.ext (x + (y - l.xini)) = l.med.ext y) ∧
    Through W (x + l.length) ls

/-- A body that says its density is constant has one density and one electron fraction along the track. -/
def Leg.Honest (l : Leg) : Prop := ∀ y ∈ Set.uIcc l.xini l.xend, ∀ y' ∈ Set.uIcc l.xini l.xend, l.med.dens y = l.med.dens y' ∧ l.med.ye y = l.med.ye y'

/-- A leg takes the constant-density shortcut. -/
def Leg.Shortcut (s : Setting n) (allow : Bool) (l : Leg) : Prop := l.constant = true ∧ s.iint = false ∧ allow = true

/-- The ways that work: either no leg takes the constant-density shortcut; or the working basis is the mass basis, no sources are on, and
no leg is integrated after one has taken the shortcut. -/
def Sound (s : Setting n) (T : Traveller n) (ls : List Leg) : Prop :=
  (∀ l ∈ ls, ¬l.Shortcut s T.allow) ∨
  (T.o.basis = .mass ∧ s.tab.sources = false ∧ (∀ l ∈ ls, l.Shortcut s T.allow → l.Honest) ∧
    ls.Pairwise fun l l' => l.Shortcut s T.allow → l'.Shortcut s T.allow)

/-- Both objects stand at the same time and read the same everywhere. -/
def ReadAlike (o o' : Obj n) : Prop :=
  o'.t = o.t ∧ ∀ e r f, e < o.ne → r < o.nrhos →
    o'.state e r = o.state e r ∧ evalFlavorAtNode o' f e r = evalFlavorAtNode o f e r ∧ evalMassAtNode o' f e r = evalMassAtNode o f e r

/-! ## Lemmas -/

theorem Same.readings {o o' : Obj n} (h : Same o o') (ht : o'.t = o.t) {e r : Nat} (hs : o'.state e r = o.state e r) (f : Fin n) :
    evalFlavorAtNode o' f e r = evalFlavorAtNode o f e r ∧ evalMassAtNode o' f e r = evalMassAtNode o f e r := by
  unfold evalFlavorAtNode evalMassAtNode expectation h0
  rw [h.ienergy, h.nt, h.basis, h.b1, h.b0, h.osc, h.energies, h.dm2, h.tini, ht, hs]
  exact ⟨rfl, rfl⟩

theorem Same.symm {o o' : Obj n} (h : Same o o') : Same o' o :=
  ⟨h.nt.symm, h.ne.symm, h.nrhos.symm, h.basis.symm, h.ienergy.symm, h.istate.symm, h.osc.symm, h.energies.symm, h.mixing.symm, h.b0.symm,
    h.b1.symm, h.dm2.symm, h.h0s.symm, h.tini.symm, fun t => (h.proj t).symm⟩

/-- What is needed of a leg to be evolved: the clock stands for the start of the track; the numerics are on, or the shortcut can be taken. -/
structure Path (s : Setting n) (l : Leg) (T : Traveller n) : Prop where
  start : T.o.t - T.offset = l.xini
  numeric : ¬l.Shortcut s T.allow → T.numerics = true
  shortcut : l.Shortcut s T.allow → T.o.basis = .mass ∧ s.tab.sources = false ∧ l.Honest

theorem gain_off {s : Setting n} {o : Obj n} (hn : 3 ≤ n) (ho : AllPrepared o) (htau : s.tab.tau = true → o.nt = .both) (hi : s.iint = false)
    (hsrc : s.tab.sources = false) {e r : Nat} (he : e < o.ne) (hr : r < o.nrhos) (t : ℝ) (st : Nat → Nat → Mat n) : s.gain o t st e r = 0 := by
  rw [gain_exact hn ho htau he hr t st, hi, show s.copies o = 0 by unfold Setting.copies; rw [hsrc]; rfl]
  simp

/-- An accepted evolution follows the equation of motion through the medium of the leg, forwards or backwards. -/
theorem EvolveState.follows {s : Setting n} {hn : 3 ≤ n} {l : Leg} {T T' : Traveller n} (h : EvolveState s hn l T T') (hp : Path s l T)
    (ho : AllPrepared T.o) (htau : s.tab.tau = true → T.o.nt = .both) (hherm : ∀ e r, e < T.o.ne → r < T.o.nrhos → (T.o.state e r).IsHermitian) :
    ∃ ρ : ℝ → Nat → Nat → Mat n,
      Evolves (s.along l.med T.offset) hn T.o ρ (min T.o.t (T.o.t + l.length)) (max T.o.t (T.o.t + l.length)) ∧
      (∀ e r, e < T.o.ne → r < T.o.nrhos → ρ T.o.t e r = T.o.state e r ∧ T'.o.state e r = ρ (T.o.t + l.length) e r) ∧
      Same T.o T'.o ∧ T'.o.t = T.o.t + l.length ∧ T'.offset = T.offset ∧ T'.allow = T.allow ∧
      T'.numerics = (if l.constant = true ∧ s.iint = false ∧ T.allow = true then false else T.numerics) := by
  obtain ⟨_, _, _, _, τ, hτ, h⟩ := h
  by_cases hsc : l.Shortcut s T.allow
  · have hsc' : l.constant = true ∧ s.iint = false ∧ T.allow = true := hsc
    rw [if_pos hsc'] at h
    obtain ⟨hb, hsrc, hon⟩ := hp.shortcut hsc
    have hpd : ∀ u, preDerive T.o u = T.o := fun u => if_neg fun hh => hh.1 hb
    let H : Nat → Nat → Mat n := fun e r => hamiltonian s.c (l.med.dens (τ - T.offset)) (l.med.ye (τ - T.offset)) T.o (Fin.castLE hn)
      (fun f => T.o.evolB1 r f e) e r
    have hpos : ∀ u ∈ Set.uIcc T.o.t (T.o.t + l.length), u - T.offset ∈ Set.uIcc l.xini l.xend := by
      intro u hu
      have e1 : l.xini = T.o.t - T.offset := hp.start.symm
      have e2 : l.xend = T.o.t + l.length - T.offset := by unfold Leg.length; linarith [hp.start]
      rw [e1, e2, Set.mem_uIcc] at *
      rcases hu with hu | hu
      · left; constructor <;> linarith [hu.1, hu.2]
      · right; constructor <;> linarith [hu.1, hu.2]
    have hconst : ∀ u ∈ Set.uIcc T.o.t (T.o.t + l.length), ∀ e r,
        motion s.c (s.along l.med T.offset).dens (s.along l.med T.offset).ye (Fin.castLE hn) T.o e r u = H e r := by
      intro u hu e r
      unfold motion
      rw [hpd]
      obtain ⟨k1, k2⟩ := hon _ (hpos u hu) _ (hpos τ hτ)
      show hamiltonian s.c (l.med.dens (u - T.offset)) (l.med.ye (u - T.offset)) T.o _ _ e r = _
      rw [k1, k2]
    have hH : ∀ e r, e < T.o.ne → r < T.o.nrhos → (H e r).IsHermitian := by
      intro e r he hr
      rw [← hconst τ hτ e r]
      exact motion_hermitian _ _ _ hn (ho e r he hr) τ
    have hst : ∀ e r, e < T.o.ne → r < T.o.nrhos → T'.o.state e r = uTransform (H e r) l.length (T.o.state e r) := by
      intro e r he hr
      rw [h]
      have := shortcut_state s.c (l.med.dens (τ - T.offset)) (l.med.ye (τ - T.offset)) l.length (Fin.castLE hn) T.o r e he hr
      refine this.trans ?_
      congr 1
      show Matter.hi _ _ _ _ (if Basis.mass = .mass then _ else _) _ _ _ = Matter.hi _ _ _ _ (if T.o.basis = .mass then _ else _) _ _ _
      rw [if_pos rfl, if_pos hb]
    refine ⟨fun u e r => uTransform (H e r) (u - T.o.t) (T.o.state e r), ?_, ?_, ?_, by rw [h]; rfl, by rw [h], by rw [h], by rw [h, if_pos hsc']⟩
    · refine .smooth (fun e r _ _ i j => (uTransform_continuous _ _ _ i j).continuousOn) (fun u hu e r he hr => ?_)
        (fun u hu e r he hr => uTransform_hermitian (hH e r he hr) _ (hherm e r he hr))
      have hu' : u ∈ Set.uIcc T.o.t (T.o.t + l.length) := ⟨hu.1, hu.2.le⟩
      refine (uTransform_deriv (H e r) (T.o.state e r) T.o.t u _).congr ?_
      unfold Setting.velocity
      rw [show (s.along l.med T.offset).c = s.c from rfl, hconst u hu', gamma_eq, show (s.along l.med T.offset).iint = false from hsc'.2.1,
        gain_off (s := s.along l.med T.offset) hn ho htau hsc'.2.1 hsrc he hr]
      simp
    · intro e r he hr
      refine ⟨?_, ?_⟩
      · show uTransform (H e r) (T.o.t - T.o.t) (T.o.state e r) = _
        rw [sub_self]
        unfold uTransform
        rw [neg_zero, phase_zero_time, Matrix.one_mul, Matrix.mul_one]
      · rw [hst e r he hr]
        congr 1
        ring
    · rw [h]
      have hpd' : ∀ u, preDerive (shortcut s.c (l.med.dens (τ - T.offset)) (l.med.ye (τ - T.offset)) l.length (Fin.castLE hn) T.o) u =
          shortcut s.c (l.med.dens (τ - T.offset)) (l.med.ye (τ - T.offset)) l.length (Fin.castLE hn) T.o := fun u => if_neg fun hh => hh.1 rfl
      refine ⟨rfl, rfl, rfl, hb.symm, rfl, rfl, rfl, rfl, rfl, rfl, rfl, rfl, rfl, rfl, fun u => ?_⟩
      rw [hpd, hpd']
      rfl
  · have hsc' : ¬(l.constant = true ∧ s.iint = false ∧ T.allow = true) := hsc
    rw [if_neg hsc', if_pos (hp.numeric hsc)] at h
    obtain ⟨old, ρ, hev, hst, h⟩ := h
    refine ⟨ρ, ?_, ?_, ?_, by rw [h], by rw [h], by rw [h], by rw [h, if_neg hsc']⟩
    · exact Evolves.medium (s := { s.along l.med T.offset with old := old }) ho htau hev rfl rfl rfl Set.finite_empty fun t _ _ => ⟨rfl, rfl, rfl⟩
    · intro e r he hr
      refine ⟨hst e r he hr, ?_⟩
      rw [h]
      exact if_pos ⟨he, hr⟩
    · rw [h]
      exact same_derived T.o τ _ _

theorem Journey.append {s : Setting n} {hn : 3 ≤ n} (ls ls' : List Leg) (T T' : Traveller n) :
    Journey s hn (ls ++ ls') T T' ↔ ∃ T₁, Journey s hn ls T T₁ ∧ Journey s hn ls' T₁ T' := by
  induction ls generalizing T with
  | nil => exact ⟨fun h => ⟨T, rfl, h⟩, fun ⟨_, h1, h2⟩ => h1 ▸ h2⟩
  | cons l ls ih =>
    constructor
    · rintro ⟨T₁, h1, h2⟩
      obtain ⟨T₂, h3, h4⟩ := (ih T₁).1 h2
      exact ⟨T₂, ⟨T₁, h1, h3⟩, h4⟩
    · rintro ⟨T₂, ⟨T₁, h1, h3⟩, h4⟩
      exact ⟨T₁, h1, (ih T₁).2 ⟨T₂, h3, h4⟩⟩

theorem Sound.path {s : Setting n} {T : Traveller n} {l : Leg} {ls : List Leg} (h : Sound s T (l :: ls))
    (hnum : T.numerics = true ∨ ∀ k ∈ l :: ls, k.Shortcut s T.allow) : Path s l (enter l T) where
  start := by show T.o.t - (T.o.t - l.xini) = l.xini; ring
  numeric hs := hnum.elim id fun k => absurd (k l List.mem_cons_self) hs
  shortcut hs := by
    rcases h with h | ⟨h1, h2, h3, _⟩
    · exact absurd hs (h l List.mem_cons_self)
    · exact ⟨h1, h2, h3 l List.mem_cons_self hs⟩

theorem Sound.tail {s : Setting n} {T T₁ : Traveller n} {l : Leg} {ls : List Leg} (h : Sound s T (l :: ls)) (hb : T₁.o.basis = T.o.basis)
    (ha : T₁.allow = T.allow) : Sound s T₁ ls := by
  unfold Sound at *
  rw [hb, ha]
  rcases h with h | ⟨h1, h2, h3, h4⟩
  · exact .inl fun k hk => h k (List.mem_cons_of_mem _ hk)
  · exact .inr ⟨h1, h2, fun k hk => h3 k (List.mem_cons_of_mem _ hk), h4.tail⟩

/-- A way is followed as one evolution through the medium it passes. -/
theorem Journey.follows (s : Setting n) (hn : 3 ≤ n) (W : Medium) (ls : List Leg) : ∀ (x : ℝ) (T T' : Traveller n), Journey s hn ls T T' →
    AllPrepared T.o → (s.tab.tau = true → T.o.nt = .both) → (∀ e r, e < T.o.ne → r < T.o.nrhos → (T.o.state e r).IsHermitian) →
    (∀ l ∈ ls, l.xini ≤ l.xend) → Sound s T ls → (T.numerics = true ∨ ∀ k ∈ ls, k.Shortcut s T.allow) → Through W x ls →
    ∃ ρ : ℝ → Nat → Nat → Mat n, Evolves (s.along W (T.o.t - x)) hn T.o ρ T.o.t (T.o.t + wayLength ls) ∧
      (∀ e r, e < T.o.ne → r < T.o.nrhos → ρ T.o.t e r = T.o.state e r ∧ T'.o.state e r = ρ (T.o.t + wayLength ls) e r) ∧
      Same T.o T'.o ∧ T'.o.t = T.o.t + wayLength ls := by
  induction ls with
  | nil =>
    intro x T T' hj ho _ hherm _ _ _ _
    have hj : T' = T := hj
    have hl : T.o.t + wayLength [] = T.o.t := add_zero _
    rw [hj, hl]
    refine ⟨fun _ => T.o.state, .smooth (fun _ _ _ _ _ _ => continuousOn_const) (fun t ht => absurd ht (by simp)) (fun _ _ => hherm),
      fun _ _ _ _ => ⟨rfl, rfl⟩, Same.refl _, rfl⟩
  | cons l ls ih =>
    intro x T T' hj ho htau hherm hfw hsound hnum hthr
    obtain ⟨T₁, hj1, hj2⟩ := hj
    obtain ⟨⟨E, hE, hW⟩, hthr⟩ := hthr
    have hsame := same_enter l T
    obtain ⟨ρ, hev, hst, hs1, ht1, _, ha1, hn1⟩ := hj1.follows (hsound.path hnum) (hsame.prepared ho) htau hherm
    have hlen : 0 ≤ l.length := sub_nonneg.2 (hfw l List.mem_cons_self)
    have ht0 : (enter l T).o.t = T.o.t := rfl
    rw [ht0, min_eq_left (by linarith), max_eq_right (by linarith)] at hev
    rw [ht0] at ht1 hst
    have hs01 : Same T.o T₁.o := hsame.trans hs1
    have ha : T₁.allow = T.allow := ha1
    have hev' : Evolves (s.along W (T.o.t - x)) hn T.o ρ T.o.t (T.o.t + l.length) := by
      refine Evolves.medium (s := s.along l.med (enter l T).offset) ho htau (hsame.evolves hev) rfl rfl rfl (E := (fun y => y + (T.o.t - l.xini)) '' E) (hE.image _) fun t ht hnot => ?_
      have hy : t - (T.o.t - l.xini) ∉ E := fun hy => hnot ⟨_, hy, by ring⟩
      have := hW (t - (T.o.t - l.xini)) ⟨by linarith [ht.1], by have := ht.2; unfold Leg.length at this; linarith⟩ hy
      have e1 : x + (t - (T.o.t - l.xini) - l.xini) = t - (T.o.t - x) := by ring
      rw [e1] at this
      exact this
    have hherm1 : ∀ e r, e < T₁.o.ne → r < T₁.o.nrhos → (T₁.o.state e r).IsHermitian := by
      intro e r he hr
      rw [hs01.ne] at he
      rw [hs01.nrhos] at hr
      rw [(hst e r he hr).2]
      exact hev'.hermitian _ ⟨by linarith, le_refl _⟩ e r he hr
    obtain ⟨σ, kev, kst, ks, kt⟩ := ih (x + l.length) T₁ T' hj2 (hs01.prepared ho) (by rw [hs01.nt]; exact htau) hherm1
      (fun k hk => hfw k (List.mem_cons_of_mem _ hk)) (hsound.tail hs01.basis ha) (by
        rw [ha, hn1]
        by_cases hsc : l.constant = true ∧ s.iint = false ∧ (enter l T).allow = true
        · right
          rcases hsound with h | ⟨_, _, _, h⟩
          · exact absurd hsc (h l List.mem_cons_self)
          · exact fun k hk => (List.pairwise_cons.1 h).1 k hk hsc
        · rw [if_neg hsc]
          exact hnum.imp id fun h k hk => h k (List.mem_cons_of_mem _ hk)) hthr
    have hoff : T₁.o.t - (x + l.length) = T.o.t - x := by rw [ht1]; ring
    have hend : T₁.o.t + wayLength ls = T.o.t + wayLength (l :: ls) := by
      rw [ht1]; unfold wayLength; rw [List.map_cons, List.sum_cons]; ring
    have hrest : 0 ≤ wayLength ls := by
      refine List.sum_nonneg fun y hy => ?_
      obtain ⟨k, hk, rfl⟩ := List.mem_map.1 hy
      exact sub_nonneg.2 (hfw k (List.mem_cons_of_mem _ hk))
    rw [hoff, hend] at kev
    rw [hend] at kst kt
    have kev' := hs01.evolves kev
    rw [ht1] at kev' kst
    have hle : T.o.t + l.length ≤ T.o.t + wayLength (l :: ls) := by rw [← hend, ht1]; linarith
    refine ⟨_, hev'.glue (by linarith) hle kev' fun e r he hr => ?_, fun e r he hr => ⟨?_, ?_⟩, hs01.trans ks, kt⟩
    · rw [(kst e r (by rwa [hs01.ne]) (by rwa [hs01.nrhos])).1, (hst e r he hr).2]
    · rw [if_pos (by linarith)]
      exact (hst e r he hr).1
    · have hk := kst e r (by rwa [hs01.ne]) (by rwa [hs01.nrhos])
      by_cases hz : T.o.t + wayLength (l :: ls) ≤ T.o.t + l.length
      · rw [if_pos hz, hk.2, le_antisymm hz hle, hk.1, (hst e r he hr).2]
      · rw [if_neg hz]
        exact hk.2

/-! ## C100 -/

/-! ### The object of the examples -/

/-- Both types, two nodes, oscillations on; at the lower node nothing, at the upper all flavours alike. -/
noncomputable def walker : Traveller 3 :=
  ⟨fill { demo .interaction with trackStart := 0 } (fun e _ _ => if e = 0 then 0 else 1) .flavor, 0, false, true⟩

theorem walker_prepared : AllPrepared walker.o := fun e r he hr =>
  c97_prepared { demo .interaction with trackStart := 0 } ⟨(demo_ready .interaction).b0, (demo_ready .interaction).mixing, (demo_ready .interaction).nrhos⟩
    rfl _ .flavor e r he hr

theorem walker_state (e r : Nat) (he : e < 2) (hr : r < 2) : walker.o.state e r = fed 0 e r := by
  have h : walker.o.state e r = (List.finRange 3).foldl (fun s j => s + (if e = 0 then (0 : ℝ) else 1) • toB1 mix45 (projector j)) 0 := by
    unfold walker fill iniH0 setIniFlavorProjectors
    simp only [demo, if_true]
    rw [if_pos ⟨he, hr⟩]
    simp only [hr, if_true]
  rw [h, foldl_sum, zero_add, ← List.ofFn_eq_map, List.sum_ofFn, ← Finset.smul_sum, sum_b1 mix45_unitary]
  unfold fed
  by_cases h0 : e = 0 <;> simp [h0]

theorem walker_hermitian (e r : Nat) (he : e < walker.o.ne) (hr : r < walker.o.nrhos) : (walker.o.state e r).IsHermitian := by
  rw [walker_state e r he hr]
  exact real_smul_hermitian _ Matrix.isHermitian_one

/-- A track through the medium of `cascade`. -/
noncomputable def stretch (x y : ℝ) : Leg := ⟨⟨fun _ => 1, fun _ => 1 / 2, fun _ _ _ _ => 0⟩, true, x, y⟩

theorem stretch_along (x y u : ℝ) : cascade.along (stretch x y).med u = cascade := rfl

/-- The walker goes along any such track, forwards or backwards. -/
theorem walker_step (x y : ℝ) (T : Traveller 3) (hs : Same walker.o T.o) (hn : T.numerics = true) (hb : T.o.ibody = true ∧ T.o.itrack = true)
    (hst : ∀ e r, e < 2 → r < 2 → T.o.state e r = fed T.o.t e r) :
    ∃ T₁, EvolveState cascade (le_refl 3) (stretch x y) T T₁ ∧ Same walker.o T₁.o ∧ T₁.numerics = true ∧ (T₁.o.ibody = true ∧ T₁.o.itrack = true) ∧
      ∀ e r, e < 2 → r < 2 → T₁.o.state e r = fed T₁.o.t e r := by
  let T₁ : Traveller 3 := { T with
    o := { preDerive T.o T.o.t with
      t := T.o.t + (stretch x y).length
      state := fun e r => if e < T.o.ne ∧ r < T.o.nrhos then fed (T.o.t + (stretch x y).length) e r else T.o.state e r } }
  have hfl : T₁.o.ibody = T.o.ibody ∧ T₁.o.itrack = T.o.itrack := by
    show (preDerive T.o T.o.t).ibody = _ ∧ (preDerive T.o T.o.t).itrack = _
    rw [preDerive_fields]
    exact ⟨rfl, rfl⟩
  refine ⟨T₁, ⟨hb.1, hb.2, hs.istate, hs.ienergy, T.o.t, Set.left_mem_uIcc, ?_⟩, hs.trans (same_derived _ _ _ _), hn, ⟨hfl.1.trans hb.1, hfl.2.trans hb.2⟩,
    fun e r he hr => if_pos ⟨by rw [hs.ne]; exact he, by rw [hs.nrhos]; exact hr⟩⟩
  rw [if_neg (fun h => absurd h.2.1 (by simp [cascade])), if_pos hn]
  refine ⟨cascade.old, fed, fed_evolves T.o (hs.prepared walker_prepared) hs.ne _ _, fun e r he hr => ?_, rfl⟩
  rw [hs.ne] at he
  rw [hs.nrhos] at hr
  exact (hst e r he hr).symm

theorem walker_journey (ps : List (ℝ × ℝ)) : ∀ T : Traveller 3, Same walker.o T.o → T.numerics = true → (∀ e r, e < 2 → r < 2 → T.o.state e r = fed T.o.t e r) →
    ∃ T', Journey cascade (le_refl 3) (ps.map fun p => stretch p.1 p.2) T T' := by
  induction ps with
  | nil => intro T _ _ _; exact ⟨T, rfl⟩
  | cons p ps ih =>
    intro T hs hn hst
    obtain ⟨T₁, h1, h2, h3, _, h4⟩ := walker_step p.1 p.2 (enter (stretch p.1 p.2) T) (hs.trans (same_enter _ T)) hn ⟨rfl, rfl⟩ hst
    obtain ⟨T', hT'⟩ := ih T₁ h2 h3 h4
    exact ⟨T', T₁, h1, hT'⟩

/-- C100, partial: two ways from the same object that pass through the same medium, cut into tracks however one likes and through whatever
bodies, take the clock to the same time and give the same states and readings, if both are sound. Missing: positivised evolutions of
tracks that do not start at zero (`c100_positivised_violated`), ways on which a leg is integrated after one has taken the
constant-density shortcut (`c100_shortcut_violated`), and the shortcut with sources (`c99_shortcut_violated`) or after an evolution in the
interaction basis (`c73_interaction_picture_violated`). -/
theorem c100_same_way_partial (s : Setting n) (hn : 3 ≤ n) (W : Medium) (x : ℝ) (ls ls' : List Leg) (T T₁ T₂ : Traveller n) (ho : AllPrepared T.o)
    (hherm : ∀ e r, e < T.o.ne → r < T.o.nrhos → (T.o.state e r).IsHermitian) (hnum : T.numerics = true)
    (hs : Sane (s.along W (T.o.t - x)) T.o T.o.t (T.o.t + wayLength ls))
    (hfw : ∀ l ∈ ls ++ ls', l.xini ≤ l.xend) (hsound : Sound s T ls ∧ Sound s T ls') (hthr : Through W x ls ∧ Through W x ls')
    (hlen : wayLength ls' = wayLength ls) (hj : Journey s hn ls T T₁) (hj' : Journey s hn ls' T T₂) :
    T₁.o.t = T.o.t + wayLength ls ∧ ReadAlike T₁.o T₂.o := by
  obtain ⟨ρ, h1, h2, h3, h4⟩ := Journey.follows s hn W ls x T T₁ hj ho hs.tau hherm (fun l hl => hfw l (List.mem_append_left _ hl)) hsound.1 (.inl hnum) hthr.1
  obtain ⟨σ, k1, k2, k3, k4⟩ := Journey.follows s hn W ls' x T T₂ hj' ho hs.tau hherm (fun l hl => hfw l (List.mem_append_right _ hl)) hsound.2 (.inl hnum) hthr.2
  rw [hlen] at k1 k2 k4
  refine ⟨h4, k4.trans h4.symm, fun e r f he hr => ?_⟩
  rw [h3.ne] at he
  rw [h3.nrhos] at hr
  have hnn : 0 ≤ wayLength ls := by
    refine List.sum_nonneg fun y hy => ?_
    obtain ⟨k, hk, rfl⟩ := List.mem_map.1 hy
    exact sub_nonneg.2 (hfw k (List.mem_append_left _ hk))
  have heq := c98_determined (s.along W (T.o.t - x)) hn T.o ho ρ σ T.o.t (T.o.t + wayLength ls) hs h1 k1 0
    (fun e r _ he hr => by rw [(h2 e r he hr).1, (k2 e r he hr).1]) (T.o.t + wayLength ls) ⟨by linarith, le_refl _⟩ e r (Nat.zero_le _) he hr
  have hst : T₂.o.state e r = T₁.o.state e r := by rw [(h2 e r he hr).2, (k2 e r he hr).2, heq]
  have hs12 : Same T₁.o T₂.o := h3.symm.trans k3
  exact ⟨hst, hs12.readings (k4.trans h4.symm) hst f⟩

/-- In the medium of `cascade`, a track of three and one of one followed by one of two. -/
example : ∃ T₁ T₂, Journey cascade (le_refl 3) [stretch 0 1, stretch 5 7] walker T₁ ∧ Journey cascade (le_refl 3) [stretch 0 3] walker T₂ ∧ ReadAlike T₁.o T₂.o := by
  obtain ⟨T₁, h1⟩ := walker_journey [(0, 1), (5, 7)] walker (Same.refl _) rfl walker_state
  obtain ⟨T₂, h2⟩ := walker_journey [(0, 3)] walker (Same.refl _) rfl walker_state
  have hno : ∀ (ls : List Leg), ∀ l ∈ ls, ¬l.Shortcut cascade walker.allow := fun _ l _ h => absurd h.2.1 (by simp [cascade])
  refine ⟨T₁, T₂, h1, h2, (c100_same_way_partial cascade (le_refl 3) (stretch 0 0).med 0 _ _ walker T₁ T₂ walker_prepared walker_hermitian rfl
    (cascade_sane _ _ _) ?_ ⟨.inl (hno _), .inl (hno _)⟩ ⟨?_, ?_⟩ ?_ h1 h2).2⟩
  · intro l hl
    simp only [List.map_cons, List.map_nil, List.cons_append, List.nil_append, List.mem_cons, List.not_mem_nil, or_false] at hl
    rcases hl with rfl | rfl | rfl <;> (unfold stretch; norm_num)
  · exact ⟨⟨∅, Set.finite_empty, fun _ _ _ => ⟨rfl, rfl, rfl⟩⟩, ⟨∅, Set.finite_empty, fun _ _ _ => ⟨rfl, rfl, rfl⟩⟩, trivial⟩
  · exact ⟨⟨∅, Set.finite_empty, fun _ _ _ => ⟨rfl, rfl, rfl⟩⟩, trivial⟩
  · simp [wayLength, stretch, Leg.length]
    norm_num

theorem Evolves.within {s : Setting n} {hn : 3 ≤ n} {o : Obj n} {ρ : ℝ → Nat → Nat → Mat n} {a b a' b' : ℝ} (h : Evolves s hn o ρ a b) (ha : a ≤ a')
    (hb : b' ≤ b) : Evolves s hn o ρ a' b' := by
  obtain ⟨S, hS, h⟩ := h
  exact ⟨S, hS, fun e r he hr i j => (h.cont e r he hr i j).mono (Set.Icc_subset_Icc ha hb), fun t ht => h.deriv t ⟨ha.trans ht.1, ht.2.trans_le hb⟩,
    fun t ht => h.hermitian t ⟨ha.trans ht.1, ht.2.trans hb⟩⟩

/-- Conversely, what follows the equation of motion through the whole medium is followed leg by leg. -/
theorem c100_leg_by_leg (s : Setting n) (hn : 3 ≤ n) (W : Medium) (ls : List Leg) : ∀ (x : ℝ) (T : Traveller n) (ρ : ℝ → Nat → Nat → Mat n),
    AllPrepared T.o → (s.tab.tau = true → T.o.nt = .both) → T.o.istate = true → T.o.ienergy = true → T.numerics = true →
    (∀ l ∈ ls, l.xini ≤ l.xend ∧ ¬l.Shortcut s T.allow) → Through W x ls →
    Evolves (s.along W (T.o.t - x)) hn T.o ρ T.o.t (T.o.t + wayLength ls) → (∀ e r, e < T.o.ne → r < T.o.nrhos → ρ T.o.t e r = T.o.state e r) →
    ∃ T', Journey s hn ls T T' ∧ T'.o.t = T.o.t + wayLength ls ∧ ∀ e r, e < T.o.ne → r < T.o.nrhos → T'.o.state e r = ρ (T.o.t + wayLength ls) e r := by
  induction ls with
  | nil =>
    intro x T ρ _ _ _ _ _ _ _ _ hst
    have hl : T.o.t + wayLength [] = T.o.t := add_zero _
    rw [hl]
    exact ⟨T, rfl, rfl, fun e r he hr => (hst e r he hr).symm⟩
  | cons l ls ih =>
    intro x T ρ ho htau hi he hnum hfw hthr hev hst
    obtain ⟨⟨E, hE, hW⟩, hthr⟩ := hthr
    have hsame := same_enter l T
    obtain ⟨hl, hns⟩ := hfw l List.mem_cons_self
    have hlen : 0 ≤ l.length := sub_nonneg.2 hl
    have hrest : 0 ≤ wayLength ls := by
      refine List.sum_nonneg fun y hy => ?_
      obtain ⟨k, hk, rfl⟩ := List.mem_map.1 hy
      exact sub_nonneg.2 (hfw k (List.mem_cons_of_mem _ hk)).1
    have hway : wayLength (l :: ls) = l.length + wayLength ls := by unfold wayLength; rw [List.map_cons, List.sum_cons]
    have hev1 : Evolves (s.along l.med (T.o.t - l.xini)) hn T.o ρ T.o.t (T.o.t + l.length) := by
      refine Evolves.medium (s := s.along W (T.o.t - x)) ho htau (hev.within (le_refl _) (by rw [hway]; linarith)) rfl rfl rfl
        (E := (fun y => y + (T.o.t - l.xini)) '' E) (hE.image _) fun t ht hnot => ?_
      have hy : t - (T.o.t - l.xini) ∉ E := fun hy => hnot ⟨_, hy, by ring⟩
      have := hW (t - (T.o.t - l.xini)) ⟨by linarith [ht.1], by have := ht.2; unfold Leg.length at this; linarith⟩ hy
      have e1 : x + (t - (T.o.t - l.xini) - l.xini) = t - (T.o.t - x) := by ring
      rw [e1] at this
      exact ⟨this.1.symm, this.2.1.symm, this.2.2.symm⟩
    let T₁ : Traveller n := { enter l T with
      o := { preDerive (enter l T).o T.o.t with
        t := T.o.t + l.length
        state := fun e r => if e < T.o.ne ∧ r < T.o.nrhos then ρ (T.o.t + l.length) e r else T.o.state e r } }
    have hs1 : Same T.o T₁.o := hsame.trans (same_derived (enter l T).o T.o.t _ _)
    have hj1 : EvolveState s hn l (enter l T) T₁ := by
      refine ⟨rfl, rfl, hi, he, T.o.t, Set.left_mem_uIcc, ?_⟩
      have hns' : ¬(l.constant = true ∧ s.iint = false ∧ (enter l T).allow = true) := hns
      rw [if_neg hns', if_pos (show (enter l T).numerics = true from hnum)]
      refine ⟨s.old, ρ, ?_, hst, rfl⟩
      have ht0 : (enter l T).o.t = T.o.t := rfl
      rw [ht0, min_eq_left (by linarith), max_eq_right (by linarith)]
      exact hsame.symm.evolves hev1
    have hst1 : ∀ e r, e < T₁.o.ne → r < T₁.o.nrhos → ρ (T₁.o.t) e r = T₁.o.state e r := by
      intro e r he hr
      rw [hs1.ne] at he
      rw [hs1.nrhos] at hr
      exact (if_pos ⟨he, hr⟩ : (if e < T.o.ne ∧ r < T.o.nrhos then ρ (T.o.t + l.length) e r else T.o.state e r) = _).symm
    have ht1 : T₁.o.t = T.o.t + l.length := rfl
    have hoff : T₁.o.t - (x + l.length) = T.o.t - x := by rw [ht1]; ring
    have hend : T₁.o.t + wayLength ls = T.o.t + wayLength (l :: ls) := by rw [ht1, hway]; ring
    obtain ⟨T', hj2, ht2, hst2⟩ := ih (x + l.length) T₁ ρ (hs1.prepared ho) (by rw [hs1.nt]; exact htau) (by rw [hs1.istate]; exact hi)
      (by rw [hs1.ienergy]; exact he) hnum (fun k hk => hfw k (List.mem_cons_of_mem _ hk)) hthr (by
        rw [hoff, hend]
        exact hs1.symm.evolves (hev.within (by rw [ht1]; linarith) (le_refl _))) hst1
    refine ⟨T', ⟨T₁, hj1, hj2⟩, ht2.trans hend, fun e r he hr => ?_⟩
    rw [hst2 e r (by rwa [hs1.ne]) (by rwa [hs1.nrhos]), hend]

example : ∃ T', Journey cascade (le_refl 3) [stretch 0 1, stretch 5 7] walker T' ∧ T'.o.state 0 0 = (3 * Real.exp (-3)) • (1 : Mat 3) := by
  have hw : wayLength [stretch 0 1, stretch 5 7] = 3 := by simp [wayLength, stretch, Leg.length]; norm_num
  obtain ⟨T', h1, _, h3⟩ := c100_leg_by_leg cascade (le_refl 3) (stretch 0 0).med [stretch 0 1, stretch 5 7] 0 walker fed walker_prepared
    (fun h => absurd h (by simp [cascade])) rfl rfl rfl (fun l hl => by
      refine ⟨?_, fun h => absurd h.2.1 (by simp [cascade])⟩
      simp only [List.mem_cons, List.not_mem_nil, or_false] at hl
      rcases hl with rfl | rfl <;> (unfold stretch; norm_num))
    ⟨⟨∅, Set.finite_empty, fun _ _ _ => ⟨rfl, rfl, rfl⟩⟩, ⟨∅, Set.finite_empty, fun _ _ _ => ⟨rfl, rfl, rfl⟩⟩, trivial⟩
    (fed_evolves _ walker_prepared rfl _ _) (fun e r he hr => (walker_state e r he hr).symm)
  refine ⟨T', h1, ?_⟩
  rw [h3 0 0 (by show (0 : Nat) < 2; norm_num) (by show (0 : Nat) < 2; norm_num), hw, show walker.o.t = 0 from rfl, zero_add]
  unfold fed
  rw [if_pos rfl]

/-- The legs of one track cut at the positions of a list. -/
def Leg.cut (l : Leg) : List ℝ → List Leg
  | x :: y :: xs => { l with xini := x, xend := y } :: l.cut (y :: xs)
  | _ => []

theorem Leg.cut_length (l : Leg) (x : ℝ) (xs : List ℝ) : wayLength (l.cut (x :: xs)) = (x :: xs).getLast (List.cons_ne_nil _ _) - x := by
  induction xs generalizing x with
  | nil => simp [Leg.cut, wayLength]
  | cons y xs ih =>
    have h : wayLength (l.cut (x :: y :: xs)) = (y - x) + wayLength (l.cut (y :: xs)) := by
      show (List.map Leg.length (_ :: l.cut (y :: xs))).sum = _
      rw [List.map_cons, List.sum_cons]; rfl
    rw [h, ih y, List.getLast_cons (List.cons_ne_nil _ _)]
    ring

theorem Leg.cut_through (l : Leg) (x : ℝ) (xs : List ℝ) : Through l.med x (l.cut (x :: xs)) := by
  induction xs generalizing x with
  | nil => exact trivial
  | cons y xs ih =>
    refine ⟨⟨∅, Set.finite_empty, fun z _ _ => ?_⟩, ?_⟩
    · have : x + (z - x) = z := by ring
      dsimp only
      rw [this]
      exact ⟨rfl, rfl, rfl⟩
    · have : x + ({ l with xini := x, xend := y } : Leg).length = y := by show x + (y - x) = y; ring
      rw [this]
      exact ih y

theorem Leg.cut_mem (l : Leg) (xs : List ℝ) (k : Leg) (h : k ∈ l.cut xs) : k.med = l.med ∧ k.constant = l.constant ∧ k.xini ∈ xs ∧ k.xend ∈ xs := by
  induction xs with
  | nil => cases h
  | cons x xs ih =>
    cases xs with
    | nil => cases h
    | cons y xs =>
      rcases List.mem_cons.1 h with rfl | h
      · exact ⟨rfl, rfl, List.mem_cons_self, List.mem_cons_of_mem _ List.mem_cons_self⟩
      · obtain ⟨h1, h2, h3, h4⟩ := ih h
        exact ⟨h1, h2, List.mem_cons_of_mem _ h3, List.mem_cons_of_mem _ h4⟩

theorem Leg.cut_forward (l : Leg) (xs : List ℝ) (hx : xs.Pairwise (· ≤ ·)) (k : Leg) (h : k ∈ l.cut xs) : k.xini ≤ k.xend := by
  induction xs with
  | nil => cases h
  | cons x xs ih =>
    cases xs with
    | nil => cases h
    | cons y xs =>
      rcases List.mem_cons.1 h with rfl | h
      · exact (List.pairwise_cons.1 hx).1 y List.mem_cons_self
      · exact ih (List.pairwise_cons.1 hx).2 h

/-- C100, partial: a track cut at any positions on the way and evolved piece by piece gives what it gives evolved at once. The last position
is the end of the track. -/
theorem c100_cut_partial (s : Setting n) (hn : 3 ≤ n) (l : Leg) (xs : List ℝ) (hx : (l.xini :: xs).Pairwise (· ≤ ·))
    (hend : (l.xini :: xs).getLast (List.cons_ne_nil _ _) = l.xend) (T T₁ T₂ : Traveller n) (ho : AllPrepared T.o)
    (hherm : ∀ e r, e < T.o.ne → r < T.o.nrhos → (T.o.state e r).IsHermitian) (hnum : T.numerics = true)
    (hs : Sane (s.along l.med (T.o.t - l.xini)) T.o T.o.t (T.o.t + l.length))
    (hsound : l.Shortcut s T.allow → T.o.basis = .mass ∧ s.tab.sources = false ∧ l.Honest)
    (hj : Journey s hn [l] T T₁) (hj' : Journey s hn (l.cut (l.xini :: xs)) T T₂) : ReadAlike T₁.o T₂.o := by
  have hw : wayLength [l] = l.length := by simp [wayLength]
  have hle : l.xini ≤ l.xend := by
    rw [← hend]
    rcases List.mem_cons.1 (List.getLast_mem (List.cons_ne_nil l.xini xs)) with h | h
    · rw [h]
    · exact (List.pairwise_cons.1 hx).1 _ h
  have hmem : ∀ y ∈ l.xini :: xs, l.xini ≤ y ∧ y ≤ l.xend := by
    intro y hy
    refine ⟨?_, ?_⟩
    · rcases List.mem_cons.1 hy with h | h
      · rw [h]
      · exact (List.pairwise_cons.1 hx).1 _ h
    · rw [← hend]
      exact hx.rel_getLast hy
  have hsh : ∀ k ∈ l.cut (l.xini :: xs), (k.Shortcut s T.allow ↔ l.Shortcut s T.allow) := by
    intro k hk
    unfold Leg.Shortcut
    rw [(l.cut_mem _ k hk).2.1]
  have hsnd : Sound s T [l] ∧ Sound s T (l.cut (l.xini :: xs)) := by
    by_cases hl : l.Shortcut s T.allow
    · obtain ⟨h1, h2, h3⟩ := hsound hl
      refine ⟨.inr ⟨h1, h2, fun k hk _ => ?_, List.pairwise_singleton _ _⟩, .inr ⟨h1, h2, fun k hk _ => ?_, ?_⟩⟩
      · rw [List.mem_singleton.1 hk]; exact h3
      · obtain ⟨k1, _, k3, k4⟩ := l.cut_mem _ k hk
        intro y hy y' hy'
        rw [k1]
        have hsub : Set.uIcc k.xini k.xend ⊆ Set.uIcc l.xini l.xend := by
          rw [Set.uIcc_of_le hle]
          exact Set.uIcc_subset_Icc (hmem _ k3) (hmem _ k4)
        exact h3 y (hsub hy) y' (hsub hy')
      · exact List.Pairwise.imp_of_mem (fun _ hk' _ _ => (hsh _ hk').2 hl) (List.pairwise_of_forall (R := fun _ _ => True) fun _ _ => trivial)
    · refine ⟨.inl fun k hk => ?_, .inl fun k hk => ?_⟩
      · rw [List.mem_singleton.1 hk]; exact hl
      · rw [hsh k hk]; exact hl
  refine (c100_same_way_partial s hn l.med l.xini [l] (l.cut (l.xini :: xs)) T T₁ T₂ ho hherm hnum (by rw [hw]; exact hs) ?_ hsnd
    ⟨⟨⟨∅, Set.finite_empty, fun z _ _ => ?_⟩, trivial⟩, l.cut_through _ _⟩ ?_ hj hj').2
  · intro k hk
    rcases List.mem_append.1 hk with h | h
    · rw [List.mem_singleton.1 h]; exact hle
    · exact l.cut_forward _ hx k h
  · have : l.xini + (z - l.xini) = z := by ring
    rw [this]
    exact ⟨rfl, rfl, rfl⟩
  · rw [l.cut_length, hend, hw]
    rfl

example : ∃ T₁ T₂, Journey cascade (le_refl 3) [stretch 2 5] walker T₁ ∧ Journey cascade (le_refl 3) ((stretch 2 5).cut [2, 3, 5]) walker T₂ ∧ ReadAlike T₁.o T₂.o := by
  obtain ⟨T₁, h1⟩ := walker_journey [(2, 5)] walker (Same.refl _) rfl walker_state
  obtain ⟨T₂, h2⟩ := walker_journey [(2, 3), (3, 5)] walker (Same.refl _) rfl walker_state
  refine ⟨T₁, T₂, h1, h2, c100_cut_partial cascade (le_refl 3) (stretch 2 5) [3, 5] ?_ rfl walker T₁ T₂ walker_prepared walker_hermitian rfl
    (cascade_sane _ _ _) (fun h => absurd h.2.1 (by simp [cascade])) h1 h2⟩
  simp [stretch]
  norm_num

/-- C100, partial: in a medium that is the same everywhere, only the length of the way counts: tracks that each start anew add up. -/
theorem c100_repeat_partial (s : Setting n) (hn : 3 ≤ n) (d y : ℝ) (g : Nat → Nat → Nat → ℝ) (l : Leg) (ls : List Leg)
    (hm : ∀ k ∈ l :: ls, k.med = ⟨fun _ => d, fun _ => y, fun _ => g⟩ ∧ k.xini ≤ k.xend)
    (hlen : l.length = wayLength ls) (T T₁ T₂ : Traveller n) (ho : AllPrepared T.o)
    (hherm : ∀ e r, e < T.o.ne → r < T.o.nrhos → (T.o.state e r).IsHermitian) (hnum : T.numerics = true)
    (hs : Sane { s with dens := fun _ => d, ye := fun _ => y, ext := fun _ => g } T.o T.o.t (T.o.t + l.length))
    (hsound : (∀ k ∈ l :: ls, ¬k.Shortcut s T.allow) ∨ (T.o.basis = .mass ∧ s.tab.sources = false ∧ ∀ k ∈ ls, k.constant = l.constant))
    (hj : Journey s hn [l] T T₁) (hj' : Journey s hn ls T T₂) : ReadAlike T₁.o T₂.o := by
  have hw : wayLength [l] = l.length := by simp [wayLength]
  have hon : ∀ k ∈ l :: ls, k.Honest := by
    intro k hk a _ b _
    rw [(hm k hk).1]
    exact ⟨rfl, rfl⟩
  have hthr : ∀ (ks : List Leg), (∀ k ∈ ks, k.med = ⟨fun _ => d, fun _ => y, fun _ => g⟩) → ∀ x,
      Through ⟨fun _ => d, fun _ => y, fun _ => g⟩ x ks := by
    intro ks
    induction ks with
    | nil => intro _ _; exact trivial
    | cons k ks ih =>
      intro hk x
      refine ⟨⟨∅, Set.finite_empty, fun z _ _ => ?_⟩, ih (fun k hk' => hk k (List.mem_cons_of_mem _ hk')) _⟩
      rw [hk k List.mem_cons_self]
      exact ⟨rfl, rfl, rfl⟩
  have hsnd : Sound s T [l] ∧ Sound s T ls := by
    rcases hsound with h | ⟨h1, h2, h3⟩
    · exact ⟨.inl fun k hk => h k (by rw [List.mem_singleton.1 hk]; exact List.mem_cons_self), .inl fun k hk => h k (List.mem_cons_of_mem _ hk)⟩
    · refine ⟨.inr ⟨h1, h2, fun k hk _ => hon k (by rw [List.mem_singleton.1 hk]; exact List.mem_cons_self), List.pairwise_singleton _ _⟩,
        .inr ⟨h1, h2, fun k hk _ => hon k (List.mem_cons_of_mem _ hk), ?_⟩⟩
      refine List.Pairwise.imp_of_mem (fun {a b} ha hb _ hab => ?_) (List.pairwise_of_forall (R := fun _ _ => True) fun _ _ => trivial)
      unfold Leg.Shortcut at *
      rwa [h3 b hb, ← h3 a ha]
  exact (c100_same_way_partial s hn ⟨fun _ => d, fun _ => y, fun _ => g⟩ 0 [l] ls T T₁ T₂ ho hherm hnum (by rw [hw]; exact hs)
    (fun k hk => (hm k (by simpa using hk)).2) hsnd
    ⟨hthr [l] (fun k hk => by rw [List.mem_singleton.1 hk]; exact (hm l List.mem_cons_self).1) 0,
      hthr ls (fun k hk => (hm k (List.mem_cons_of_mem _ hk)).1) 0⟩ (by rw [hw, hlen]) hj hj').2

example : ∃ T₁ T₂, Journey cascade (le_refl 3) [stretch 2 5] walker T₁ ∧ Journey cascade (le_refl 3) [stretch 0 1, stretch 0 2] walker T₂ ∧ ReadAlike T₁.o T₂.o := by
  obtain ⟨T₁, h1⟩ := walker_journey [(2, 5)] walker (Same.refl _) rfl walker_state
  obtain ⟨T₂, h2⟩ := walker_journey [(0, 1), (0, 2)] walker (Same.refl _) rfl walker_state
  refine ⟨T₁, T₂, h1, h2, c100_repeat_partial cascade (le_refl 3) 1 (1 / 2) (fun _ _ _ => 0) (stretch 2 5) [stretch 0 1, stretch 0 2] ?_ ?_ walker T₁ T₂
    walker_prepared walker_hermitian rfl (cascade_sane _ _ _) (.inl fun _ _ h => absurd h.2.1 (by simp [cascade])) h1 h2⟩
  · intro l hl
    simp only [List.mem_cons, List.not_mem_nil, or_false] at hl
    rcases hl with rfl | rfl | rfl <;> (refine ⟨rfl, ?_⟩; unfold stretch; norm_num)
  · simp [wayLength, stretch, Leg.length]
    norm_num

end Verif.Density
