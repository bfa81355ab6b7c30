import Verif.Density.SourceProps

/-!
# Evolution along several tracks

`Set_Body` and `Set_Track` (nuSQuIDS.cpp 1196-1208), the position `PreDerive` gives the track (279) and `EvolveState` (1233-1305) without
positivisation, around the equation of motion of `Transport.lean`. What a body answers along a track is a function of the position on it.

`SQuIDS::Evolve(dt)` is not part of the repository. Assumed of it: it takes the clock from `t` to `t + dt`, in either direction, the states
following the equation of motion; with the numerics off (`Set_AnyNumerics(false)`) it calls `PreDerive` and moves the clock only.
-/

namespace Verif.Density

open Matrix
open Matter (NT)
open Update (Net Shape NonNeg)
open scoped ComplexOrder

variable {n : Nat}

/-! ## Model -/

/-- What a body answers at the positions of a track: `density`, `ye` and `injected_neutrino_flux`. -/
structure Medium where
  dens : ℝ → ℝ
  ye : ℝ → ℝ
  ext : ℝ → Nat → Nat → Nat → ℝ

/-- A body with a track through it: `IsConstantDensity`, `GetInitialX`, `GetFinalX`. -/
structure Leg where
  med : Medium
  constant : Bool
  xini : ℝ
  xend : ℝ

/-- `GetFinalX() - GetInitialX()` (1267, 1301). -/
def Leg.length (l : Leg) : ℝ := l.xend - l.xini

/-- The object with `time_offset`, `allowConstantDensityOscillationOnlyEvolution` and whether the numerics are on. -/
structure Traveller (n : Nat) where
  o : Obj n
  offset : ℝ
  allow : Bool
  numerics : Bool

/-- `Set_Body` (1196-1199) and `Set_Track` (1201-1208). -/
def enter (l : Leg) (T : Traveller n) : Traveller n :=
  { T with
    o := { T.o with ibody := true, itrack := true, trackStart := l.xini }
    offset := T.o.t - l.xini }

/-- Tables and options with the medium at the position the clock stands for: `track->SetX(x-time_offset)` (279). -/
def Setting.along (s : Setting n) (m : Medium) (offset : ℝ) : Setting n :=
  { s with
    dens := fun t => m.dens (t - offset)
    ye := fun t => m.ye (t - offset)
    ext := fun t => m.ext (t - offset) }

/-- `EvolveState` (1233-1305) without positivisation; `s` gives tables and options, `l` body and track. -/
def EvolveState (s : Setting n) (hn : 3 ≤ n) (l : Leg) (T T' : Traveller n) : Prop :=
  T.o.ibody = true ∧ T.o.itrack = true ∧ T.o.istate = true ∧ T.o.ienergy = true ∧
  ∃ τ ∈ Set.uIcc T.o.t (T.o.t + l.length),
    if l.constant = true ∧ s.iint = false ∧ T.allow = true then
      T' = { T with
        o := shortcut s.c (l.med.dens (τ - T.offset)) (l.med.ye (τ - T.offset)) l.length (Fin.castLE hn) T.o
        numerics := false }
    else if T.numerics = true then
      ∃ (old : ℝ → ℝ) (ρ : ℝ → Nat → Nat → Mat n),
        Evolves { s.along l.med T.offset with old := old } hn T.o ρ (min T.o.t (T.o.t + l.length)) (max T.o.t (T.o.t + l.length)) ∧
        (∀ e r, e < T.o.ne → r < T.o.nrhos → ρ T.o.t e r = T.o.state e r) ∧
        T' = { T with
          o := { preDerive T.o τ with
            t := T.o.t + l.length
            state := fun e r => if e < T.o.ne ∧ r < T.o.nrhos then ρ (T.o.t + l.length) e r else T.o.state e r } }
    else T' = { T with o := { preDerive T.o τ with t := T.o.t + l.length } }

/-- Body and track set and evolved, one after the other. -/
def Journey (s : Setting n) (hn : 3 ≤ n) : List Leg → Traveller n → Traveller n → Prop
  | [], T, T' => T' = T
  | l :: ls, T, T' => ∃ T₁, EvolveState s hn l (enter l T) T₁ ∧ Journey s hn ls T₁ T'

/-- `ReverseTrack` (body.h 98-103). -/
def Leg.reverse (l : Leg) : Leg := { l with xini := l.xend, xend := l.xini }

/-! ## Lemmas -/

/-- The same object, but for clock, states and projectors that are computed anew when they are needed. -/
structure Same (o o' : Obj n) : Prop where
  nt : o'.nt = o.nt
  ne : o'.ne = o.ne
  nrhos : o'.nrhos = o.nrhos
  basis : o'.basis = o.basis
  ienergy : o'.ienergy = o.ienergy
  istate : o'.istate = o.istate
  osc : o'.ioscillations = o.ioscillations
  energies : o'.energies = o.energies
  mixing : o'.mixing = o.mixing
  b0 : o'.b0 = o.b0
  b1 : o'.b1 = o.b1
  dm2 : o'.dm2 = o.dm2
  h0s : o'.h0s = o.h0s
  tini : o'.tini = o.tini
  proj : ∀ t, (preDerive o' t).evolB1 = (preDerive o t).evolB1

theorem Same.refl (o : Obj n) : Same o o := by constructor <;> intros <;> rfl

theorem Same.trans {o o' o'' : Obj n} (h : Same o o') (k : Same o' o'') : Same o o'' :=
  ⟨k.nt.trans h.nt, k.ne.trans h.ne, k.nrhos.trans h.nrhos, k.basis.trans h.basis, k.ienergy.trans h.ienergy, k.istate.trans h.istate,
    k.osc.trans h.osc, k.energies.trans h.energies, k.mixing.trans h.mixing, k.b0.trans h.b0, k.b1.trans h.b1, k.dm2.trans h.dm2,
    k.h0s.trans h.h0s, k.tini.trans h.tini, fun t => (k.proj t).trans (h.proj t)⟩

theorem preDerive_fields (o : Obj n) (x : ℝ) : preDerive o x = { o with evolB1 := (preDerive o x).evolB1 } := by
  unfold preDerive
  split <;> rfl

theorem preDerive_twice (o : Obj n) (x t : ℝ) : (preDerive (preDerive o x) t).evolB1 = (preDerive o t).evolB1 := by
  by_cases h : o.basis ≠ .mass ∧ o.ioscillations = true
  · have e1 : preDerive o x = evolveProjectors o id x := if_pos h
    have e2 : preDerive (evolveProjectors o id x) t = evolveProjectors (evolveProjectors o id x) id t := if_pos h
    rw [e1, e2, show preDerive o t = evolveProjectors o id t from if_pos h]
    funext rho f e
    show (if rho < o.nrhos ∧ e < o.ne then id (evolve (o.h0s e) (t - o.tini) (o.b1 rho f)) else
      if rho < o.nrhos ∧ e < o.ne then id (evolve (o.h0s e) (x - o.tini) (o.b1 rho f)) else o.evolB1 rho f e) =
      if rho < o.nrhos ∧ e < o.ne then id (evolve (o.h0s e) (t - o.tini) (o.b1 rho f)) else o.evolB1 rho f e
    by_cases hr : rho < o.nrhos ∧ e < o.ne
    · rw [if_pos hr, if_pos hr]
    · rw [if_neg hr, if_neg hr, if_neg hr]
  · rw [show preDerive o x = o from if_neg h]

/-- Members that `PreDerive` neither reads nor writes. -/
theorem preDerive_other (o : Obj n) (t x s : ℝ) (st : Nat → Nat → Mat n) (a b c : Bool) :
    (preDerive { o with t := t, state := st, ibody := a, itrack := b, full := c, trackStart := s } x).evolB1 = (preDerive o x).evolB1 := by
  unfold preDerive
  dsimp only
  split <;> rfl

theorem same_enter (l : Leg) (T : Traveller n) : Same T.o (enter l T).o :=
  ⟨rfl, rfl, rfl, rfl, rfl, rfl, rfl, rfl, rfl, rfl, rfl, rfl, rfl, rfl, fun t => preDerive_other T.o T.o.t t l.xini T.o.state true true T.o.full⟩

theorem same_derived (o : Obj n) (x t : ℝ) (st : Nat → Nat → Mat n) : Same o { preDerive o x with t := t, state := st } := by
  have h := preDerive_fields o x
  have hp : ∀ u, (preDerive { preDerive o x with t := t, state := st } u).evolB1 = (preDerive o u).evolB1 := fun u =>
    (preDerive_other (preDerive o x) t u _ st _ _ _).trans (preDerive_twice o x u)
  constructor
  case proj => exact hp
  all_goals (rw [h])

theorem Same.prepared {o o' : Obj n} (h : Same o o') (ho : AllPrepared o) : AllPrepared o' := by
  intro e r he hr
  rw [h.ne] at he
  rw [h.nrhos] at hr
  obtain ⟨g, _, _, h1, h2⟩ := ho e r he hr
  refine ⟨⟨⟨by rw [h.b0]; exact g.ready.b0, by rw [h.mixing]; exact g.ready.mixing, by rw [h.nrhos, h.nt]; exact g.ready.nrhos⟩, by rw [h.ienergy]; exact g.ienergy,
    by rw [h.nrhos, h.b1, h.mixing]; exact g.b1, by rw [h.dm2]; exact g.dm2⟩, by rw [h.ne]; exact he, by rw [h.nrhos]; exact hr, ?_, ?_⟩
  · rw [h.h0s, h.energies, h1]
    unfold h0
    rw [h.osc, h.dm2]
  · intro hc f
    have hc0 : o.basis = .mass ∨ o.ioscillations = false := by rwa [h.basis, h.osc] at hc
    have not : ∀ p : Obj n, (p.basis = .mass ∨ p.ioscillations = false) → preDerive p 0 = p := fun p hp =>
      if_neg fun hh => hp.elim (fun e => hh.1 e) fun e => by rw [e] at hh; exact absurd hh.2 (by simp)
    have hp := h.proj 0
    rw [not o' hc, not o hc0] at hp
    rw [hp, h.b1]
    exact h2 hc0 f

theorem Same.motion {o o' : Obj n} (h : Same o o') (c : ℝ) (dens ye : ℝ → ℝ) (fl : Fin 3 → Fin n) (e r : Nat) (t : ℝ) :
    motion c dens ye fl o' e r t = motion c dens ye fl o e r t := by
  have k1 := preDerive_fields o t
  have k2 := preDerive_fields o' t
  unfold Density.motion hamiltonian
  rw [k1, k2]
  dsimp only
  rw [h.proj, h.nt, h.basis, h.h0s]

theorem Same.net {o o' : Obj n} (h : Same o o') (s : Setting n) (t : ℝ) (st : Nat → Nat → Mat n) : s.net o' t st = s.net o t st := by
  unfold Setting.net
  rw [h.proj, h.nt, h.ne, h.nrhos]

theorem Same.velocity {o o' : Obj n} (h : Same o o') (s : Setting n) (hn : 3 ≤ n) (t : ℝ) (st : Nat → Nat → Mat n) (e r : Nat) :
    s.velocity hn o' t st e r = s.velocity hn o t st e r := by
  unfold Setting.velocity Setting.gamma Setting.gain
  rw [h.motion, h.net, h.osc]

theorem Same.evolves {o o' : Obj n} (h : Same o o') {s : Setting n} {hn : 3 ≤ n} {ρ : ℝ → Nat → Nat → Mat n} {a b : ℝ}
    (k : Evolves s hn o' ρ a b) : Evolves s hn o ρ a b := by
  obtain ⟨S, hS, k⟩ := k
  refine ⟨S, hS, fun e r he hr => k.cont e r (by rwa [h.ne]) (by rwa [h.nrhos]), fun t ht hs e r he hr => ?_, fun t ht e r he hr =>
    k.hermitian t ht e r (by rwa [h.ne]) (by rwa [h.nrhos])⟩
  rw [← h.velocity]
  exact k.deriv t ht hs e r (by rwa [h.ne]) (by rwa [h.nrhos])

/-- What the buffers held before does not matter: there is always a target. -/
theorem linAcc_old {l : List ℝ} (hl : l ≠ []) (x y : ℝ) (f : Nat → ℝ → ℝ) : Update.linAcc x l f = Update.linAcc y l f := by
  cases l with
  | nil => exact absurd rfl hl
  | cons d l => rfl

theorem densities_ne (m : Net ℝ (Mat n)) : m.densities ≠ [] := by
  unfold Net.densities Matter.densities
  dsimp only
  split <;> split <;> exact List.cons_ne_nil _ _

theorem invNC_old (m : Net ℝ (Mat n)) (x y : ℝ) : m.invNC x = m.invNC y := by
  funext r f e
  exact linAcc_old (densities_ne m) x y _

theorem invCC_old (m : Net ℝ (Mat n)) (x y : ℝ) : m.invCC x = m.invCC y := by
  funext r f e
  exact linAcc_old (densities_ne m) x y _

theorem invINT_old (m : Net ℝ (Mat n)) (x y : ℝ) : m.invINT x x = m.invINT y y := by
  funext r f e
  unfold Net.invINT
  rw [invNC_old m x y, invCC_old m x y]

theorem total_old (m : Net ℝ (Mat n)) (x y : ℝ) (φ : Nat → Nat → Nat → ℝ) : m.total x φ = m.total y φ := by
  funext r f e
  unfold Net.total Net.ncSum Net.allSum Net.lepSum Net.tauSum Net.tauPart Net.ncPart
  simp only [invNC_old m x y, invCC_old m x y]

/-- The equation at one time depends on the medium at that time only. -/
theorem velocity_medium {s s' : Setting n} {o : Obj n} (hn : 3 ≤ n) (ho : AllPrepared o) (htau : s.tab.tau = true → o.nt = .both)
    (h1 : s'.tab = s.tab) (h2 : s'.iint = s.iint) (h3 : s'.c = s.c) {t : ℝ} (h4 : s'.dens t = s.dens t) (h5 : s'.ye t = s.ye t)
    (h6 : s'.ext t = s.ext t) (st : Nat → Nat → Mat n) {e r : Nat} (he : e < o.ne) (hr : r < o.nrhos) :
    s'.velocity hn o t st e r = s.velocity hn o t st e r := by
  have hnet : s'.net o t st = s.net o t st := by unfold Setting.net; rw [h1, h4, h5, h6]
  have hm : motion s'.c s'.dens s'.ye (Fin.castLE hn) o e r t = motion s.c s.dens s.ye (Fin.castLE hn) o e r t := by
    unfold motion; rw [h3, h4, h5]
  unfold Setting.velocity
  rw [hm, gain_exact hn ho htau he hr t st, gain_exact hn ho (by rwa [h1]) he hr t st, gamma_eq, gamma_eq, hnet, h2, h6,
    invINT_old _ (s'.old t) (s.old t), total_old _ (s'.old t) (s.old t)]
  unfold Setting.copies
  rw [h1, h2]

/-- Another medium that agrees but for finitely many times, and another content of the buffers. -/
theorem Evolves.medium {s s' : Setting n} {hn : 3 ≤ n} {o : Obj n} (ho : AllPrepared o) (htau : s.tab.tau = true → o.nt = .both)
    {ρ : ℝ → Nat → Nat → Mat n} {a b : ℝ} (h : Evolves s hn o ρ a b) (h1 : s'.tab = s.tab) (h2 : s'.iint = s.iint) (h3 : s'.c = s.c)
    {E : Set ℝ} (hE : E.Finite)
    (h4 : ∀ t ∈ Set.Ico a b, t ∉ E → s'.dens t = s.dens t ∧ s'.ye t = s.ye t ∧ s'.ext t = s.ext t) : Evolves s' hn o ρ a b := by
  obtain ⟨S, hS, h⟩ := h
  refine ⟨S ∪ E, hS.union hE, h.cont, fun t ht hs e r he hr => ?_, h.hermitian⟩
  rw [Set.mem_union, not_or] at hs
  obtain ⟨k1, k2, k3⟩ := h4 t ht hs.2
  rw [velocity_medium hn ho htau h1 h2 h3 k1 k2 k3 (ρ t) he hr]
  exact h.deriv t ht hs.1 e r he hr

/-- Two evolutions, the second going on from the end of the first. -/
theorem Evolves.glue {s : Setting n} {hn : 3 ≤ n} {o : Obj n} {ρ σ : ℝ → Nat → Nat → Mat n} {a b c : ℝ} (hab : a ≤ b) (hbc : b ≤ c)
    (h : Evolves s hn o ρ a b) (k : Evolves s hn o σ b c) (e : ∀ e r, e < o.ne → r < o.nrhos → σ b e r = ρ b e r) :
    Evolves s hn o (fun t => if t ≤ b then ρ t else σ t) a c := by
  obtain ⟨S, hS, h⟩ := h
  obtain ⟨S', hS', k⟩ := k
  refine ⟨S ∪ S' ∪ {b}, (hS.union hS').union (Set.finite_singleton b), fun i r he hr p q => ?_, fun t ht hs i r he hr => ?_, fun t ht i r he hr => ?_⟩
  · have h1 : ContinuousOn (fun t => (if t ≤ b then ρ t else σ t) i r p q) (Set.Icc a b) :=
      (h.cont i r he hr p q).congr fun t ht => by dsimp only; rw [if_pos ht.2]
    have h2 : ContinuousOn (fun t => (if t ≤ b then ρ t else σ t) i r p q) (Set.Icc b c) :=
      (k.cont i r he hr p q).congr fun t ht => by
        dsimp only
        by_cases htb : t ≤ b
        · rw [if_pos htb, le_antisymm htb ht.1, e i r he hr]
        · rw [if_neg htb]
    have := h1.union_of_isClosed h2 isClosed_Icc isClosed_Icc
    rwa [Set.Icc_union_Icc_eq_Icc hab hbc] at this
  · simp only [Set.mem_union, Set.mem_singleton_iff, not_or] at hs
    rcases lt_or_gt_of_ne hs.2 with hlt | hgt
    · have hd := h.deriv t ⟨ht.1, hlt⟩ hs.1.1 i r he hr
      rw [if_pos hlt.le]
      intro p q
      refine (hd p q).congr_of_eventuallyEq ?_ (by show (if t ≤ b then ρ t else σ t) i r p q = ρ t i r p q; rw [if_pos hlt.le])
      filter_upwards [nhdsWithin_le_nhds (Iio_mem_nhds hlt)] with u hu
      show (if u ≤ b then ρ u else σ u) i r p q = ρ u i r p q
      rw [if_pos (le_of_lt hu)]
    · have hd := k.deriv t ⟨hgt.le, ht.2⟩ hs.1.2 i r he hr
      rw [if_neg (not_le.2 hgt)]
      intro p q
      have hu : ∀ u, t ≤ u → (if u ≤ b then ρ u else σ u) i r p q = σ u i r p q := fun u hu => by rw [if_neg (not_le.2 (hgt.trans_le hu))]
      exact (hd p q).congr (fun u h => hu u h) (hu t (le_refl t))
  · by_cases htb : t ≤ b
    · rw [if_pos htb]; exact h.hermitian t ⟨ht.1, htb⟩ i r he hr
    · rw [if_neg htb]; exact k.hermitian t ⟨(not_le.1 htb).le, ht.2⟩ i r he hr

end Verif.Density
