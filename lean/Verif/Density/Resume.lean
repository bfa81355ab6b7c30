import Verif.Density.LegsLimits

/-!
# Stopping, saving, reading and going on

What `WriteStateHDF5` (nuSQuIDS.cpp 1681-1812) saves of the members of `Density/Model.lean`, and what `ReadStateHDF5` (2285-2716) makes of
it in a new object. That each of the saved members is read from where it was written is C57; here they are one record. Not in the file:
the working basis, the switches for the constant-density shortcut, for positivisation and for sources.
-/

namespace Verif.Density

open Matrix
open Matter (NT)
open Update (Net Shape NonNeg)
open scoped ComplexOrder

variable {n : Nat}

/-! ## Model -/

/-- The saved members. The mixing matrices stand for the angles and phases they are made of. -/
structure File (n : Nat) where
  nt : NT
  oscillations : Bool
  time : ℝ
  timeInitial : ℝ
  ne : Nat
  energies : Nat → ℝ
  mixing : Nat → Mat n
  differences : Fin n → ℝ
  state : Nat → Nat → Mat n
  trackStart : ℝ
  trackX : ℝ

/-- `WriteStateHDF5` (1681-1812); `x` is the position of the track. -/
def save (T : Traveller n) (x : ℝ) : File n where
  nt := T.o.nt
  oscillations := T.o.ioscillations
  time := T.o.t
  timeInitial := T.o.tini
  ne := T.o.ne
  energies := T.o.energies
  mixing := T.o.mixing
  differences := T.o.differences
  state := T.o.state
  trackStart := T.o.trackStart
  trackX := x

/-- What `init` (144-251) leaves of a new object before the parameters are set (2380-2390); the working basis is that of a new object
(nuSQuIDS.h). -/
def blank (f : File n) : Obj n where
  nt := f.nt
  ne := f.ne
  nrhos := if f.nt = .both then 2 else 1
  basis := .interaction
  ienergy := true
  itrack := false
  ibody := false
  istate := false
  ioscillations := f.oscillations
  full := false
  energies := f.energies
  differences := fun _ => 0
  mixing := fun _ => 1
  b0 := fun _ => 0
  b1 := fun _ _ => 0
  evolB1 := fun _ _ _ => 0
  dm2 := 0
  h0s := fun _ => 0
  state := fun _ _ => 0
  trackStart := f.trackStart
  t := f.timeInitial
  tini := f.timeInitial

/-- `ReadStateHDF5` (2285-2716) into a new object: parameters (2393-2417), clock and offset (2420-2423), projectors and Hamiltonians
(2426-2428), projectors evolved to the current time (2436), states (2447-2458), flags and Hamiltonians again (2708-2714). -/
noncomputable def load (f : File n) : Traveller n :=
  let o := { blank f with mixing := f.mixing, differences := f.differences, t := f.time }
  let o := evolveProjectors (iniH0 (iniProjectors o)) id f.time
  let o := { o with state := fun e r => if e < o.ne ∧ r < o.nrhos then f.state e r else o.state e r }
  ⟨iniH0 { o with istate := true, ienergy := true, itrack := true, ibody := true }, f.time - f.trackX, false, true⟩

/-- The options that are read back: sources are off in a new object (nuSQuIDS.h 501). -/
def Setting.reread (s : Setting n) : Setting n := { s with tab := { s.tab with sources := false } }

/-! ## Lemmas -/

/-- The same parameters, as far as the arrays go. -/
structure Alike (o o' : Obj n) : Prop where
  nt : o'.nt = o.nt
  ne : o'.ne = o.ne
  nrhos : o'.nrhos = o.nrhos
  basis : o'.basis = o.basis
  osc : o'.ioscillations = o.ioscillations
  energies : ∀ e, e < o.ne → o'.energies e = o.energies e
  mixing : ∀ r, r < o.nrhos → o'.mixing r = o.mixing r
  dm2 : o'.dm2 = o.dm2
  tini : o'.tini = o.tini

theorem Alike.symm {o o' : Obj n} (h : Alike o o') : Alike o' o :=
  ⟨h.nt.symm, h.ne.symm, h.nrhos.symm, h.basis.symm, h.osc.symm, fun e he => (h.energies e (by rwa [← h.ne])).symm,
    fun r hr => (h.mixing r (by rwa [← h.nrhos])).symm, h.dm2.symm, h.tini.symm⟩

theorem Alike.trans {o o' o'' : Obj n} (h : Alike o o') (k : Alike o' o'') : Alike o o'' :=
  ⟨k.nt.trans h.nt, k.ne.trans h.ne, k.nrhos.trans h.nrhos, k.basis.trans h.basis, k.osc.trans h.osc,
    fun e he => (k.energies e (by rwa [h.ne])).trans (h.energies e he), fun r hr => (k.mixing r (by rwa [h.nrhos])).trans (h.mixing r hr),
    k.dm2.trans h.dm2, k.tini.trans h.tini⟩

theorem Same.alike {o o' : Obj n} (h : Same o o') : Alike o o' :=
  ⟨h.nt, h.ne, h.nrhos, h.basis, h.osc, fun _ _ => by rw [h.energies], fun _ _ => by rw [h.mixing], h.dm2, h.tini⟩

theorem Alike.h0 {o o' : Obj n} (h : Alike o o') (E : ℝ) : Density.h0 o' E = Density.h0 o E := by
  unfold Density.h0
  rw [h.osc, h.dm2]

theorem Alike.h0s {o o' : Obj n} (h : Alike o o') {e r : Nat} (hp : Prepared o e r) (hp' : Prepared o' e r) : o'.h0s e = o.h0s e := by
  rw [hp.h0s, hp'.h0s, h.h0, h.energies e hp.node]

theorem Alike.b1 {o o' : Obj n} (h : Alike o o') {e r : Nat} (hp : Prepared o e r) (hp' : Prepared o' e r) (f : Fin n) : o'.b1 r f = o.b1 r f := by
  rw [hp.good.b1 r f hp.type, hp'.good.b1 r f hp'.type, h.mixing r hp.type]

theorem Alike.proj {o o' : Obj n} (h : Alike o o') {e r : Nat} (hp : Prepared o e r) (hp' : Prepared o' e r) (t : ℝ) (f : Fin n) :
    (preDerive o' t).evolB1 r f e = (preDerive o t).evolB1 r f e := by
  by_cases hc : o.basis ≠ .mass ∧ o.ioscillations = true
  · have hc' : o'.basis ≠ .mass ∧ o'.ioscillations = true := by rwa [h.basis, h.osc]
    rw [show preDerive o t = evolveProjectors o id t from if_pos hc, show preDerive o' t = evolveProjectors o' id t from if_pos hc']
    show (if r < o'.nrhos ∧ e < o'.ne then _ else _) = if r < o.nrhos ∧ e < o.ne then _ else _
    rw [if_pos ⟨hp'.type, hp'.node⟩, if_pos ⟨hp.type, hp.node⟩, h.h0s hp hp', h.tini, h.b1 hp hp' f]
  · have hc' : ¬(o'.basis ≠ .mass ∧ o'.ioscillations = true) := by rwa [h.basis, h.osc]
    have still : ∀ p : Obj n, ¬(p.basis ≠ .mass ∧ p.ioscillations = true) → p.basis = .mass ∨ p.ioscillations = false := fun p hn => by
      by_cases hb : p.basis = .mass
      · exact .inl hb
      · exact .inr (by simpa using fun ho => hn ⟨hb, ho⟩)
    rw [show preDerive o t = o from if_neg hc, show preDerive o' t = o' from if_neg hc', hp.fresh (still o hc), hp'.fresh (still o' hc'), h.b1 hp hp' f]

theorem Alike.motion {o o' : Obj n} (h : Alike o o') (c : ℝ) (dens ye : ℝ → ℝ) (fl : Fin 3 → Fin n) {e r : Nat} (hp : Prepared o e r)
    (hp' : Prepared o' e r) (t : ℝ) : Density.motion c dens ye fl o' e r t = Density.motion c dens ye fl o e r t := by
  have k1 := preDerive_fields o t
  have k2 := preDerive_fields o' t
  have hpr : (fun f => (preDerive o' t).evolB1 r f e) = fun f => (preDerive o t).evolB1 r f e := funext fun f => h.proj hp hp' t f
  unfold Density.motion hamiltonian
  rw [hpr, k1, k2]
  dsimp only
  rw [h.nt, h.basis, h.h0s hp hp']

theorem Alike.net_proj {o o' : Obj n} (h : Alike o o') (s : Setting n) {e r : Nat} (hp : Prepared o e r) (hp' : Prepared o' e r) (t : ℝ)
    (st : Nat → Nat → Mat n) (f : Nat) : (s.net o' t st).proj r f e = (s.net o t st).proj r f e := by
  unfold Setting.net
  dsimp only
  by_cases hf : f < n
  · rw [dif_pos hf, dif_pos hf, h.proj hp hp' t]
  · rw [dif_neg hf, dif_neg hf]

theorem Alike.flux {o o' : Obj n} (h : Alike o o') (ho : AllPrepared o) (ho' : AllPrepared o') (s : Setting n) (t : ℝ) (st : Nat → Nat → Mat n) :
    (s.net o' t st).flux = (s.net o t st).flux := by
  funext e r f
  show dot ((s.net o' t st).proj r f e) (if e < o'.ne ∧ r < o'.nrhos then st e r else 0) =
    dot ((s.net o t st).proj r f e) (if e < o.ne ∧ r < o.nrhos then st e r else 0)
  rw [h.ne, h.nrhos]
  by_cases hr : e < o.ne ∧ r < o.nrhos
  · rw [h.net_proj s (ho e r hr.1 hr.2) (ho' e r (by rw [h.ne]; exact hr.1) (by rw [h.nrhos]; exact hr.2))]
  · rw [if_neg hr]
    simp [dot]

theorem Alike.velocity {o o' : Obj n} (h : Alike o o') (ho : AllPrepared o) (ho' : AllPrepared o') (s : Setting n) (hn : 3 ≤ n)
    (htau : s.tab.tau = true → o.nt = .both) (t : ℝ) (st : Nat → Nat → Mat n) {e r : Nat} (he : e < o.ne) (hr : r < o.nrhos) :
    s.velocity hn o' t st e r = s.velocity hn o t st e r := by
  have hp := ho e r he hr
  have hp' := ho' e r (by rwa [h.ne]) (by rwa [h.nrhos])
  have htau' : s.tab.tau = true → o'.nt = .both := by rwa [h.nt]
  have hnet : s.net o' t st = { s.net o t st with proj := (s.net o' t st).proj } := by
    unfold Setting.net
    rw [h.nt, h.ne, h.nrhos]
  have hint : ∀ x, (s.net o' t st).invINT x x = (s.net o t st).invINT x x := fun x => by rw [hnet]; rfl
  have htot : ∀ x, (s.net o' t st).total x = (s.net o t st).total x := fun x => by rw [hnet]; rfl
  have hco : s.copies o' = s.copies o := by unfold Setting.copies; rw [h.osc, h.nrhos]
  have hpr : ∀ f, (s.net o' t st).proj r f e = (s.net o t st).proj r f e := h.net_proj s hp hp' t st
  unfold Setting.velocity
  rw [h.motion _ _ _ _ hp hp', gain_exact hn ho htau he hr t st, gain_exact hn ho' htau' (by rwa [h.ne]) (by rwa [h.nrhos]) t st, gamma_eq, gamma_eq,
    hint, htot, hco, h.flux ho ho' s t st]
  simp only [hpr]

theorem Alike.evolves {o o' : Obj n} (h : Alike o o') (ho : AllPrepared o) (ho' : AllPrepared o') {s : Setting n} {hn : 3 ≤ n}
    (htau : s.tab.tau = true → o.nt = .both) {ρ : ℝ → Nat → Nat → Mat n} {a b : ℝ} (k : Evolves s hn o' ρ a b) : Evolves s hn o ρ a b := by
  obtain ⟨S, hS, k⟩ := k
  refine ⟨S, hS, fun e r he hr => k.cont e r (by rwa [h.ne]) (by rwa [h.nrhos]), fun t ht hs e r he hr => ?_, fun t ht e r he hr =>
    k.hermitian t ht e r (by rwa [h.ne]) (by rwa [h.nrhos])⟩
  rw [← h.velocity ho ho' s hn htau t _ he hr]
  exact k.deriv t ht hs e r (by rwa [h.ne]) (by rwa [h.nrhos])

theorem Alike.readings {o o' : Obj n} (h : Alike o o') {e r : Nat} (hp : Prepared o e r) (hp' : Prepared o' e r) (ht : o'.t = o.t)
    (hs : o'.state e r = o.state e r) (f : Fin n) :
    evalFlavorAtNode o' f e r = evalFlavorAtNode o f e r ∧ evalMassAtNode o' f e r = evalMassAtNode o f e r := by
  unfold evalFlavorAtNode evalMassAtNode expectation
  rw [h.nt, h.basis, h.b1 hp hp', hp.good.ienergy, hp'.good.ienergy, hp.good.ready.b0, hp'.good.ready.b0, h.h0, h.energies e hp.node, h.tini, ht, hs]
  exact ⟨rfl, rfl⟩

/-- From alike objects with the same states, at the same time, the same way leads to alike objects with the same states, at the same time. -/
theorem Journey.alike (s : Setting n) (hn : 3 ≤ n) (ls : List Leg) : ∀ (T T' T₁ T₂ : Traveller n), Journey s hn ls T T₁ → Journey s hn ls T' T₂ →
    AllPrepared T.o → AllPrepared T'.o → Alike T.o T'.o → T'.o.t = T.o.t →
    (∀ e r, e < T.o.ne → r < T.o.nrhos → (T.o.state e r).IsHermitian ∧ T'.o.state e r = T.o.state e r) →
    (∀ l ∈ ls, l.xini ≤ l.xend ∧ ¬l.Shortcut s T.allow ∧ ¬l.Shortcut s T'.allow) → T.numerics = true → T'.numerics = true →
    (∀ l ∈ ls, ∀ u, Sane (s.along l.med u) T.o (u + l.xini) (u + l.xend)) →
    AllPrepared T₁.o ∧ AllPrepared T₂.o ∧ Alike T₁.o T₂.o ∧ T₂.o.t = T₁.o.t ∧
      ∀ e r, e < T₁.o.ne → r < T₁.o.nrhos → T₂.o.state e r = T₁.o.state e r := by
  induction ls with
  | nil =>
    intro T T' T₁ T₂ h h' ho ho' ha ht hst _ _ _ _
    have h : T₁ = T := h
    have h' : T₂ = T' := h'
    subst h; subst h'
    exact ⟨ho, ho', ha, ht, fun e r he hr => (hst e r he hr).2⟩
  | cons l ls ih =>
    rintro T T' T₁ T₂ ⟨U, h1, h2⟩ ⟨U', h1', h2'⟩ ho ho' ha ht hst hl hnum hnum' hs
    obtain ⟨hfw, hns, hns'⟩ := hl l List.mem_cons_self
    have hsl := hs l List.mem_cons_self (T.o.t - l.xini)
    have htau : s.tab.tau = true → T.o.nt = .both := hsl.tau
    have hE := same_enter l T
    have hE' := same_enter l T'
    have path : ∀ X : Traveller n, X.numerics = true → ¬l.Shortcut s X.allow → Path s l (enter l X) := fun X hX hx =>
      ⟨by show X.o.t - (X.o.t - l.xini) = l.xini; ring, fun _ => hX, fun k => absurd k hx⟩
    have hherm' : ∀ e r, e < T'.o.ne → r < T'.o.nrhos → (T'.o.state e r).IsHermitian := fun e r he hr => by
      have := hst e r (by rwa [← ha.ne]) (by rwa [← ha.nrhos])
      rw [this.2]
      exact this.1
    obtain ⟨ρ, r1, r2, r3, r4, _, r6, r7⟩ := h1.follows (path T hnum hns) (hE.prepared ho) htau (fun e r he hr => (hst e r he hr).1)
    obtain ⟨σ, q1, q2, q3, q4, _, q6, q7⟩ := h1'.follows (path T' hnum' hns') (hE'.prepared ho') (fun k => ha.nt.trans (htau k)) hherm'
    have hlen : 0 ≤ l.length := sub_nonneg.2 hfw
    have e1 : (enter l T).o.t = T.o.t := rfl
    have e2 : (enter l T').o.t = T.o.t := ht
    have e3 : (enter l T).offset = T.o.t - l.xini := rfl
    have e4 : (enter l T').offset = T.o.t - l.xini := by show T'.o.t - l.xini = _; rw [ht]
    rw [e1, min_eq_left (by linarith), max_eq_right (by linarith), e3] at r1
    rw [e2, min_eq_left (by linarith), max_eq_right (by linarith), e4] at q1
    rw [e1] at r2 r4
    rw [e2] at q2 q4
    have q1' : Evolves (s.along l.med (T.o.t - l.xini)) hn T.o σ T.o.t (T.o.t + l.length) := 
      ha.evolves (s := s.along l.med (T.o.t - l.xini)) ho ho' htau (hE'.evolves q1)
    have hsane : Sane (s.along l.med (T.o.t - l.xini)) T.o T.o.t (T.o.t + l.length) := by
      have k1 : T.o.t - l.xini + l.xini = T.o.t := by ring
      have k2 : T.o.t - l.xini + l.xend = T.o.t + l.length := by unfold Leg.length; ring
      rwa [k1, k2] at hsl
    have hU : Same T.o U.o := hE.trans r3
    have hU' : Same T'.o U'.o := hE'.trans q3
    have hlast : T.o.t + l.length ∈ Set.Icc T.o.t (T.o.t + l.length) := ⟨by linarith, le_refl _⟩
    have hsU : ∀ e r, e < T.o.ne → r < T.o.nrhos → (U.o.state e r).IsHermitian ∧ U'.o.state e r = U.o.state e r := by
      intro e r he hr
      have k1 := r2 e r he hr
      have k2 := q2 e r (by show e < T'.o.ne; rwa [ha.ne]) (by show r < T'.o.nrhos; rwa [ha.nrhos])
      rw [k1.2, k2.2]
      refine ⟨(hE.evolves r1).hermitian _ hlast e r he hr, ?_⟩
      refine (c98_determined (s.along l.med (T.o.t - l.xini)) hn T.o ho ρ σ T.o.t (T.o.t + l.length) hsane (hE.evolves r1) q1' 0 (fun e r _ he hr => ?_) _ hlast e r
        (Nat.zero_le _) he hr).symm
      rw [(r2 e r he hr).1, (q2 e r (by show e < T'.o.ne; rwa [ha.ne]) (by show r < T'.o.nrhos; rwa [ha.nrhos])).1]
      exact (hst e r he hr).2.symm
    have hns0 : ¬(l.constant = true ∧ s.iint = false ∧ (enter l T).allow = true) := hns
    have hns0' : ¬(l.constant = true ∧ s.iint = false ∧ (enter l T').allow = true) := hns'
    rw [if_neg hns0] at r7
    rw [if_neg hns0'] at q7
    have a1 : U.allow = T.allow := r6
    have a2 : U'.allow = T'.allow := q6
    refine ih U U' T₁ T₂ h2 h2' (hU.prepared ho) (hU'.prepared ho') ((hU.symm.alike.trans ha).trans hU'.alike) (q4.trans r4.symm) ?_ ?_ (r7.trans hnum)
      (q7.trans hnum') ?_
    · intro e r he hr
      exact hsU e r (by rwa [← hU.ne]) (by rwa [← hU.nrhos])
    · intro k hk
      rw [a1, a2]
      exact hl k (List.mem_cons_of_mem _ hk)
    · intro k hk u
      have := hs k (List.mem_cons_of_mem _ hk) u
      refine ⟨fun t ht => ?_, this.ext, by rw [hU.nt]; exact this.tau⟩
      rw [hU.net]
      exact this.nonneg t ht

/-- Wherever the one can go, the other can. -/
theorem Journey.copy (s : Setting n) (hn : 3 ≤ n) (ls : List Leg) : ∀ (T T' T₁ : Traveller n), Journey s hn ls T T₁ →
    AllPrepared T.o → AllPrepared T'.o → Alike T.o T'.o → T'.o.t = T.o.t → T'.o.istate = true → T'.o.ienergy = true →
    (s.tab.tau = true → T.o.nt = .both) →
    (∀ e r, e < T.o.ne → r < T.o.nrhos → (T.o.state e r).IsHermitian ∧ T'.o.state e r = T.o.state e r) →
    (∀ l ∈ ls, ¬l.Shortcut s T.allow ∧ ¬l.Shortcut s T'.allow) → T.numerics = true → T'.numerics = true → ∃ T₂, Journey s hn ls T' T₂ := by
  induction ls with
  | nil => intro T T' _ _ _ _ _ _ _ _ _ _ _ _ _; exact ⟨T', rfl⟩
  | cons l ls ih =>
    rintro T T' T₁ ⟨U, h1, h2⟩ ho ho' ha ht hi he htau hst hl hnum hnum'
    obtain ⟨hns, hns'⟩ := hl l List.mem_cons_self
    have hE := same_enter l T
    have hE' := same_enter l T'
    have path : Path s l (enter l T) := ⟨by show T.o.t - (T.o.t - l.xini) = l.xini; ring, fun _ => hnum, fun k => absurd k hns⟩
    obtain ⟨ρ, r1, r2, r3, r4, _, r6, r7⟩ := h1.follows path (hE.prepared ho) htau (fun e r he hr => (hst e r he hr).1)
    have e1 : (enter l T).o.t = T.o.t := rfl
    have e2 : (enter l T').o.t = T.o.t := ht
    have e3 : (enter l T).offset = T.o.t - l.xini := rfl
    have e4 : (enter l T').offset = T.o.t - l.xini := by show T'.o.t - l.xini = _; rw [ht]
    rw [e1, e3] at r1
    rw [e1] at r2 r4
    let U' : Traveller n := { enter l T' with
      o := { preDerive (enter l T').o T.o.t with
        t := (enter l T').o.t + l.length
        state := fun e r => if e < (enter l T').o.ne ∧ r < (enter l T').o.nrhos then ρ ((enter l T').o.t + l.length) e r else (enter l T').o.state e r } }
    have hU' : Same T'.o U'.o := hE'.trans (same_derived (enter l T').o T.o.t _ _)
    have hU : Same T.o U.o := hE.trans r3
    have hrange : ∀ e r, e < T.o.ne → r < T.o.nrhos → e < (enter l T').o.ne ∧ r < (enter l T').o.nrhos := fun e r he hr =>
      ⟨by show e < T'.o.ne; rwa [ha.ne], by show r < T'.o.nrhos; rwa [ha.nrhos]⟩
    have hns0' : ¬(l.constant = true ∧ s.iint = false ∧ (enter l T').allow = true) := hns'
    have step : EvolveState s hn l (enter l T') U' := by
      refine ⟨rfl, rfl, hi, he, T.o.t, by rw [e2]; exact Set.left_mem_uIcc, ?_⟩
      rw [if_neg hns0', if_pos (show (enter l T').numerics = true from hnum')]
      refine ⟨s.old, ρ, ?_, fun e r he hr => ?_, rfl⟩
      · rw [e2, e4]
        exact hE'.symm.evolves (ha.symm.evolves (s := s.along l.med (T.o.t - l.xini)) ho' ho (fun k => ha.nt.trans (htau k)) (hE.evolves r1))
      · have he : e < T.o.ne := by rw [← ha.ne]; exact he
        have hr : r < T.o.nrhos := by rw [← ha.nrhos]; exact hr
        rw [e2, (r2 e r he hr).1]
        exact (hst e r he hr).2.symm
    have hns0 : ¬(l.constant = true ∧ s.iint = false ∧ (enter l T).allow = true) := hns
    rw [if_neg hns0] at r7
    have a1 : U.allow = T.allow := r6
    have ht' : U'.o.t = U.o.t := by rw [r4, ← e2]
    obtain ⟨T₂, hT₂⟩ := ih U U' T₁ h2 (hU.prepared ho) (hU'.prepared ho') ((hU.symm.alike.trans ha).trans hU'.alike) ht'
      (hU'.istate.trans hi) (hU'.ienergy.trans he) (by rw [hU.nt]; exact htau) (fun e r he hr => by
        have he : e < T.o.ne := by rwa [← hU.ne]
        have hr : r < T.o.nrhos := by rwa [← hU.nrhos]
        rw [(r2 e r he hr).2]
        exact ⟨r1.hermitian _ Set.right_mem_uIcc e r he hr, (if_pos (hrange e r he hr)).trans (by rw [e2])⟩)
      (fun k hk => by rw [a1]; exact hl k (List.mem_cons_of_mem _ hk)) (r7.trans hnum) hnum'
    exact ⟨T₂, U', step, hT₂⟩

end Verif.Density
