import Verif.Lifecycle.Model

/-! Lemmas about the life-cycle model. -/

namespace Verif.Life

/-! ## The phase flips -/

theorem flip_inner (i : Nat) : ∀ (js : List Nat) (ph : Nat → Nat → Rat), js.Nodup →
    js.foldl (fun ph j => set2 ph i j (-(ph i j))) ph = fun a b => if a = i ∧ b ∈ js then -(ph a b) else ph a b := by
  intro js
  induction js with
  | nil => intro ph _; funext a b; simp
  | cons j js ih =>
    intro ph hnd
    rw [List.nodup_cons] at hnd
    rw [List.foldl_cons, ih _ hnd.2]
    funext a b
    unfold set2
    by_cases ha : a = i
    · subst ha
      by_cases hb : b = j
      · subst hb; simp [hnd.1]
      · simp [hb]
    · simp [ha]

theorem flip_outer (n : Nat) : ∀ (is : List Nat) (ph : Nat → Nat → Rat), is.Nodup →
    is.foldl (fun ph i => (List.range' (i + 1) (n - (i + 1))).foldl (fun ph j => set2 ph i j (-(ph i j))) ph) ph =
      fun a b => if a ∈ is ∧ a < b ∧ b < n then -(ph a b) else ph a b := by
  intro is
  induction is with
  | nil => intro ph _; funext a b; simp
  | cons i is ih =>
    intro ph hnd
    rw [List.nodup_cons] at hnd
    rw [List.foldl_cons, flip_inner _ _ _ List.nodup_range', ih _ hnd.2]
    funext a b
    have hm : b ∈ List.range' (i + 1) (n - (i + 1)) ↔ i < b ∧ b < n := by
      rw [List.mem_range'_1]; omega
    simp only [hm, List.mem_cons]
    by_cases ha : a = i
    · subst ha; simp [hnd.1]
    · simp [ha]

/-- The flip changes the sign of the phases of the flavours in use. -/
theorem flipPhases_eq (n : Nat) (ph : Nat → Nat → Rat) :
    flipPhases n ph = fun a b => if a < b ∧ b < n then -(ph a b) else ph a b := by
  unfold flipPhases
  rw [flip_outer n _ _ List.nodup_range]
  funext a b
  simp only [List.mem_range]
  by_cases h : a < b ∧ b < n
  · rw [if_pos h, if_pos ⟨by omega, h⟩]
  · rw [if_neg h, if_neg (fun h' => h h'.2)]

theorem flipPhases_twice (n : Nat) (ph : Nat → Nat → Rat) : flipPhases n (flipPhases n ph) = ph := by
  simp only [flipPhases_eq]
  funext a b
  by_cases h : a < b ∧ b < n <;> simp [h, Rat.neg_neg]

theorem cpFix_twice (nt : NT) (n rho : Nat) (ph : Nat → Nat → Rat) : cpFix nt n rho (cpFix nt n rho ph) = ph := by
  unfold cpFix
  by_cases h : nt = .antineutrino ∨ (nt = .both ∧ rho = 1)
  · rw [if_pos h, if_pos h, flipPhases_twice]
  · rw [if_neg h, if_neg h]

/-! ## The projector loops -/

theorem evol_fold (nt : NT) (n : Nat) (angle : Nat → Nat → Rat) (rho flv : Nat) : ∀ (es : List Nat) (p : Projs),
    es.foldl (evolStep nt n angle rho flv) p =
      { p with evol := fun r f e => if r = rho ∧ f = flv ∧ e ∈ es then ⟨angle, cpFix nt n rho p.phase, flv⟩ else p.evol r f e } := by
  intro es
  induction es with
  | nil => intro p; simp
  | cons e es ih =>
    intro p
    rw [List.foldl_cons, ih]
    unfold evolStep
    simp only [cpFix_twice, Projs.mk.injEq, true_and]
    funext r f e'
    by_cases h1 : r = rho ∧ f = flv
    · obtain ⟨rfl, rfl⟩ := h1
      by_cases h2 : e' ∈ es <;> by_cases h3 : e' = e <;> simp [h2, h3]
    · have h2 : ¬(r = rho ∧ f = flv ∧ e' ∈ es) := fun h => h1 ⟨h.1, h.2.1⟩
      have h3 : ¬(r = rho ∧ f = flv ∧ e' = e) := fun h => h1 ⟨h.1, h.2.1⟩
      have h4 : ¬(r = rho ∧ f = flv ∧ e' ∈ e :: es) := fun h => h1 ⟨h.1, h.2.1⟩
      rw [if_neg h2, if_neg h3, if_neg h4]

theorem flv_fold (nt : NT) (n ne : Nat) (angle : Nat → Nat → Rat) (rho : Nat) : ∀ (fs : List Nat) (p : Projs),
    fs.foldl (flvStep nt n ne angle rho) p =
      { phase := p.phase,
        b1 := fun r f => if r = rho ∧ f ∈ fs then ⟨angle, cpFix nt n rho p.phase, f⟩ else p.b1 r f,
        evol := fun r f e => if r = rho ∧ f ∈ fs ∧ e < ne then ⟨angle, cpFix nt n rho p.phase, f⟩ else p.evol r f e } := by
  intro fs
  induction fs with
  | nil => intro p; simp
  | cons f0 fs ih =>
    intro p
    rw [List.foldl_cons, ih]
    unfold flvStep
    simp only [evol_fold, cpFix_twice, Projs.mk.injEq, true_and, List.mem_range]
    constructor
    · funext r f
      by_cases h1 : r = rho <;> by_cases h2 : f ∈ fs <;> by_cases h3 : f = f0 <;> simp [h1, h2, h3]
    · funext r f e
      by_cases h1 : r = rho <;> by_cases h2 : f ∈ fs <;> by_cases h3 : f = f0 <;> by_cases h4 : e < ne <;> simp [h1, h2, h3, h4]

theorem rho_fold (nt : NT) (n ne : Nat) (angle : Nat → Nat → Rat) : ∀ (rs : List Nat) (p : Projs),
    rs.foldl (fun p rho => (List.range n).foldl (flvStep nt n ne angle rho) p) p =
      { phase := p.phase,
        b1 := fun r f => if r ∈ rs ∧ f < n then ⟨angle, cpFix nt n r p.phase, f⟩ else p.b1 r f,
        evol := fun r f e => if r ∈ rs ∧ f < n ∧ e < ne then ⟨angle, cpFix nt n r p.phase, f⟩ else p.evol r f e } := by
  intro rs
  induction rs with
  | nil => intro p; simp
  | cons r0 rs ih =>
    intro p
    rw [List.foldl_cons, ih, flv_fold]
    simp only [Projs.mk.injEq, true_and, List.mem_range]
    constructor
    · funext r f
      by_cases h1 : r = r0 <;> by_cases h2 : r ∈ rs <;> by_cases h3 : f < n <;> simp_all
    · funext r f e
      by_cases h1 : r = r0 <;> by_cases h2 : r ∈ rs <;> by_cases h3 : f < n <;> by_cases h4 : e < ne <;> simp_all

theorem projLoops_eq (nt : NT) (n ne nrhos : Nat) (angle : Nat → Nat → Rat) (p : Projs) :
    projLoops nt n ne nrhos angle p =
      { phase := p.phase,
        b1 := fun r f => if r < nrhos ∧ f < n then ⟨angle, cpFix nt n r p.phase, f⟩ else p.b1 r f,
        evol := fun r f e => if r < nrhos ∧ f < n ∧ e < ne then ⟨angle, cpFix nt n r p.phase, f⟩ else p.evol r f e } := by
  unfold projLoops
  rw [rho_fold]
  simp only [List.mem_range]

/-- Recomputing the projectors leaves the parameters as they were. -/
theorem iniProj_eq (s : Obj) : iniProj s =
    { s with
      b1 := fun r f => if r < s.nrhos ∧ f < s.numneu then ⟨s.params.angle, cpFix s.nt s.numneu r s.params.phase, f⟩ else s.b1 r f,
      evolB1 := fun r f e => if r < s.nrhos ∧ f < s.numneu ∧ e < s.ne then ⟨s.params.angle, cpFix s.nt s.numneu r s.params.phase, f⟩
        else s.evolB1 r f e,
      istate := if s.nt = .neutrino then s.istate else false } := by
  unfold iniProj
  rw [projLoops_eq]

/-! ## Default parameters -/

/-- The default parameters. -/
def defaultParams (p : Params) : Params where
  angle := set2 (set2 (set2 p.angle 0 1 (583638 / 1000000)) 0 2 (149575 / 1000000)) 1 2 (855211 / 1000000)
  phase := set2 p.phase 0 2 0
  dm2 := set1 (set1 p.dm2 1 (742 / 10000000)) 2 (2514 / 1000000)

theorem setDefaults_eq (s : Obj) (h : 3 ≤ s.numneu) : setDefaults s = { s with params := defaultParams s.params, istate := false } := by
  unfold setDefaults
  have h1 : ¬(s.numneu < 1) := by omega
  have h2 : ¬(s.numneu < 2) := by omega
  simp [setAngle, setPhase, setDm2, pairOk, maxDim, h1, h2, defaultParams]

/-! ## What each call preserves -/

/-- The members only the constructors set. -/
structure Fixed (s s' : Obj) : Prop where
  numneu : s'.numneu = s.numneu
  nt : s'.nt = s.nt
  ne : s'.ne = s.ne
  nrhos : s'.nrhos = s.nrhos
  iint : s'.iint = s.iint
  inusquids : s'.inusquids = s.inusquids

theorem Fixed.refl (s : Obj) : Fixed s s := ⟨rfl, rfl, rfl, rfl, rfl, rfl⟩

theorem Fixed.trans {a b c : Obj} (h1 : Fixed a b) (h2 : Fixed b c) : Fixed a c :=
  ⟨h2.1.trans h1.1, h2.2.trans h1.2, h2.3.trans h1.3, h2.4.trans h1.4, h2.5.trans h1.5, h2.6.trans h1.6⟩

/-- Everything evolution does not touch: settings, parameters, the derived caches, the flags. -/
structure SameSetup (s s' : Obj) : Prop extends Fixed s s' where
  energies : s'.energies = s.energies
  params : s'.params = s.params
  body : s'.body = s.body
  b1 : s'.b1 = s.b1
  evolB1 : s'.evolB1 = s.evolB1
  dm2Key : s'.dm2Key = s.dm2Key
  h0 : s'.h0 = s.h0
  ibody : s'.ibody = s.ibody
  itrack : s'.itrack = s.itrack
  ienergy : s'.ienergy = s.ienergy
  istate : s'.istate = s.istate
  osc : s'.osc = s.osc
  tauregen : s'.tauregen = s.tauregen
  glashow : s'.glashow = s.glashow
  positivization : s'.positivization = s.positivization
  posScale : s'.posScale = s.posScale
  allowConst : s'.allowConst = s.allowConst
  offset : s'.offset = s.offset
  trackSome : s'.track.isSome = s.track.isSome
  trackIni : s'.track.map (fun t => (t.id, t.xini, t.xend)) = s.track.map (fun t => (t.id, t.xini, t.xend))

theorem SameSetup.refl (s : Obj) : SameSetup s s where
  toFixed := Fixed.refl s
  energies := rfl
  params := rfl
  body := rfl
  b1 := rfl
  evolB1 := rfl
  dm2Key := rfl
  h0 := rfl
  ibody := rfl
  itrack := rfl
  ienergy := rfl
  istate := rfl
  osc := rfl
  tauregen := rfl
  glashow := rfl
  positivization := rfl
  posScale := rfl
  allowConst := rfl
  offset := rfl
  trackSome := rfl
  trackIni := rfl

theorem SameSetup.trans {a b c : Obj} (h1 : SameSetup a b) (h2 : SameSetup b c) : SameSetup a c where
  toFixed := h1.toFixed.trans h2.toFixed
  energies := h2.energies.trans h1.energies
  params := h2.params.trans h1.params
  body := h2.body.trans h1.body
  b1 := h2.b1.trans h1.b1
  evolB1 := h2.evolB1.trans h1.evolB1
  dm2Key := h2.dm2Key.trans h1.dm2Key
  h0 := h2.h0.trans h1.h0
  ibody := h2.ibody.trans h1.ibody
  itrack := h2.itrack.trans h1.itrack
  ienergy := h2.ienergy.trans h1.ienergy
  istate := h2.istate.trans h1.istate
  osc := h2.osc.trans h1.osc
  tauregen := h2.tauregen.trans h1.tauregen
  glashow := h2.glashow.trans h1.glashow
  positivization := h2.positivization.trans h1.positivization
  posScale := h2.posScale.trans h1.posScale
  allowConst := h2.allowConst.trans h1.allowConst
  offset := h2.offset.trans h1.offset
  trackSome := h2.trackSome.trans h1.trackSome
  trackIni := h2.trackIni.trans h1.trackIni

theorem sizeBuffers_same (s : Obj) : SameSetup s (sizeBuffers s) := by
  unfold sizeBuffers
  cases h : s.iint <;> constructor <;> (try constructor) <;> simp_all

theorem withTables_same (s : Obj) (t : Option Tables) (x : Option Xs) : SameSetup s { s with tables := t, ncs := x } := by
  constructor <;> (try constructor) <;> rfl

theorem initInteractions_same (dflt : Option Xs) (s : Obj) : SameSetup s (initInteractions dflt s).1 := by
  unfold initInteractions
  split
  · exact SameSetup.refl s
  · split
    · exact sizeBuffers_same s
    · dsimp only
      split
      · exact withTables_same s _ _
      · split
        · split
          · exact SameSetup.trans (withTables_same s _ _) (sizeBuffers_same _)
          · exact withTables_same s _ _
        · exact withTables_same s _ _

theorem evolveBy_same (s : Obj) (dt : Rat) : SameSetup s (evolveBy s dt).1 := by
  unfold evolveBy
  cases ho : s.offset with
  | none => exact SameSetup.refl s
  | some off =>
    cases hb : buffersOk s
    · exact SameSetup.refl s
    · constructor <;> (try constructor) <;> simp
      · exact ho.symm
      · cases s.track <;> rfl

theorem evolveSteps_same (scale : Rat) : ∀ (n : Nat) (s : Obj), SameSetup s (evolveSteps scale n s).1 := by
  intro n
  induction n with
  | zero => intro s; exact SameSetup.refl s
  | succ n ih =>
    intro s
    unfold evolveSteps
    have h := evolveBy_same s scale
    revert h
    generalize evolveBy s scale = r
    obtain ⟨s1, st⟩ := r
    intro h
    cases st
    · exact h.trans (ih s1)
    · exact h
    · exact h

theorem withH_same (s : Obj) (h : Rat) : SameSetup s { s with h := h } := by
  constructor <;> (try constructor) <;> rfl

theorem shortcut_same (s : Obj) : SameSetup s { s with fullH := true, anyNumerics := false, basis := .mass } := by
  constructor <;> (try constructor) <;> rfl

theorem evolveMain_same (s : Obj) (b : BodyRef) (tr : TrackRef) : SameSetup s (evolveMain s b tr).1 := by
  unfold evolveMain
  have h0 : SameSetup s (if tr.xend < tr.xini then { s with h := -s.h } else s) := by
    split
    · exact withH_same s _
    · exact SameSetup.refl s
  revert h0
  generalize (if tr.xend < tr.xini then { s with h := -s.h } else s) = s1
  intro h0
  dsimp only
  split
  · exact (h0.trans (shortcut_same s1)).trans (evolveBy_same _ _)
  · split
    · split
      · exact h0
      · split
        · exact h0
        · split
          · exact h0
          · rename_i scale _ _ _ n _
            have h1 := evolveSteps_same scale n.toNat s1
            revert h1
            generalize evolveSteps scale n.toNat s1 = r
            obtain ⟨s2, st⟩ := r
            intro h1
            cases st
            · exact (h0.trans h1).trans (evolveBy_same _ _)
            · exact h0.trans h1
            · exact h0.trans h1
    · exact h0.trans (evolveBy_same _ _)

theorem evolveState_same (dflt : Option Xs) (s : Obj) : SameSetup s (evolveState dflt s).1 := by
  unfold evolveState
  split
  · split
    · rename_i b tr _ _
      have h0 : SameSetup s (if s.iint && !s.intInit then initInteractions dflt s else (s, .ok)).1 := by
        split
        · exact initInteractions_same dflt s
        · exact SameSetup.refl s
      revert h0
      generalize (if s.iint && !s.intInit then initInteractions dflt s else (s, Status.ok)) = r
      obtain ⟨s1, st⟩ := r
      intro h0
      cases st
      · exact h0.trans (evolveMain_same _ _ _)
      · exact h0
      · exact h0
    · exact SameSetup.refl s
  · exact SameSetup.refl s

theorem setDefaults_fixed (s : Obj) : Fixed s (setDefaults s) := by
  have ha : ∀ (s : Obj) i j v, Fixed s (setAngle s i j v).1 := by
    intro s i j v; unfold setAngle; split
    · exact Fixed.refl s
    · split
      · exact ⟨rfl, rfl, rfl, rfl, rfl, rfl⟩
      · exact Fixed.refl s
  have hp : ∀ (s : Obj) i j v, Fixed s (setPhase s i j v).1 := by
    intro s i j v; unfold setPhase; split
    · exact Fixed.refl s
    · split
      · exact ⟨rfl, rfl, rfl, rfl, rfl, rfl⟩
      · exact Fixed.refl s
  have hd : ∀ (s : Obj) i v, Fixed s (setDm2 s i v).1 := by
    intro s i v; unfold setDm2; split
    · exact Fixed.refl s
    · split
      · exact ⟨rfl, rfl, rfl, rfl, rfl, rfl⟩
      · exact Fixed.refl s
  exact (((((ha s _ _ _).trans (ha _ _ _ _)).trans (ha _ _ _ _)).trans (hd _ _ _)).trans (hd _ _ _)).trans (hp _ _ _ _)

/-- No call changes the number of flavours, the mode, the number of nodes or the interaction switch. -/
theorem step_fixed (dflt : Option Xs) (s : Obj) (op : Op) : Fixed s (step dflt s op).1 := by
  cases op <;> simp only [step]
  case evolve => exact (evolveState_same dflt s).toFixed
  case initInteractions => exact (initInteractions_same dflt s).toFixed
  case setDefaults => exact setDefaults_fixed s
  case setE e => unfold setE; split <;> exact ⟨rfl, rfl, rfl, rfl, rfl, rfl⟩
  case setTrack tr => unfold setTrack; split <;> exact ⟨rfl, rfl, rfl, rfl, rfl, rfl⟩
  case setInitial dims b =>
    unfold setInitial
    split
    · split
      · exact ⟨rfl, rfl, rfl, rfl, rfl, rfl⟩
      · exact ⟨rfl, rfl, rfl, rfl, rfl, rfl⟩
    · exact ⟨rfl, rfl, rfl, rfl, rfl, rfl⟩
  case setAngle i j v =>
    unfold setAngle
    split
    · exact Fixed.refl s
    · split <;> exact ⟨rfl, rfl, rfl, rfl, rfl, rfl⟩
  case setPhase i j v =>
    unfold setPhase
    split
    · exact Fixed.refl s
    · split <;> exact ⟨rfl, rfl, rfl, rfl, rfl, rfl⟩
  case setDm2 i v =>
    unfold setDm2
    split
    · exact Fixed.refl s
    · split <;> exact ⟨rfl, rfl, rfl, rfl, rfl, rfl⟩
  case setBasis b => unfold setBasis; split <;> exact ⟨rfl, rfl, rfl, rfl, rfl, rfl⟩
  case setTau b => unfold setTau; split <;> exact ⟨rfl, rfl, rfl, rfl, rfl, rfl⟩
  case setGlashow b => unfold setGlashow; split <;> exact ⟨rfl, rfl, rfl, rfl, rfl, rfl⟩
  all_goals exact ⟨rfl, rfl, rfl, rfl, rfl, rfl⟩

/-! ## Constructed objects -/

/-- What holds right after construction. -/
structure Fresh (c : Ctor) (s : Obj) : Prop where
  lo : 3 ≤ s.numneu
  hi : s.numneu ≤ maxDim
  phase : s.params.phase = fun _ _ => 0
  istate : s.istate = false
  ibody : s.ibody = false
  itrack : s.itrack = false
  body : s.body = none
  track : s.track = none
  ienergy : s.ienergy = true ↔ ∃ E n nt i x, c = .multi E n nt i x
  tables : s.tables = none
  intInit : s.intInit = false
  log : s.log = []
  anyNumerics : s.anyNumerics = true
  fullH : s.fullH = false
  allowConst : s.allowConst = false
  h : s.h = 1
  osc : s.osc = true
  energiesLen : s.ienergy = true → s.energies.length = s.ne
  tauregen : s.tauregen = false
  glashow : s.glashow = false
  basis : s.basis = .interaction
  nrhos : s.nrhos = if s.nt = .both then 2 else 1

theorem set2_zero (i j : Nat) : set2 (fun _ _ => (0 : Rat)) i j 0 = fun _ _ => 0 := by
  funext a b; unfold set2; split <;> rfl

theorem flip_zero (n : Nat) : flipPhases n (fun _ _ => (0 : Rat)) = fun _ _ => 0 := by
  rw [flipPhases_eq]; funext a b; simp

theorem construct_fresh (c : Ctor) (s : Obj) (h : construct c = (s, .ok)) : Fresh c s := by
  cases c with
  | single n nt =>
    simp only [construct, ctorSingle] at h
    split at h
    · simp at h
    · rename_i hnt
      split at h
      · simp at h
      · split at h
        · simp at h
        · rename_i h1 h2
          rw [setDefaults_eq _ (by simp [blank]; omega)] at h
          cases nt
          · simp only [iniProj_eq, iniH0, blank, Prod.mk.injEq, and_true] at h
            subst h
            constructor <;> simp [defaultParams, set2_zero] <;> omega
          · simp only [iniProj_eq, iniH0, blank, Prod.mk.injEq, and_true] at h
            subst h
            constructor <;> simp [defaultParams, set2_zero, flip_zero] <;> omega
          · exact absurd rfl hnt
  | multi E n nt i x =>
    simp only [construct, ctorMulti] at h
    split at h
    · simp at h
    · split at h
      · simp at h
      · rename_i h1 h2
        split at h
        · simp at h
        · rw [setDefaults_eq _ (by simp [blank]; omega)] at h
          simp only [iniProj_eq, iniH0, blank, Prod.mk.injEq, and_true] at h
          subst h
          constructor <;> simp [defaultParams, set2_zero] <;> omega

/-- The size bounds hold in every history. -/
theorem run_sizes {dflt : Option Xs} {c : Ctor} {tr : List (Op × Status)} {s : Obj} (h : Run dflt c tr s) :
    3 ≤ s.numneu ∧ s.numneu ≤ maxDim := by
  induction h with
  | start s h => exact ⟨(construct_fresh c s h).lo, (construct_fresh c s h).hi⟩
  | call tr s s' op st _ h _ ih =>
    have := step_fixed dflt s op
    rw [h] at this
    rw [this.numneu]
    exact ih

/-! ## Histories as programs, for examples -/

/-- Run a list of calls. -/
def exec (dflt : Option Xs) : Obj → List Op → Obj × List Status
  | s, [] => (s, [])
  | s, op :: ops =>
    let r := step dflt s op
    let q := exec dflt r.1 ops
    (q.1, r.2 :: q.2)

theorem run_append {dflt : Option Xs} {c : Ctor} : ∀ (ops : List Op) (tr : List (Op × Status)) (s : Obj), Run dflt c tr s →
    (∀ st ∈ (exec dflt s ops).2, st ≠ .ub) → Run dflt c (tr ++ ops.zip (exec dflt s ops).2) (exec dflt s ops).1 := by
  intro ops
  induction ops with
  | nil => intro tr s h _; simpa [exec] using h
  | cons op ops ih =>
    intro tr s h hub
    simp only [exec, List.mem_cons] at hub
    have h1 : Run dflt c (tr ++ [(op, (step dflt s op).2)]) (step dflt s op).1 :=
      Run.call tr s _ op _ h rfl (hub _ (Or.inl rfl))
    have := ih _ _ h1 (fun st hst => hub st (Or.inr hst))
    simpa [exec] using this

/-- A program that never meets undefined behaviour is a history. -/
theorem run_exec (dflt : Option Xs) (c : Ctor) (ops : List Op) (hc : (construct c).2 = .ok)
    (h : ∀ st ∈ (exec dflt (construct c).1 ops).2, st ≠ .ub) :
    Run dflt c (ops.zip (exec dflt (construct c).1 ops).2) (exec dflt (construct c).1 ops).1 := by
  have h0 : Run dflt c [] (construct c).1 := Run.start _ (by rw [← hc])
  simpa using run_append ops [] _ h0 h

end Verif.Life
