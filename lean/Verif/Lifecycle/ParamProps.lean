import Verif.Lifecycle.Chain
import Verif.Lifecycle.GuardProps

/-! C38, C39: evolution uses the parameters the getters report; the phases reported are the ones set. -/

namespace Verif.Life

/-- A change of the oscillation switch. -/
def IsOscSwitch (x : Op × Status) : Prop := ∃ b, x.1 = .setOsc b

/-- The derived quantities are those of the current parameters. -/
structure Keys (tr : List (Op × Status)) (s : Obj) : Prop where
  b1 : ∀ rho flv, rho < s.nrhos → flv < s.numneu → s.b1 rho flv = ⟨s.params.angle, cpFix s.nt s.numneu rho s.params.phase, flv⟩
  evol : ∀ rho flv e, rho < s.nrhos → flv < s.numneu → e < s.ne →
    s.evolB1 rho flv e = ⟨s.params.angle, cpFix s.nt s.numneu rho s.params.phase, flv⟩
  h0 : ∃ o, s.h0 = s.energies.map (fun e => ⟨s.params.dm2, e, o⟩) ∧ (Since IsInitial IsOscSwitch tr → o = s.osc)

/-- Each call sets a new initial state, invalidates the state, or leaves alone what the derived quantities depend on. -/
theorem step_classes (dflt : Option Xs) (s : Obj) (op : Op) (hn : 3 ≤ s.numneu) :
    (∃ d b, op = .setInitial d b ∧ (step dflt s op).2 = .ok) ∨ (step dflt s op).1.istate = false ∨
    (s.params = (step dflt s op).1.params ∧ s.b1 = (step dflt s op).1.b1 ∧ s.evolB1 = (step dflt s op).1.evolB1 ∧
      s.h0 = (step dflt s op).1.h0 ∧ s.energies = (step dflt s op).1.energies ∧ s.istate = (step dflt s op).1.istate ∧
      (s.osc = (step dflt s op).1.osc ∨ ∃ b, op = .setOsc b)) := by
  cases op <;> simp only [step]
  case evolve =>
    have h := evolveState_same dflt s
    exact Or.inr (Or.inr ⟨h.params.symm, h.b1.symm, h.evolB1.symm, h.h0.symm, h.energies.symm, h.istate.symm, Or.inl h.osc.symm⟩)
  case initInteractions =>
    have h := initInteractions_same dflt s
    exact Or.inr (Or.inr ⟨h.params.symm, h.b1.symm, h.evolB1.symm, h.h0.symm, h.energies.symm, h.istate.symm, Or.inl h.osc.symm⟩)
  case setDefaults => rw [setDefaults_eq s hn]; exact Or.inr (Or.inl rfl)
  case setE e =>
    unfold setE
    split
    · exact Or.inr (Or.inr ⟨rfl, rfl, rfl, rfl, rfl, rfl, Or.inl rfl⟩)
    · exact Or.inr (Or.inl rfl)
  case setTrack t => unfold setTrack; split <;> exact Or.inr (Or.inr ⟨rfl, rfl, rfl, rfl, rfl, rfl, Or.inl rfl⟩)
  case setInitial d b =>
    unfold setInitial
    split
    · split
      · exact Or.inr (Or.inr ⟨rfl, rfl, rfl, rfl, rfl, rfl, Or.inl rfl⟩)
      · exact Or.inl ⟨d, b, rfl, rfl⟩
    · exact Or.inr (Or.inr ⟨rfl, rfl, rfl, rfl, rfl, rfl, Or.inl rfl⟩)
  case setAngle i j v =>
    unfold setAngle
    split
    · exact Or.inr (Or.inr ⟨rfl, rfl, rfl, rfl, rfl, rfl, Or.inl rfl⟩)
    · split
      · exact Or.inr (Or.inl rfl)
      · exact Or.inr (Or.inr ⟨rfl, rfl, rfl, rfl, rfl, rfl, Or.inl rfl⟩)
  case setPhase i j v =>
    unfold setPhase
    split
    · exact Or.inr (Or.inr ⟨rfl, rfl, rfl, rfl, rfl, rfl, Or.inl rfl⟩)
    · split
      · exact Or.inr (Or.inl rfl)
      · exact Or.inr (Or.inr ⟨rfl, rfl, rfl, rfl, rfl, rfl, Or.inl rfl⟩)
  case setDm2 i v =>
    unfold setDm2
    split
    · exact Or.inr (Or.inr ⟨rfl, rfl, rfl, rfl, rfl, rfl, Or.inl rfl⟩)
    · split
      · exact Or.inr (Or.inl rfl)
      · exact Or.inr (Or.inr ⟨rfl, rfl, rfl, rfl, rfl, rfl, Or.inl rfl⟩)
  case setBasis b => unfold setBasis; split <;> exact Or.inr (Or.inr ⟨rfl, rfl, rfl, rfl, rfl, rfl, Or.inl rfl⟩)
  case setTau b => unfold setTau; split <;> exact Or.inr (Or.inr ⟨rfl, rfl, rfl, rfl, rfl, rfl, Or.inl rfl⟩)
  case setGlashow b => unfold setGlashow; split <;> exact Or.inr (Or.inr ⟨rfl, rfl, rfl, rfl, rfl, rfl, Or.inl rfl⟩)
  case setOsc b => exact Or.inr (Or.inr ⟨rfl, rfl, rfl, rfl, rfl, rfl, Or.inr ⟨b, rfl⟩⟩)
  all_goals exact Or.inr (Or.inr (by simp [setBody, setXs, setSources]))

theorem setInitial_ok {s s' : Obj} {d : List Nat} {b : Basis} (h : setInitial s d b = (s', .ok)) :
    ∃ tr, s.track = some tr ∧ s.ienergy = true ∧ s.itrack = true ∧ s.ibody = true ∧
      s' = { iniH0 (iniProj { s with track := some { tr with x := tr.xini }, t := tr.xini, tIni := tr.xini, offset := some 0 }) with
              istate := true } := by
  unfold setInitial at h
  split at h
  · rename_i hg
    split at h
    · simp at h
    · rename_i tr htr
      simp only [Prod.mk.injEq, and_true] at h
      have : s.ienergy = true ∧ s.itrack = true ∧ s.ibody = true := by
        unfold initialGuards at hg
        split at hg <;> simp at hg <;> simp [hg]
      exact ⟨tr, htr, this.1, this.2.1, this.2.2, h.symm⟩
  · simp at h

theorem run_keys {dflt : Option Xs} {c : Ctor} {tr : List (Op × Status)} {s : Obj} (hr : Run dflt c tr s) :
    s.istate = true → Keys tr s := by
  induction hr with
  | start s h => intro hs; rw [(construct_fresh c s h).istate] at hs; simp at hs
  | call tr s s' op st hr hstep hst ih =>
    intro hs
    have hsz := run_sizes hr
    have hfix := step_fixed dflt s op
    have hcl := step_classes dflt s op hsz.1
    rw [hstep] at hfix hcl
    rcases hcl with ⟨d, b, rfl, hok⟩ | hf | ⟨k1, k2, k3, k4, k5, k6, k7⟩
    · simp only at hok
      subst hok
      simp only [step] at hstep
      obtain ⟨t, ht, he, _, _, rfl⟩ := setInitial_ok hstep
      constructor
      · intro rho flv h1 h2
        simp only [iniH0, iniProj_eq] at h1 h2 ⊢
        rw [if_pos ⟨h1, h2⟩]
      · intro rho flv e h1 h2 h3
        simp only [iniH0, iniProj_eq] at h1 h2 h3 ⊢
        rw [if_pos ⟨h1, h2, h3⟩]
      · refine ⟨s.osc, ?_, fun _ => rfl⟩
        simp only [iniH0, iniProj_eq, he, if_true]
    · simp only at hf; rw [hf] at hs; simp at hs
    · simp only at k1 k2 k3 k4 k5 k6 k7
      have hk := ih (by rw [k6]; exact hs)
      constructor
      · intro rho flv h1 h2
        rw [hfix.nrhos] at h1
        rw [hfix.numneu] at h2
        rw [← k2, ← k1, hfix.nt, hfix.numneu]
        exact hk.b1 rho flv h1 h2
      · intro rho flv e h1 h2 h3
        rw [hfix.nrhos] at h1
        rw [hfix.numneu] at h2
        rw [hfix.ne] at h3
        rw [← k3, ← k1, hfix.nt, hfix.numneu]
        exact hk.evol rho flv e h1 h2 h3
      · by_cases hop : (∃ d b, (op, st) = (Op.setInitial d b, Status.ok))
        · obtain ⟨d, b, hop⟩ := hop
          simp only [Prod.mk.injEq] at hop
          obtain ⟨rfl, rfl⟩ := hop
          simp only [step] at hstep
          obtain ⟨t, ht, he, _, _, rfl⟩ := setInitial_ok hstep
          refine ⟨s.osc, ?_, fun _ => rfl⟩
          simp only [iniH0, iniProj_eq, he, if_true]
        · obtain ⟨o, h1, h2⟩ := hk.h0
          refine ⟨o, by rw [← k4, ← k5, ← k1]; exact h1, ?_⟩
          intro hsin
          rw [since_snoc] at hsin
          rcases hsin with h | ⟨h, hno⟩
          · exact absurd h hop
          · rcases k7 with k7 | ⟨b, rfl⟩
            · rw [← k7]; exact h2 h
            · exact absurd ⟨b, rfl⟩ hno

theorem getAngle_valid {s : Obj} (hsz : 3 ≤ s.numneu ∧ s.numneu ≤ maxDim) {i j : Nat} (h1 : i < j) (h2 : j < s.numneu) :
    getAngle s i j = .ok (s.params.angle i j) := by
  unfold getAngle
  rw [if_neg (by omega), if_pos]
  unfold pairOk; simp; omega

theorem getPhase_valid {s : Obj} (hsz : 3 ≤ s.numneu ∧ s.numneu ≤ maxDim) {i j : Nat} (h1 : i < j) (h2 : j < s.numneu) :
    getPhase s i j = .ok (s.params.phase i j) := by
  unfold getPhase
  rw [if_neg (by omega), if_pos]
  unfold pairOk; simp; omega

theorem getDm2_valid {s : Obj} (hsz : 3 ≤ s.numneu ∧ s.numneu ≤ maxDim) {i : Nat} (h1 : 0 < i) (h2 : i < s.numneu) :
    getDm2 s i = .ok (s.params.dm2 i) := by
  unfold getDm2
  rw [if_neg (by omega), if_pos]
  omega

/-- C38, partial: in every history, an accepted `EvolveState` runs with projectors computed from the angles and phases the getters
report (phases reversed for antineutrinos) and a vacuum Hamiltonian computed from the energies and mass differences they report; and
with the current oscillation switch if it was not touched since the last accepted `Set_initial_state`. Missing: the switch changed
after that (`c38_switch_violated`). -/
theorem c38_current_parameters_partial (dflt : Option Xs) (c : Ctor) (tr : List (Op × Status)) (s s' : Obj) (hr : Run dflt c tr s)
    (he : evolveState dflt s = (s', .ok)) :
    ∃ new, s'.log = s.log ++ new ∧ new ≠ [] ∧ ∀ seg ∈ new,
      ProjCurrent s seg ∧ H0Current s seg ∧ (Since IsInitial IsOscSwitch tr → OscCurrent s seg) := by
  obtain ⟨new, h1, h2, h3⟩ := evolveState_log dflt s s' he
  have hsz := run_sizes hr
  have hist : s.istate = true := by
    obtain ⟨_, _, _, _, _, _, _, _, _, hg⟩ := evolveState_chain dflt s s' he
    unfold evolveGuards at hg
    simp at hg
    exact hg.1.2
  have hk := run_keys hr hist
  refine ⟨new, h1, h2, ?_⟩
  intro seg hseg
  obtain ⟨_, g2, g3, g4, _⟩ := h3 seg hseg
  obtain ⟨o, k1, k2⟩ := hk.h0
  refine ⟨?_, ?_, ?_⟩
  · intro rho flv hrho hflv
    rw [g2, hk.b1 rho flv hrho hflv]
    refine ⟨rfl, ?_, ?_⟩
    · intro i j hij hj; exact getAngle_valid hsz hij hj
    · intro i j hij hj
      rw [getPhase_valid hsz hij hj]
      unfold cpFix Anti
      constructor
      · intro ha
        rw [if_pos ha, flipPhases_eq]
        simp [hij, hj, Rat.neg_neg]
      · intro ha
        rw [if_neg ha]
  · refine ⟨by rw [g3, k1]; simp, ?_⟩
    intro k e key hke hkk
    rw [g3, k1] at hkk
    simp only [List.getElem?_map, hke, Option.map_some, Option.some.injEq] at hkk
    subst hkk
    exact ⟨rfl, fun i hi1 hi2 => getDm2_valid hsz hi1 hi2⟩
  · intro hsin
    refine ⟨g4, ?_⟩
    intro key hkey
    rw [g3, k1] at hkey
    obtain ⟨e, _, rfl⟩ := List.mem_map.1 hkey
    exact k2 hsin

/-- Parameters are changed, the state set anew, and evolution is accepted. -/
def demoParams : List Op :=
  [.setBody (some ⟨1, false⟩), .setTrack (some ⟨7, 0, 100, 0⟩), .setE 5, .setInitial [3] .flavor, .setPhase 0 2 (3 / 2),
    .setDm2 1 (1 / 100), .setInitial [3] .flavor]

example : (evolveState none (exec none (construct (.single 3 .antineutrino)).1 demoParams).1).2 = .ok ∧
    (((evolveState none (exec none (construct (.single 3 .antineutrino)).1 demoParams).1).1.log[0]?).map
      fun seg => ((seg.proj 0 1).phase 0 2, seg.h0.map fun k => k.dm2 1)) = some ((-3 / 2 : Rat), [(1 / 100 : Rat)]) ∧
    getPhase (exec none (construct (.single 3 .antineutrino)).1 demoParams).1 0 2 = .ok (3 / 2) := by decide +kernel

/-- Oscillations are switched off, the state is set, oscillations are switched on, and evolution starts. -/
def switchOps : List Op :=
  [.setBody (some ⟨1, false⟩), .setTrack (some ⟨7, 0, 100, 0⟩), .setOsc false, .setInitial [1, 3] .flavor, .setOsc true]

/-- C38, disagreement: `EvolveState` is accepted and runs with a vacuum Hamiltonian computed with oscillations off although they are
on. -/
theorem c38_switch_violated :
    ∃ tr s s', Run none (.multi [5] 3 .neutrino false none) tr s ∧ evolveState none s = (s', .ok) ∧ s.osc = true ∧
      ∃ seg ∈ s'.log, seg.h0.map (fun k => k.osc) = [false] := by
  have hr := run_exec none (.multi [5] 3 .neutrino false none) switchOps (by decide +kernel) (by decide +kernel)
  have hok : (evolveState none (exec none (construct (.multi [5] 3 .neutrino false none)).1 switchOps).1).2 = .ok := by decide +kernel
  refine ⟨_, _, (evolveState none (exec none (construct (.multi [5] 3 .neutrino false none)).1 switchOps).1).1, hr, ?_,
    by decide +kernel, ?_⟩
  · rw [← hok]
  · have hl : ((evolveState none (exec none (construct (.multi [5] 3 .neutrino false none)).1 switchOps).1).1.log.map
        fun seg => seg.h0.map fun k => k.osc) = [[false]] := by decide +kernel
    revert hl
    generalize (evolveState none (exec none (construct (.multi [5] 3 .neutrino false none)).1 switchOps).1).1.log = l
    intro hl
    match l with
    | [] => simp at hl
    | seg :: rest => rw [List.map_cons, List.cons.injEq] at hl; exact ⟨seg, by simp, hl.1⟩

/-! ## C39 -/

theorem lastPhase_snoc (i j : Nat) (tr : List (Op × Status)) (x : Op × Status) :
    lastPhase i j (tr ++ [x]) = match x with
      | (.setPhase a b w, .ok) => if a = i ∧ b = j then w else lastPhase i j tr
      | (.setDefaults, .ok) => if i = 0 ∧ j = 2 then 0 else lastPhase i j tr
      | _ => lastPhase i j tr := by
  unfold lastPhase
  rw [List.foldl_append, List.foldl_cons, List.foldl_nil]
  rfl

theorem run_phase {dflt : Option Xs} {c : Ctor} {tr : List (Op × Status)} {s : Obj} (hr : Run dflt c tr s) :
    ∀ i j, s.params.phase i j = lastPhase i j tr := by
  induction hr with
  | start s h => intro i j; rw [(construct_fresh c s h).phase]; rfl
  | call tr s s' op st hr hstep hst ih =>
    intro i j
    rw [lastPhase_snoc, ← ih i j]
    have hsz := run_sizes hr
    cases op <;> simp only [step] at hstep
    case evolve => have := evolveState_same dflt s; rw [hstep] at this; simp only; rw [this.params]
    case initInteractions => have := initInteractions_same dflt s; rw [hstep] at this; simp only; rw [this.params]
    case setDefaults =>
      rw [setDefaults_eq s hsz.1] at hstep
      simp only [Prod.mk.injEq] at hstep
      obtain ⟨rfl, rfl⟩ := hstep
      rfl
    case setPhase a b w =>
      unfold setPhase at hstep
      split at hstep
      · simp only [Prod.mk.injEq] at hstep; obtain ⟨rfl, rfl⟩ := hstep; rfl
      · split at hstep <;> simp only [Prod.mk.injEq] at hstep <;> obtain ⟨rfl, rfl⟩ := hstep
        · simp only [set2]
          by_cases h : i = a ∧ j = b
          · rw [if_pos h, if_pos ⟨h.1.symm, h.2.symm⟩]
          · rw [if_neg h, if_neg (fun h' => h ⟨h'.1.symm, h'.2.symm⟩)]
        · rfl
    case setInitial d b =>
      unfold setInitial at hstep
      split at hstep
      · split at hstep <;> simp only [Prod.mk.injEq] at hstep <;> obtain ⟨rfl, rfl⟩ := hstep
        · rfl
        · simp only [iniH0, iniProj_eq]
      · simp only [Prod.mk.injEq] at hstep; obtain ⟨rfl, rfl⟩ := hstep; rfl
    case setE e => unfold setE at hstep; split at hstep <;> simp only [Prod.mk.injEq] at hstep <;> obtain ⟨rfl, rfl⟩ := hstep <;> rfl
    case setTrack t =>
      unfold setTrack at hstep; split at hstep <;> simp only [Prod.mk.injEq] at hstep <;> obtain ⟨rfl, rfl⟩ := hstep <;> rfl
    case setAngle a b v =>
      unfold setAngle at hstep
      split at hstep
      · simp only [Prod.mk.injEq] at hstep; obtain ⟨rfl, rfl⟩ := hstep; rfl
      · split at hstep <;> simp only [Prod.mk.injEq] at hstep <;> obtain ⟨rfl, rfl⟩ := hstep <;> rfl
    case setDm2 a v =>
      unfold setDm2 at hstep
      split at hstep
      · simp only [Prod.mk.injEq] at hstep; obtain ⟨rfl, rfl⟩ := hstep; rfl
      · split at hstep <;> simp only [Prod.mk.injEq] at hstep <;> obtain ⟨rfl, rfl⟩ := hstep <;> rfl
    case setBasis b =>
      unfold setBasis at hstep; split at hstep <;> simp only [Prod.mk.injEq] at hstep <;> obtain ⟨rfl, rfl⟩ := hstep <;> rfl
    case setTau b =>
      unfold setTau at hstep; split at hstep <;> simp only [Prod.mk.injEq] at hstep <;> obtain ⟨rfl, rfl⟩ := hstep <;> rfl
    case setGlashow b =>
      unfold setGlashow at hstep; split at hstep <;> simp only [Prod.mk.injEq] at hstep <;> obtain ⟨rfl, rfl⟩ := hstep <;> rfl
    all_goals
      simp only [setBody, setOsc, setXs, setSources, Prod.mk.injEq] at hstep
      obtain ⟨rfl, rfl⟩ := hstep
      rfl

/-- C39: in every history and every mode, `Get_CPPhase(i,j)` for two of the flavours in use returns the value last given to
`Set_CPPhase(i,j)`, the default if none was. Whenever it returns at all it returns that value. -/
theorem c39_phase_is_last_set (dflt : Option Xs) (c : Ctor) (tr : List (Op × Status)) (s : Obj) (hr : Run dflt c tr s) (i j : Nat) :
    (i < j → j < s.numneu → getPhase s i j = .ok (lastPhase i j tr)) ∧
    (∀ v, getPhase s i j = .ok v → v = lastPhase i j tr) := by
  constructor
  · intro h1 h2
    rw [getPhase_valid (run_sizes hr) h1 h2, run_phase hr]
  · intro v hv
    unfold getPhase at hv
    split at hv
    · simp at hv
    · split at hv
      · simp only [Outcome.ok.injEq] at hv; rw [← hv, run_phase hr]
      · simp at hv

/-- Phases set before and after setting a state and evolving, for antineutrinos. -/
def demoPhases : List Op :=
  [.setPhase 1 2 (1 / 3), .setBody (some ⟨1, false⟩), .setTrack (some ⟨7, 0, 100, 0⟩), .setE 5, .setInitial [3] .flavor, .evolve,
    .setPhase 0 2 (5 / 4), .setInitial [3] .flavor]

example : (exec none (construct (.single 3 .antineutrino)).1 demoPhases).2 = [.ok, .ok, .ok, .ok, .ok, .ok, .ok, .ok] ∧
    getPhase (exec none (construct (.single 3 .antineutrino)).1 demoPhases).1 1 2 = .ok (1 / 3) ∧
    getPhase (exec none (construct (.single 3 .antineutrino)).1 demoPhases).1 0 2 = .ok (5 / 4) := by decide +kernel

end Verif.Life
