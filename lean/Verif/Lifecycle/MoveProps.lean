import Verif.Lifecycle.TableProps

/-!
C45: moving a `nuSQUIDS` object (nuSQuIDS.cpp 2904-2993).

`Whole` adds to the life-cycle object the settings it leaves out. The base class is assumed to move all of its members; moving a
container or pointer hands its contents over.
-/

namespace Verif.Life

/-- The object with the remaining settings. -/
structure Whole where
  obj : Obj
  /-- `evol_lowpass_cutoff`, `evol_lowpass_scale` -/
  lowCutoff : Rat
  lowScale : Rat
  /-- `enable_neutrino_sources` -/
  sources : Bool
  /-- `gsl_int_precision` -/
  precision : Rat
  debug : Bool
  progressbar : Bool
  progressCount : Int
  progressLoop : Int

/-- Move constructor (2904-2943): the members in the initialiser list come from the source, the others are default-initialised. -/
def moveCtor (o : Whole) : Whole where
  obj := { o.obj with
    -- not in the list: back to the in-class initialisers, or indeterminate
    intInit := false
    ncSized := false
    tauSized := false
    grSized := false
    allowConst := false
    fullH := false
    offset := none }
  lowCutoff := 0
  lowScale := 0
  sources := false
  precision := 1 / 1000
  debug := false
  progressbar := o.progressbar
  progressCount := o.progressCount
  progressLoop := o.progressLoop

/-- Move assignment (2945-2993) onto `d`: the members not assigned keep the destination's values. -/
def moveAssign (d o : Whole) : Whole where
  obj := { o.obj with
    intInit := d.obj.intInit
    ncSized := d.obj.ncSized
    tauSized := d.obj.tauSized
    grSized := d.obj.grSized
    allowConst := d.obj.allowConst
    fullH := d.obj.fullH
    offset := d.obj.offset }
  lowCutoff := d.lowCutoff
  lowScale := d.lowScale
  sources := d.sources
  precision := d.precision
  debug := d.debug
  progressbar := o.progressbar
  progressCount := o.progressCount
  progressLoop := o.progressLoop

/-- What every getter and evaluation reads except the members listed as missing. -/
structure SameMoved (o m : Obj) : Prop where
  numneu : m.numneu = o.numneu
  nt : m.nt = o.nt
  ne : m.ne = o.ne
  nrhos : m.nrhos = o.nrhos
  energies : m.energies = o.energies
  params : m.params = o.params
  basis : m.basis = o.basis
  body : m.body = o.body
  track : m.track = o.track
  b1 : m.b1 = o.b1
  evolB1 : m.evolB1 = o.evolB1
  dm2Key : m.dm2Key = o.dm2Key
  h0 : m.h0 = o.h0
  ncs : m.ncs = o.ncs
  tables : m.tables = o.tables
  inusquids : m.inusquids = o.inusquids
  ibody : m.ibody = o.ibody
  itrack : m.itrack = o.itrack
  ienergy : m.ienergy = o.ienergy
  istate : m.istate = o.istate
  iint : m.iint = o.iint
  osc : m.osc = o.osc
  tauregen : m.tauregen = o.tauregen
  glashow : m.glashow = o.glashow
  positivization : m.positivization = o.positivization
  posScale : m.posScale = o.posScale
  anyNumerics : m.anyNumerics = o.anyNumerics
  h : m.h = o.h
  t : m.t = o.t
  tIni : m.tIni = o.tIni
  log : m.log = o.log

/-! ## Evolution of a moved object -/

/-- `m` differs from `s` in the buffers' sizes, the initialisation flag and the projector switch only. -/
def Sim (s m : Obj) : Prop :=
  ∃ i a b c f, m = { s with intInit := i, ncSized := a, tauSized := b, grSized := c, fullH := f }

theorem evolveBy_sim {s m s' : Obj} {dt : Rat} (hs : Sim s m) (hb : buffersOk m = true) (h : evolveBy s dt = (s', .ok)) :
    ∃ m', evolveBy m dt = (m', .ok) ∧ Sim s' m' ∧ buffersOk m' = true := by
  obtain ⟨off, ho, hbs, he⟩ := evolveBy_ok h
  obtain ⟨i, a, b, c, f, hm⟩ := hs
  have ho' : m.offset = some off := by rw [hm]; exact ho
  refine ⟨afterBy m dt off, ?_, ?_, ?_⟩
  · unfold evolveBy
    split
    · rename_i e; rw [e] at ho'; simp at ho'
    · rename_i off' e
      rw [e, Option.some.injEq] at ho'
      subst ho'
      rw [if_pos hb]; rfl
  · refine ⟨i, a, b, c, f, ?_⟩
    rw [he, hm]
    simp only [afterBy, segOf]
  · unfold buffersOk at hb ⊢
    exact hb

theorem evolveSteps_sim {scale : Rat} : ∀ (n : Nat) {s m s' : Obj}, Sim s m → buffersOk m = true → evolveSteps scale n s = (s', .ok) →
    ∃ m', evolveSteps scale n m = (m', .ok) ∧ Sim s' m' ∧ buffersOk m' = true := by
  intro n
  induction n with
  | zero =>
    intro s m s' hs hb h
    simp only [evolveSteps, Prod.mk.injEq, and_true] at h
    subst h
    exact ⟨m, rfl, hs, hb⟩
  | succ n ih =>
    intro s m s' hs hb h
    unfold evolveSteps at h ⊢
    split at h
    · rename_i s1 h1
      obtain ⟨m1, e1, e2, e3⟩ := evolveBy_sim hs hb h1
      rw [e1]
      exact ih e2 e3 h
    · rename_i hr; rw [h] at hr; exact absurd rfl (hr s')

theorem evolveMain_sim {s m s' : Obj} {b : BodyRef} {tr : TrackRef} (hs : Sim s m) (hb : buffersOk m = true)
    (h : evolveMain s b tr = (s', .ok)) : ∃ m', evolveMain m b tr = (m', .ok) ∧ Sim s' m' := by
  have hk : Sim (if tr.xend < tr.xini then { s with h := -s.h } else s) (if tr.xend < tr.xini then { m with h := -m.h } else m) := by
    obtain ⟨i, a, b, c, f, hm⟩ := hs
    refine ⟨i, a, b, c, f, ?_⟩
    split <;> rw [hm]
  have hbk : buffersOk (if tr.xend < tr.xini then { m with h := -m.h } else m) = true := by split <;> exact hb
  unfold evolveMain at h ⊢
  revert h hk hbk
  generalize (if tr.xend < tr.xini then { s with h := -s.h } else s) = s1
  generalize (if tr.xend < tr.xini then { m with h := -m.h } else m) = m1
  intro h hk hbk
  obtain ⟨i, a, b', c, f, hm⟩ := hk
  have hsim : Sim s1 m1 := ⟨i, a, b', c, f, hm⟩
  have e1 : m1.iint = s1.iint := by rw [hm]
  have e2 : m1.allowConst = s1.allowConst := by rw [hm]
  have e3 : m1.positivization = s1.positivization := by rw [hm]
  have e4 : m1.posScale = s1.posScale := by rw [hm]
  dsimp only at h ⊢
  by_cases hc : (b.isConst && !s1.iint && s1.allowConst) = true
  · have hc' : (b.isConst && !m1.iint && m1.allowConst) = true := by rw [e1, e2]; exact hc
    rw [if_pos hc] at h
    rw [if_pos hc']
    obtain ⟨m', g1, g2, _⟩ := evolveBy_sim (m := { m1 with fullH := true, anyNumerics := false, basis := .mass })
      (⟨i, a, b', c, true, by rw [hm]⟩) hbk h
    exact ⟨m', g1, g2⟩
  · have hc' : ¬(b.isConst && !m1.iint && m1.allowConst) = true := by rw [e1, e2]; exact hc
    rw [if_neg hc] at h
    rw [if_neg hc']
    by_cases hp : s1.positivization = true
    · rw [if_pos hp] at h
      rw [if_pos (e3.trans hp)]
      cases hsc : s1.posScale with
      | none => simp only [hsc] at h; simp at h
      | some scale =>
        simp only [hsc] at h
        simp only [e4.trans hsc]
        by_cases h0 : scale = 0
        · simp [h0] at h
        · rw [if_neg h0] at h ⊢
          cases hn : toInt ((tr.xend - tr.xini) / scale) with
          | none => simp only [hn] at h; simp at h
          | some n =>
            simp only [hn] at h
            simp only []
            split at h
            · rename_i s2 h2
              obtain ⟨m2, g1, g2, g3⟩ := evolveSteps_sim n.toNat hsim hbk h2
              obtain ⟨m', k1, k2, _⟩ := evolveBy_sim g2 g3 h
              refine ⟨m', ?_, k2⟩
              rw [g1]
              exact k1
            · rename_i hr; rw [h] at hr; exact absurd rfl (hr s')
    · rw [if_neg hp] at h
      rw [if_neg (by rw [e3]; exact hp)]
      obtain ⟨m', g1, g2, _⟩ := evolveBy_sim hsim hbk h
      exact ⟨m', g1, g2⟩

/-- After sizing the buffers, everything indexed is there as soon as the tables are. -/
theorem sizeBuffers_ok (s : Obj) (h : s.iint = true → s.tables.isSome = true) : buffersOk (sizeBuffers s) = true := by
  unfold buffersOk sizeBuffers
  cases hi : s.iint
  · simp [hi]
  · have := h hi
    simp [this]
    cases s.osc <;> cases s.tauregen <;> cases s.glashow <;> cases s.tauSized <;> cases s.grSized <;> simp

theorem sim_sizeBuffers {s m : Obj} (h : Sim s m) : Sim s (sizeBuffers m) := by
  obtain ⟨i, a, b, c, f, hm⟩ := h
  unfold sizeBuffers
  dsimp only
  split
  · exact ⟨true, true, _, _, f, by rw [hm]⟩
  · exact ⟨true, a, b, c, f, by rw [hm]⟩

/-- The tables are there once the object says they are. -/
theorem run_tables {dflt : Option Xs} {c : Ctor} {tr : List (Op × Status)} {s : Obj} (hr : Run dflt c tr s) :
    s.intInit = true → s.tables.isSome = true := by
  have hinit : ∀ s : Obj, (s.intInit = true → s.tables.isSome = true) →
      ((initInteractions dflt s).1.intInit = true → (initInteractions dflt s).1.tables.isSome = true) := by
    intro s hs
    have hz : ∀ s : Obj, (sizeBuffers s).tables = s.tables := by intro s; unfold sizeBuffers; dsimp only; split <;> rfl
    unfold initInteractions
    split
    · exact hs
    · split
      · rename_i t ht; intro _; rw [hz, ht]; rfl
      · dsimp only
        split
        · intro _; rfl
        · split
          · split
            · intro _; rw [hz]; rfl
            · intro _; rfl
          · intro _; rfl
  induction hr with
  | start s h => intro hi; rw [(construct_fresh c s h).intInit] at hi; simp at hi
  | call tr s s' op st hr hstep hst ih =>
    by_cases hu : UsesTables op
    · cases op <;> simp only [UsesTables] at hu
      · simp only [step] at hstep
        cases st
        · obtain ⟨s1, b, t, dts, hb, ht, hi, ha, hc, _⟩ := evolveState_chain dflt s s' hstep
          have pf := prepared_fields s1 b t
          have hs := hc.same
          rw [hs.intInit, hs.tables, pf.2.2.2.2.2.1, pf.2.2.2.1]
          split at hi
          · have := hinit s ih; rw [hi] at this; exact this
          · simp only [Prod.mk.injEq, and_true] at hi; subst hi; exact ih
        · unfold evolveState at hstep
          split at hstep
          · split at hstep
            · rename_i b t _ _
              dsimp only at hstep
              split at hstep
              · rename_i s1 _
                have := evolveMain_not_throws s1 b t
                rw [hstep] at this; exact absurd rfl this
              · by_cases hi : (s.iint && !s.intInit) = true
                · rw [if_pos hi] at hstep
                  have := hinit s ih; rw [hstep] at this; exact this
                · rw [if_neg hi] at hstep; simp at hstep
            · simp only [Prod.mk.injEq, and_true] at hstep; subst hstep; exact ih
          · simp only [Prod.mk.injEq, and_true] at hstep; subst hstep; exact ih
        · exact absurd rfl hst
      · simp only [step] at hstep
        have := hinit s ih; rw [hstep] at this; exact this
    · by_cases hc : Configures op
      · cases op <;> simp only [Configures] at hc
        · simp only [step, setTau] at hstep
          split at hstep <;> simp only [Prod.mk.injEq] at hstep <;> obtain ⟨rfl, rfl⟩ := hstep <;> exact ih
        · simp only [step, setGlashow] at hstep
          split at hstep <;> simp only [Prod.mk.injEq] at hstep <;> obtain ⟨rfl, rfl⟩ := hstep <;> exact ih
        · simp only [step, setXs, Prod.mk.injEq] at hstep
          obtain ⟨rfl, rfl⟩ := hstep
          intro h; simp at h
      · have hk := step_keeps_tables dflt s op (run_sizes hr).1 hc hu
        rw [hstep] at hk
        rw [hk.intInit, hk.tables]; exact ih

/-- Making the tables ready agrees on related objects. -/
theorem init_sim {dflt : Option Xs} {s m s1 : Obj} (hs : Sim s m) (hm : m.intInit = false) (hst : s.intInit = true → s.tables.isSome = true)
    (hii : s.iint = true)
    (h : (if s.iint && !s.intInit then initInteractions dflt s else (s, Status.ok)) = (s1, .ok)) :
    ∃ m1, (if m.iint && !m.intInit then initInteractions dflt m else (m, Status.ok)) = (m1, .ok) ∧ Sim s1 m1 ∧ buffersOk m1 = true := by
  obtain ⟨i, a, b, c, f, he⟩ := hs
  have e1 : m.iint = s.iint := by rw [he]
  have e2 : m.tables = s.tables := by rw [he]
  have e3 : m.ncs = s.ncs := by rw [he]
  rw [e1, hm, hii]
  simp only [Bool.not_false, Bool.and_true, if_true]
  cases hsi : s.intInit
  · rw [hii, hsi] at h
    simp only [Bool.not_false, Bool.and_true, if_true] at h
    unfold initInteractions at h ⊢
    rw [hsi] at h
    rw [hm]
    simp only [Bool.false_eq_true, if_false] at h ⊢
    rw [e2]
    split at h
    · rename_i t ht
      simp only [Prod.mk.injEq, and_true] at h
      refine ⟨sizeBuffers m, rfl, ?_, sizeBuffers_ok m (by intro _; rw [e2, ht]; rfl)⟩
      rw [← h]
      have hsim : Sim s m := ⟨i, a, b, c, f, he⟩
      have h2 := sim_sizeBuffers hsim
      obtain ⟨i', a', b', c', f', h2⟩ := h2
      refine ⟨i', a', b', c', f', ?_⟩
      rw [h2]
      unfold sizeBuffers
      dsimp only
      split <;> rfl
    · rename_i ht
      rw [e3]
      split at h
      · simp at h
      · rename_i x hx
        by_cases hok : (x.perNucleon || x.isoscalar) = true
        · rw [if_pos hok] at h
          split at h
          · rename_i hf
            rw [if_pos hok]
            have hf' : fillOk { m with tables := some ⟨0, false, false⟩, ncs := some x } x = true := by
              unfold fillOk at hf ⊢
              rw [he]; exact hf
            have hmatch : ∀ (p q : Obj × Status), (if fillOk { m with tables := some ⟨0, false, false⟩, ncs := some x } x = true then p else q) = p := by
              intro p q; rw [if_pos hf']
            refine ⟨_, hmatch _ _, ?_, sizeBuffers_ok _ (fun _ => rfl)⟩
            simp only [Prod.mk.injEq, and_true] at h
            rw [← h]
            have hsim : Sim (sizeBuffers { s with tables := some ⟨x.id, true, s.glashow && decide (s.nt ≠ .neutrino)⟩, ncs := some x })
                (sizeBuffers { m with tables := some ⟨x.id, true, m.glashow && decide (m.nt ≠ .neutrino)⟩, ncs := some x }) := by
              rw [he]
              unfold sizeBuffers
              dsimp only
              cases hii' : s.iint
              · exact ⟨true, a, b, c, f, rfl⟩
              · exact ⟨true, true, _, _, f, rfl⟩
            rw [hsi, hm] at hsim
            exact hsim
          · simp at h
        · rw [if_neg hok] at h; simp at h
  · rw [hii, hsi] at h
    simp only [Bool.not_true, Bool.and_false, Bool.false_eq_true, if_false, Prod.mk.injEq, and_true] at h
    subst h
    obtain ⟨t, ht⟩ := Option.isSome_iff_exists.1 (hst hsi)
    unfold initInteractions
    rw [hm, e2, ht]
    simp only [Bool.false_eq_true, if_false]
    exact ⟨sizeBuffers m, rfl, sim_sizeBuffers ⟨i, a, b, c, f, he⟩, sizeBuffers_ok m (by intro _; rw [e2, ht]; rfl)⟩

/-- C45, partial: a move-constructed or move-assigned object has the number and kind of neutrinos, energies, parameters, basis, body,
track, projectors, Hamiltonian, cross sections, tables, state, clock, step and all other switches of the source. And if the track or the
state is set again after move construction and the constant-density shortcut was not allowed in the source, `EvolveState` goes through
whenever it would have on the source and does exactly the same. Missing: the members that are not moved (`c45_time_offset_violated`,
`c45_settings_violated`, `c45_tables_violated`). -/
theorem c45_moved_partial (dflt : Option Xs) (c : Ctor) (tr : List (Op × Status)) (o : Whole) (hr : Run dflt c tr o.obj) :
    SameMoved o.obj (moveCtor o).obj ∧
    (∀ d, SameMoved o.obj (moveAssign d o).obj) ∧
    (o.obj.allowConst = false → ∀ op, (∃ t, op = .setTrack (some t)) ∨ (∃ dims b, op = .setInitial dims b) →
      ∀ s1 s2, step dflt o.obj op = (s1, .ok) → evolveState dflt s1 = (s2, .ok) →
      ∃ m1 m2, step dflt (moveCtor o).obj op = (m1, .ok) ∧ evolveState dflt m1 = (m2, .ok) ∧ SameMoved s2 m2) := by
  refine ⟨?_, ?_, ?_⟩
  · constructor <;> rfl
  · intro d; constructor <;> rfl
  · intro hac op hop s1 s2 h1 h2
    -- the moved object after the call is related to the source after the call
    have hrel : ∃ m1, step dflt (moveCtor o).obj op = (m1, .ok) ∧ Sim s1 m1 ∧ m1.intInit = false := by
      rcases hop with ⟨t, rfl⟩ | ⟨dims, b, rfl⟩
      · simp only [step, setTrack, Prod.mk.injEq, and_true] at h1
        subst h1
        refine ⟨_, rfl, ⟨false, false, false, false, false, ?_⟩, rfl⟩
        simp only [moveCtor, hac]
      · simp only [step] at h1 ⊢
        have hg : initialGuards (moveCtor o).obj dims b = initialGuards o.obj dims b := rfl
        unfold setInitial at h1 ⊢
        rw [hg]
        split at h1
        · rename_i hgt
          have ht : (moveCtor o).obj.track = o.obj.track := rfl
          rw [ht]
          rw [if_pos hgt]
          split at h1
          · simp at h1
          · rename_i t htr
            simp only [Prod.mk.injEq, and_true] at h1
            subst h1
            refine ⟨_, rfl, ⟨false, false, false, false, false, ?_⟩, ?_⟩
            · simp only [iniH0, iniProj_eq, moveCtor, hac]
            · simp only [iniH0, iniProj_eq, moveCtor]
        · simp at h1
    obtain ⟨m1, hm1, hsim, hint⟩ := hrel
    have hr1 : Run dflt c (tr ++ [(op, .ok)]) s1 := Run.call tr o.obj s1 op .ok hr h1 (by simp)
    obtain ⟨q, b, t, dts, hb, ht, hq, ha, hc, hg⟩ := evolveState_chain dflt s1 s2 h2
    obtain ⟨i, a, b', c', f, he⟩ := hsim
    have hgm : evolveGuards m1 = true := by rw [he]; exact hg
    have hmb : m1.body = some b := by rw [he]; exact hb
    have hmt : m1.track = some t := by rw [he]; exact ht
    have hmain : evolveMain q b t = (s2, .ok) := by
      unfold evolveState at h2
      rw [hg, if_pos rfl, hb, ht] at h2
      dsimp only at h2
      rw [hq] at h2
      exact h2
    cases hii : s1.iint
    · have hq' : q = s1 := by rw [hii] at hq; simp at hq; exact hq.symm
      subst hq'
      have hbm : buffersOk m1 = true := by unfold buffersOk; rw [he]; simp [hii]
      obtain ⟨m2, k1, k2⟩ := evolveMain_sim ⟨i, a, b', c', f, he⟩ hbm hmain
      refine ⟨m1, m2, hm1, ?_, ?_⟩
      · unfold evolveState
        rw [hgm, if_pos rfl, hmb, hmt]
        dsimp only
        have : m1.iint = false := by rw [he]; exact hii
        rw [this]
        exact k1
      · obtain ⟨_, _, _, _, _, hfin⟩ := k2
        rw [hfin]; constructor <;> rfl
    · obtain ⟨n, k1, k2, k3⟩ := init_sim (dflt := dflt) ⟨i, a, b', c', f, he⟩ hint (run_tables hr1) hii hq
      obtain ⟨m2, k4, k5⟩ := evolveMain_sim k2 k3 hmain
      refine ⟨m1, m2, hm1, ?_, ?_⟩
      · unfold evolveState
        rw [hgm, if_pos rfl, hmb, hmt]
        dsimp only
        rw [k1]
        exact k4
      · obtain ⟨_, _, _, _, _, hfin⟩ := k5
        rw [hfin]; constructor <;> rfl

/-- An object with everything set. -/
def demoWhole : Whole :=
  ⟨(exec none (construct (bothModes xsA)).1 (setUp ++ [.initInteractions, .setAllowConst true])).1, 1 / 10, 2 / 10, true, 1 / 100, true,
    true, 3, 50⟩

/-- The third clause is met: a moved interacting object evolves again after its state is set. -/
example : (step none (exec none (construct (bothModes xsA)).1 (setUp ++ [.initInteractions])).1 (.setInitial [3, 2, 3] .flavor)).2 = .ok ∧
    (evolveState none (step none (exec none (construct (bothModes xsA)).1 (setUp ++ [.initInteractions])).1
      (.setInitial [3, 2, 3] .flavor)).1).2 = .ok := by decide +kernel

/-- C45, disagreement: a moved object that was ready to evolve is not: its clock offset is indeterminate until the track or the state is
set again; the source would have evolved. -/
theorem c45_time_offset_violated :
    ∃ tr, ∃ o : Whole, Run none (bothModes xsA) tr o.obj ∧ (evolveState none o.obj).2 = .ok ∧ (evolveState none (moveCtor o).obj).2 = .ub :=
  ⟨_, ⟨_, 1 / 10, 2 / 10, true, 1 / 100, true, true, 3, 50⟩,
    run_exec none (bothModes xsA) (setUp ++ [.initInteractions, .setAllowConst true]) (by decide +kernel) (by decide +kernel),
    by decide +kernel, by decide +kernel⟩

/-- C45, disagreement: the shortcut permission, the low-pass filter, the sources switch and the integration precision are lost in a move
construction, and a move assignment keeps those of the destination. -/
theorem c45_settings_violated :
    (∀ o : Whole, (moveCtor o).obj.allowConst = false ∧ (moveCtor o).lowCutoff = 0 ∧ (moveCtor o).lowScale = 0 ∧
      (moveCtor o).sources = false ∧ (moveCtor o).precision = 1 / 1000) ∧
    (∀ d o : Whole, (moveAssign d o).obj.allowConst = d.obj.allowConst ∧ (moveAssign d o).lowCutoff = d.lowCutoff ∧
      (moveAssign d o).lowScale = d.lowScale ∧ (moveAssign d o).sources = d.sources ∧ (moveAssign d o).precision = d.precision) ∧
    (∃ o : Whole, o.obj.allowConst = true ∧ o.lowCutoff ≠ 0 ∧ o.sources = true ∧ o.precision ≠ 1 / 1000) :=
  ⟨fun _ => ⟨rfl, rfl, rfl, rfl, rfl⟩, fun _ _ => ⟨rfl, rfl, rfl, rfl, rfl⟩, ⟨demoWhole, by decide +kernel⟩⟩

/-- C45, disagreement: a move assignment takes the interaction tables of the source and keeps the destination's mark that they are filled.
An object that has evolved with interactions is assigned one that has not yet: the source would have filled its tables and evolved, the
destination uses tables that do not exist. -/
theorem c45_tables_violated : ∃ tr tr', ∃ d o : Whole, Run none (bothModes xsA) tr d.obj ∧ Run none (bothModes xsA) tr' o.obj ∧
    (exec none o.obj [.setTrack (some ⟨7, 0, 100, 0⟩), .evolve]).2 = [.ok, .ok] ∧
    (exec none (moveAssign d o).obj [.setTrack (some ⟨7, 0, 100, 0⟩), .evolve]).2 = [.ok, .ub] :=
  ⟨_, _, { demoWhole with obj := _ }, { demoWhole with obj := _ }, run_exec none (bothModes xsA) (setUp ++ [.evolve]) (by decide +kernel) (by decide +kernel),
    run_exec none (bothModes xsA) setUp (by decide +kernel) (by decide +kernel), by decide +kernel, by decide +kernel⟩

end Verif.Life
