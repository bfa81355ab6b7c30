import Verif.StateIO.Failed
import Verif.StateIO.ViolationProps

/-!
# Property C112: a state file that cannot be read does no harm
-/

namespace Verif.StateIO

open Life

/-! ## Lemmas -/

/-- The outcome of a call, forgetting what is left if it fails. -/
def Held.outcome (r : Held × Status) : Outcome State :=
  match r with
  | (h, .ok) => .ok h.st
  | (_, .throws) => .throws
  | (_, .ub) => .ub

theorem each_left {α : Type} (step : Obj → α → Obj × Status) : ∀ (l : List α) (s : Obj),
    lift (eachLeft step l s) = each (fun s a => lift (step s a)) l s
  | [], _ => rfl
  | a :: l, s => by
    unfold eachLeft each
    rcases h : step s a with ⟨s', _ | _ | _⟩
    · exact each_left step l s'
    · rfl
    · rfl

theorem readPair_left (f : File) (s : Obj) (p : Nat × Nat) : lift (readPairLeft f s p) = readPair f s p := by
  unfold readPairLeft readPair
  cases f.angles.lookup (thLabel p.1 p.2) with
  | none => rfl
  | some th =>
    dsimp only
    rcases h : setAngle s p.1 p.2 th with ⟨s', _ | _ | _⟩
    · show lift (match f.phases.lookup (deltaLabel p.1 p.2) with | none => _ | some d => _) = match f.phases.lookup (deltaLabel p.1 p.2) with
        | none => _ | some d => _
      cases f.phases.lookup (deltaLabel p.1 p.2) <;> rfl
    · rfl
    · rfl

theorem readMass_left (f : File) (s : Obj) (i : Nat) : lift (readMassLeft f s i) = readMass f s i := by
  unfold readMassLeft readMass
  cases f.masses.lookup (dmLabel i) <;> rfl

theorem pairs_left (f : File) (l : List (Nat × Nat)) (s : Obj) : lift (eachLeft (readPairLeft f) l s) = each (readPair f) l s := by
  rw [each_left]
  congr 1
  funext s p
  exact readPair_left f s p

theorem masses_left (f : File) (l : List Nat) (s : Obj) : lift (eachLeft (readMassLeft f) l s) = each (readMass f) l s := by
  rw [each_left]
  congr 1
  funext s p
  exact readMass_left f s p

/-- The setters change the parameters and clear `istate`. -/
def Tuned (s s' : Obj) : Prop := ∃ P b, s' = { s with params := P, istate := b } ∧ (s.istate = false → b = false)

theorem Tuned.refl (s : Obj) : Tuned s s := ⟨s.params, s.istate, rfl, id⟩

theorem Tuned.trans {s s' s'' : Obj} (h : Tuned s s') (h' : Tuned s' s'') : Tuned s s'' := by
  obtain ⟨P, b, rfl, hb⟩ := h
  obtain ⟨P', b', rfl, hb'⟩ := h'
  exact ⟨P', b', rfl, fun h => hb' (hb h)⟩

theorem tuned_angle (s : Obj) (i j : Nat) (v : Rat) : Tuned s (setAngle s i j v).1 := by
  unfold setAngle
  split
  · exact .refl s
  · split
    · exact ⟨_, _, rfl, fun _ => rfl⟩
    · exact .refl s

theorem tuned_phase (s : Obj) (i j : Nat) (v : Rat) : Tuned s (setPhase s i j v).1 := by
  unfold setPhase
  split
  · exact .refl s
  · split
    · exact ⟨_, _, rfl, fun _ => rfl⟩
    · exact .refl s

theorem tuned_dm2 (s : Obj) (i : Nat) (v : Rat) : Tuned s (setDm2 s i v).1 := by
  unfold setDm2
  split
  · exact .refl s
  · split
    · exact ⟨_, _, rfl, fun _ => rfl⟩
    · exact .refl s

theorem tuned_pair (f : File) (s : Obj) (p : Nat × Nat) : Tuned s (readPairLeft f s p).1 := by
  unfold readPairLeft
  cases f.angles.lookup (thLabel p.1 p.2) with
  | none => exact .refl s
  | some th =>
    dsimp only
    have ha := tuned_angle s p.1 p.2 th
    rcases h : setAngle s p.1 p.2 th with ⟨s', _ | _ | _⟩ <;> rw [h] at ha
    · show Tuned s (match f.phases.lookup (deltaLabel p.1 p.2) with | none => (s', Status.ub) | some d => setPhase s' p.1 p.2 d).1
      cases f.phases.lookup (deltaLabel p.1 p.2) with
      | none => exact ha
      | some d => exact ha.trans (tuned_phase s' _ _ d)
    · exact ha
    · exact ha

theorem tuned_mass (f : File) (s : Obj) (i : Nat) : Tuned s (readMassLeft f s i).1 := by
  unfold readMassLeft
  cases f.masses.lookup (dmLabel i) with
  | none => exact .refl s
  | some v => exact tuned_dm2 s i v

theorem tuned_each {α : Type} (step : Obj → α → Obj × Status) (ht : ∀ s a, Tuned s (step s a).1) : ∀ (l : List α) (s : Obj),
    Tuned s (eachLeft step l s).1
  | [], s => .refl s
  | a :: l, s => by
    unfold eachLeft
    have h1 := ht s a
    rcases h : step s a with ⟨s', _ | _ | _⟩ <;> rw [h] at h1
    · exact h1.trans (tuned_each step ht l s')
    · exact h1
    · exact h1

/-- What `init` leaves alone of the object. -/
theorem single_left (h : Held) (x : Rat) : lift ((initSingleLeft h x).1.st.obj, (initSingleLeft h x).2) = initSingle h.st.obj x ∧
    (initSingleLeft h x).1.st.comps = h.st.comps := by
  unfold initSingleLeft initSingle
  dsimp only
  split
  · exact ⟨rfl, rfl⟩
  · split
    · exact ⟨rfl, rfl⟩
    · split
      · exact ⟨rfl, rfl⟩
      · exact ⟨rfl, rfl⟩

theorem multi_left (h : Held) (E : List Rat) (x : Rat) : lift ((initMultiLeft h E x).1.st.obj, (initMultiLeft h E x).2) = initMulti h.st.obj E x ∧
    (initMultiLeft h E x).1.st.comps = h.st.comps := by
  unfold initMultiLeft initMulti
  dsimp only
  split
  · exact ⟨rfl, rfl⟩
  · split
    · exact ⟨rfl, rfl⟩
    · split
      · exact ⟨rfl, rfl⟩
      · exact ⟨rfl, rfl⟩

/-- The result of initialising an object of a possible number of flavours. -/
structure Made (h : Held) (h' : Held) : Prop where
  numneu : h'.st.obj.numneu = h.st.obj.numneu
  nt : h'.st.obj.nt = h.st.obj.nt
  iint : h'.st.obj.iint = h.st.obj.iint
  istate : h'.st.obj.istate = false
  comps : h'.st.comps = h.st.comps

theorem iniProj_istate {s : Obj} (h : s.istate = false) : (iniProj s).istate = false := by
  unfold iniProj
  simp [h]

theorem single_made (h : Held) (x : Rat) (h3 : 3 ≤ h.st.obj.numneu) (h6 : h.st.obj.numneu ≤ maxDim) (hb : h.st.obj.nt ≠ .both) :
    (initSingleLeft h x).2 = .ok ∧ Made h (initSingleLeft h x).1 ∧ Covers (initSingleLeft h x).1 ∧ (initSingleLeft h x).1.st.obj.ne = 1 := by
  unfold initSingleLeft
  dsimp only
  rw [if_neg hb, if_neg (not_lt.2 h6), if_neg (not_lt.2 h3), setDefaults_eq]
  rotate_left
  · exact h3
  dsimp only
  split
  · refine ⟨rfl, ⟨rfl, rfl, rfl, ?_, rfl⟩, ⟨rfl, le_refl _, le_refl _, fun hc => absurd hc hb, fun _ => ⟨le_refl _, le_refl _⟩⟩, rfl⟩
    exact iniProj_istate rfl
  · refine ⟨rfl, ⟨rfl, rfl, rfl, ?_, rfl⟩, ⟨rfl, le_refl _, le_refl _, fun hc => absurd hc hb, fun _ => ⟨le_refl _, le_refl _⟩⟩, rfl⟩
    exact iniProj_istate rfl

theorem multi_made (h : Held) (E : List Rat) (x : Rat) (h3 : 3 ≤ h.st.obj.numneu) (h6 : h.st.obj.numneu ≤ maxDim) (hE : E ≠ []) :
    (initMultiLeft h E x).2 = .ok ∧ Made h (initMultiLeft h E x).1 ∧ Covers (initMultiLeft h E x).1 := by
  unfold initMultiLeft
  dsimp only
  rw [if_neg (not_lt.2 h6), if_neg (not_lt.2 h3), if_neg hE, setDefaults_eq]
  rotate_left
  · exact h3
  refine ⟨rfl, ⟨rfl, rfl, rfl, iniProj_istate rfl, rfl⟩, ⟨rfl, le_refl _, le_refl _, fun hc => ?_, fun _ => ⟨?_, ?_⟩⟩⟩
  · show 2 ≤ if h.st.obj.nt = .both then 2 else 1
    rw [if_pos (show h.st.obj.nt = .both from hc)]
  · exact Nat.one_le_iff_ne_zero.2 fun hc => hE (List.length_eq_zero_iff.1 hc)
  · show 1 ≤ if h.st.obj.nt = .both then 2 else 1
    split <;> decide

/-- From the parameters to the end. -/
theorem rest_left (h : Held) (f : File) :
    Held.outcome (restLeft h f) = ((each (readPair f) (pairs h.st.obj.numneu) h.st.obj).bind fun s =>
      (each (readMass f) (masses s.numneu) s).bind fun s =>
        let s := { s with t := f.time, offset := some (f.time - f.track.x) }
        let s := iniH0 (iniProj s)
        Outcome.ok (⟨s, readComps f h.st.obj.nt h.st.comps⟩ : State)).bind fun s =>
      if s.obj.iint then
        match f.tables with
        | some t => .ok (readTail s (some t))
        | none => .throws
      else .ok (readTail s none) := by
  unfold restLeft
  rw [← pairs_left]
  have ht := tuned_each _ (tuned_pair f) (pairs h.st.obj.numneu) h.st.obj
  rcases hp : eachLeft (readPairLeft f) (pairs h.st.obj.numneu) h.st.obj with ⟨s, _ | _ | _⟩ <;> rw [hp] at ht
  · simp only [lift, Outcome.bind]
    rw [← masses_left]
    have ht' := tuned_each _ (tuned_mass f) (masses s.numneu) s
    rcases hm : eachLeft (readMassLeft f) (masses s.numneu) s with ⟨s', _ | _ | _⟩ <;> rw [hm] at ht'
    · have hnt : s'.nt = h.st.obj.nt := by
        obtain ⟨P, b, hs, _⟩ := ht
        obtain ⟨P', b', hs', _⟩ := ht'
        dsimp only at hs hs'
        rw [hs', hs]
      simp only [lift, hnt]
      split
      · cases f.tables <;> rfl
      · rfl
    · rfl
    · rfl
  · rfl
  · rfl

/-- Nothing after the initialisation sets `istate` unless the reading is complete, and nothing changes a size. -/
theorem rest_safe (h : Held) (f : File) (hs : h.st.obj.istate = false) (h' : Held) (e : Status) (hr : restLeft h f = (h', e)) :
    (Covers h → Covers h') ∧ (e ≠ .ok → h'.st.obj.istate = false) := by
  unfold restLeft at hr
  have ht := tuned_each _ (tuned_pair f) (pairs h.st.obj.numneu) h.st.obj
  rcases hp : eachLeft (readPairLeft f) (pairs h.st.obj.numneu) h.st.obj with ⟨s, e1⟩
  rw [hp] at ht
  simp only [hp] at hr
  obtain ⟨P, b, h1, h2⟩ := ht
  dsimp only at h1
  have hcov : ∀ s' : Obj, Tuned s s' → Covers h → Covers { h with st := { h.st with obj := s' } } := by
    rintro s' ⟨P', b', h3, _⟩ hc
    subst h3 h1
    exact ⟨hc.flavours, hc.nodes, hc.types, hc.both, hc.single⟩
  have his : s.istate = false := by rw [h1]; exact h2 hs
  have fail : ∀ (s' : Obj) (e' : Status), Tuned s s' → ((({ h with st := { h.st with obj := s' } } : Held), e') = (h', e)) →
      (Covers h → Covers h') ∧ (e ≠ .ok → h'.st.obj.istate = false) := by
    intro s' e' ht' heq
    have h5 := (Prod.mk.injEq _ _ _ _).mp heq
    rw [← h5.1]
    refine ⟨hcov s' ht', fun _ => ?_⟩
    obtain ⟨P', b', h6, h7⟩ := ht'
    show s'.istate = false
    rw [h6]
    exact h7 his
  cases e1 with
  | ok =>
    have ht' := tuned_each _ (tuned_mass f) (masses s.numneu) s
    rcases hm : eachLeft (readMassLeft f) (masses s.numneu) s with ⟨s', e2⟩
    rw [hm] at ht'
    simp only [hm] at hr
    cases e2 with
    | ok =>
      have hcov' := hcov s' ht'
      dsimp only at hr
      have htail : ∀ (t : Option Tables) (c : Nat → Nat → Nat → ℝ),
          Covers h → Covers { h with st := readTail ⟨iniH0 (iniProj { s' with t := f.time, offset := some (f.time - f.track.x) }), c⟩ t } := by
        intro t c hc
        have hcov' := hcov' hc
        cases t <;> exact ⟨hcov'.flavours, hcov'.nodes, hcov'.types, hcov'.both, hcov'.single⟩
      have his' : s'.istate = false := by
        obtain ⟨P', b', h6, h7⟩ := ht'
        dsimp only at h6
        rw [h6]
        exact h7 his
      split at hr
      · split at hr
        · have h5 := (Prod.mk.injEq _ _ _ _).mp hr
          rw [← h5.1]
          exact ⟨htail _ _, fun hne => absurd h5.2.symm hne⟩
        · have h5 := (Prod.mk.injEq _ _ _ _).mp hr
          rw [← h5.1]
          refine ⟨fun hc => ⟨(hcov' hc).flavours, (hcov' hc).nodes, (hcov' hc).types, (hcov' hc).both, (hcov' hc).single⟩, fun _ => ?_⟩
          exact iniProj_istate (s := { s' with t := f.time, offset := some (f.time - f.track.x) }) his'
      · have h5 := (Prod.mk.injEq _ _ _ _).mp hr
        rw [← h5.1]
        exact ⟨htail _ _, fun hne => absurd h5.2.symm hne⟩
    | throws => exact fail s' _ ht' hr
    | ub => exact fail s' _ ht' hr
  | throws => exact fail s _ (.refl s) hr
  | ub => exact fail s _ (.refl s) hr

/-- The object `init` gets (2302-2387). -/
def entered (h : Held) (src : Source) : Held :=
  { h with st := { h.st with obj := { header h.st.obj src with
    body := some src.file.body, track := some src.file.track, ne := src.file.energies.length, energies := src.file.energies } } }

theorem readLeft_understood {squids nusquids : Nat} {src : Source} (hu : Understood squids nusquids src) (h : Held) :
    readLeft squids nusquids h (some src) =
      match initLeft (entered h src) h.st.obj.inusquids h.st.obj.numneu src.file with
      | (h, .ok) => restLeft h src.file
      | r => r := by
  obtain ⟨h1, h2, h3, h4⟩ := hu
  unfold readLeft
  dsimp only
  rw [if_neg (not_lt.2 h1), if_neg (not_lt.2 h2), if_neg (by rw [h3]; decide), if_neg (by rw [h4]; decide)]
  rfl

theorem init_left (h : Held) (s0 : Obj) (f : File) :
    lift ((initLeft h s0.inusquids s0.numneu f).1.st.obj, (initLeft h s0.inusquids s0.numneu f).2) = readInit s0 h.st.obj f ∧
    (initLeft h s0.inusquids s0.numneu f).1.st.comps = h.st.comps := by
  unfold initLeft readInit
  generalize f.energies = E
  rcases E with _ | ⟨e, _ | ⟨e', l⟩⟩
  · exact multi_left h _ _
  · cases s0.inusquids with
    | true =>
      simp only [if_true]
      by_cases hc : s0.numneu = h.st.obj.numneu ∧ h.st.obj.nt ≠ .both
      · rw [if_pos hc, if_pos hc]
        exact ⟨rfl, rfl⟩
      · rw [if_neg hc, if_neg hc]
        exact ⟨rfl, rfl⟩
    | false =>
      simp only [Bool.false_eq_true, if_false]
      obtain ⟨h1, h2⟩ := single_left h f.timeInitial
      rw [← h1]
      rcases hs : initSingleLeft h f.timeInitial with ⟨h', _ | _ | _⟩ <;> rw [hs] at h2
      · exact ⟨rfl, h2⟩
      · exact ⟨rfl, h2⟩
      · exact ⟨rfl, h2⟩
  · exact multi_left h _ _

/-- The type of neutrinos and the number of flavours survive the initialisation. -/
theorem init_nt (h : Held) (inited : Bool) (n : Nat) (f : File) : (initLeft h inited n f).1.st.obj.nt = h.st.obj.nt := by
  have hm : ∀ E x, (initMultiLeft h E x).1.st.obj.nt = h.st.obj.nt := by
    intro E x
    unfold initMultiLeft
    dsimp only
    split
    · rfl
    · split
      · rfl
      · rename_i h3
        split
        · rfl
        · rw [setDefaults_eq]
          · rfl
          · exact not_lt.1 h3
  have hs : ∀ x, (initSingleLeft h x).1.st.obj.nt = h.st.obj.nt := by
    intro x
    unfold initSingleLeft
    dsimp only
    split
    · rfl
    · split
      · rfl
      · split
        · rfl
        · rename_i h3
          rw [setDefaults_eq]
          · dsimp only
            split <;> rfl
          · exact not_lt.1 h3
  have he : ∀ (s : Obj) (e : Rat), (setE s e).1.nt = s.nt := by
    intro s e
    unfold setE
    split <;> rfl
  unfold initLeft
  split
  · cases inited with
    | true =>
      simp only [if_true]
      split
      · rename_i h' heq
        split at heq
        · rw [← (Prod.mk.injEq _ _ _ _).mp heq |>.1]
          exact he _ _
        · exact absurd ((Prod.mk.injEq _ _ _ _).mp heq).2 (by decide)
      · split <;> rfl
    | false =>
      simp only [Bool.false_eq_true, if_false]
      split
      · rename_i h' heq
        have := hs f.timeInitial
        rw [heq] at this
        rw [← this]
        exact he _ _
      · exact hs _
  · exact hm _ _

/-- The initialisation does not set `istate`. -/
theorem init_istate (h : Held) (inited : Bool) (n : Nat) (f : File) (hi : h.st.obj.istate = false) :
    (initLeft h inited n f).1.st.obj.istate = false := by
  have hm : ∀ E x, (initMultiLeft h E x).1.st.obj.istate = false := by
    intro E x
    unfold initMultiLeft
    dsimp only
    split
    · exact hi
    · split
      · exact hi
      · rename_i h3
        split
        · exact hi
        · rw [setDefaults_eq]
          · exact iniProj_istate rfl
          · exact not_lt.1 h3
  have hs : ∀ x, (initSingleLeft h x).1.st.obj.istate = false := by
    intro x
    unfold initSingleLeft
    dsimp only
    split
    · exact hi
    · split
      · exact hi
      · split
        · exact hi
        · rename_i h3
          rw [setDefaults_eq]
          · dsimp only
            split <;> exact iniProj_istate rfl
          · exact not_lt.1 h3
  have he : ∀ (s : Obj) (e : Rat), s.istate = false → (setE s e).1.istate = false := by
    intro s e hs
    unfold setE
    split
    · exact hs
    · rfl
  unfold initLeft
  split
  · cases inited with
    | true =>
      simp only [if_true]
      split
      · rename_i h' heq
        split at heq
        · rw [← (Prod.mk.injEq _ _ _ _).mp heq |>.1]
          exact he _ _ hi
        · exact absurd ((Prod.mk.injEq _ _ _ _).mp heq).2 (by decide)
      · split <;> exact hi
    | false =>
      simp only [Bool.false_eq_true, if_false]
      split
      · rename_i h' heq
        have := hs f.timeInitial
        rw [heq] at this
        exact he _ _ this
      · exact hs _
  · exact hm _ _

theorem setE_made {h h' : Held} (hm : Made h h') (hc : Covers h') (hne : h'.st.obj.ne = 1) (e : Rat) :
    (setE h'.st.obj e).2 = .ok ∧ Made h { h' with st := { h'.st with obj := (setE h'.st.obj e).1 } } ∧
      Covers { h' with st := { h'.st with obj := (setE h'.st.obj e).1 } } := by
  unfold setE
  rw [if_neg (not_not.2 hne)]
  exact ⟨rfl, ⟨hm.numneu, hm.nt, hm.iint, rfl, hm.comps⟩, ⟨hc.flavours, hc.nodes, hc.types, hc.both, hc.single⟩⟩

/-- Initialising the object with a possible source, unless undefined. -/
theorem init_made (h : Held) (hc : Covers h) (src : Source) (hp : Possible src) :
    ∀ h' e, initLeft (entered h src) h.st.obj.inusquids h.st.obj.numneu src.file = (h', e) → e ≠ .ub →
      e = .ok ∧ Made (entered h src) h' ∧ Covers h' := by
  intro h' e he hu
  obtain ⟨h3, h6, hone⟩ := hp
  have keep : ∀ (r : Held × Status), r = (h', e) → r.2 = .ok ∧ Made (entered h src) r.1 ∧ Covers r.1 →
      e = .ok ∧ Made (entered h src) h' ∧ Covers h' := by
    intro r hr hx
    rw [hr] at hx
    exact hx
  unfold initLeft at he
  split at he
  · rename_i x hx
    have hb : (entered h src).st.obj.nt ≠ .both := hone (by rw [hx]; rfl)
    cases hi : h.st.obj.inusquids with
    | true =>
      rw [hi] at he
      simp only [if_true] at he
      by_cases hcond : h.st.obj.numneu = (entered h src).st.obj.numneu ∧ (entered h src).st.obj.nt ≠ .both
      · rw [if_pos hcond] at he
        refine keep _ he ?_
        have hne : (entered h src).st.obj.ne = 1 := by
          show src.file.energies.length = 1
          rw [hx]
          rfl
        dsimp only
        unfold setE
        rw [if_neg (not_not.2 hne)]
        refine ⟨rfl, ⟨rfl, rfl, rfl, rfl, rfl⟩, ⟨?_, ?_, hc.types, fun hcb => absurd hcb hb, fun _ => hc.single hi⟩⟩
        · show src.file.numneu = h.flavours
          rw [← hc.flavours]
          exact hcond.1.symm
        · show (entered h src).st.obj.ne ≤ h.nodes
          rw [hne]
          exact (hc.single hi).1
      · rw [if_neg hcond] at he
        exact absurd ((Prod.mk.injEq _ _ _ _).mp he).2.symm hu
    | false =>
      rw [hi] at he
      simp only [Bool.false_eq_true, if_false] at he
      obtain ⟨h1, h2, h4, h5⟩ := single_made (entered h src) src.file.timeInitial h3 h6 hb
      rcases hs : initSingleLeft (entered h src) src.file.timeInitial with ⟨h'', e''⟩
      rw [hs] at h1 h2 h4 h5 he
      dsimp only at h1
      subst h1
      exact keep _ he (setE_made h2 h4 h5 x)
  · by_cases hE : src.file.energies = []
    · have : (initMultiLeft (entered h src) src.file.energies src.file.timeInitial).2 = .ub := by
        unfold initMultiLeft
        dsimp only
        rw [if_neg (not_lt.2 (show (entered h src).st.obj.numneu ≤ maxDim from h6)),
          if_neg (not_lt.2 (show 3 ≤ (entered h src).st.obj.numneu from h3)), if_pos hE]
      rw [he] at this
      exact absurd this hu
    · exact keep _ he (multi_made (entered h src) _ _ h3 h6 hE)

/-- A reading that fails does not set `istate`. -/
theorem left_istate (squids nusquids : Nat) (h : Held) (hs : h.st.obj.istate = false) (found : Option Source) (h' : Held)
    (hr : readLeft squids nusquids h found = (h', .throws)) : h'.st.obj.istate = false := by
  have sub : ∀ x : Held × Status, x = (h', .throws) → x.1.st.obj.istate = false → h'.st.obj.istate = false := by
    intro x hx hi
    rw [hx] at hi
    exact hi
  cases found with
  | none => exact sub _ hr hs
  | some src =>
    by_cases hu : Understood squids nusquids src
    · rw [readLeft_understood hu] at hr
      have h1 := init_istate (entered h src) h.st.obj.inusquids h.st.obj.numneu src.file hs
      rcases hi : initLeft (entered h src) h.st.obj.inusquids h.st.obj.numneu src.file with ⟨h1', _ | _ | _⟩ <;> rw [hi] at hr h1
      · exact (rest_safe h1' src.file h1 h' _ hr).2 (by decide)
      · exact sub _ hr h1
      · exact sub _ hr h1
    · unfold readLeft at hr
      dsimp only at hr
      by_cases h1 : src.squidsVersion > squids
      · rw [if_pos h1] at hr
        exact sub _ hr hs
      · rw [if_neg h1] at hr
        by_cases h2 : src.nusquidsVersion > nusquids
        · rw [if_pos h2] at hr
          exact sub _ hr hs
        · rw [if_neg h2] at hr
          cases h3 : src.bodyOk
          · rw [h3] at hr
            exact sub _ hr hs
          · cases h4 : src.trackOk
            · rw [h3, h4] at hr
              exact sub _ hr hs
            · exact absurd ⟨not_lt.1 h1, not_lt.1 h2, h3, h4⟩ hu

/-! ## C112 -/

/-- C112: on sources this library understands, the reading with all its left-overs returns exactly when that of C57 does, with the same object. -/
theorem c112_reads (squids nusquids : Nat) (h : Held) (src : Source) (hnt : ntOfCode src.file.nt = some src.nt)
    (hu : Understood squids nusquids src) : Held.outcome (readLeft squids nusquids h (some src)) = read h.st src.file := by
  rw [readLeft_understood hu]
  unfold read readCommon
  rw [hnt]
  obtain ⟨h1, h2⟩ := init_left (entered h src) h.st.obj src.file
  have h3 := init_nt (entered h src) h.st.obj.inusquids h.st.obj.numneu src.file
  dsimp only
  have h1' : lift ((initLeft (entered h src) h.st.obj.inusquids h.st.obj.numneu src.file).1.st.obj,
      (initLeft (entered h src) h.st.obj.inusquids h.st.obj.numneu src.file).2) = readInit h.st.obj { h.st.obj with
        numneu := src.file.numneu, nt := src.nt, iint := src.file.interactions == "True", osc := src.file.oscillations != 0,
        tauregen := src.file.tau != 0, glashow := src.file.glashow != 0, body := some src.file.body, track := some src.file.track,
        ne := src.file.energies.length, energies := src.file.energies } src.file := h1
  rw [← h1']
  rcases hi : initLeft (entered h src) h.st.obj.inusquids h.st.obj.numneu src.file with ⟨h', _ | _ | _⟩ <;> rw [hi] at h2 h3
  · dsimp only
    rw [rest_left]
    dsimp only at h2 h3
    rw [h2, h3]
    rfl
  · rfl
  · rfl

/-- C112: if there is no such file or group, the object is as before. -/
theorem c112_not_found (squids nusquids : Nat) (h : Held) : readLeft squids nusquids h none = (h, .throws) := rfl

/-- C112, the part that holds of every reading that gets as far as initialising the object: its arrays have room for what its members count, and if
it fails the object refuses to be evolved until an initial state is set. Missing: readings that fail before, which leave members of the file with arrays
and state of the object. -/
theorem c112_late_partial (squids nusquids : Nat) (h : Held) (hc : Covers h) (src : Source) (hu : Understood squids nusquids src)
    (hp : Possible src) (h' : Held) (e : Status) (hr : readLeft squids nusquids h (some src) = (h', e)) (he : e ≠ .ub) :
    Covers h' ∧ (e = .throws → ∀ dflt, (h'.evolve dflt).2 = .throws) := by
  rw [readLeft_understood hu] at hr
  rcases hi : initLeft (entered h src) h.st.obj.inusquids h.st.obj.numneu src.file with ⟨h1, e1⟩
  rw [hi] at hr
  by_cases he1 : e1 = .ub
  · subst he1
    exact absurd ((Prod.mk.injEq _ _ _ _).mp hr).2.symm he
  · obtain ⟨h2, h3, h4⟩ := init_made h hc src hp h1 e1 hi he1
    subst h2
    obtain ⟨h5, h6⟩ := rest_safe h1 src.file h3.istate h' e hr
    refine ⟨h5 h4, fun ht dflt => ?_⟩
    have h7 := h6 (by rw [ht]; decide)
    have hg : evolveGuards h'.st.obj = false := by simp [evolveGuards, h7]
    unfold Held.evolve evolveState
    rw [hg]
    rfl

/-- C112: an object that was not ready to be evolved is not ready after a failed reading either. -/
theorem c112_not_ready (squids nusquids : Nat) (h : Held) (hs : h.st.obj.istate = false) (found : Option Source) (h' : Held)
    (hr : readLeft squids nusquids h found = (h', .throws)) : ∀ dflt, (h'.evolve dflt).2 = .throws := by
  intro dflt
  have goal := left_istate squids nusquids h hs found h' hr
  have hg : evolveGuards h'.st.obj = false := by simp [evolveGuards, goal]
  unfold Held.evolve evolveState
  rw [hg]
  rfl

/-- C112: a file that is not understood, but describes an object of the same kind with the same switches, leaves the object as it was, except that if
its track is unknown its body stays. -/
theorem c112_same_kind (squids nusquids : Nat) (h : Held) (src : Source) (hk : SameKind h src) (hu : ¬Understood squids nusquids src) :
    ∃ h', readLeft squids nusquids h (some src) = (h', .throws) ∧
      (h' = h ∨ src.trackOk = false ∧ h' = { h with st := { h.st with obj := { h.st.obj with body := some src.file.body } } }) := by
  unfold readLeft
  dsimp only
  unfold SameKind at hk
  rw [hk]
  by_cases h1 : src.squidsVersion > squids
  · rw [if_pos h1]
    exact ⟨_, rfl, .inl rfl⟩
  · rw [if_neg h1]
    by_cases h2 : src.nusquidsVersion > nusquids
    · rw [if_pos h2]
      exact ⟨_, rfl, .inl rfl⟩
    · rw [if_neg h2]
      cases h3 : src.bodyOk
      · exact ⟨_, rfl, .inl rfl⟩
      · cases h4 : src.trackOk
        · exact ⟨_, rfl, .inr ⟨rfl, rfl⟩⟩
        · exact absurd ⟨not_lt.1 h1, not_lt.1 h2, h3, h4⟩ hu

/-- If there is room in the arrays, evolving is that of the life cycle. -/
theorem evolve_covered {h : Held} (hc : Covers h) (dflt : Option Xs) : h.evolve dflt = evolveState dflt h.st.obj := by
  unfold Held.evolve
  rw [if_neg]
  simp [hc.flavours, hc.nodes, hc.types]

/-! ## An object in use -/

def inUseCtor : Ctor := .multi [1, 2] 3 .neutrino false none
def inUseOps : List Op := [.setBody (some ⟨1, false⟩), .setTrack (some ⟨7, 0, 100, 0⟩), .setInitial [2, 3] .flavor]
@[irreducible] def inUseObj : Obj := (exec none (construct inUseCtor).1 inUseOps).1

theorem inUse_run : Run none inUseCtor (inUseOps.zip (exec none (construct inUseCtor).1 inUseOps).2) inUseObj := by
  unfold inUseObj
  exact run_exec none inUseCtor inUseOps (by decide +kernel) (by decide +kernel)

noncomputable def inUse : Held := ⟨⟨inUseObj, fun _ _ _ => 0⟩, 3, 2, 1⟩

theorem inUse_covers : Covers inUse where
  flavours := by show inUseObj.numneu = 3; decide +kernel
  nodes := by show inUseObj.ne ≤ 2; decide +kernel
  types := by show inUseObj.nrhos ≤ 1; decide +kernel
  both := fun h => absurd (show inUseObj.nt = .both from h) (by decide +kernel)
  single := fun h => absurd (show inUseObj.inusquids = true from h) (by decide +kernel)

theorem inUse_facts : evolveGuards inUseObj = true ∧ inUseObj.ienergy = true ∧ inUseObj.basis = .interaction ∧ inUseObj.osc = true ∧
    inUseObj.energies = [1, 2] ∧ inUseObj.nt = .neutrino := by decide +kernel

theorem inRange_first (o : Obj) (h : o.energies = [1, 2]) : inRange o 1 = .ok true := by
  unfold inRange
  rw [h]
  decide +kernel

/-- A file of `n` flavours, with what is asked for. -/
noncomputable def fileWith (n : Nat) (osc : Int) (interactions : String) (body : BodyRef) : File :=
  { energies := [1, 2], numneu := n, nt := 1, interactions := interactions, oscillations := osc, tau := 0, glashow := 0, time := 0, timeInitial := 0,
    angles := (pairs n).map fun p => (thLabel p.1 p.2, 0), phases := (pairs n).map fun p => (deltaLabel p.1 p.2, 0),
    masses := (StateIO.masses n).map fun i => (dmLabel i, 0), neustate := ⟨2, n * n, []⟩, aneustate := ⟨2, n * n, []⟩,
    track := ⟨8, 0, 50, 0⟩, body := body, tables := none }

/-- The object in use reads a file of four flavours with interactions and without tables: that fails at the end, the arrays are those of four flavours,
and the object is not evolved. -/
example : ∃ h', readLeft 1 1 inUse (some ⟨fileWith 4 1 "True" ⟨2, false⟩, .neutrino, 1, 1, true, true⟩) = (h', .throws) ∧ h'.flavours = 4 ∧ Covers h' ∧
    ∀ dflt, (h'.evolve dflt).2 = .throws := by
  have h1 : (readLeft 1 1 inUse (some ⟨fileWith 4 1 "True" ⟨2, false⟩, .neutrino, 1, 1, true, true⟩)).2 = .throws := by decide +kernel
  have h2 : (readLeft 1 1 inUse (some ⟨fileWith 4 1 "True" ⟨2, false⟩, .neutrino, 1, 1, true, true⟩)).1.flavours = 4 := by decide +kernel
  rcases hr : readLeft 1 1 inUse (some ⟨fileWith 4 1 "True" ⟨2, false⟩, .neutrino, 1, 1, true, true⟩) with ⟨h', e⟩
  rw [hr] at h1 h2
  dsimp only at h1 h2
  subst h1
  obtain ⟨h3, h4⟩ := c112_late_partial 1 1 inUse inUse_covers _ ⟨le_refl _, le_refl _, rfl, rfl⟩ ⟨by decide, by decide, by decide⟩ h' _ hr (by decide)
  exact ⟨h', rfl, h2, h3, h4 rfl⟩

/-- For `c112_reads`: the same without interactions is read, as C57 says. -/
example : ∃ s, read inUse.st (fileWith 4 1 "False" ⟨2, false⟩) = .ok s ∧
    Held.outcome (readLeft 1 1 inUse (some ⟨fileWith 4 1 "False" ⟨2, false⟩, .neutrino, 1, 1, true, true⟩)) = .ok s := by
  have h1 : (readLeft 1 1 inUse (some ⟨fileWith 4 1 "False" ⟨2, false⟩, .neutrino, 1, 1, true, true⟩)).2 = .ok := by decide +kernel
  have h2 := c112_reads 1 1 inUse ⟨fileWith 4 1 "False" ⟨2, false⟩, .neutrino, 1, 1, true, true⟩ rfl ⟨le_refl _, le_refl _, rfl, rfl⟩
  rw [← h2]
  rcases hr : readLeft 1 1 inUse (some ⟨fileWith 4 1 "False" ⟨2, false⟩, .neutrino, 1, 1, true, true⟩) with ⟨h', e⟩
  rw [hr] at h1
  dsimp only at h1
  subst h1
  exact ⟨h'.st, rfl, rfl⟩

/-- For `c112_not_ready`: an object without initial state and a file of a newer version. -/
example : ∃ h' : Held, readLeft 1 1 ⟨⟨(construct inUseCtor).1, fun _ _ _ => 0⟩, 3, 2, 1⟩
    (some ⟨fileWith 4 1 "True" ⟨2, false⟩, .neutrino, 1, 2, true, true⟩) = (h', .throws) ∧ ∀ dflt, (h'.evolve dflt).2 = .throws := by
  have h1 : readLeft 1 1 ⟨⟨(construct inUseCtor).1, fun _ _ _ => 0⟩, 3, 2, 1⟩
      (some ⟨fileWith 4 1 "True" ⟨2, false⟩, .neutrino, 1, 2, true, true⟩) = (_, .throws) := rfl
  exact ⟨_, h1, c112_not_ready 1 1 ⟨⟨(construct inUseCtor).1, fun _ _ _ => 0⟩, 3, 2, 1⟩
    (by show (construct inUseCtor).1.istate = false; decide +kernel) _ _ h1⟩

/-- For `c112_same_kind`: the file of the same object in a newer version. -/
example (src : Source) (hk : SameKind inUse src) (ht : src.trackOk = true) (hv : 1 < src.nusquidsVersion) :
    readLeft 1 1 inUse (some src) = (inUse, .throws) := by
  obtain ⟨h', h1, h2⟩ := c112_same_kind 1 1 inUse src hk (fun hu => absurd hu.2.1 (not_le.2 hv))
  rcases h2 with h2 | ⟨h2, _⟩
  · rw [h1, h2]
  · rw [ht] at h2
    cases h2

/-! ## Where the claim fails -/

/-- C112 fails for files of newer versions: an object that could be evolved has, after the refusal, the number of flavours of the file and the
projectors it had, and evolving it goes beyond them. -/
theorem c112_flavours_violated (squids nusquids : Nat) (h : Held) (hg : evolveGuards h.st.obj = true) (hb : h.st.obj.basis ≠ .mass)
    (src : Source) (hv : squids < src.squidsVersion ∨ nusquids < src.nusquidsVersion) (hn : h.flavours < src.file.numneu)
    (ho : src.file.oscillations ≠ 0) :
    ∃ h', readLeft squids nusquids h (some src) = (h', .throws) ∧ ∀ dflt, (h'.evolve dflt).2 = .ub := by
  refine ⟨{ h with st := { h.st with obj := header h.st.obj src } }, ?_, fun dflt => ?_⟩
  · unfold readLeft
    dsimp only
    by_cases h1 : src.squidsVersion > squids
    · rw [if_pos h1]
    · rw [if_neg h1, if_pos (hv.resolve_left h1)]
  · unfold Held.evolve
    rw [if_pos]
    have h1 : evolveGuards (header h.st.obj src) = true := hg
    have h2 : goesOver (header h.st.obj src) = true := by
      simp only [goesOver, header]
      simp [ho, hb]
    have h3 : ¬(header h.st.obj src).numneu ≤ h.flavours := not_le.2 hn
    simp [h1, h2, h3]

example : (inUse.evolve none).2 = .ok ∧
    ∃ h', readLeft 1 1 inUse (some ⟨fileWith 4 1 "False" ⟨2, false⟩, .neutrino, 1, 2, true, true⟩) = (h', .throws) ∧
      ∀ dflt, (h'.evolve dflt).2 = .ub := by
  obtain ⟨h1, _, h2, _⟩ := inUse_facts
  refine ⟨by rw [evolve_covered inUse_covers]; show (evolveState none inUseObj).2 = _; decide +kernel, ?_⟩
  exact c112_flavours_violated 1 1 inUse h1 (by show inUseObj.basis ≠ _; rw [h2]; decide) _ (.inr (by decide)) (by show 3 < 4; decide) (by decide)

/-- C112 fails in the same way for the type: an object of neutrinos that refused to be asked for antineutrinos is, after the refusal of a file of both,
read beyond its projectors. -/
theorem c112_types_violated (squids nusquids : Nat) (h : Held) (he : h.st.obj.ienergy = true) (hnt : h.st.obj.nt ≠ .both) (ht : h.types = 1)
    (src : Source) (hv : squids < src.squidsVersion ∨ nusquids < src.nusquidsVersion) (hs : src.nt = .both) (e : Rat)
    (hr : inRange h.st.obj e = .ok true) :
    ∃ h', readLeft squids nusquids h (some src) = (h', .throws) ∧ ∀ flv, h.evalFlavor flv e 1 = .throws ∧ h'.evalFlavor flv e 1 = .ub := by
  refine ⟨{ h with st := { h.st with obj := header h.st.obj src } }, ?_, fun flv => ⟨?_, ?_⟩⟩
  · unfold readLeft
    dsimp only
    by_cases h1 : src.squidsVersion > squids
    · rw [if_pos h1]
    · rw [if_neg h1, if_pos (hv.resolve_left h1)]
  · unfold Held.evalFlavor
    simp [he, hnt]
  · have h1 : inRange (header h.st.obj src) e = .ok true := hr
    have h2 : (header h.st.obj src).nt = .both := hs
    have h3 : (header h.st.obj src).ienergy = true := he
    unfold Held.evalFlavor
    simp [h1, h2, h3, ht, Outcome.bind]

example : ∃ h', readLeft 1 1 inUse (some ⟨fileWith 3 1 "False" ⟨2, false⟩, .both, 2, 1, true, true⟩) = (h', .throws) ∧
    ∀ flv, inUse.evalFlavor flv 1 1 = .throws ∧ h'.evalFlavor flv 1 1 = .ub := by
  obtain ⟨_, h1, _, _, h2, h3⟩ := inUse_facts
  exact c112_types_violated 1 1 inUse h1 (by show inUseObj.nt ≠ _; rw [h3]; decide) rfl _ (.inl (by decide)) rfl 1
    (inRange_first inUseObj h2)

/-- C112 fails for the switches: after the refusal of a file of the same kind but without oscillations the object can still be evolved, and does
not oscillate. -/
theorem c112_switches_violated : ∃ (h : Held) (src : Source) (h' : Held), Covers h ∧ src.file.numneu = h.st.obj.numneu ∧ src.nt = h.st.obj.nt ∧
    readLeft 1 1 h (some src) = (h', .throws) ∧ (h.evolve none).2 = .ok ∧ (h'.evolve none).2 = .ok ∧
    ((h.evolve none).1.log.map (·.osc)) = [true] ∧ ((h'.evolve none).1.log.map (·.osc)) = [false] := by
  have hh : ∀ o : Obj, header o ⟨fileWith 3 0 "False" ⟨2, false⟩, .neutrino, 2, 1, true, true⟩ =
      { o with numneu := 3, nt := .neutrino, iint := false, osc := false, tauregen := false, glashow := false } := fun o => rfl
  have hc : Covers { inUse with st := { inUse.st with obj := { inUseObj with
      numneu := 3, nt := .neutrino, iint := false, osc := false, tauregen := false, glashow := false } } } :=
    ⟨rfl, inUse_covers.nodes, inUse_covers.types, fun h => absurd h (by decide), inUse_covers.single⟩
  refine ⟨inUse, ⟨fileWith 3 0 "False" ⟨2, false⟩, .neutrino, 2, 1, true, true⟩, _, inUse_covers, ?_, ?_,
    (show readLeft 1 1 inUse (some _) = ({ inUse with st := { inUse.st with obj := { inUseObj with
      numneu := 3, nt := .neutrino, iint := false, osc := false, tauregen := false, glashow := false } } }, .throws) from rfl), ?_, ?_, ?_, ?_⟩
  · show 3 = inUseObj.numneu
    decide +kernel
  · exact inUse_facts.2.2.2.2.2.symm
  · rw [evolve_covered inUse_covers]
    show (evolveState none inUseObj).2 = _
    decide +kernel
  · rw [evolve_covered hc]
    show (evolveState none { inUseObj with
      numneu := 3, nt := .neutrino, iint := false, osc := false, tauregen := false, glashow := false }).2 = _
    decide +kernel
  · rw [evolve_covered inUse_covers]
    show (evolveState none inUseObj).1.log.map _ = _
    decide +kernel
  · rw [evolve_covered hc]
    show (evolveState none { inUseObj with
      numneu := 3, nt := .neutrino, iint := false, osc := false, tauregen := false, glashow := false }).1.log.map _ = _
    decide +kernel

/-- C112 fails for the body: after the refusal of a file whose track is unknown the object goes through the body of the file, along its own track. -/
theorem c112_body_violated : ∃ (h : Held) (src : Source) (h' : Held), Covers h ∧ SameKind h src ∧
    readLeft 1 1 h (some src) = (h', .throws) ∧ (h'.evolve none).2 = .ok ∧
    (h.evolve none).1.log.map (fun s => (s.body, s.track)) = [(some ⟨1, false⟩, some ⟨7, 0, 100, 0⟩)] ∧
    (h'.evolve none).1.log.map (fun s => (s.body, s.track)) = [(some ⟨2, false⟩, some ⟨7, 0, 100, 0⟩)] := by
  have hk : ∀ o : Obj, o.numneu = 3 → o.nt = .neutrino → o.iint = false → o.osc = true → o.tauregen = false → o.glashow = false →
      header o ⟨fileWith 3 1 "False" ⟨2, false⟩, .neutrino, 1, 1, true, false⟩ = o := by
    intro o h1 h2 h3 h4 h5 h6
    cases o
    dsimp only at h1 h2 h3 h4 h5 h6
    subst h1 h2 h3 h4 h5 h6
    rfl
  have hsame : header inUseObj ⟨fileWith 3 1 "False" ⟨2, false⟩, .neutrino, 1, 1, true, false⟩ = inUseObj :=
    hk inUseObj (by decide +kernel) (by decide +kernel) (by decide +kernel) (by decide +kernel) (by decide +kernel) (by decide +kernel)
  have hc : Covers { inUse with st := { inUse.st with obj := { inUseObj with body := some ⟨2, false⟩ } } } :=
    ⟨inUse_covers.flavours, inUse_covers.nodes, inUse_covers.types, inUse_covers.both, inUse_covers.single⟩
  refine ⟨inUse, ⟨fileWith 3 1 "False" ⟨2, false⟩, .neutrino, 1, 1, true, false⟩,
    { inUse with st := { inUse.st with obj := { inUseObj with body := some ⟨2, false⟩ } } }, inUse_covers, hsame, ?_, ?_, ?_, ?_⟩
  · unfold readLeft
    dsimp only
    rw [if_neg (by decide), if_neg (by decide), if_neg (by decide), if_pos (by decide)]
    rw [show header inUse.st.obj _ = inUseObj from hsame]
    rfl
  · rw [evolve_covered hc]
    show (evolveState none { inUseObj with body := some ⟨2, false⟩ }).2 = _
    decide +kernel
  · rw [evolve_covered inUse_covers]
    show (evolveState none inUseObj).1.log.map _ = _
    decide +kernel
  · rw [evolve_covered hc]
    show (evolveState none { inUseObj with body := some ⟨2, false⟩ }).1.log.map _ = _
    decide +kernel

end Verif.StateIO
