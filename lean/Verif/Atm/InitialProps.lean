import Verif.Atm.SetterProps

/-! C63: an atmospheric object on which no initial state has been set. `iinistate` has no initial value in the main constructor
(nuSQuIDS.h 1088, 1126-1153); `found` is what it happens to hold. -/

namespace Verif.Atm

open Life (Status Xs BodyRef TrackRef)

/-- No initial state has been set. -/
def NoInitialState (tr : List (AOp × Status)) : Prop := ∀ dims basis, (AOp.setInitial dims basis, Status.ok) ∉ tr

/-! ## Lemmas -/

theorem initInteractions_istate (dflt : Option Xs) (s : Life.Obj) : (Life.initInteractions dflt s).1.istate = s.istate :=
  (Life.initInteractions_same dflt s).istate

/-- A loop over nodes that all refuse refuses, if there are nodes. -/
theorem forAll_refuses {σ : Type} (f : σ → σ × Status) (l : List σ) (hne : l ≠ []) (h : ∀ x ∈ l, (f x).2 = .throws) :
    (forAll f l).2 = .throws := by
  match l with
  | [] => exact absurd rfl hne
  | x :: xs =>
    rcases e : f x with ⟨x', st⟩
    have := h x (List.mem_cons_self ..)
    rw [e] at this
    simp only at this
    subst this
    simp [forAll, e]

theorem evolveState_no_state (dflt : Option Xs) (s : Life.Obj) (h : s.istate = false) : Life.evolveState dflt s = (s, .throws) := by
  have : Life.evolveGuards s = false := by unfold Life.evolveGuards; simp [h]
  unfold Life.evolveState
  rw [this]
  rfl

theorem prepare_flags (dflt : Option Xs) (a : Sky) : (prepare dflt a).1.iini = a.iini ∧ (prepare dflt a).1.iatm = a.iatm ∧
    (prepare dflt a).1.threads = a.threads := by
  unfold prepare
  split
  · exact ⟨rfl, rfl, rfl⟩
  · split
    · split <;> exact ⟨rfl, rfl, rfl⟩
    · exact ⟨rfl, rfl, rfl⟩

theorem prepare_istate (dflt : Option Xs) (a : Sky) (h : ∀ x ∈ a.nodes, x.istate = false) : ∀ x ∈ (prepare dflt a).1.nodes, x.istate = false := by
  unfold prepare
  split
  · exact h
  · rename_i s l hl
    rw [hl] at h
    split
    · have h1 : (Life.initInteractions dflt s).1.istate = false := by
        rw [initInteractions_istate]; exact h s (List.mem_cons_self ..)
      rcases hi : Life.initInteractions dflt s with ⟨s', st⟩
      rw [hi] at h1
      have hn' : ∀ x ∈ s' :: l, x.istate = false := by
        intro x hx
        rcases List.mem_cons.1 hx with rfl | hx
        · exact h1
        · exact h x (List.mem_cons_of_mem _ hx)
      cases st
      · exact forAll_keeps _ _ (fun x hx => by rw [initInteractions_istate]; exact hx) _ hn'
      · exact hn'
      · exact hn'
    · exact fun x hx => h x (hl ▸ hx)

theorem setInitial_refused (s : Life.Obj) (d : List Nat) (b : Life.Basis) (h : (Life.setInitial s d b).2 ≠ .ok) :
    (Life.setInitial s d b).1 = s := by
  unfold Life.setInitial at h ⊢
  split
  · rename_i hg
    rw [if_pos hg] at h
    split
    · rfl
    · rename_i tr ht
      rw [ht] at h
      exact absurd rfl h
  · rfl

/-- A node on which everything but a state has been set. -/
structure Bare (c : Life.Ctor) (x : Life.Obj) : Prop where
  fixed : Life.Fixed (Life.construct c).1 x
  itrack : x.itrack = true
  ibody : x.ibody = true
  ienergy : x.ienergy = (Life.construct c).1.ienergy
  track : x.track.isSome = true
  istate : x.istate = false

/-- Bare nodes of one object accept an initial state all or none. -/
theorem setInitial_bare {c : Life.Ctor} {x y : Life.Obj} (hx : Bare c x) (hy : Bare c y) (d : List Nat) (b : Life.Basis) :
    (Life.setInitial x d b).2 = (Life.setInitial y d b).2 := by
  have hg : Life.initialGuards x d b = Life.initialGuards y d b := by
    unfold Life.initialGuards
    rw [hx.fixed.numneu, hx.fixed.nt, hx.fixed.ne, hx.fixed.nrhos, hx.itrack, hx.ibody, hx.ienergy,
      hy.fixed.numneu, hy.fixed.nt, hy.fixed.ne, hy.fixed.nrhos, hy.itrack, hy.ibody, hy.ienergy]
  have h1 := hx.track
  have h2 := hy.track
  unfold Life.setInitial
  rw [hg]
  split
  · rcases hx : x.track with _ | tx <;> rcases hy : y.track with _ | ty <;> simp_all
  · rfl

theorem Bare.same {c : Life.Ctor} {x y : Life.Obj} (h : Bare c x) (hs : Life.SameSetup x y) : Bare c y :=
  ⟨h.fixed.trans hs.toFixed, hs.itrack.trans h.itrack, hs.ibody.trans h.ibody, hs.ienergy.trans h.ienergy, hs.trackSome.trans h.track,
    hs.istate.trans h.istate⟩

theorem step_alike (dflt : Option Xs) (s : Life.Obj) (op : AOp) (o : Life.Op) (ho : op.forward = some o) :
    (Life.step dflt s o).1.ienergy = s.ienergy ∧ (Life.step dflt s o).1.itrack = s.itrack ∧
    (Life.step dflt s o).1.track = s.track ∧
    (Life.step dflt s o).1.ibody = (match op with | .setEarth _ => true | _ => s.ibody) ∧
    ((Life.step dflt s o).1.istate = s.istate ∨ (Life.step dflt s o).1.istate = false) := by
  cases op <;> simp only [AOp.forward, Option.some.injEq, reduceCtorEq] at ho <;> subst ho
  case setAngle i j v =>
    simp only [Life.step, Life.setAngle]
    split
    · simp
    · split <;> simp
  case setPhase i j v =>
    simp only [Life.step, Life.setPhase]
    split
    · simp
    · split <;> simp
  case setDm2 i v =>
    simp only [Life.step, Life.setDm2]
    split
    · simp
    · split <;> simp
  case setDefaults =>
    have ha : ∀ (s : Life.Obj) i j v, (Life.setAngle s i j v).1.ienergy = s.ienergy ∧ (Life.setAngle s i j v).1.itrack = s.itrack ∧
        (Life.setAngle s i j v).1.track = s.track ∧ (Life.setAngle s i j v).1.ibody = s.ibody ∧
        ((Life.setAngle s i j v).1.istate = s.istate ∨ (Life.setAngle s i j v).1.istate = false) := by
      intro s i j v
      simp only [Life.setAngle]
      split
      · simp
      · split <;> simp
    have hp : ∀ (s : Life.Obj) i j v, (Life.setPhase s i j v).1.ienergy = s.ienergy ∧ (Life.setPhase s i j v).1.itrack = s.itrack ∧
        (Life.setPhase s i j v).1.track = s.track ∧ (Life.setPhase s i j v).1.ibody = s.ibody ∧
        ((Life.setPhase s i j v).1.istate = s.istate ∨ (Life.setPhase s i j v).1.istate = false) := by
      intro s i j v
      simp only [Life.setPhase]
      split
      · simp
      · split <;> simp
    have hd : ∀ (s : Life.Obj) i v, (Life.setDm2 s i v).1.ienergy = s.ienergy ∧ (Life.setDm2 s i v).1.itrack = s.itrack ∧
        (Life.setDm2 s i v).1.track = s.track ∧ (Life.setDm2 s i v).1.ibody = s.ibody ∧
        ((Life.setDm2 s i v).1.istate = s.istate ∨ (Life.setDm2 s i v).1.istate = false) := by
      intro s i v
      simp only [Life.setDm2]
      split
      · simp
      · split <;> simp
    simp only [Life.step, Life.setDefaults]
    grind
  case setTau b => simp only [Life.step, Life.setTau]; split <;> simp
  case setGlashow b => simp only [Life.step, Life.setGlashow]; split <;> simp
  all_goals simp [Life.step, Life.setOsc, Life.setSources, Life.setBody]

theorem Bare.forward {c : Life.Ctor} {x : Life.Obj} (h : Bare c x) (dflt : Option Xs) (op : AOp) (o : Life.Op) (ho : op.forward = some o) :
    Bare c (Life.step dflt x o).1 := by
  obtain ⟨h1, h2, h3, h4, h5⟩ := step_alike dflt x op o ho
  refine ⟨h.fixed.trans (Life.step_fixed dflt x o), h2.trans h.itrack, ?_, h1.trans h.ienergy, by rw [h3]; exact h.track, ?_⟩
  · rw [h4]
    split
    · rfl
    · exact h.ibody
  · rcases h5 with h5 | h5
    · exact h5.trans h.istate
    · exact h5

theorem startNode_bare {c : Life.Ctor} {earth : BodyRef} {t : TrackRef} {s : Life.Obj} (h : startNode c earth t = (s, .ok)) : Bare c s := by
  obtain ⟨_, h2, _, h4⟩ := startNode_holds h
  unfold startNode at h
  rcases hc : Life.construct c with ⟨s0, st⟩
  rw [hc] at h
  cases st
  · simp only [Life.setBody, Life.setTrack, Prod.mk.injEq, and_true] at h
    subst h
    exact ⟨h2, rfl, rfl, by rw [hc], rfl, h4⟩
  · simp at h
  · simp at h

theorem startNodes_bare {c : Life.Ctor} {earth : BodyRef} : ∀ (trs : List TrackRef) (l : List Life.Obj), startNodes c earth trs = .ok l →
    ∀ s ∈ l, Bare c s := by
  intro trs
  induction trs with
  | nil =>
    intro l h
    simp only [startNodes, Outcome.ok.injEq] at h
    subst h
    simp
  | cons t ts ih =>
    intro l h
    unfold startNodes at h
    split at h
    · rename_i s hs
      rcases hr : startNodes c earth ts with l' | _ | _
      · rw [hr] at h
        simp only [Outcome.map, Outcome.ok.injEq] at h
        subst h
        intro x hx
        rcases List.mem_cons.1 hx with rfl | hx
        · exact startNode_bare hs
        · exact ih l' hr x hx
      · rw [hr] at h; simp [Outcome.map] at h
      · rw [hr] at h; simp [Outcome.map] at h
    · simp at h
    · simp at h

/-- The object while no initial state has been set. -/
structure Unset (found : Option Bool) (c : Life.Ctor) (a : Sky) : Prop where
  iini : a.iini = found
  iatm : a.iatm = true
  nonempty : a.nodes ≠ []
  bare : ∀ x ∈ a.nodes, Bare c x

theorem prepare_bare {c : Life.Ctor} (dflt : Option Xs) (a : Sky) (h : ∀ x ∈ a.nodes, Bare c x) : ∀ x ∈ (prepare dflt a).1.nodes, Bare c x := by
  unfold prepare
  split
  · exact h
  · rename_i s l hl
    rw [hl] at h
    split
    · have h1 : Bare c (Life.initInteractions dflt s).1 := (h s (List.mem_cons_self ..)).same (Life.initInteractions_same dflt s)
      rcases hi : Life.initInteractions dflt s with ⟨s', st⟩
      rw [hi] at h1
      have hn' : ∀ x ∈ s' :: l, Bare c x := by
        intro x hx
        rcases List.mem_cons.1 hx with rfl | hx
        · exact h1
        · exact h x (List.mem_cons_of_mem _ hx)
      cases st
      · refine forAll_keeps _ _ (fun x hx => ?_) _ hn'
        have h1 : Life.SameSetup x { x with tables := s'.tables } :=
          ⟨⟨rfl, rfl, rfl, rfl, rfl, rfl⟩, rfl, rfl, rfl, rfl, rfl, rfl, rfl, rfl, rfl, rfl, rfl, rfl, rfl, rfl, rfl, rfl, rfl, rfl, rfl, rfl⟩
        exact hx.same (h1.trans (Life.initInteractions_same dflt _))
      · exact hn'
      · exact hn'
    · exact fun x hx => h x (hl ▸ hx)

theorem nonempty_of_length {a a' : Sky} (h : a.nodes ≠ []) (hl : a'.nodes.length = a.nodes.length) : a'.nodes ≠ [] := by
  intro e
  rw [e] at hl
  exact h (List.length_eq_zero_iff.1 hl.symm)

theorem prepare_unset {found : Option Bool} {c : Life.Ctor} {a : Sky} (dflt : Option Xs) (h : Unset found c a) :
    Unset found c (prepare dflt a).1 :=
  ⟨(prepare_flags dflt a).1.trans h.iini, (prepare_flags dflt a).2.1.trans h.iatm, nonempty_of_length h.nonempty (prepare_length dflt a),
    prepare_bare dflt a h.bare⟩

theorem evolve_unset {found : Option Bool} {c : Life.Ctor} {a : Sky} (dflt : Option Xs) (order : List Nat) (h : Unset found c a) :
    Unset found c (evolve dflt a order).1 := by
  have hk : ∀ x : Life.Obj, Bare c x → Bare c (Life.evolveState dflt x).1 := fun x hx => hx.same (Life.evolveState_same dflt x)
  unfold evolve
  split
  · exact h
  · exact h
  · split
    · exact h
    · have hp := prepare_unset dflt h
      rcases hr : prepare dflt a with ⟨b, st⟩
      rw [hr] at hp
      cases st
      · dsimp only
        split
        · exact hp
        · dsimp only
          split
          · exact ⟨hp.iini, hp.iatm, nonempty_of_length hp.nonempty (forAll_length _ _), forAll_keeps _ _ hk _ hp.bare⟩
          · exact ⟨hp.iini, hp.iatm, nonempty_of_length hp.nonempty (inTasks_length _ _ _), inTasks_keeps _ _ hk _ _ hp.bare⟩
      · exact hp
      · exact hp

/-- A refused initial state leaves the object as it was. -/
theorem setInitial_unset {found : Option Bool} {c : Life.Ctor} {a : Sky} (h : Unset found c a) (dims : List Nat) (b : Life.Basis)
    (hno : (setInitial a dims b).2 ≠ .ok) : (setInitial a dims b).1 = a := by
  unfold setInitial at hno ⊢
  split
  · rfl
  · rename_i d hd
    rw [hd] at hno
    dsimp only at hno
    match hn : a.nodes with
    | [] => exact absurd hn h.nonempty
    | x :: xs =>
      by_cases hx : (Life.setInitial x d b).2 = .ok
      · exfalso
        have hall : ∀ y ∈ a.nodes, (Life.setInitial y d b).2 = .ok := fun y hy =>
          (setInitial_bare (h.bare y hy) (h.bare x (by rw [hn]; exact List.mem_cons_self ..)) d b).trans hx
        rw [forAll_all_ok _ _ hall] at hno
        exact hno rfl
      · have hr := setInitial_refused x d b hx
        rcases e : Life.setInitial x d b with ⟨x', st⟩
        rw [e] at hr hx
        simp only at hr
        subst hr
        have hf : forAll (fun s => Life.setInitial s d b) (x' :: xs) = (x' :: xs, st) := by
          unfold forAll
          dsimp only
          rw [e]
          cases st
          · exact absurd rfl hx
          · rfl
          · rfl
        rw [hf]
        cases st
        · exact absurd rfl hx
        · show ({ a with nodes := x' :: xs } : Sky) = a
          rw [← hn]
        · show ({ a with nodes := x' :: xs } : Sky) = a
          rw [← hn]

theorem astep_unset {found : Option Bool} {c : Life.Ctor} {a : Sky} (dflt : Option Xs) (h : Unset found c a) (op : AOp)
    (hno : ∀ d b, op = .setInitial d b → (astep dflt a op).2 ≠ .ok) : Unset found c (astep dflt a op).1 := by
  have hf : ∀ o, op.forward = some o → astep dflt a op = ({ a with nodes := (forAll (fun s => Life.step dflt s o) a.nodes).1 },
      (forAll (fun s => Life.step dflt s o) a.nodes).2) := by
    intro o ho
    cases op <;> simp only [AOp.forward, Option.some.injEq, reduceCtorEq] at ho <;> subst ho <;> rfl
  cases hfw : op.forward with
  | some o =>
    rw [hf o hfw]
    exact ⟨h.iini, h.iatm, nonempty_of_length h.nonempty (forAll_length _ _),
      forAll_keeps (fun s => Life.step dflt s o) _ (fun x hx => hx.forward dflt op o hfw) _ h.bare⟩
  | none =>
    cases op <;> simp only [AOp.forward, reduceCtorEq] at hfw
    case setXs x =>
      exact ⟨h.iini, h.iatm, nonempty_of_length (a' := (astep dflt a (.setXs x)).1) h.nonempty (forAll_length _ _),
        forAll_keeps (fun s => Life.setXs s x) _
          (fun y hy => ⟨hy.fixed.trans ⟨rfl, rfl, rfl, rfl, rfl, rfl⟩, hy.itrack, hy.ibody, hy.ienergy, hy.track, hy.istate⟩) _ h.bare⟩
    case setThreads n hw => exact ⟨h.iini, h.iatm, h.nonempty, h.bare⟩
    case setInitial d b =>
      have := setInitial_unset h d b (hno d b rfl)
      simp only [astep]
      rw [this]
      exact h
    case evolve order => exact evolve_unset dflt order h

theorem arun_unset {dflt : Option Xs} {found : Option Bool} {c : Life.Ctor} {earth : BodyRef} {trs : List TrackRef}
    {tr : List (AOp × Status)} {a : Sky} (hr : ARun dflt found c earth trs tr a) (hno : NoInitialState tr) : Unset found c a := by
  induction hr with
  | start a h =>
    have h0 := create_holds h
    refine ⟨h0.2.2.2.1, h0.2.2.2.2.1, h0.1.nonempty, ?_⟩
    unfold create at h
    split at h
    · simp at h
    · rename_i s nodes hs
      simp only [Outcome.ok.injEq] at h
      subst h
      exact startNodes_bare trs _ hs
    · simp at h
    · simp at h
  | call tr a a' op st hr h hst ih =>
    have hu := ih fun d b hm => hno d b (List.mem_append_left _ hm)
    have := astep_unset dflt hu op (by
      rintro d b rfl e
      rw [h] at e
      simp only at e
      subst e
      exact hno d b (List.mem_append_right _ (List.mem_singleton.2 rfl)))
    rw [h] at this
    exact this

/-! ## Theorems -/

/-- C63, partial: if the flag happens to be false, evolving and writing throw and nothing changes. -/
theorem c63_refuses_partial (dflt : Option Xs) (c : Life.Ctor) (earth : BodyRef) (trs : List TrackRef) (tr : List (AOp × Status)) (a : Sky)
    (hr : ARun dflt (some false) c earth trs tr a) (hno : NoInitialState tr) (order : List Nat) :
    evolve dflt a order = (a, .throws) ∧ write a = (.throws, false) := by
  have hu := arun_unset hr hno
  unfold evolve write
  rw [hu.iini]
  exact ⟨rfl, rfl⟩

/-- C63, partial: whatever value the flag happens to have, writing throws, and so does evolving with one thread (no node has a state).
Missing: the file may have been replaced before the exception, and several threads (`c63_threads_violated`); evaluation
(`c63_evaluates_violated`); and reading a member without a value is undefined (`c63_reads_uninitialised_violated`). -/
theorem c63_nodes_refuse_partial (dflt : Option Xs) (found : Bool) (c : Life.Ctor) (earth : BodyRef) (trs : List TrackRef)
    (tr : List (AOp × Status)) (a : Sky) (hr : ARun dflt (some found) c earth trs tr a) (hno : NoInitialState tr) (order : List Nat) :
    (write a).1 = .throws ∧ (a.threads = some 1 → (prepare dflt a).2 ≠ .ub → (evolve dflt a order).2 = .throws) := by
  have hu := arun_unset hr hno
  constructor
  · unfold write
    rw [hu.iini, hu.iatm]
    cases found
    · rfl
    · simp only [Bool.not_true, Bool.false_eq_true, if_false]
      refine forAll_refuses _ _ hu.nonempty fun x hx => ?_
      unfold writeNode
      have : Life.evolveGuards x = false := by unfold Life.evolveGuards; simp [(hu.bare x hx).istate]
      rw [this]
      rfl
  · intro ht hub
    unfold evolve
    rw [hu.iini, hu.iatm]
    cases found
    · rfl
    · simp only [Bool.not_true, Bool.false_eq_true, if_false]
      have hp := prepare_unset dflt hu
      have hth := (prepare_flags dflt a).2.2
      rcases e : prepare dflt a with ⟨b, st⟩
      rw [e] at hp hth hub
      cases st
      · dsimp only at hth ⊢
        rw [hth, ht]
        simp only [if_true]
        refine forAll_refuses _ _ hp.nonempty fun x hx => ?_
        rw [evolveState_no_state dflt x (hp.bare x hx).istate]
      · rfl
      · exact absurd rfl hub

/-- Both theorems apply to a new object. -/
example : ∃ a, twoSky (some true) = .ok a ∧ (write a).1 = .throws ∧ (evolve none a []).2 = .throws ∧ (prepare none a).2 = .ok :=
  ⟨_, rfl, by decide +kernel, by decide +kernel, by decide +kernel⟩

example : ∃ a, twoSky (some false) = .ok a ∧ (write a) = (.throws, false) ∧ (evolve none a []).2 = .throws :=
  ⟨_, rfl, by decide +kernel, by decide +kernel⟩

/-! ## Where the claim fails -/

/-- C63 fails: the flag the guards read was never given a value, so on a new object evolving and writing read an uninitialised member.
The same holds for `EvalFlavor`. -/
theorem c63_reads_uninitialised_violated (dflt : Option Xs) (c : Life.Ctor) (earth : BodyRef) (trs : List TrackRef) (tr : List (AOp × Status))
    (a : Sky) (hr : ARun dflt none c earth trs tr a) (hno : NoInitialState tr) (order : List Nat) :
    (evolve dflt a order).2 = .ub ∧ (write a).1 = .ub := by
  have hu := arun_unset hr hno
  unfold evolve write
  rw [hu.iini]
  exact ⟨rfl, rfl⟩

example : ∃ a, twoSky none = .ok a := ⟨_, rfl⟩

/-- C63 fails with several threads if the memory holds a true flag: `EvolveState` on a new object returns normally. Writing throws, but
only after replacing the file. -/
theorem c63_threads_violated : ∃ tr a, ARun none (some true) (.multi [5] 3 .neutrino false none) ⟨1, false⟩
      [⟨7, 0, 100, 0⟩, ⟨8, 0, 50, 0⟩] tr a ∧ NoInitialState tr ∧ FinishedIn 2 a.nodes.length [1, 0] ∧
    (evolve none a [1, 0]).2 = .ok ∧ write a = (.throws, true) := by
  have h : ∃ a, twoSky (some true) = .ok a ∧ (∀ st ∈ (aexec none a [.setThreads 2 0]).2, st ≠ .ub) ∧
      (aexec none a [.setThreads 2 0]).1.nodes.length = 2 ∧ (evolve none (aexec none a [.setThreads 2 0]).1 [1, 0]).2 = .ok ∧
      write (aexec none a [.setThreads 2 0]).1 = (.throws, true) :=
    ⟨_, rfl, by decide +kernel, by decide +kernel, by decide +kernel, by decide +kernel⟩
  obtain ⟨a, h1, h2, h3, h4, h5⟩ := h
  refine ⟨_, _, arun_append [.setThreads 2 0] [] a (.start a h1) h2, ?_, h3 ▸ two_finished, h4, h5⟩
  intro d b hm
  simp [aexec] at hm

end Verif.Atm
