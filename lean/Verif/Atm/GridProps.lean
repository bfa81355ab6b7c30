import Verif.Atm.InitialProps
import Verif.Lifecycle.EvolutionProps
import Mathlib.Algebra.Order.Field.Rat
import Mathlib.Tactic.Linarith
import Mathlib.Tactic.ByContra

/-! C93: every zenith keeps its own node and track, the initial state must have the shape of the grid, and evolution takes every node along
its own track. -/

namespace Verif.Atm

open Life (Status Xs BodyRef TrackRef NT Basis)

/-! ## Specification -/

/-- Which track it is: its identity, where it starts and where it ends. -/
def place (t : TrackRef) : Nat × Rat × Rat := (t.id, t.xini, t.xend)

/-- The shape of an initial state for `z` zeniths: zeniths, energies, neutrino kinds if both are evolved, flavours. Without energies there is none. -/
def GridShape (c : Life.Ctor) (z : Nat) (dims : List Nat) : Prop :=
  match c with
  | .single _ _ => False
  | .multi E n nt _ _ => dims = match nt with
    | .both => [z, E.length, 2, n]
    | _ => [z, E.length, n]

/-! ## Lemmas -/

theorem forAll_keeps_at {σ : Type} (f : σ → σ × Status) (P : Nat → σ → Prop) (hf : ∀ k x, P k x → P k (f x).1) : ∀ (l : List σ) (o : Nat),
    (∀ (k : Nat) x, l[k]? = some x → P (o + k) x) → ∀ k x, (forAll f l).1[k]? = some x → P (o + k) x := by
  intro l
  induction l with
  | nil => intro o h k x hk; simp [forAll] at hk
  | cons a l ih =>
    intro o h k x hk
    have h0 : P o (f a).1 := hf _ _ (by simpa using h 0 a rfl)
    unfold forAll at hk
    rcases hx : f a with ⟨a', st⟩
    rw [hx] at hk h0
    cases k with
    | zero => cases st <;> (simp only [List.getElem?_cons_zero, Option.some.injEq] at hk; subst hk; exact h0)
    | succ k =>
      have h1 : ∀ (k : Nat) x, l[k]? = some x → P (o + 1 + k) x := fun k x hk => by
        have := h (k + 1) x (by simpa using hk)
        rwa [show o + (k + 1) = o + 1 + k by omega] at this
      rw [show o + (k + 1) = o + 1 + k by omega]
      cases st
      · exact ih (o + 1) h1 k x (by simpa using hk)
      · exact h1 k x (by simpa using hk)
      · exact h1 k x (by simpa using hk)

theorem inTasks_keeps_at {σ : Type} (f : σ → σ × Status) (P : Nat → σ → Prop) (hf : ∀ k x, P k x → P k (f x).1) : ∀ (js : List Nat) (l : List σ),
    (∀ (k : Nat) x, l[k]? = some x → P k x) → ∀ k x, (inTasks f js l).1[k]? = some x → P k x := by
  intro js
  induction js with
  | nil => intro l h; exact h
  | cons j js ih =>
    intro l h
    unfold inTasks
    split
    · exact h
    · rename_i a ha
      have h0 := hf _ _ (h j a ha)
      split
      · exact h
      · rename_i a' st _ hx
        rw [hx] at h0
        refine ih _ fun k x hk => ?_
        by_cases hjk : j = k
        · subst hjk
          rw [List.getElem?_set_self (by exact (List.getElem?_eq_some_iff.1 ha).1)] at hk
          cases hk
          exact h0
        · rw [List.getElem?_set_ne hjk] at hk
          exact h k x hk

/-- A node on its track. -/
structure OnTrack (c : Life.Ctor) (t : Option TrackRef) (x : Life.Obj) : Prop where
  fixed : Life.Fixed (Life.construct c).1 x
  itrack : x.itrack = true
  ibody : x.ibody = true
  ienergy : x.ienergy = (Life.construct c).1.ienergy
  track : x.track.map place = t.map place
  hasTrack : x.track.isSome = true

theorem OnTrack.same {c : Life.Ctor} {t : Option TrackRef} {x y : Life.Obj} (h : OnTrack c t x) (hs : Life.SameSetup x y) : OnTrack c t y :=
  ⟨h.fixed.trans hs.toFixed, hs.itrack.trans h.itrack, hs.ibody.trans h.ibody, hs.ienergy.trans h.ienergy, hs.trackIni.trans h.track,
    hs.trackSome.trans h.hasTrack⟩

theorem OnTrack.forward {c : Life.Ctor} {t : Option TrackRef} {x : Life.Obj} (h : OnTrack c t x) (dflt : Option Xs) (op : AOp) (o : Life.Op)
    (ho : op.forward = some o) : OnTrack c t (Life.step dflt x o).1 := by
  obtain ⟨h1, h2, h3, h4, -⟩ := step_alike dflt x op o ho
  refine ⟨h.fixed.trans (Life.step_fixed dflt x o), h2.trans h.itrack, ?_, h1.trans h.ienergy, by rw [h3]; exact h.track, by rw [h3]; exact h.hasTrack⟩
  rw [h4]
  split
  · rfl
  · exact h.ibody

theorem iniProj_keeps (s : Life.Obj) : (Life.iniH0 (Life.iniProj s)).track = s.track ∧ (Life.iniH0 (Life.iniProj s)).itrack = s.itrack ∧
    (Life.iniH0 (Life.iniProj s)).ibody = s.ibody ∧ (Life.iniH0 (Life.iniProj s)).ienergy = s.ienergy ∧ (Life.iniH0 (Life.iniProj s)).t = s.t := by
  rw [Life.iniProj_eq]
  simp [Life.iniH0]

/-- What an accepted initial state leaves. -/
theorem setInitial_ok {s : Life.Obj} {d : List Nat} {b : Basis} (h : (Life.setInitial s d b).2 = .ok) : ∃ t, s.track = some t ∧
    (Life.setInitial s d b).1.track = some { t with x := t.xini } ∧ (Life.setInitial s d b).1.t = t.xini ∧ (Life.setInitial s d b).1.istate = true ∧
    (Life.setInitial s d b).1.itrack = s.itrack ∧ (Life.setInitial s d b).1.ibody = s.ibody ∧ (Life.setInitial s d b).1.ienergy = s.ienergy := by
  unfold Life.setInitial at h ⊢
  split at h
  · rename_i hg
    rw [if_pos hg]
    cases ht : s.track with
    | none => rw [ht] at h; cases h
    | some t =>
      refine ⟨t, rfl, ?_⟩
      obtain ⟨h1, h2, h3, h4, h5⟩ := iniProj_keeps { s with track := some { t with x := t.xini }, t := t.xini, tIni := t.xini, offset := some 0 }
      exact ⟨h1, h5, rfl, h2, h3, h4⟩
  · cases h

theorem OnTrack.setInitial {c : Life.Ctor} {t : Option TrackRef} {x : Life.Obj} (h : OnTrack c t x) (d : List Nat) (b : Basis) :
    OnTrack c t (Life.setInitial x d b).1 := by
  by_cases ho : (Life.setInitial x d b).2 = .ok
  · obtain ⟨tr, e1, e2, -, -, e3, e4, e5⟩ := setInitial_ok ho
    have hf : Life.Fixed x (Life.setInitial x d b).1 := Life.step_fixed none x (.setInitial d b)
    have ht := h.track
    rw [e1] at ht
    exact ⟨h.fixed.trans hf, e3.trans h.itrack, e4.trans h.ibody, e5.trans h.ienergy, by rw [e2]; exact ht, by rw [e2]; rfl⟩
  · rw [setInitial_refused x d b ho]
    exact h

theorem startNode_onTrack {c : Life.Ctor} {earth : BodyRef} {t : TrackRef} {s : Life.Obj} (h : startNode c earth t = (s, .ok)) :
    OnTrack c (some t) s ∧ s.ncs = (Life.construct c).1.ncs := by
  obtain ⟨_, h2, _, h4⟩ := startNode_holds h
  unfold startNode at h
  rcases hc : Life.construct c with ⟨s0, st⟩
  rw [hc] at h
  cases st
  · simp only [Life.setBody, Life.setTrack, Prod.mk.injEq, and_true] at h
    subst h
    exact ⟨⟨h2, rfl, rfl, by rw [hc], rfl, rfl⟩, rfl⟩
  · simp at h
  · simp at h

theorem startNodes_onTrack {c : Life.Ctor} {earth : BodyRef} : ∀ (trs : List TrackRef) (l : List Life.Obj), startNodes c earth trs = .ok l →
    ∀ (k : Nat) x, l[k]? = some x → OnTrack c trs[k]? x ∧ x.ncs = (Life.construct c).1.ncs := by
  intro trs
  induction trs with
  | nil =>
    intro l h
    simp only [startNodes, Outcome.ok.injEq] at h
    subst h
    simp
  | cons t ts ih =>
    intro l h
    unfold startNodes at h
    split at h
    · rename_i s hs
      rcases hr : startNodes c earth ts with l' | _ | _
      · rw [hr] at h
        simp only [Outcome.map, Outcome.ok.injEq] at h
        subst h
        intro k x hx
        cases k with
        | zero =>
          simp only [List.getElem?_cons_zero, Option.some.injEq] at hx ⊢
          subst hx
          exact startNode_onTrack hs
        | succ k =>
          simp only [List.getElem?_cons_succ] at hx ⊢
          exact ih l' hr k x hx
      · rw [hr] at h; simp [Outcome.map] at h
      · rw [hr] at h; simp [Outcome.map] at h
    · simp at h
    · simp at h

/-- One node per zenith, each on its own track. -/
structure Grid (c : Life.Ctor) (trs : List TrackRef) (a : Sky) : Prop where
  iatm : a.iatm = true
  nCosth : a.nCosth = trs.length
  nE : a.nE = (Life.construct c).1.ne
  length : a.nodes.length = trs.length
  nonempty : a.nodes ≠ []
  nodes : ∀ (k : Nat) x, a.nodes[k]? = some x → OnTrack c trs[k]? x

theorem prepare_shape (dflt : Option Xs) (a : Sky) : (prepare dflt a).1.nCosth = a.nCosth ∧ (prepare dflt a).1.nE = a.nE ∧
    (prepare dflt a).1.ncs = a.ncs := by
  unfold prepare
  split
  · exact ⟨rfl, rfl, rfl⟩
  · split
    · split <;> exact ⟨rfl, rfl, rfl⟩
    · exact ⟨rfl, rfl, rfl⟩

/-- What the preparation of the tables does to one node. -/
def Prepared (dflt : Option Xs) (y x : Life.Obj) : Prop :=
  x = y ∨ x = (Life.initInteractions dflt y).1 ∨
    ∃ tb, x = (Life.initInteractions dflt { y with tables := tb }).1 ∨
      x = (Life.initInteractions dflt { (Life.initInteractions dflt y).1 with tables := tb }).1

theorem prepare_each (dflt : Option Xs) (a : Sky) (k : Nat) (x : Life.Obj) (hx : (prepare dflt a).1.nodes[k]? = some x) :
    ∃ y, a.nodes[k]? = some y ∧ Prepared dflt y x := by
  unfold prepare at hx
  split at hx
  · exact ⟨x, hx, .inl rfl⟩
  · rename_i s l hl
    rw [hl]
    split at hx
    · rcases hi : Life.initInteractions dflt s with ⟨s', st⟩
      rw [hi] at hx
      have hn : ∀ (k : Nat) z, (s' :: l)[k]? = some z → ∃ y, (s :: l)[k]? = some y ∧ (z = y ∨ z = (Life.initInteractions dflt y).1) := by
        intro k z hz
        cases k with
        | zero =>
          simp only [List.getElem?_cons_zero, Option.some.injEq] at hz ⊢
          subst hz
          exact ⟨s, rfl, .inr (by rw [hi])⟩
        | succ k => exact ⟨z, by simpa using hz, .inl rfl⟩
      cases st
      · dsimp only at hx
        have key : ∀ (f : Life.Obj → Life.Obj × Status) (l : List Life.Obj) (k : Nat) x, (forAll f l).1[k]? = some x → ∃ z, l[k]? = some z ∧ (x = z ∨ x = (f z).1) := by
          intro f l
          induction l with
          | nil => intro k x h; simp [forAll] at h
          | cons w l ih =>
            intro k x h
            unfold forAll at h
            rcases hw : f w with ⟨w', st⟩
            rw [hw] at h
            cases k with
            | zero =>
              refine ⟨w, rfl, .inr ?_⟩
              cases st <;> (simp only [List.getElem?_cons_zero, Option.some.injEq] at h; rw [hw]; exact h.symm)
            | succ k =>
              cases st
              · obtain ⟨z, h1, h2⟩ := ih k x (by simpa using h)
                exact ⟨z, by simpa using h1, h2⟩
              · exact ⟨x, by simpa using h, .inl rfl⟩
              · exact ⟨x, by simpa using h, .inl rfl⟩
        obtain ⟨z, h1, h2⟩ := key _ _ _ _ hx
        obtain ⟨y, h3, h4⟩ := hn _ _ h1
        refine ⟨y, h3, ?_⟩
        rcases h4 with rfl | rfl
        · rcases h2 with rfl | rfl
          · exact .inl rfl
          · exact .inr (.inr ⟨_, .inl rfl⟩)
        · rcases h2 with rfl | rfl
          · exact .inr (.inl rfl)
          · exact .inr (.inr ⟨_, .inr rfl⟩)
      · obtain ⟨y, h3, h4⟩ := hn _ _ hx
        rcases h4 with h4 | h4
        · exact ⟨y, h3, .inl h4⟩
        · exact ⟨y, h3, .inr (.inl h4)⟩
      · obtain ⟨y, h3, h4⟩ := hn _ _ hx
        rcases h4 with h4 | h4
        · exact ⟨y, h3, .inl h4⟩
        · exact ⟨y, h3, .inr (.inl h4)⟩
    · exact ⟨x, hl ▸ hx, .inl rfl⟩

theorem Prepared.same {dflt : Option Xs} {y x : Life.Obj} (h : Prepared dflt y x) : Life.SameSetup y x ∧ x.t = y.t ∧ x.track = y.track := by
  have ht : ∀ (z : Life.Obj) tb, Life.SameSetup z { z with tables := tb } := fun z tb =>
    ⟨⟨rfl, rfl, rfl, rfl, rfl, rfl⟩, rfl, rfl, rfl, rfl, rfl, rfl, rfl, rfl, rfl, rfl, rfl, rfl, rfl, rfl, rfl, rfl, rfl, rfl, rfl, rfl⟩
  rcases h with rfl | rfl | ⟨tb, rfl | rfl⟩
  · exact ⟨Life.SameSetup.refl _, rfl, rfl⟩
  · exact ⟨Life.initInteractions_same dflt y, (Life.init_fields dflt y).1, (Life.init_fields dflt y).2.1⟩
  · exact ⟨(ht y tb).trans (Life.initInteractions_same dflt _), (Life.init_fields dflt _).1, (Life.init_fields dflt _).2.1⟩
  · have h1 := Life.init_fields dflt y
    have h2 := Life.init_fields dflt { (Life.initInteractions dflt y).1 with tables := tb }
    exact ⟨(Life.initInteractions_same dflt y).trans ((ht _ tb).trans (Life.initInteractions_same dflt _)), h2.1.trans h1.1, h2.2.1.trans h1.2.1⟩

theorem prepare_grid {c : Life.Ctor} {trs : List TrackRef} {a : Sky} (dflt : Option Xs) (h : Grid c trs a) : Grid c trs (prepare dflt a).1 := by
  obtain ⟨h1, h2, -⟩ := prepare_shape dflt a
  refine ⟨(prepare_flags dflt a).2.1.trans h.iatm, h1.trans h.nCosth, h2.trans h.nE, (prepare_length dflt a).trans h.length,
    nonempty_of_length h.nonempty (prepare_length dflt a), fun k x hx => ?_⟩
  obtain ⟨y, hy, hp⟩ := prepare_each dflt a k x hx
  exact (h.nodes k y hy).same hp.same.1

theorem evolve_grid {c : Life.Ctor} {trs : List TrackRef} {a : Sky} (dflt : Option Xs) (order : List Nat) (h : Grid c trs a) :
    Grid c trs (evolve dflt a order).1 := by
  have hk : ∀ (k : Nat) x, OnTrack c trs[k]? x → OnTrack c trs[k]? (Life.evolveState dflt x).1 := fun k x hx => hx.same (Life.evolveState_same dflt x)
  unfold evolve
  split
  · exact h
  · exact h
  · split
    · exact h
    · have hp := prepare_grid dflt h
      rcases hr : prepare dflt a with ⟨b, st⟩
      rw [hr] at hp
      cases st
      · dsimp only
        split
        · exact hp
        · dsimp only
          split
          · refine ⟨hp.iatm, hp.nCosth, hp.nE, (forAll_length _ _).trans hp.length, nonempty_of_length hp.nonempty (forAll_length _ _), ?_⟩
            have := forAll_keeps_at (Life.evolveState dflt) (fun (k : Nat) x => OnTrack c trs[k]? x) hk b.nodes 0 (fun k x hx => by simpa using hp.nodes k x hx)
            exact fun k x hx => by simpa using this k x hx
          · exact ⟨hp.iatm, hp.nCosth, hp.nE, (inTasks_length _ _ _).trans hp.length, nonempty_of_length hp.nonempty (inTasks_length _ _ _),
              inTasks_keeps_at _ _ hk _ _ hp.nodes⟩
      · exact hp
      · exact hp

/-- The nodes accept an initial state all or none. -/
theorem setInitial_alike {c : Life.Ctor} {t u : Option TrackRef} {x y : Life.Obj} (hx : OnTrack c t x) (hy : OnTrack c u y) (d : List Nat) (b : Basis) :
    (Life.setInitial x d b).2 = (Life.setInitial y d b).2 := by
  have hg : Life.initialGuards x d b = Life.initialGuards y d b := by
    unfold Life.initialGuards
    rw [hx.fixed.numneu, hx.fixed.nt, hx.fixed.ne, hx.fixed.nrhos, hx.itrack, hx.ibody, hx.ienergy,
      hy.fixed.numneu, hy.fixed.nt, hy.fixed.ne, hy.fixed.nrhos, hy.itrack, hy.ibody, hy.ienergy]
  have h1 := hx.hasTrack
  have h2 := hy.hasTrack
  unfold Life.setInitial
  rw [hg]
  split
  · rcases hx : x.track with _ | tx <;> rcases hy : y.track with _ | ty <;> simp_all
  · rfl

theorem setInitial_status {c : Life.Ctor} {t : Option TrackRef} {x : Life.Obj} (hx : OnTrack c t x) (d : List Nat) (b : Basis) :
    (Life.setInitial x d b).2 = if Life.initialGuards x d b then .ok else .throws := by
  unfold Life.setInitial
  split
  · have := hx.hasTrack
    cases ht : x.track with
    | none => rw [ht] at this; cases this
    | some t => rfl
  · rfl

/-- The initial state of a grid: all nodes or none. -/
theorem setInitial_grid {c : Life.Ctor} {trs : List TrackRef} {a : Sky} (h : Grid c trs a) (dims : List Nat) (b : Basis) :
    (∃ d, nodeDims a dims = some d ∧ (∀ x ∈ a.nodes, (Life.setInitial x d b).2 = .ok) ∧
      setInitial a dims b = ({ a with nodes := a.nodes.map fun x => (Life.setInitial x d b).1, iini := some true }, .ok)) ∨
    ((∀ d, nodeDims a dims = some d → ∀ x ∈ a.nodes, (Life.setInitial x d b).2 ≠ .ok) ∧ setInitial a dims b = (a, .throws)) := by
  unfold setInitial
  cases hd : nodeDims a dims with
  | none => right; exact ⟨by simp, rfl⟩
  | some d =>
    have hany : ∀ y ∈ a.nodes, ∃ k : Nat, OnTrack c trs[k]? y := fun y hy => by
      obtain ⟨k, hk⟩ := List.mem_iff_getElem?.1 hy
      exact ⟨k, h.nodes k y hk⟩
    match hn : a.nodes with
    | [] => exact absurd hn h.nonempty
    | x :: xs =>
      have hx0 : OnTrack c trs[0]? x := h.nodes 0 x (by rw [hn]; rfl)
      by_cases hx : (Life.setInitial x d b).2 = .ok
      · left
        have hall : ∀ y ∈ a.nodes, (Life.setInitial y d b).2 = .ok := fun y hy => by
          obtain ⟨k, hk⟩ := hany y hy
          exact (setInitial_alike hk hx0 d b).trans hx
        rw [hn] at hall
        refine ⟨d, rfl, hall, ?_⟩
        dsimp only
        rw [forAll_all_ok _ _ hall]
      · right
        refine ⟨?_, ?_⟩
        · rintro d' ⟨rfl⟩ y hy hc
          obtain ⟨k, hk⟩ := hany y (hn ▸ hy)
          exact hx ((setInitial_alike hx0 hk d b).trans hc)
        · have hr := setInitial_refused x d b hx
          have hst : (Life.setInitial x d b).2 = .throws := by
            rw [setInitial_status hx0] at hx ⊢
            split at hx
            · exact absurd rfl hx
            · rename_i hg; rw [if_neg hg]
          have e : Life.setInitial x d b = (x, .throws) := Prod.ext hr hst
          have hf : forAll (fun s => Life.setInitial s d b) (x :: xs) = (x :: xs, .throws) := by
            unfold forAll
            dsimp only
            rw [e]
          dsimp only
          rw [hf]
          show (({ a with nodes := x :: xs } : Sky), Status.throws) = (a, .throws)
          rw [← hn]

theorem astep_grid {c : Life.Ctor} {trs : List TrackRef} {a : Sky} (dflt : Option Xs) (h : Grid c trs a) (op : AOp) : Grid c trs (astep dflt a op).1 := by
  have hf : ∀ o, op.forward = some o → astep dflt a op = ({ a with nodes := (forAll (fun s => Life.step dflt s o) a.nodes).1 },
      (forAll (fun s => Life.step dflt s o) a.nodes).2) := by
    intro o ho
    cases op <;> simp only [AOp.forward, Option.some.injEq, reduceCtorEq] at ho <;> subst ho <;> rfl
  have keep : ∀ (f : Life.Obj → Life.Obj × Status), (∀ t x, OnTrack c t x → OnTrack c t (f x).1) →
      ∀ (k : Nat) x, (forAll f a.nodes).1[k]? = some x → OnTrack c trs[k]? x := by
    intro f hf k x hx
    have := forAll_keeps_at f (fun (k : Nat) x => OnTrack c trs[k]? x) (fun k x hx => hf _ x hx) a.nodes 0 (fun k x hx => by simpa using h.nodes k x hx)
    simpa using this k x hx
  cases hfw : op.forward with
  | some o =>
    rw [hf o hfw]
    exact ⟨h.iatm, h.nCosth, h.nE, (forAll_length _ _).trans h.length, nonempty_of_length h.nonempty (forAll_length _ _),
      keep _ fun t x hx => hx.forward dflt op o hfw⟩
  | none =>
    cases op <;> simp only [AOp.forward, reduceCtorEq] at hfw
    case setXs x =>
      exact ⟨h.iatm, h.nCosth, h.nE, (forAll_length _ _).trans h.length,
        nonempty_of_length (a' := (astep dflt a (.setXs x)).1) h.nonempty (forAll_length _ _),
        keep _ fun t y hy => ⟨hy.fixed.trans ⟨rfl, rfl, rfl, rfl, rfl, rfl⟩, hy.itrack, hy.ibody, hy.ienergy, hy.track, hy.hasTrack⟩⟩
    case setThreads n hw => exact ⟨h.iatm, h.nCosth, h.nE, h.length, h.nonempty, h.nodes⟩
    case setInitial d b =>
      simp only [astep]
      rcases setInitial_grid h d b with ⟨d', -, -, e⟩ | ⟨-, e⟩
      · rw [e]
        refine ⟨h.iatm, h.nCosth, h.nE, by simpa using h.length, by simpa using h.nonempty, fun k x hx => ?_⟩
        simp only [List.getElem?_map, Option.map_eq_some_iff] at hx
        obtain ⟨y, hy, rfl⟩ := hx
        exact (h.nodes k y hy).setInitial d' b
      · rw [e]; exact h
    case evolve order => exact evolve_grid dflt order h

theorem arun_grid {dflt : Option Xs} {found : Option Bool} {c : Life.Ctor} {earth : BodyRef} {trs : List TrackRef}
    {tr : List (AOp × Status)} {a : Sky} (hr : ARun dflt found c earth trs tr a) : Grid c trs a := by
  induction hr with
  | start a h =>
    have h0 := create_holds h
    unfold create at h
    split at h
    · simp at h
    · rename_i s nodes hs
      simp only [Outcome.ok.injEq] at h
      subst h
      have hk := startNodes_onTrack trs _ hs
      exact ⟨rfl, rfl, (hk 0 s rfl).1.fixed.ne, h0.2.2.2.2.2.1, h0.1.nonempty, fun k x hx => (hk k x hx).1⟩
    · simp at h
    · simp at h
  | call tr a a' op st hr h hst ih =>
    have := astep_grid dflt ih op
    rw [h] at this
    exact this

theorem arun_construct {dflt : Option Xs} {found : Option Bool} {c : Life.Ctor} {earth : BodyRef} {trs : List TrackRef}
    {tr : List (AOp × Status)} {a : Sky} (hr : ARun dflt found c earth trs tr a) : (Life.construct c).2 = .ok := by
  induction hr with
  | start a h => exact (create_holds h).2.1
  | call _ _ _ _ _ _ _ _ ih => exact ih

theorem construct_shape (c : Life.Ctor) (h : (Life.construct c).2 = .ok) :
    match c with
    | .single _ _ => (Life.construct c).1.ienergy = false
    | .multi E n nt _ _ => (Life.construct c).1.ne = E.length ∧ (Life.construct c).1.numneu = n ∧ (Life.construct c).1.nt = nt ∧
        (Life.construct c).1.nrhos = (if nt = .both then 2 else 1) ∧ (Life.construct c).1.ienergy = true ∧ E ≠ [] ∧ 3 ≤ n := by
  cases c with
  | single n nt =>
    dsimp only
    simp only [Life.construct, Life.ctorSingle] at h ⊢
    split at h
    · simp at h
    rename_i h0
    rw [if_neg h0]
    split at h
    · simp at h
    rename_i h1
    rw [if_neg h1]
    split at h
    · simp at h
    rename_i h2
    rw [if_neg h2]
    rw [Life.setDefaults_eq _ (by simp [Life.blank]; omega)]
    split <;> simp [Life.iniProj_eq, Life.iniH0, Life.blank]
  | multi E n nt i x =>
    dsimp only
    simp only [Life.construct, Life.ctorMulti] at h ⊢
    split at h
    · simp at h
    rename_i h0
    rw [if_neg h0]
    split at h
    · simp at h
    rename_i h1
    rw [if_neg h1]
    split at h
    · simp at h
    rename_i h2
    rw [if_neg h2]
    rw [Life.setDefaults_eq _ (by simp [Life.blank]; omega)]
    refine ⟨?_, ?_, ?_, ?_, ?_, h2, by omega⟩ <;> simp [Life.iniProj_eq, Life.iniH0, Life.blank]

/-! ## Theorems -/

/-- C93: after every history there is one node per zenith, and node `k` is on the track of zenith `k`. -/
theorem c93_own_tracks (dflt : Option Xs) (found : Option Bool) (c : Life.Ctor) (earth : BodyRef) (trs : List TrackRef)
    (tr : List (AOp × Status)) (a : Sky) (hr : ARun dflt found c earth trs tr a) :
    a.nodes.map (fun x => x.track.map place) = trs.map fun t => some (place t) := by
  have hg := arun_grid hr
  refine List.ext_getElem (by simpa using hg.length) fun k h1 h2 => ?_
  simp only [List.length_map] at h1 h2
  simp only [List.getElem_map]
  have := (hg.nodes k a.nodes[k] (by simp [h1])).track
  rw [this, List.getElem?_eq_getElem h2]
  rfl

/-- C93: after every history an initial state is accepted exactly if it has the shape of the grid and its basis is flavour or mass; accepted, every
node has a state and is at the start of its own track; refused, nothing at all changes. -/
theorem c93_initial_state (dflt : Option Xs) (found : Option Bool) (c : Life.Ctor) (earth : BodyRef) (trs : List TrackRef)
    (tr : List (AOp × Status)) (a : Sky) (hr : ARun dflt found c earth trs tr a) (dims : List Nat) (basis : Basis) :
    ((setInitial a dims basis).2 = .ok ↔ GridShape c trs.length dims ∧ basis ≠ .interaction) ∧
    ((setInitial a dims basis).2 = .ok → (setInitial a dims basis).1.iini = some true ∧
      (setInitial a dims basis).1.nodes.map (fun x => (x.istate, x.t, x.track.map fun t => t.x)) = trs.map fun t => (true, t.xini, some t.xini)) ∧
    ((setInitial a dims basis).2 ≠ .ok → setInitial a dims basis = (a, .throws)) := by
  have hg := arun_grid hr
  have hc := construct_shape c (arun_construct hr)
  refine ⟨?_, ?_, ?_⟩
  · obtain ⟨x, xs, hn⟩ : ∃ x xs, a.nodes = x :: xs := by
      cases h : a.nodes with
      | nil => exact absurd h hg.nonempty
      | cons x xs => exact ⟨x, xs, rfl⟩
    have hx := hg.nodes 0 x (by rw [hn]; rfl)
    have h1 : (setInitial a dims basis).2 = .ok ↔ ∃ d, nodeDims a dims = some d ∧ Life.initialGuards x d basis = true := by
      rcases setInitial_grid hg dims basis with ⟨d, h1, h2, h3⟩ | ⟨h1, h2⟩
      · rw [h3]
        have := h2 x (by rw [hn]; exact List.mem_cons_self ..)
        rw [setInitial_status hx] at this
        refine ⟨fun _ => ⟨d, h1, ?_⟩, fun _ => rfl⟩
        by_contra hc
        rw [if_neg hc] at this
        cases this
      · rw [h2]
        refine ⟨fun h => by simp at h, ?_⟩
        rintro ⟨d, hd, hgd⟩
        have := h1 d hd x (by rw [hn]; exact List.mem_cons_self ..)
        rw [setInitial_status hx, if_pos hgd] at this
        exact absurd rfl this
    rw [h1]
    have hz : 0 < trs.length := by rw [← hg.length, hn]; simp
    cases c with
    | single n nt =>
      simp only at hc
      simp only [GridShape, false_and, iff_false, not_exists, not_and]
      intro d _
      unfold Life.initialGuards
      split <;> simp [hx.ienergy, hc]
    | multi E n nt i y =>
      obtain ⟨c1, c2, c3, c4, c5, c6, c7⟩ := hc
      have hE : 0 < E.length := List.length_pos_iff.2 c6
      have f1 := hx.fixed.ne.trans c1
      have f2 := hx.fixed.numneu.trans c2
      have f3 := hx.fixed.nt.trans c3
      have f4 := hx.fixed.nrhos.trans c4
      have f5 := hx.ienergy.trans c5
      have hnE : a.nE = E.length := hg.nE.trans c1
      constructor
      · rintro ⟨d, hd, hgd⟩
        unfold nodeDims at hd
        split at hd
        · rename_i u v w
          split at hd
          · rename_i h
            cases hd
            simp only [Life.initialGuards, f1, f2, f3, f5, Bool.and_eq_true, decide_eq_true_eq] at hgd
            obtain ⟨⟨⟨⟨⟨⟨⟨g1, g2⟩, g3⟩, g4⟩, g5⟩, -⟩, -⟩, -⟩ := hgd
            refine ⟨?_, by simpa using g4⟩
            cases nt <;> simp_all [GridShape, hg.nCosth]
          · cases hd
        · rename_i u v w z
          split at hd
          · rename_i h
            cases hd
            simp only [Life.initialGuards, f1, f2, f3, f4, f5, Bool.and_eq_true, decide_eq_true_eq] at hgd
            obtain ⟨⟨⟨⟨⟨⟨⟨⟨g1, g2⟩, g3⟩, g4⟩, g5⟩, g6⟩, -⟩, -⟩, -⟩ := hgd
            refine ⟨?_, by simpa using g5⟩
            cases nt <;> simp_all [GridShape, hg.nCosth]
          · cases hd
        · cases hd
      · rintro ⟨hs, hb⟩
        have hn0 : n ≠ 0 := by omega
        cases nt with
        | both =>
          simp only [GridShape] at hs
          subst hs
          refine ⟨[E.length, 2, n], by simp [nodeDims, hg.nCosth], ?_⟩
          simp [Life.initialGuards, f1, f2, f3, f4, f5, hx.itrack, hx.ibody, hb, c6, hn0]
        | neutrino =>
          simp only [GridShape] at hs
          subst hs
          refine ⟨[E.length, n], by simp [nodeDims, hg.nCosth, hnE], ?_⟩
          simp [Life.initialGuards, f1, f2, f3, f5, hx.itrack, hx.ibody, hb, c6, hn0]
        | antineutrino =>
          simp only [GridShape] at hs
          subst hs
          refine ⟨[E.length, n], by simp [nodeDims, hg.nCosth, hnE], ?_⟩
          simp [Life.initialGuards, f1, f2, f3, f5, hx.itrack, hx.ibody, hb, c6, hn0]
  · intro ho
    rcases setInitial_grid hg dims basis with ⟨d, h1, h2, h3⟩ | ⟨h1, h2⟩
    · rw [h3]
      refine ⟨rfl, ?_⟩
      simp only [List.map_map]
      refine List.ext_getElem (by simpa using hg.length) fun k k1 k2 => ?_
      simp only [List.length_map] at k1 k2
      simp only [List.getElem_map, Function.comp]
      obtain ⟨t, e1, e2, e3, e4, -⟩ := setInitial_ok (h2 a.nodes[k] (List.getElem_mem k1))
      have := (hg.nodes k a.nodes[k] (by simp [k1])).track
      rw [e1, List.getElem?_eq_getElem k2] at this
      simp only [Option.map_some, place, Option.some.injEq, Prod.mk.injEq] at this
      rw [e2, e3, e4, Option.map_some, this.2.1]
    · rw [h2] at ho; cases ho
  · intro ho
    rcases setInitial_grid hg dims basis with ⟨d, h1, h2, h3⟩ | ⟨h1, h2⟩
    · rw [h3] at ho; exact absurd rfl ho
    · exact h2

/-- Both apply to a new object, which accepts one shape. -/
example : ∃ a, twoSky none = .ok a ∧ (setInitial a [2, 1, 3] .flavor).2 = .ok ∧ (setInitial a [2, 2, 3] .flavor).2 = .throws ∧
    (setInitial a [1, 1, 3] .flavor).2 = .throws ∧ (setInitial a [2, 1, 1, 3] .flavor).2 = .throws :=
  ⟨_, rfl, by decide +kernel, by decide +kernel, by decide +kernel, by decide +kernel⟩

/-- C93, partial: an evolution with one thread that succeeds advances the clock of every node by the length of its own track, if positivisation is
off or the tracks start at zero and the step is positive. Missing: positivised evolution along other tracks (`c93_positivised_violated`). -/
theorem c93_evolution_partial (dflt : Option Xs) (found : Option Bool) (c : Life.Ctor) (earth : BodyRef) (trs : List TrackRef)
    (tr : List (AOp × Status)) (a : Sky) (hr : ARun dflt found c earth trs tr a) (h1 : a.threads = some 1) (order : List Nat)
    (he : (evolve dflt a order).2 = .ok)
    (hp : (lastValues c earth tr).positivity = false ∨
      ∃ step, (lastValues c earth tr).posStep = some step ∧ 0 ≤ step ∧ ∀ t ∈ trs, t.xini = 0 ∧ 0 ≤ t.xend) :
    ∃ d : List Rat, d = trs.map (fun t => t.xend - t.xini) ∧
      (evolve dflt a order).1.nodes.map (fun x => x.t) = (a.nodes.map fun x => x.t).zipWith (· + ·) d := by
  refine ⟨_, rfl, ?_⟩
  have hg := arun_grid hr
  have hv := (c61_nodes_hold_last_values dflt found c earth trs tr a hr).2
  unfold evolve at he ⊢
  split at he
  · cases he
  · cases he
  · split at he
    · cases he
    · rename_i hat
      rw [if_neg hat]
      have hth := (prepare_flags dflt a).2.2
      have hlen := prepare_length dflt a
      have heach := prepare_each dflt a
      have hgp := prepare_grid dflt hg
      rcases hpr : prepare dflt a with ⟨b, st⟩
      rw [hpr] at he hth hlen heach hgp
      cases st
      · dsimp only at he hth hlen heach hgp ⊢
        rw [hth, h1] at he ⊢
        dsimp only at he ⊢
        rw [if_pos rfl] at he ⊢
        obtain ⟨hall, hmap⟩ := forAll_ok (Life.evolveState dflt) b.nodes he
        rw [hmap, List.map_map]
        refine List.ext_getElem (by simp [hlen, hg.length]) fun k k1 k2 => ?_
        simp only [List.length_map] at k1
        have ka : k < a.nodes.length := hlen ▸ k1
        have kt : k < trs.length := hg.length ▸ ka
        simp only [List.getElem_map, Function.comp, List.getElem_zipWith]
        obtain ⟨y, hy, hpy⟩ := heach k b.nodes[k] (by simp [k1])
        have hy' : a.nodes[k] = y := by
          rw [List.getElem?_eq_getElem ka] at hy
          exact Option.some.inj hy
        rw [hy']
        obtain ⟨hs, ht, htr⟩ := hpy.same
        have hvy : held y = lastValues c earth tr := hv y (hy' ▸ List.getElem_mem ka)
        have hon := hgp.nodes k b.nodes[k] (by simp [k1])
        have hokk := hall b.nodes[k] (List.getElem_mem k1)
        obtain ⟨s', hs'⟩ : ∃ s', Life.evolveState dflt b.nodes[k] = (s', .ok) := ⟨_, Prod.ext rfl hokk⟩
        obtain ⟨_, bd, tk, _, hb, htk, -⟩ := Life.evolveState_chain dflt _ _ hs'
        have hpl := hon.track
        rw [htk, List.getElem?_eq_getElem kt] at hpl
        simp only [Option.map_some, place, Option.some.injEq, Prod.mk.injEq] at hpl
        have key := Life.c40_advances_by_track_length_partial dflt _ _ bd tk hb htk hs' (by
          rcases hp with hp | ⟨step, q1, q2, q3⟩
          · left
            rw [hs.positivization]
            rw [← hvy] at hp
            exact hp
          · right; right
            obtain ⟨z1, z2⟩ := q3 trs[k] (List.getElem_mem kt)
            refine ⟨by rw [hpl.2.1]; exact z1, step, ?_, ?_⟩
            · rw [hs.posScale]
              rw [← hvy] at q1
              exact q1
            · rw [hpl.2.1, hpl.2.2, z1]
              exact div_nonneg (by simpa using z2) q2)
        rw [hs', ← hpl.2.1, ← hpl.2.2]
        dsimp only
        rw [ht] at key
        linarith
      · cases he
      · cases he

example : ∃ a, twoSky none = .ok a ∧ (aexec none a [.setInitial [2, 1, 3] .flavor, .evolve []]).2 = [.ok, .ok] ∧
    (aexec none a [.setInitial [2, 1, 3] .flavor, .evolve []]).1.nodes.map (fun x => x.t) = [100, 50] :=
  ⟨_, rfl, by decide +kernel, by decide +kernel⟩

/-- Two zeniths with tracks that do not start at zero. -/
def lateSky : Outcome Sky :=
  create none (.multi [5] 3 .neutrino false none) ⟨1, false⟩ [⟨7, 500, 1500, 500⟩, ⟨8, 0, 50, 0⟩]

/-- C93 fails for positivised evolution along a track that does not start at zero: a track from 500 to 1500 is evolved over 1500. -/
theorem c93_positivised_violated : ∃ a, lateSky = .ok a ∧
    (aexec none a [.setPositivity true, .setInitial [2, 1, 3] .flavor, .evolve []]).2 = [.ok, .ok, .ok] ∧
    (aexec none a [.setPositivity true, .setInitial [2, 1, 3] .flavor]).1.nodes.map (fun x => x.t) = [500, 0] ∧
    (aexec none a [.setPositivity true, .setInitial [2, 1, 3] .flavor, .evolve []]).1.nodes.map (fun x => x.t) = [2000, 50] :=
  ⟨_, rfl, by decide +kernel, by decide +kernel, by decide +kernel⟩

/-! ## The cross sections of the object (C61) -/

/-- The library given to the constructor. -/
def givenXs : Life.Ctor → Option Xs
  | .single _ _ => none
  | .multi _ _ _ _ x => x

/-- The library last given to the object, at first the one given to the constructor. -/
def lastXs (c : Life.Ctor) (tr : List (AOp × Status)) : Option Xs :=
  tr.foldl (fun v x => match x.1 with | .setXs y => y | _ => v) (givenXs c)

theorem construct_ncs (c : Life.Ctor) (h : (Life.construct c).2 = .ok) :
    (Life.construct c).1.ncs = givenXs c := by
  unfold givenXs
  cases c with
  | single n nt =>
    dsimp only
    simp only [Life.construct, Life.ctorSingle] at h ⊢
    split at h
    · simp at h
    rename_i h0
    rw [if_neg h0]
    split at h
    · simp at h
    rename_i h1
    rw [if_neg h1]
    split at h
    · simp at h
    rename_i h2
    rw [if_neg h2]
    rw [Life.setDefaults_eq _ (by simp [Life.blank]; omega)]
    split <;> simp [Life.iniProj_eq, Life.iniH0, Life.blank]
  | multi E n nt i x =>
    dsimp only
    simp only [Life.construct, Life.ctorMulti] at h ⊢
    split at h
    · simp at h
    rename_i h0
    rw [if_neg h0]
    split at h
    · simp at h
    rename_i h1
    rw [if_neg h1]
    split at h
    · simp at h
    rename_i h2
    rw [if_neg h2]
    rw [Life.setDefaults_eq _ (by simp [Life.blank]; omega)]
    simp [Life.iniProj_eq, Life.iniH0, Life.blank]

theorem astep_ncs (dflt : Option Xs) (a : Sky) (op : AOp) : (astep dflt a op).1.ncs = match op with | .setXs y => y | _ => a.ncs := by
  cases op <;> try rfl
  case setInitial d b =>
    simp only [astep, setInitial]
    split
    · rfl
    · split <;> rfl
  case evolve order =>
    simp only [astep, evolve]
    split
    · rfl
    · rfl
    · split
      · rfl
      · have := (prepare_shape dflt a).2.2
        rcases hp : prepare dflt a with ⟨b, st⟩
        rw [hp] at this
        cases st
        · dsimp only
          split
          · exact this
          · exact this
        · exact this
        · exact this

/-- C61: `GetNeutrinoCrossSections` of the atmospheric object returns the library last given to it. -/
theorem c61_cross_section_getter (dflt : Option Xs) (found : Option Bool) (c : Life.Ctor) (earth : BodyRef) (trs : List TrackRef)
    (tr : List (AOp × Status)) (a : Sky) (hr : ARun dflt found c earth trs tr a) : a.ncs = lastXs c tr := by
  induction hr with
  | start a h =>
    have h0 := create_holds h
    unfold create at h
    split at h
    · simp at h
    · rename_i s nodes hs
      simp only [Outcome.ok.injEq] at h
      subst h
      exact ((startNodes_onTrack trs _ hs) 0 s rfl).2.trans (construct_ncs c h0.2.1)
    · simp at h
    · simp at h
  | call tr a a' op st hr h hst ih =>
    have := astep_ncs dflt a op
    rw [h] at this
    rw [this]
    unfold lastXs at ih ⊢
    rw [List.foldl_append, List.foldl_cons, List.foldl_nil]
    cases op <;> first | rfl | exact ih

example : lastXs (.multi [5] 3 .neutrino true (some ⟨1, true, false, true, true⟩)) [(.setXs (some ⟨2, true, false, true, true⟩), .ok), (.evolve [], .throws)] =
    some ⟨2, true, false, true, true⟩ := rfl

end Verif.Atm
