import Verif.Atm.Failed
import Verif.Atm.ThreadProps
import Verif.Atm.EvalProps
import Verif.StateIO.FailedProps

/-!
# Property C118: an atmospheric state file that cannot be read does no harm
-/

namespace Verif.Atm

open Life (Status Xs Tables BodyRef)
open StateIO (State Held Source File readLeft Understood ntOfCode)

/-! ## Lemmas -/

/-- Body and track survive the initialisation. -/
theorem init_route (h : Held) (inited : Bool) (n : Nat) (f : File) : (StateIO.initLeft h inited n f).1.st.obj.body = h.st.obj.body ∧
    (StateIO.initLeft h inited n f).1.st.obj.track = h.st.obj.track := by
  have hm : ∀ E x, (StateIO.initMultiLeft h E x).1.st.obj.body = h.st.obj.body ∧ (StateIO.initMultiLeft h E x).1.st.obj.track = h.st.obj.track := by
    intro E x
    unfold StateIO.initMultiLeft
    dsimp only
    split
    · exact ⟨rfl, rfl⟩
    · split
      · exact ⟨rfl, rfl⟩
      · rename_i h3
        split
        · exact ⟨rfl, rfl⟩
        · rw [Life.setDefaults_eq]
          · exact ⟨rfl, rfl⟩
          · exact not_lt.1 h3
  have hs : ∀ x, (StateIO.initSingleLeft h x).1.st.obj.body = h.st.obj.body ∧ (StateIO.initSingleLeft h x).1.st.obj.track = h.st.obj.track := by
    intro x
    unfold StateIO.initSingleLeft
    dsimp only
    split
    · exact ⟨rfl, rfl⟩
    · split
      · exact ⟨rfl, rfl⟩
      · split
        · exact ⟨rfl, rfl⟩
        · rename_i h3
          rw [Life.setDefaults_eq]
          · dsimp only
            split <;> exact ⟨rfl, rfl⟩
          · exact not_lt.1 h3
  have he : ∀ (s : Life.Obj) (e : Rat), (Life.setE s e).1.body = s.body ∧ (Life.setE s e).1.track = s.track := by
    intro s e
    unfold Life.setE
    split <;> exact ⟨rfl, rfl⟩
  unfold StateIO.initLeft
  split
  · cases inited with
    | true =>
      simp only [if_true]
      split
      · rename_i h' heq
        split at heq
        · rw [← (Prod.mk.injEq _ _ _ _).mp heq |>.1]
          exact he _ _
        · exact absurd ((Prod.mk.injEq _ _ _ _).mp heq).2 (by decide)
      · split <;> exact ⟨rfl, rfl⟩
    | false =>
      simp only [Bool.false_eq_true, if_false]
      split
      · rename_i h' heq
        have := hs f.timeInitial
        rw [heq] at this
        rw [← this.1, ← this.2]
        exact he _ _
      · exact hs _
  · exact hm _ _

theorem tail_ready (s : State) (t : Option Tables) (hb : s.obj.body.isSome = true) (ht : s.obj.track.isSome = true) :
    Life.evolveGuards (StateIO.readTail s t).obj = true := by
  cases t <;> simp [StateIO.readTail, Life.evolveGuards, Life.iniH0, hb, ht]

theorem rest_ready (h : Held) (f : File) (hb : h.st.obj.body.isSome = true) (ht : h.st.obj.track.isSome = true) (h' : Held)
    (hr : StateIO.restLeft h f = (h', .ok)) : Life.evolveGuards h'.st.obj = true := by
  unfold StateIO.restLeft at hr
  have h1 := StateIO.tuned_each _ (StateIO.tuned_pair f) (StateIO.pairs h.st.obj.numneu) h.st.obj
  rcases hp : StateIO.eachLeft (StateIO.readPairLeft f) (StateIO.pairs h.st.obj.numneu) h.st.obj with ⟨s, e1⟩
  rw [hp] at h1
  simp only [hp] at hr
  obtain ⟨P, b, h1, _⟩ := h1
  dsimp only at h1
  cases e1 with
  | throws => exact absurd ((Prod.mk.injEq _ _ _ _).mp hr).2 (by decide)
  | ub => exact absurd ((Prod.mk.injEq _ _ _ _).mp hr).2 (by decide)
  | ok =>
    have h2 := StateIO.tuned_each _ (StateIO.tuned_mass f) (StateIO.masses s.numneu) s
    rcases hm : StateIO.eachLeft (StateIO.readMassLeft f) (StateIO.masses s.numneu) s with ⟨s', e2⟩
    rw [hm] at h2
    simp only [hm] at hr
    obtain ⟨P', b', h2, _⟩ := h2
    dsimp only at h2
    cases e2 with
    | throws => exact absurd ((Prod.mk.injEq _ _ _ _).mp hr).2 (by decide)
    | ub => exact absurd ((Prod.mk.injEq _ _ _ _).mp hr).2 (by decide)
    | ok =>
      dsimp only at hr
      have hb' : s'.body.isSome = true := by rw [h2, h1]; exact hb
      have ht' : s'.track.isSome = true := by rw [h2, h1]; exact ht
      split at hr
      · split at hr
        · rw [← ((Prod.mk.injEq _ _ _ _).mp hr).1]
          exact tail_ready _ _ hb' ht'
        · exact absurd ((Prod.mk.injEq _ _ _ _).mp hr).2 (by decide)
      · rw [← ((Prod.mk.injEq _ _ _ _).mp hr).1]
        exact tail_ready _ _ hb' ht'

/-- A reading that returns leaves an object that can be evolved. -/
theorem left_ready (squids nusquids : Nat) (h : Held) (found : Option Source) (h' : Held) (hr : readLeft squids nusquids h found = (h', .ok)) :
    Life.evolveGuards h'.st.obj = true := by
  cases found with
  | none => exact absurd ((Prod.mk.injEq _ _ _ _).mp hr).2 (by decide)
  | some src =>
    by_cases hu : Understood squids nusquids src
    · rw [StateIO.readLeft_understood hu] at hr
      have h1 := init_route (StateIO.entered h src) h.st.obj.inusquids h.st.obj.numneu src.file
      rcases hi : StateIO.initLeft (StateIO.entered h src) h.st.obj.inusquids h.st.obj.numneu src.file with ⟨h1', _ | _ | _⟩ <;> rw [hi] at hr h1
      · exact rest_ready h1' src.file (by rw [h1.1]; rfl) (by rw [h1.2]; rfl) h' hr
      · exact absurd ((Prod.mk.injEq _ _ _ _).mp hr).2 (by decide)
      · exact absurd ((Prod.mk.injEq _ _ _ _).mp hr).2 (by decide)
    · exfalso
      unfold readLeft at hr
      dsimp only at hr
      have no : ∀ x : Held, (x, Status.throws) = (h', .ok) → False := fun x hx => absurd ((Prod.mk.injEq _ _ _ _).mp hx).2 (by decide)
      by_cases h1 : src.squidsVersion > squids
      · rw [if_pos h1] at hr
        exact no _ hr
      · rw [if_neg h1] at hr
        by_cases h2 : src.nusquidsVersion > nusquids
        · rw [if_pos h2] at hr
          exact no _ hr
        · rw [if_neg h2] at hr
          cases h3 : src.bodyOk
          · rw [h3] at hr
            exact no _ hr
          · cases h4 : src.trackOk
            · rw [h3, h4] at hr
              exact no _ hr
            · exact hu ⟨not_lt.1 h1, not_lt.1 h2, h3, h4⟩

theorem node_ready {rnd : Rat → Int} {squids nusquids : Nat} {f : SkySource} {t : Option Tables} {x : Rat} {s : State}
    (h : nodeLeft rnd squids nusquids f t x = (s, .ok)) : Life.evolveGuards s.obj = true := by
  unfold nodeLeft at h
  dsimp only at h
  rcases hr : readLeft squids nusquids freshHeld ((f.groups.lookup (nodeName rnd x)).map fun src => { src with file := { src.file with tables := t } })
    with ⟨h', e⟩
  rw [hr] at h
  obtain ⟨h1, h2⟩ := (Prod.mk.injEq _ _ _ _).mp h
  dsimp only at h1 h2
  subst h1 h2
  exact left_ready _ _ _ _ _ hr

theorem node_broken {rnd : Rat → Int} {squids nusquids : Nat} {f : SkySource} {t : Option Tables} {x : Rat} {s : State}
    (h : nodeLeft rnd squids nusquids f t x = (s, .throws)) : s.obj.istate = false := by
  unfold nodeLeft at h
  dsimp only at h
  rcases hr : readLeft squids nusquids freshHeld ((f.groups.lookup (nodeName rnd x)).map fun src => { src with file := { src.file with tables := t } })
    with ⟨h', e⟩
  rw [hr] at h
  obtain ⟨h1, h2⟩ := (Prod.mk.injEq _ _ _ _).mp h
  dsimp only at h1 h2
  subst h1 h2
  exact StateIO.left_istate _ _ _ rfl _ _ hr

/-- The nodes of a list after a reading that stopped at node `k`. -/
structure Stopped (l : List State) (n k : Nat) : Prop where
  count : l.length = n
  inside : k < n
  before : ∀ j, j < k → ∃ s, l[j]? = some s ∧ Life.evolveGuards s.obj = true
  broken : ∃ s, l[k]? = some s ∧ s.obj.istate = false
  behind : ∀ j, k < j → j < n → l[j]? = some StateIO.fresh

theorem stopped_first {s : State} (hs : s.obj.istate = false) (xs : List Rat) : Stopped (s :: xs.map fun _ => StateIO.fresh) (xs.length + 1) 0 where
  count := by simp
  inside := by omega
  before := fun j hj => absurd hj (by omega)
  broken := ⟨s, rfl, hs⟩
  behind := by
    intro j hj hn
    obtain ⟨i, rfl⟩ : ∃ i, j = i + 1 := ⟨j - 1, by omega⟩
    rw [List.getElem?_cons_succ, List.getElem?_map, List.getElem?_eq_getElem (by omega)]
    rfl

theorem Stopped.cons {l : List State} {n k : Nat} (h : Stopped l n k) {s : State} (hs : Life.evolveGuards s.obj = true) :
    Stopped (s :: l) (n + 1) (k + 1) where
  count := by simp [h.count]
  inside := by have := h.inside; omega
  before := by
    intro j hj
    cases j with
    | zero => exact ⟨s, rfl, hs⟩
    | succ i => exact h.before i (by omega)
  broken := h.broken
  behind := by
    intro j hj hn
    obtain ⟨i, rfl⟩ : ∃ i, j = i + 1 := ⟨j - 1, by omega⟩
    exact h.behind i (by omega) (by omega)

theorem others_stopped (rnd : Rat → Int) (squids nusquids : Nat) (f : SkySource) (iis : Option Tables) : ∀ (xs : List Rat) (l : List State),
    othersLeft rnd squids nusquids f iis xs = (l, .throws) → ∃ k, Stopped l xs.length k
  | [], l, h => absurd ((Prod.mk.injEq _ _ _ _).mp h).2 (by decide)
  | x :: xs, l, h => by
    unfold othersLeft at h
    rcases hx : nodeLeft rnd squids nusquids f iis x with ⟨s, _ | _ | _⟩ <;> rw [hx] at h <;> dsimp only at h
    · obtain ⟨h1, h2⟩ := (Prod.mk.injEq _ _ _ _).mp h
      obtain ⟨k, hk⟩ := others_stopped rnd squids nusquids f iis xs _ (Prod.ext rfl h2)
      exact ⟨k + 1, h1 ▸ hk.cons (node_ready hx)⟩
    · obtain ⟨h1, _⟩ := (Prod.mk.injEq _ _ _ _).mp h
      exact ⟨0, h1 ▸ stopped_first (node_broken hx) xs⟩
    · exact absurd ((Prod.mk.injEq _ _ _ _).mp h).2 (by decide)

/-- The outcome of a call, forgetting what is left if it fails. -/
def FullSky.outcome (r : FullSky × Status) : Outcome FullSky :=
  match r with
  | (a, .ok) => .ok a
  | (_, .throws) => .throws
  | (_, .ub) => .ub

theorem lookup_files (k : List Char) : ∀ l : List (List Char × Source), (l.map fun p => (p.1, p.2.file)).lookup k = (l.lookup k).map (·.file)
  | [] => rfl
  | p :: l => by
    rw [List.map_cons, List.lookup_cons, List.lookup_cons]
    cases k == p.1
    · exact lookup_files k l
    · rfl

theorem lookup_mem {k : List Char} {v : Source} : ∀ l : List (List Char × Source), l.lookup k = some v → ∃ k', (k', v) ∈ l
  | [], h => absurd h (by simp)
  | p :: l, h => by
    rw [List.lookup_cons] at h
    cases hk : k == p.1
    · rw [hk] at h
      obtain ⟨k', hk'⟩ := lookup_mem l h
      exact ⟨k', List.mem_cons_of_mem _ hk'⟩
    · rw [hk] at h
      dsimp only at h
      exact ⟨p.1, by rw [← Option.some.inj h]; exact List.mem_cons_self ..⟩

/-- One node, as C95 reads it. -/
theorem node_reads (rnd : Rat → Int) (squids nusquids : Nat) (f : SkySource)
    (hu : ∀ p ∈ f.groups, Understood squids nusquids p.2 ∧ ntOfCode p.2.file.nt = some p.2.nt) (t : Option Tables) (x : Rat) :
    (match nodeLeft rnd squids nusquids f t x with
      | (s, .ok) => Outcome.ok s
      | (_, .throws) => .throws
      | (_, .ub) => .ub) =
    match (f.groups.lookup (nodeName rnd x)).map (·.file) with
      | none => .throws
      | some g => StateIO.read StateIO.fresh { g with tables := t } := by
  unfold nodeLeft
  dsimp only
  cases hl : f.groups.lookup (nodeName rnd x) with
  | none => rfl
  | some src =>
    obtain ⟨k, hk⟩ := lookup_mem _ hl
    obtain ⟨h1, h2⟩ := hu _ hk
    have h3 := StateIO.c112_reads squids nusquids freshHeld { src with file := { src.file with tables := t } } h2 h1
    dsimp only [Option.map]
    have h4 : StateIO.read StateIO.fresh { src.file with tables := t } = StateIO.read freshHeld.st { src.file with tables := t } := rfl
    rw [h4, ← h3]
    rcases readLeft squids nusquids freshHeld (some { src with file := { src.file with tables := t } }) with ⟨h', _ | _ | _⟩ <;> rfl

theorem readCommon_tables (s : State) (f : File) (t : Option Tables) : StateIO.readCommon s { f with tables := t } = StateIO.readCommon s f := rfl

theorem read_tables (t : Option Tables) (s : State) (f : File) : StateIO.read s { f with tables := t } = StateIO.readInternal t s f := by
  unfold StateIO.read StateIO.readInternal
  rw [readCommon_tables]

theorem others_reads (rnd : Rat → Int) (squids nusquids : Nat) (f : SkySource) (z e : List Rat)
    (hu : ∀ p ∈ f.groups, Understood squids nusquids p.2 ∧ ntOfCode p.2.file.nt = some p.2.nt) (t : Option Tables) : ∀ xs : List Rat,
    (match othersLeft rnd squids nusquids f t xs with
      | (l, .ok) => Outcome.ok l
      | (_, .throws) => .throws
      | (_, .ub) => .ub) = readSkyNodes rnd (f.file z e) t xs
  | [] => rfl
  | x :: xs => by
    have ih := others_reads rnd squids nusquids f z e hu t xs
    have h1 := node_reads rnd squids nusquids f hu t x
    unfold readSkyNodes othersLeft
    rw [show (f.file z e).groups = f.groups.map fun p => (p.1, p.2.file) from rfl, lookup_files]
    rw [← ih]
    rcases hx : nodeLeft rnd squids nusquids f t x with ⟨s, _ | _ | _⟩ <;> rw [hx] at h1 <;> dsimp only at h1 ⊢
    · cases hl : (f.groups.lookup (nodeName rnd x)).map (·.file) with
      | none => rw [hl] at h1; cases h1
      | some g =>
        rw [hl] at h1
        dsimp only at h1 ⊢
        rw [← read_tables, ← h1]
        rcases othersLeft rnd squids nusquids f t xs with ⟨l, _ | _ | _⟩ <;> rfl
    · cases hl : (f.groups.lookup (nodeName rnd x)).map (·.file) with
      | none => rfl
      | some g =>
        rw [hl] at h1
        dsimp only at h1 ⊢
        rw [← read_tables, ← h1]
        rfl
    · cases hl : (f.groups.lookup (nodeName rnd x)).map (·.file) with
      | none => rw [hl] at h1; cases h1
      | some g =>
        rw [hl] at h1
        dsimp only at h1 ⊢
        rw [← read_tables, ← h1]
        rfl

/-! ## C118 -/

/-- C118: on files this library understands, the reading with all its left-overs returns exactly when that of C95 does, with the same object. -/
theorem c118_reads (rnd : Rat → Int) (isEarthAtm : BodyRef → Bool) (squids nusquids : Nat) (a : FullSky) (f : SkySource) (z e : List Rat)
    (hz : f.zeniths = some z) (he : f.energies = some e) (hu : ∀ p ∈ f.groups, Understood squids nusquids p.2 ∧ ntOfCode p.2.file.nt = some p.2.nt) :
    FullSky.outcome (readSkyLeft rnd isEarthAtm squids nusquids a (some f)) = readSky rnd isEarthAtm a (f.file z e) := by
  unfold readSkyLeft readSky
  dsimp only
  rw [hz, he]
  cases z with
  | nil => rfl
  | cons x xs =>
    have h1 := node_reads rnd squids nusquids f hu f.shared x
    dsimp only [SkySource.file]
    rw [lookup_files]
    rcases hx : nodeLeft rnd squids nusquids f f.shared x with ⟨s, _ | _ | _⟩ <;> rw [hx] at h1 <;> dsimp only at h1 ⊢
    · cases hl : (f.groups.lookup (nodeName rnd x)).map (·.file) with
      | none => rw [hl] at h1; cases h1
      | some g =>
        rw [hl] at h1
        dsimp only at h1 ⊢
        rw [← h1]
        dsimp only [Outcome.bind]
        have h2 := others_reads rnd squids nusquids f (x :: xs) e hu (if s.obj.iint = true then s.obj.tables else a.tables) xs
        unfold SkySource.file at h2
        rw [← h2]
        rcases ho : othersLeft rnd squids nusquids f (if s.obj.iint = true then s.obj.tables else a.tables) xs with ⟨l, _ | _ | _⟩
        · dsimp only
          cases s.obj.body with
          | none => rfl
          | some b =>
            dsimp only
            cases isEarthAtm b <;> rfl
        · rfl
        · rfl
    · cases hl : (f.groups.lookup (nodeName rnd x)).map (·.file) with
      | none => rfl
      | some g =>
        rw [hl] at h1
        dsimp only at h1 ⊢
        rw [← h1]
        rfl
    · cases hl : (f.groups.lookup (nodeName rnd x)).map (·.file) with
      | none => rw [hl] at h1; cases h1
      | some g =>
        rw [hl] at h1
        dsimp only at h1 ⊢
        rw [← h1]
        rfl

/-- C118: if the file cannot be opened, the object is as before. -/
theorem c118_not_found (rnd : Rat → Int) (isEarthAtm : BodyRef → Bool) (squids nusquids : Nat) (a : FullSky) :
    readSkyLeft rnd isEarthAtm squids nusquids a none = (a, .throws) := rfl

/-- C118: what any other reading that throws leaves. -/
theorem c118_left (rnd : Rat → Int) (isEarthAtm : BodyRef → Bool) (squids nusquids : Nat) (a a' : FullSky) (f : SkySource)
    (h : readSkyLeft rnd isEarthAtm squids nusquids a (some f) = (a', .throws)) :
    ∃ z e k, f.zeniths = some z ∧ f.energies = some e ∧ Interrupted a a' z e k := by
  unfold readSkyLeft at h
  dsimp only at h
  have no : ∀ x : FullSky, (x, Status.ub) = (a', .throws) → False := fun x hx => absurd ((Prod.mk.injEq _ _ _ _).mp hx).2 (by decide)
  cases hz : f.zeniths with
  | none => rw [hz] at h; exact (no _ h).elim
  | some z =>
    rw [hz] at h
    cases he : f.energies with
    | none => rw [he] at h; exact (no _ h).elim
    | some e =>
      rw [he] at h
      cases z with
      | nil => exact (no _ h).elim
      | cons x xs =>
        dsimp only at h
        rcases hx : nodeLeft rnd squids nusquids f f.shared x with ⟨s, _ | _ | _⟩ <;> rw [hx] at h <;> dsimp only at h
        · rcases ho : othersLeft rnd squids nusquids f (if s.obj.iint = true then s.obj.tables else a.tables) xs with ⟨l, _ | _ | _⟩ <;>
            rw [ho] at h <;> dsimp only at h
          · exfalso
            cases hb : s.obj.body with
            | none => rw [hb] at h; exact no _ h
            | some b =>
              rw [hb] at h
              dsimp only at h
              cases hi : isEarthAtm b <;> rw [hi] at h
              · exact no _ h
              · exact absurd ((Prod.mk.injEq _ _ _ _).mp h).2 (by decide)
          · obtain ⟨k, hk⟩ := others_stopped rnd squids nusquids f _ xs l ho
            have hk := hk.cons (node_ready hx)
            refine ⟨x :: xs, e, k + 1, rfl, rfl, ?_⟩
            rw [← ((Prod.mk.injEq _ _ _ _).mp h).1]
            exact ⟨rfl, rfl, hk.count, hk.inside, hk.before, hk.broken, hk.behind, rfl, rfl, rfl, rfl, rfl⟩
          · exact (no _ h).elim
        · have hk := stopped_first (node_broken hx) xs
          refine ⟨x :: xs, e, 0, rfl, rfl, ?_⟩
          rw [← ((Prod.mk.injEq _ _ _ _).mp h).1]
          exact ⟨rfl, rfl, hk.count, hk.inside, hk.before, hk.broken, hk.behind, rfl, rfl, rfl, rfl, rfl⟩
        · exact (no _ h).elim

/-- C118: an object that was not ready is not ready after a failed reading; it refuses to be evolved, asked or written. -/
theorem c118_refused (rnd : Rat → Int) (isEarthAtm : BodyRef → Bool) (squids nusquids : Nat) (a a' : FullSky) (found : Option SkySource)
    (h : readSkyLeft rnd isEarthAtm squids nusquids a found = (a', .throws)) (hn : Unready a) :
    (∀ dflt order, (evolve dflt a'.sky order).2 = .throws) ∧
    (∀ R length n ev height flv costh enu rho, evalWith (view R length n a') ev height flv costh enu rho = .throws) ∧
    ∀ dflt stray overwrite, writeSky rnd dflt stray overwrite a' = .throws := by
  have hn' : Unready a' := by
    cases found with
    | none => rw [← ((Prod.mk.injEq _ _ _ _).mp h).1]; exact hn
    | some f =>
      obtain ⟨z, e, k, _, _, hi⟩ := c118_left rnd isEarthAtm squids nusquids a a' f h
      unfold Unready
      rw [hi.iini, hi.iatm]
      exact hn
  refine ⟨fun dflt order => ?_, fun R length n ev height flv costh enu rho => ?_, fun dflt stray overwrite => ?_⟩
  · unfold evolve FullSky.sky
    dsimp only
    rcases hn' with h1 | ⟨h1, h2⟩
    · rw [h1]
    · rw [h1, h2]
      rfl
  · unfold evalWith view
    dsimp only
    rcases hn' with h1 | ⟨h1, h2⟩
    · rw [h1]
    · rw [h1, h2]
      rfl
  · unfold writeSky
    rcases hn' with h1 | ⟨h1, h2⟩
    · rw [h1]
    · rw [h1, h2]
      rfl

theorem left_initInteractions_istate (dflt : Option Xs) (s : Life.Obj) : (Life.initInteractions dflt s).1.istate = s.istate := by
  unfold Life.initInteractions Life.sizeBuffers
  dsimp only
  repeat' split
  all_goals rfl

theorem left_forAll_istate (g : Life.Obj → Life.Obj × Status) (hg : ∀ s, (g s).1.istate = s.istate) : ∀ l : List Life.Obj,
    (forAll g l).1.map (·.istate) = l.map (·.istate)
  | [] => rfl
  | s :: l => by
    have h1 := hg s
    have h2 := left_forAll_istate g hg l
    unfold forAll
    rcases hs : g s with ⟨s', _ | _ | _⟩ <;> rw [hs] at h1 <;> dsimp only at h1 ⊢
    · rw [List.map_cons, List.map_cons, h1, h2]
    · rw [List.map_cons, List.map_cons, h1]
    · rw [List.map_cons, List.map_cons, h1]

theorem left_prepare_istate (dflt : Option Xs) (a : Sky) : (prepare dflt a).1.nodes.map (·.istate) = a.nodes.map (·.istate) := by
  unfold prepare
  cases hn : a.nodes with
  | nil => dsimp only; rw [hn]
  | cons s l =>
    dsimp only
    split
    · have h1 := left_initInteractions_istate dflt s
      rcases hs : Life.initInteractions dflt s with ⟨s', _ | _ | _⟩ <;> rw [hs] at h1 <;> dsimp only at h1 ⊢
      · rw [left_forAll_istate]
        · rw [List.map_cons, List.map_cons, h1]
        · intro x
          rw [left_initInteractions_istate]
      · rw [List.map_cons, List.map_cons, h1]
      · rw [List.map_cons, List.map_cons, h1]
    · rw [hn]

/-- C118: whatever the object was, after a failed reading it is not evolved without complaint by one thread. -/
theorem c118_evolve_partial (rnd : Rat → Int) (isEarthAtm : BodyRef → Bool) (squids nusquids : Nat) (a a' : FullSky) (f : SkySource)
    (h : readSkyLeft rnd isEarthAtm squids nusquids a (some f) = (a', .throws)) (ht : a.threads = some 1) (dflt : Option Xs) (order : List Nat) :
    (evolve dflt a'.sky order).2 ≠ .ok := by
  intro hok
  obtain ⟨z, e, k, _, _, hi⟩ := c118_left rnd isEarthAtm squids nusquids a a' f h
  obtain ⟨h1, h2, h3⟩ := evolve_flags dflt _ _ hok
  obtain ⟨s, hs, hs'⟩ := hi.broken
  have h4 : ((prepare dflt a'.sky).1.nodes.map (·.istate))[k]? = some false := by
    rw [left_prepare_istate]
    show ((a'.nodes.map State.obj).map (·.istate))[k]? = some false
    rw [List.getElem?_map, List.getElem?_map, hs]
    exact congrArg some hs'
  rw [List.getElem?_map] at h4
  obtain ⟨o, ho, ho'⟩ := Option.map_eq_some_iff.1 h4
  have h5 : a'.sky = a'.sky.withThreads 1 := by
    have : a'.sky.threads = some 1 := by
      show a'.threads = some 1
      rw [hi.threads, ht]
    unfold Sky.withThreads
    rw [← this]
  rw [h5, evolve_eq dflt _ 1 order h1 h2 h3] at hok
  simp only [if_true] at hok
  have h6 := (forAll_ok _ _ hok).1 o (List.mem_of_getElem? ho)
  have h7 : Life.evolveGuards o = false := by simp [Life.evolveGuards, ho']
  unfold Life.evolveState at h6
  rw [h7] at h6
  cases h6

theorem writeNodes_broken (rnd : Rat → Int) (dflt : Option Xs) (stray : Option Nat) : ∀ (l : List State) (first : Bool) (xs : List Rat) (f g : SkyFile),
    (∃ s ∈ l, s.obj.istate = false) → writeSkyNodes rnd dflt stray first xs l f ≠ .ok g
  | [], _, _, _, _, hs => absurd hs (by simp)
  | s :: l, first, [], f, g, _ => by unfold writeSkyNodes; intro h; cases h
  | s :: l, first, x :: xs, f, g, hs => by
    intro h
    unfold writeSkyNodes at h
    cases hg : Life.evolveGuards s.obj
    · rw [hg] at h
      cases h
    · rw [hg] at h
      simp only [if_true] at h
      split at h
      · cases h
      · cases hw : StateIO.write dflt first stray s with
        | throws => rw [hw] at h; cases h
        | ub => rw [hw] at h; cases h
        | ok g' =>
          rw [hw] at h
          refine writeNodes_broken rnd dflt stray l false xs _ g ?_ h
          obtain ⟨t, ht, ht'⟩ := hs
          rcases List.mem_cons.1 ht with rfl | ht
          · simp [Life.evolveGuards, ht'] at hg
          · exact ⟨t, ht, ht'⟩

/-- C118: nor is it written. -/
theorem c118_write (rnd : Rat → Int) (isEarthAtm : BodyRef → Bool) (squids nusquids : Nat) (a a' : FullSky) (f : SkySource)
    (h : readSkyLeft rnd isEarthAtm squids nusquids a (some f) = (a', .throws)) (dflt : Option Xs) (stray : Option Nat) (overwrite : Bool) (g : SkyFile) :
    writeSky rnd dflt stray overwrite a' ≠ .ok g := by
  obtain ⟨z, e, k, _, _, hi⟩ := c118_left rnd isEarthAtm squids nusquids a a' f h
  obtain ⟨s, hs, hs'⟩ := hi.broken
  intro hw
  unfold writeSky at hw
  split at hw
  · cases hw
  · cases hw
  · split at hw
    · cases hw
    · split at hw
      · cases hw
      · exact writeNodes_broken rnd dflt stray _ _ _ _ _ ⟨s, List.mem_of_getElem? hs, hs'⟩ hw

/-! ## An object in use and three files -/

/-- An object in use, one thread or more. -/
noncomputable def usedSky (threads : Nat) : FullSky :=
  ⟨some true, true, [-1, 0], [1, 2], [StateIO.inUse.st, StateIO.inUse.st], some ⟨1, false⟩, none, none, some threads⟩

noncomputable def goodNode : Source := ⟨StateIO.fileWith 3 1 "False" ⟨2, false⟩, .neutrino, 1, 1, true, true⟩

/-- A file with both nodes, one with the first only, and one with none. -/
noncomputable def wholeFile : SkySource :=
  ⟨some [-1, 0], some [1, 2], [(nodeName Rat.floor (-1), goodNode), (nodeName Rat.floor 0, goodNode)], none⟩
noncomputable def halfFile : SkySource := ⟨some [-1, 0], some [1, 2], [(nodeName Rat.floor (-1), goodNode)], none⟩
noncomputable def bareFile : SkySource := ⟨some [-1, 0], some [1, 2], [], none⟩

theorem whole_read : (readSkyLeft Rat.floor (fun _ => true) 1 1 (usedSky 1) (some wholeFile)).2 = .ok := by decide +kernel

theorem half_read : (readSkyLeft Rat.floor (fun _ => true) 1 1 (usedSky 1) (some halfFile)).2 = .throws := by decide +kernel

theorem bare_read (n : Nat) : readSkyLeft Rat.floor (fun _ => true) 1 1 (usedSky n) (some bareFile) =
    ({ usedSky n with nodes := [StateIO.fresh, StateIO.fresh] }, .throws) := rfl

/-- For `c118_reads`. -/
example : ∃ b, readSky Rat.floor (fun _ => true) (usedSky 1) (wholeFile.file [-1, 0] [1, 2]) = .ok b := by
  have h := c118_reads Rat.floor (fun _ => true) 1 1 (usedSky 1) wholeFile [-1, 0] [1, 2] rfl rfl (by
    intro p hp
    have : p.2 = goodNode := by
      rcases List.mem_cons.1 hp with rfl | hp
      · rfl
      · rw [List.mem_singleton.1 hp]
    rw [this]
    exact ⟨⟨le_refl _, le_refl _, rfl, rfl⟩, rfl⟩)
  rw [← h]
  rcases hr : readSkyLeft Rat.floor (fun _ => true) 1 1 (usedSky 1) (some wholeFile) with ⟨b, st⟩
  have h1 := whole_read
  rw [hr] at h1
  dsimp only at h1
  subst h1
  exact ⟨b, rfl⟩

/-- For `c118_left`, `c118_evolve_partial` and `c118_write`. -/
example : ∃ a', readSkyLeft Rat.floor (fun _ => true) 1 1 (usedSky 1) (some halfFile) = (a', .throws) ∧ (∃ z e k, Interrupted (usedSky 1) a' z e k) ∧
    (∀ dflt order, (evolve dflt a'.sky order).2 ≠ .ok) ∧ ∀ dflt stray ow g, writeSky Rat.floor dflt stray ow a' ≠ .ok g := by
  have h : readSkyLeft Rat.floor (fun _ => true) 1 1 (usedSky 1) (some halfFile) =
    ((readSkyLeft Rat.floor (fun _ => true) 1 1 (usedSky 1) (some halfFile)).1, .throws) := Prod.ext rfl (half_read)
  obtain ⟨z, e, k, _, _, hi⟩ := c118_left _ _ _ _ _ _ _ h
  exact ⟨_, h, ⟨z, e, k, hi⟩, c118_evolve_partial _ _ _ _ _ _ _ h rfl, c118_write _ _ _ _ _ _ _ h⟩

/-- For `c118_refused`: a new object whose flags were set. -/
example : ∃ a', readSkyLeft Rat.floor (fun _ => true) 1 1 { usedSky 1 with iini := some false } (some bareFile) = (a', .throws) ∧
    ∀ dflt order, (evolve dflt a'.sky order).2 = .throws :=
  ⟨{ usedSky 1 with iini := some false, nodes := [StateIO.fresh, StateIO.fresh] }, rfl, (c118_refused Rat.floor (fun _ => true) 1 1
    { usedSky 1 with iini := some false } _ (some bareFile) rfl (.inl rfl)).1⟩

/-! ## A later reading -/

theorem rest_tables (h : Held) (f : File) (t t' : Option Tables) (h' : Held) (hr : StateIO.restLeft h { f with tables := t } = (h', .ok))
    (hi : h'.st.obj.iint = false) : StateIO.restLeft h { f with tables := t' } = (h', .ok) := by
  have tail : ∀ (s : State) (t : Option Tables), (StateIO.readTail s t).obj.iint = s.obj.iint := by
    intro s t
    cases t <;> rfl
  unfold StateIO.restLeft at hr ⊢
  have e1 : ∀ t, StateIO.readPairLeft { f with tables := t } = StateIO.readPairLeft f := fun t => rfl
  have e2 : ∀ t, StateIO.readMassLeft { f with tables := t } = StateIO.readMassLeft f := fun t => rfl
  rw [e1, e2] at hr ⊢
  rcases hp : StateIO.eachLeft (StateIO.readPairLeft f) (StateIO.pairs h.st.obj.numneu) h.st.obj with ⟨s, _ | _ | _⟩
  · simp only [hp] at hr ⊢
    rcases hm : StateIO.eachLeft (StateIO.readMassLeft f) (StateIO.masses s.numneu) s with ⟨s', _ | _ | _⟩
    · simp only [hm] at hr ⊢
      cases hs : (Life.iniH0 (Life.iniProj { s' with t := f.time, offset := some (f.time - f.track.x) })).iint
      · simp only [hs, Bool.false_eq_true, if_false] at hr ⊢
        exact hr
      · exfalso
        simp only [hs, if_true] at hr
        cases t with
        | none => exact absurd ((Prod.mk.injEq _ _ _ _).mp hr).2 (by decide)
        | some t =>
          rw [← ((Prod.mk.injEq _ _ _ _).mp hr).1] at hi
          dsimp only at hi
          rw [tail] at hi
          rw [hs] at hi
          cases hi
    · simp only [hm] at hr
      exact absurd ((Prod.mk.injEq _ _ _ _).mp hr).2 (by decide)
    · simp only [hm] at hr
      exact absurd ((Prod.mk.injEq _ _ _ _).mp hr).2 (by decide)
  · simp only [hp] at hr
    exact absurd ((Prod.mk.injEq _ _ _ _).mp hr).2 (by decide)
  · simp only [hp] at hr
    exact absurd ((Prod.mk.injEq _ _ _ _).mp hr).2 (by decide)

/-- The source with other tables. -/
def withTables (src : Source) (t : Option Tables) : Source := { src with file := { src.file with tables := t } }

theorem understood_of_ok {squids nusquids : Nat} {h h' : Held} {src : Source} (hr : readLeft squids nusquids h (some src) = (h', .ok)) :
    Understood squids nusquids src := by
  by_contra hu
  unfold readLeft at hr
  dsimp only at hr
  have no : ∀ x : Held, (x, Status.throws) = (h', .ok) → False := fun x hx => absurd ((Prod.mk.injEq _ _ _ _).mp hx).2 (by decide)
  by_cases h1 : src.squidsVersion > squids
  · rw [if_pos h1] at hr
    exact no _ hr
  · rw [if_neg h1] at hr
    by_cases h2 : src.nusquidsVersion > nusquids
    · rw [if_pos h2] at hr
      exact no _ hr
    · rw [if_neg h2] at hr
      cases h3 : src.bodyOk
      · rw [h3] at hr
        exact no _ hr
      · cases h4 : src.trackOk
        · rw [h3, h4] at hr
          exact no _ hr
        · exact hu ⟨not_lt.1 h1, not_lt.1 h2, h3, h4⟩

theorem left_tables (squids nusquids : Nat) (h h' : Held) (src : Source) (t t' : Option Tables)
    (hr : readLeft squids nusquids h (some (withTables src t)) = (h', .ok)) (hi : h'.st.obj.iint = false) :
    readLeft squids nusquids h (some (withTables src t')) = (h', .ok) := by
  have hu := understood_of_ok hr
  have hu' : Understood squids nusquids (withTables src t') := hu
  rw [StateIO.readLeft_understood hu] at hr
  rw [StateIO.readLeft_understood hu']
  have e1 : ∀ t, StateIO.entered h (withTables src t) = StateIO.entered h src := fun t => rfl
  have e2 : ∀ (x : Held) t, StateIO.initLeft x h.st.obj.inusquids h.st.obj.numneu (withTables src t).file =
      StateIO.initLeft x h.st.obj.inusquids h.st.obj.numneu src.file := fun x t => rfl
  rw [e1, e2] at hr ⊢
  rcases he : StateIO.initLeft (StateIO.entered h src) h.st.obj.inusquids h.st.obj.numneu src.file with ⟨h1, _ | _ | _⟩ <;> rw [he] at hr
  · exact rest_tables h1 src.file t t' h' hr hi
  · exact hr
  · exact hr

theorem node_tables {rnd : Rat → Int} {squids nusquids : Nat} {f : SkySource} {t : Option Tables} (t' : Option Tables) {x : Rat} {s : State}
    (h : nodeLeft rnd squids nusquids f t x = (s, .ok)) (hi : s.obj.iint = false) : nodeLeft rnd squids nusquids f t' x = (s, .ok) := by
  unfold nodeLeft at h ⊢
  dsimp only at h ⊢
  cases hl : f.groups.lookup (nodeName rnd x) with
  | none => rw [hl] at h; exact h
  | some src =>
    rw [hl] at h
    have h' : ((readLeft squids nusquids freshHeld (some (withTables src t))).1.st, (readLeft squids nusquids freshHeld (some (withTables src t))).2) =
        (s, Status.ok) := h
    obtain ⟨h1, h2⟩ := (Prod.mk.injEq _ _ _ _).mp h'
    have h3 := left_tables squids nusquids freshHeld _ src t t' (Prod.ext rfl h2) (by rw [h1]; exact hi)
    show ((readLeft squids nusquids freshHeld (some (withTables src t'))).1.st, (readLeft squids nusquids freshHeld (some (withTables src t'))).2) = _
    rw [h3, h1]

theorem others_tables (rnd : Rat → Int) (squids nusquids : Nat) (f : SkySource) (t t' : Option Tables) : ∀ (xs : List Rat) (l : List State),
    othersLeft rnd squids nusquids f t xs = (l, .ok) → (∀ s ∈ l, s.obj.iint = false) → othersLeft rnd squids nusquids f t' xs = (l, .ok)
  | [], l, h, _ => h
  | x :: xs, l, h, hi => by
    unfold othersLeft at h ⊢
    rcases hx : nodeLeft rnd squids nusquids f t x with ⟨s, _ | _ | _⟩ <;> rw [hx] at h <;> dsimp only at h
    · obtain ⟨h1, h2⟩ := (Prod.mk.injEq _ _ _ _).mp h
      have hs : s.obj.iint = false := hi s (by rw [← h1]; exact List.mem_cons_self ..)
      rw [node_tables t' hx hs]
      dsimp only
      rw [others_tables rnd squids nusquids f t t' xs _ (Prod.ext rfl h2) fun s' hs' => hi s' (by rw [← h1]; exact List.mem_cons_of_mem _ hs')]
      rw [h1]
    · exact absurd ((Prod.mk.injEq _ _ _ _).mp h).2 (by decide)
    · exact absurd ((Prod.mk.injEq _ _ _ _).mp h).2 (by decide)

/-- What a reading that returns leaves. -/
theorem read_ok {rnd : Rat → Int} {isEarthAtm : BodyRef → Bool} {squids nusquids : Nat} {a b : FullSky} {f : SkySource}
    (h : readSkyLeft rnd isEarthAtm squids nusquids a (some f) = (b, .ok)) :
    ∃ x xs e s l body, f.zeniths = some (x :: xs) ∧ f.energies = some e ∧ nodeLeft rnd squids nusquids f f.shared x = (s, .ok) ∧
      othersLeft rnd squids nusquids f (if s.obj.iint then s.obj.tables else a.tables) xs = (l, .ok) ∧ s.obj.body = some body ∧
      isEarthAtm body = true ∧
      b = ⟨some true, true, x :: xs, e, s :: l, some body, a.ncs, if s.obj.iint then s.obj.tables else a.tables, a.threads⟩ := by
  unfold readSkyLeft at h
  dsimp only at h
  have no : ∀ (x : FullSky) (st : Status), st ≠ .ok → (x, st) = (b, .ok) → False := fun x st hst hx => hst ((Prod.mk.injEq _ _ _ _).mp hx).2
  cases hz : f.zeniths with
  | none => rw [hz] at h; exact (no _ _ (by decide) h).elim
  | some z =>
    rw [hz] at h
    cases he : f.energies with
    | none => rw [he] at h; exact (no _ _ (by decide) h).elim
    | some e =>
      rw [he] at h
      cases z with
      | nil => exact (no _ _ (by decide) h).elim
      | cons x xs =>
        dsimp only at h
        rcases hx : nodeLeft rnd squids nusquids f f.shared x with ⟨s, _ | _ | _⟩ <;> rw [hx] at h <;> dsimp only at h
        · rcases ho : othersLeft rnd squids nusquids f (if s.obj.iint = true then s.obj.tables else a.tables) xs with ⟨l, _ | _ | _⟩ <;>
            rw [ho] at h <;> dsimp only at h
          · cases hb : s.obj.body with
            | none => rw [hb] at h; exact (no _ _ (by decide) h).elim
            | some body =>
              rw [hb] at h
              dsimp only at h
              cases hi : isEarthAtm body <;> rw [hi] at h
              · exact (no _ _ (by decide) h).elim
              · exact ⟨x, xs, e, s, l, body, rfl, rfl, hx, ho, hb, hi, ((Prod.mk.injEq _ _ _ _).mp h).1.symm⟩
          · exact (no _ _ (by decide) h).elim
          · exact (no _ _ (by decide) h).elim
        · exact (no _ _ (by decide) h).elim
        · exact (no _ _ (by decide) h).elim

/-- C118: a failed reading does not stand in the way of a later one. If the file `f` can be read into the object it can be read after the failure, with the
same result; without interactions the tables kept in the object may differ, which none of its nodes has. The nodes of the file agree on interactions. -/
theorem c118_retry (rnd : Rat → Int) (isEarthAtm : BodyRef → Bool) (squids nusquids : Nat) (a a' b : FullSky) (found : Option SkySource)
    (h : readSkyLeft rnd isEarthAtm squids nusquids a found = (a', .throws)) (f : SkySource)
    (hf : readSkyLeft rnd isEarthAtm squids nusquids a (some f) = (b, .ok)) (hagree : ∀ s ∈ b.nodes, ∀ s' ∈ b.nodes, s.obj.iint = s'.obj.iint) :
    ∃ b', readSkyLeft rnd isEarthAtm squids nusquids a' (some f) = (b', .ok) ∧ b' = { b with tables := b'.tables } ∧
      ((∃ s ∈ b.nodes, s.obj.iint = true) → b' = b) := by
  obtain ⟨x, xs, e, s, l, body, hz, he, hx, ho, hb, hi, rfl⟩ := read_ok hf
  have hkeep : a'.ncs = a.ncs ∧ a'.threads = a.threads := by
    cases found with
    | none => rw [← ((Prod.mk.injEq _ _ _ _).mp h).1]; exact ⟨rfl, rfl⟩
    | some g =>
      obtain ⟨_, _, _, _, _, hi⟩ := c118_left rnd isEarthAtm squids nusquids a a' g h
      exact ⟨hi.ncs, hi.threads⟩
  have ho' : othersLeft rnd squids nusquids f (if s.obj.iint = true then s.obj.tables else a'.tables) xs = (l, .ok) := by
    cases hs : s.obj.iint
    · refine others_tables rnd squids nusquids f _ _ xs l ho fun s' hs' => ?_
      rw [← hs]
      exact hagree s' (List.mem_cons_of_mem _ hs') s (List.mem_cons_self ..)
    · rw [hs] at ho
      exact ho
  refine ⟨⟨some true, true, x :: xs, e, s :: l, some body, a.ncs, if s.obj.iint then s.obj.tables else a'.tables, a.threads⟩, ?_, rfl, ?_⟩
  · unfold readSkyLeft
    dsimp only
    rw [hz, he]
    dsimp only
    rw [hx]
    dsimp only
    rw [ho']
    dsimp only
    rw [hb]
    dsimp only
    rw [hi, hkeep.1, hkeep.2]
    rfl
  · rintro ⟨s', hs', hs''⟩
    have : s.obj.iint = true := by
      rw [← hs'']
      exact hagree s (List.mem_cons_self ..) s' hs'
    rw [this]
    rfl

/-- For `c118_retry`. -/
example : ∃ b b', readSkyLeft Rat.floor (fun _ => true) 1 1 (usedSky 1) (some wholeFile) = (b, .ok) ∧
    readSkyLeft Rat.floor (fun _ => true) 1 1 { usedSky 1 with nodes := [StateIO.fresh, StateIO.fresh] } (some wholeFile) = (b', .ok) ∧
    b' = { b with tables := b'.tables } := by
  have h : readSkyLeft Rat.floor (fun _ => true) 1 1 (usedSky 1) (some wholeFile) =
    ((readSkyLeft Rat.floor (fun _ => true) 1 1 (usedSky 1) (some wholeFile)).1, .ok) := Prod.ext rfl (whole_read)
  have hi : ∀ s ∈ (readSkyLeft Rat.floor (fun _ => true) 1 1 (usedSky 1) (some wholeFile)).1.nodes, s.obj.iint = false := by
    have h1 : ((readSkyLeft Rat.floor (fun _ => true) 1 1 (usedSky 1) (some wholeFile)).1.nodes.map fun s => s.obj.iint) = [false, false] := by
      decide +kernel
    intro s hs
    have := List.mem_map_of_mem (f := fun s : State => s.obj.iint) hs
    rw [h1] at this
    simpa using this
  obtain ⟨b', h1, h2, _⟩ := c118_retry _ _ _ _ _ _ _ _ (bare_read 1) _ h fun s hs s' hs' => by rw [hi s hs, hi s' hs']
  exact ⟨_, b', h, h1, h2⟩

/-! ## Where the claim fails -/

/-- C118 fails for queries: an object that was ready is ready by its flags after the failure, and a query beyond the zenith of the node that failed reads the
state of a node that has none. -/
theorem c118_query_violated (rnd : Rat → Int) (isEarthAtm : BodyRef → Bool) (squids nusquids : Nat) (a a' : FullSky) (f : SkySource)
    (h : readSkyLeft rnd isEarthAtm squids nusquids a (some f) = (a', .throws)) (hi : a.iini = some true) (hat : a.iatm = true) :
    ∃ z e k, f.zeniths = some z ∧ f.energies = some e ∧ Interrupted a a' z e k ∧
      ((z.map fun q : Rat => (q : ℝ)).Pairwise (· < ·) → (e.map fun q : Rat => (q : ℝ)).Pairwise (· < ·) → 2 ≤ e.length →
        ∀ R length n ev height flv costh enu rho, rho < 2 → (∃ q, z[k]? = some q ∧ (q : ℝ) < costh) → (∃ q ∈ z, costh ≤ (q : ℝ)) →
          Inside (e.map fun q : Rat => (q : ℝ)) enu → evalWith (view R length n a') ev height flv costh enu rho = .ub) := by
  obtain ⟨z, e, k, hz, he, hl⟩ := c118_left rnd isEarthAtm squids nusquids a a' f h
  refine ⟨z, e, k, hz, he, hl, ?_⟩
  intro hzs hes he2 R length n ev height flv costh enu rho hrho ⟨q, hq, hqc⟩ ⟨q', hq', hqc'⟩ hin
  have hcs : (view R length n a').costh = z.map fun q : Rat => (q : ℝ) := by rw [← hl.costh]; simp [view]
  have hen : (view R length n a').enu = e.map fun q : Rat => (q : ℝ) := by rw [← hl.enu]; simp [view]
  have hqm : (z.map fun q : Rat => (q : ℝ))[k]? = some (q : ℝ) := by rw [List.getElem?_map, hq]; rfl
  have hci : Inside (z.map fun q : Rat => (q : ℝ)) costh :=
    ⟨⟨q, List.mem_of_getElem? hqm, le_of_lt hqc⟩, q', List.mem_map.2 ⟨q', hq', rfl⟩, hqc'⟩
  obtain ⟨i, hiq⟩ := List.mem_iff_getElem?.1 hq'
  have him : (z.map fun q : Rat => (q : ℝ))[i]? = some (q' : ℝ) := by rw [List.getElem?_map, hiq]; rfl
  have hil := (List.getElem?_eq_some_iff.1 hiq).1
  have hki : k < i := by
    by_contra hc
    exact absurd (lt_of_lt_of_le hqc hqc') (not_lt.2 (get_le hzs (not_lt.1 hc) him hqm))
  have hz2 : 2 ≤ (z.map fun q : Rat => (q : ℝ)).length := by rw [List.length_map]; omega
  have he2' : 2 ≤ (e.map fun q : Rat => (q : ℝ)).length := by rw [List.length_map]; exact he2
  obtain ⟨M, hM, ⟨cM, cP, hcM, hcP, hc1, hc2⟩, _⟩ := bracket_spec hzs hz2 hci
  obtain ⟨L, hL, _, _⟩ := bracket_spec hes he2' hin
  have hMk : k < M + 1 := by
    by_contra hc
    exact absurd (lt_of_lt_of_le hqc hc2) (not_lt.2 (get_le hzs (not_lt.1 hc) hcP hqm))
  have hMl : M + 1 < z.length := by
    have := (List.getElem?_eq_some_iff.1 hcP).1
    rwa [List.length_map] at this
  have hnode : (view R length n a').nodes[M + 1]? = some (nodeView R n StateIO.fresh) := by
    show (a'.nodes.map (nodeView R n))[M + 1]? = _
    rw [List.getElem?_map, hl.behind (M + 1) hMk hMl]
    rfl
  have hst : ∀ j, (nodeView R n StateIO.fresh).getState j rho = none := by
    intro j
    unfold Node.getState
    rw [if_neg]
    rintro ⟨h1, _⟩
    exact absurd (show j < 0 from h1) (by omega)
  have hnone : interpolate (view R length n a') ev height flv costh enu rho M L = none := by
    unfold interpolate
    simp [hnode, hst]
  obtain ⟨c0, c1, h0, h1⟩ := ends hz2
  obtain ⟨e0, e1, h2, h3⟩ := ends he2'
  unfold evalWith
  have hii : (view R length n a').iinistate = some true := by show a'.iini = _; rw [hl.iini, hi]
  have hia : (view R length n a').inusquidsatm = true := by show a'.iatm = _; rw [hl.iatm, hat]
  rw [hii, hia, hcs, hen, h0, h1, h2, h3]
  dsimp only
  rw [if_neg (by decide), if_neg (by omega), if_neg (by rw [head_le hzs h0 h1]; exact not_not.2 hci),
    if_neg (by rw [head_le hes h2 h3]; exact not_not.2 hin), hM, hL]
  dsimp only
  rw [hnone]
  rfl

/-- The object in use after the file with no nodes: a query half way between its zeniths reads beyond the arrays. -/
example (R : StateIO.Rep) (length : Option BodyRef → ℝ → ℝ) (flv : Nat) :
    evalFlavor (view R length 3 { usedSky 1 with nodes := [StateIO.fresh, StateIO.fresh] }) 0 flv (-1 / 2) 1 0 = .ub := by
  obtain ⟨z, e, k, hz, he, hl, h⟩ := c118_query_violated _ _ _ _ _ _ _ (bare_read 1) rfl rfl
  obtain rfl : [-1, 0] = z := Option.some.inj hz
  obtain rfl : [1, 2] = e := Option.some.inj he
  have hk : k = 0 := by
    by_contra hk
    obtain ⟨s, hs, hg⟩ := hl.before 0 (by omega)
    have : StateIO.fresh = s := Option.some.inj hs
    rw [← this] at hg
    exact absurd hg (by decide +kernel)
  subst hk
  refine h ?_ ?_ ?_ R length 3 Density.evolve 0 flv (-1 / 2) 1 0 (by omega) ⟨-1, rfl, by norm_num⟩ ⟨0, by simp, by norm_num⟩
    ⟨⟨1, by simp, le_refl _⟩, 1, by simp, le_refl _⟩
  · simp
  · simp
  · simp

/-- C118 fails with several threads: the object that was ready is evolved without complaint after the failure, whatever the order the tasks finish in. -/
theorem c118_threads_violated (rnd : Rat → Int) (isEarthAtm : BodyRef → Bool) (squids nusquids : Nat) (a a' : FullSky) (f : SkySource)
    (h : readSkyLeft rnd isEarthAtm squids nusquids a (some f) = (a', .throws)) (hi : a.iini = some true) (hat : a.iatm = true) (n : Nat) (hn : 1 < n)
    (ht : a.threads = some n) (hint : ∀ s ∈ a'.nodes, s.obj.iint = false) (dflt : Option Xs)
    (hub : ∀ s ∈ a'.nodes, (Life.evolveState dflt s.obj).2 ≠ .ub) (order : List Nat) (ho : FinishedIn n a'.nodes.length order) :
    (evolve dflt a'.sky order).2 = .ok := by
  obtain ⟨z, e, k, hz, he, hl⟩ := c118_left rnd isEarthAtm squids nusquids a a' f h
  have hii : a'.sky.iini = some true := by show a'.iini = _; rw [hl.iini, hi]
  have hia : a'.sky.iatm = true := by show a'.iatm = _; rw [hl.iatm, hat]
  have hp : prepare dflt a'.sky = (a'.sky, .ok) := by
    have hne : a'.nodes ≠ [] := by
      intro hne
      have h1 := hl.count
      rw [hne] at h1
      have := hl.inside
      simp only [List.length_nil] at h1
      omega
    obtain ⟨s, l, hsl⟩ := List.exists_cons_of_ne_nil hne
    unfold prepare
    have hnodes : a'.sky.nodes = s.obj :: l.map State.obj := by show a'.nodes.map State.obj = _; rw [hsl]; rfl
    rw [hnodes]
    dsimp only
    rw [hint s (by rw [hsl]; exact List.mem_cons_self ..)]
    rfl
  have h5 : a'.sky = a'.sky.withThreads n := by
    have : a'.sky.threads = some n := by
      show a'.threads = some n
      rw [hl.threads, ht]
    unfold Sky.withThreads
    rw [← this]
  rw [h5, evolve_eq dflt _ n order hii hia (by rw [hp])]
  dsimp only
  rw [if_neg (by omega), hp]
  obtain ⟨hnd, hm⟩ := finished_once (by omega) ho
  dsimp only
  rw [inTasks_once]
  · exact hnd
  · intro j
    show j ∈ order ↔ j < (a'.nodes.map State.obj).length
    rw [List.length_map]
    exact hm j
  · intro o hos
    obtain ⟨s, hs, rfl⟩ := List.mem_map.1 (show o ∈ a'.nodes.map State.obj from hos)
    exact hub s hs

/-- The object in use with two threads. -/
example (order : List Nat) (ho : FinishedIn 2 2 order) :
    (evolve none { usedSky 2 with nodes := [StateIO.fresh, StateIO.fresh] : FullSky }.sky order).2 = .ok := by
  have hf : ∀ s ∈ [StateIO.fresh, StateIO.fresh], s = StateIO.fresh := by simp
  refine c118_threads_violated _ _ _ _ _ _ _ (bare_read 2) rfl rfl 2 (by omega) rfl (fun s hs => ?_) none (fun s hs => ?_) order ho
  · rw [hf s hs]
    rfl
  · rw [hf s hs]
    show (Life.evolveState none (Life.blank 0 .both false none)).2 ≠ _
    decide +kernel

/-- C118 fails for files of something else: one without the zeniths or the energies is not refused. -/
theorem c118_foreign_violated (rnd : Rat → Int) (isEarthAtm : BodyRef → Bool) (squids nusquids : Nat) (a : FullSky) (f : SkySource)
    (hf : f.zeniths = none ∨ f.energies = none ∨ f.zeniths = some []) : (readSkyLeft rnd isEarthAtm squids nusquids a (some f)).2 = .ub := by
  unfold readSkyLeft
  dsimp only
  rcases hf with hf | hf | hf
  · rw [hf]
  · cases f.zeniths with
    | none => rfl
    | some z => rw [hf]
  · rw [hf]
    cases f.energies <;> rfl

/-- An empty file. -/
example : (readSkyLeft Rat.floor (fun _ => true) 1 1 (usedSky 1) (some ⟨none, none, [], none⟩)).2 = .ub :=
  c118_foreign_violated _ _ _ _ _ _ (.inl rfl)

end Verif.Atm
