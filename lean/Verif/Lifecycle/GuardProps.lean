import Verif.Lifecycle.Lemmas
import Verif.Lifecycle.Spec

/-! C37, C46: what is refused. -/

namespace Verif.Life

theorem since_snoc (p q : Op × Status → Prop) (tr : List (Op × Status)) (x : Op × Status) :
    Since p q (tr ++ [x]) ↔ p x ∨ (Since p q tr ∧ ¬q x) := by
  constructor
  · rintro ⟨pre, y, post, he, hp, hq⟩
    rcases List.eq_nil_or_concat post with rfl | ⟨post', z, rfl⟩
    · left
      have := List.append_inj' he (by simp)
      simp only [List.cons.injEq, and_true] at this
      rw [this.2]; exact hp
    · right
      have he' : tr ++ [x] = (pre ++ y :: post') ++ [z] := by rw [he]; simp
      have := List.append_inj' he' (by simp)
      simp only [List.cons.injEq, and_true] at this
      refine ⟨⟨pre, y, post', this.1, hp, fun w hw => hq w (by simp [hw])⟩, ?_⟩
      rw [this.2]
      exact hq z (by simp)
  · rintro (hp | ⟨⟨pre, y, post, he, hp, hq⟩, hx⟩)
    · exact ⟨tr, x, [], rfl, hp, by simp⟩
    · refine ⟨pre, y, post ++ [x], by simp [he], hp, ?_⟩
      intro w hw
      rcases List.mem_append.1 hw with h | h
      · exact hq w h
      · rw [List.mem_singleton] at h; rw [h]; exact hx

theorem since_nil (p q : Op × Status → Prop) : ¬Since p q [] := by
  rintro ⟨pre, x, post, he, _⟩
  exact absurd he.symm (by simp)

/-- The flags mirror the history. -/
structure FlagsMirror (c : Ctor) (tr : List (Op × Status)) (s : Obj) : Prop where
  body : (s.body.isSome = true ∧ s.ibody = true) ↔ BodySet tr
  bodyFlag : s.body.isSome = true → s.ibody = true
  track : s.track.isSome = true ↔ TrackSet tr
  itrack : s.itrack = s.track.isSome
  energy : s.ienergy = true ↔ EnergySet c tr
  state : s.istate = true ↔ StateValid tr

/-- A call that neither sets up nor invalidates leaves the mirrored flags alone. -/
theorem mirror_neutral {c : Ctor} {tr : List (Op × Status)} {s s' : Obj} (h : FlagsMirror c tr s) (x : Op × Status)
    (hb : s'.body = s.body) (hib : s'.ibody = s.ibody) (ht : s'.track.isSome = s.track.isSome) (hit : s'.itrack = s.itrack)
    (he : s'.ienergy = s.ienergy) (hs : s'.istate = s.istate)
    (n1 : ∀ b, x.1 ≠ .setBody b) (n2 : ∀ t, x ≠ (.setTrack (some t), .ok)) (n3 : ∀ e, x ≠ (.setE e, .ok))
    (n4 : ¬IsInitial x) (n5 : ¬Invalidates x) : FlagsMirror c (tr ++ [x]) s' where
  body := by
    rw [hb, hib, h.body]; unfold BodySet; rw [since_snoc]
    constructor
    · intro h'; exact Or.inr ⟨h', fun ⟨b, hb⟩ => n1 b hb⟩
    · rintro (⟨b, hb⟩ | h')
      · exact absurd hb (n1 _)
      · exact h'.1
  bodyFlag := by rw [hb, hib]; exact h.bodyFlag
  track := by
    rw [ht, h.track]; unfold TrackSet
    constructor
    · rintro ⟨t, h'⟩; exact ⟨t, by simp [h']⟩
    · rintro ⟨t, h'⟩
      rcases List.mem_append.1 h' with h' | h'
      · exact ⟨t, h'⟩
      · rw [List.mem_singleton] at h'; exact absurd h'.symm (n2 t)
  itrack := by rw [hit, ht]; exact h.itrack
  energy := by
    rw [he, h.energy]; unfold EnergySet
    constructor
    · rintro (h' | ⟨e, h'⟩)
      · exact Or.inl h'
      · exact Or.inr ⟨e, by simp [h']⟩
    · rintro (h' | ⟨e, h'⟩)
      · exact Or.inl h'
      · rcases List.mem_append.1 h' with h' | h'
        · exact Or.inr ⟨e, h'⟩
        · rw [List.mem_singleton] at h'; exact absurd h'.symm (n3 e)
  state := by
    rw [hs, h.state]; unfold StateValid; rw [since_snoc]
    constructor
    · intro h'; exact Or.inr ⟨h', n5⟩
    · rintro (h' | h')
      · exact absurd h' n4
      · exact h'.1

/-- A call that only invalidates. -/
theorem mirror_invalidate {c : Ctor} {tr : List (Op × Status)} {s s' : Obj} (h : FlagsMirror c tr s) (x : Op × Status)
    (hb : s'.body = s.body) (hib : s'.ibody = s.ibody) (ht : s'.track.isSome = s.track.isSome) (hit : s'.itrack = s.itrack)
    (he : s'.ienergy = s.ienergy) (hs : s'.istate = false)
    (n1 : ∀ b, x.1 ≠ .setBody b) (n2 : ∀ t, x ≠ (.setTrack (some t), .ok)) (n3 : ∀ e, x ≠ (.setE e, .ok))
    (n4 : ¬IsInitial x) (n5 : Invalidates x) : FlagsMirror c (tr ++ [x]) s' where
  body := by
    rw [hb, hib, h.body]; unfold BodySet; rw [since_snoc]
    constructor
    · intro h'; exact Or.inr ⟨h', fun ⟨b, hb⟩ => n1 b hb⟩
    · rintro (⟨b, hb⟩ | h')
      · exact absurd hb (n1 _)
      · exact h'.1
  bodyFlag := by rw [hb, hib]; exact h.bodyFlag
  track := by
    rw [ht, h.track]; unfold TrackSet
    constructor
    · rintro ⟨t, h'⟩; exact ⟨t, by simp [h']⟩
    · rintro ⟨t, h'⟩
      rcases List.mem_append.1 h' with h' | h'
      · exact ⟨t, h'⟩
      · rw [List.mem_singleton] at h'; exact absurd h'.symm (n2 t)
  itrack := by rw [hit, ht]; exact h.itrack
  energy := by
    rw [he, h.energy]; unfold EnergySet
    constructor
    · rintro (h' | ⟨e, h'⟩)
      · exact Or.inl h'
      · exact Or.inr ⟨e, by simp [h']⟩
    · rintro (h' | ⟨e, h'⟩)
      · exact Or.inl h'
      · rcases List.mem_append.1 h' with h' | h'
        · exact Or.inr ⟨e, h'⟩
        · rw [List.mem_singleton] at h'; exact absurd h'.symm (n3 e)
  state := by
    rw [hs]; unfold StateValid; rw [since_snoc]
    constructor
    · intro h'; exact absurd h' (by simp)
    · rintro (h' | h')
      · exact absurd h' n4
      · exact absurd n5 h'.2

theorem run_mirror {dflt : Option Xs} {c : Ctor} {tr : List (Op × Status)} {s : Obj} (hr : Run dflt c tr s) : FlagsMirror c tr s := by
  induction hr with
  | start s h =>
    have f := construct_fresh c s h
    constructor
    · rw [f.body]; simp [BodySet, since_nil]
    · rw [f.body]; simp
    · rw [f.track]; simp [TrackSet]
    · rw [f.itrack, f.track]; rfl
    · rw [f.ienergy]; simp [EnergySet]
    · rw [f.istate]; simp [StateValid, since_nil]
  | call tr s s' op st hr hstep hst ih =>
    have hsz := run_sizes hr
    cases op <;> simp only [step] at hstep
    case setE e =>
      unfold setE at hstep
      split at hstep <;> (simp only [Prod.mk.injEq] at hstep; obtain ⟨rfl, rfl⟩ := hstep)
      · exact mirror_neutral ih _ rfl rfl rfl rfl rfl rfl (by simp) (by simp) (by simp) (by simp [IsInitial]) (by simp [Invalidates])
      · refine ⟨?_, ih.bodyFlag, ?_, ih.itrack, ?_, ?_⟩
        · rw [ih.body]; simp [BodySet, since_snoc]
        · rw [ih.track]; simp [TrackSet]
        · simp only [EnergySet, true_iff]; exact Or.inr ⟨e, by simp⟩
        · simp [StateValid, since_snoc, IsInitial, Invalidates]
    case setBody b =>
      simp only [setBody, Prod.mk.injEq] at hstep; obtain ⟨rfl, rfl⟩ := hstep
      refine ⟨?_, fun _ => rfl, ?_, ih.itrack, ?_, ?_⟩
      · simp only [BodySet, since_snoc]
        cases b <;> simp
      · rw [ih.track]; simp [TrackSet]
      · rw [ih.energy]; simp [EnergySet]
      · rw [ih.state]; simp [StateValid, since_snoc, IsInitial, Invalidates]
    case setTrack t =>
      unfold setTrack at hstep
      split at hstep <;> (simp only [Prod.mk.injEq] at hstep; obtain ⟨rfl, rfl⟩ := hstep)
      · exact absurd rfl hst
      · refine ⟨?_, ih.bodyFlag, ?_, rfl, ?_, ?_⟩
        · rw [ih.body]; simp [BodySet, since_snoc]
        · simp only [Option.isSome_some, TrackSet, true_iff]; exact ⟨_, List.mem_append.2 (Or.inr (List.mem_singleton.2 rfl))⟩
        · rw [ih.energy]; simp [EnergySet]
        · rw [ih.state]; simp [StateValid, since_snoc, IsInitial, Invalidates]
    case setInitial d b =>
      unfold setInitial at hstep
      split at hstep
      · split at hstep <;> simp only [Prod.mk.injEq] at hstep <;> obtain ⟨rfl, rfl⟩ := hstep
        · exact absurd rfl hst
        · rename_i tr' htr
          refine ⟨?_, ih.bodyFlag, ?_, ?_, ?_, ?_⟩
          · simp only [iniH0, iniProj_eq]; rw [ih.body]; simp [BodySet, since_snoc]
          · have := ih.track
            rw [htr] at this
            simp only [iniH0, iniProj_eq, Option.isSome_some, true_iff] at this ⊢
            obtain ⟨t, ht⟩ := this
            exact ⟨t, by simp [ht]⟩
          · simp only [iniH0, iniProj_eq]; rw [ih.itrack, htr]; rfl
          · simp only [iniH0, iniProj_eq]; rw [ih.energy]; simp [EnergySet]
          · simp only [StateValid, since_snoc, IsInitial, true_iff]; exact Or.inl ⟨d, b, rfl⟩
      · simp only [Prod.mk.injEq] at hstep; obtain ⟨rfl, rfl⟩ := hstep
        exact mirror_neutral ih _ rfl rfl rfl rfl rfl rfl (by simp) (by simp) (by simp) (by simp [IsInitial]) (by simp [Invalidates])
    case evolve =>
      have := evolveState_same dflt s
      rw [hstep] at this
      exact mirror_neutral ih _ this.body this.ibody this.trackSome this.itrack this.ienergy this.istate (by simp) (by simp)
        (by simp) (by simp [IsInitial]) (by simp [Invalidates])
    case initInteractions =>
      have := initInteractions_same dflt s
      rw [hstep] at this
      exact mirror_neutral ih _ this.body this.ibody this.trackSome this.itrack this.ienergy this.istate (by simp) (by simp)
        (by simp) (by simp [IsInitial]) (by simp [Invalidates])
    case setDefaults =>
      rw [setDefaults_eq _ hsz.1] at hstep
      simp only [Prod.mk.injEq] at hstep; obtain ⟨rfl, rfl⟩ := hstep
      exact mirror_invalidate ih _ rfl rfl rfl rfl rfl rfl (by simp) (by simp) (by simp) (by simp [IsInitial]) (by simp [Invalidates])
    case setAngle i j v =>
      unfold setAngle at hstep
      split at hstep
      · simp only [Prod.mk.injEq] at hstep; obtain ⟨rfl, rfl⟩ := hstep
        exact mirror_neutral ih _ rfl rfl rfl rfl rfl rfl (by simp) (by simp) (by simp) (by simp [IsInitial]) (by simp [Invalidates])
      · split at hstep <;> (simp only [Prod.mk.injEq] at hstep; obtain ⟨rfl, rfl⟩ := hstep)
        · exact mirror_invalidate ih _ rfl rfl rfl rfl rfl rfl (by simp) (by simp) (by simp) (by simp [IsInitial])
            (by simp [Invalidates])
        · exact mirror_neutral ih _ rfl rfl rfl rfl rfl rfl (by simp) (by simp) (by simp) (by simp [IsInitial]) (by simp [Invalidates])
    case setPhase i j v =>
      unfold setPhase at hstep
      split at hstep
      · simp only [Prod.mk.injEq] at hstep; obtain ⟨rfl, rfl⟩ := hstep
        exact mirror_neutral ih _ rfl rfl rfl rfl rfl rfl (by simp) (by simp) (by simp) (by simp [IsInitial]) (by simp [Invalidates])
      · split at hstep <;> (simp only [Prod.mk.injEq] at hstep; obtain ⟨rfl, rfl⟩ := hstep)
        · exact mirror_invalidate ih _ rfl rfl rfl rfl rfl rfl (by simp) (by simp) (by simp) (by simp [IsInitial])
            (by simp [Invalidates])
        · exact mirror_neutral ih _ rfl rfl rfl rfl rfl rfl (by simp) (by simp) (by simp) (by simp [IsInitial]) (by simp [Invalidates])
    case setDm2 i v =>
      unfold setDm2 at hstep
      split at hstep
      · simp only [Prod.mk.injEq] at hstep; obtain ⟨rfl, rfl⟩ := hstep
        exact mirror_neutral ih _ rfl rfl rfl rfl rfl rfl (by simp) (by simp) (by simp) (by simp [IsInitial]) (by simp [Invalidates])
      · split at hstep <;> (simp only [Prod.mk.injEq] at hstep; obtain ⟨rfl, rfl⟩ := hstep)
        · exact mirror_invalidate ih _ rfl rfl rfl rfl rfl rfl (by simp) (by simp) (by simp) (by simp [IsInitial])
            (by simp [Invalidates])
        · exact mirror_neutral ih _ rfl rfl rfl rfl rfl rfl (by simp) (by simp) (by simp) (by simp [IsInitial]) (by simp [Invalidates])
    case setBasis b =>
      unfold setBasis at hstep
      split at hstep <;> (simp only [Prod.mk.injEq] at hstep; obtain ⟨rfl, rfl⟩ := hstep) <;>
        exact mirror_neutral ih _ rfl rfl rfl rfl rfl rfl (by simp) (by simp) (by simp) (by simp [IsInitial]) (by simp [Invalidates])
    case setTau b =>
      unfold setTau at hstep
      split at hstep <;> (simp only [Prod.mk.injEq] at hstep; obtain ⟨rfl, rfl⟩ := hstep) <;>
        exact mirror_neutral ih _ rfl rfl rfl rfl rfl rfl (by simp) (by simp) (by simp) (by simp [IsInitial]) (by simp [Invalidates])
    case setGlashow b =>
      unfold setGlashow at hstep
      split at hstep <;> (simp only [Prod.mk.injEq] at hstep; obtain ⟨rfl, rfl⟩ := hstep) <;>
        exact mirror_neutral ih _ rfl rfl rfl rfl rfl rfl (by simp) (by simp) (by simp) (by simp [IsInitial]) (by simp [Invalidates])
    all_goals
      simp only [setOsc, setXs, setSources, Prod.mk.injEq] at hstep
      obtain ⟨rfl, rfl⟩ := hstep
      exact mirror_neutral ih _ rfl rfl rfl rfl rfl rfl (by simp) (by simp) (by simp) (by simp [IsInitial]) (by simp [Invalidates])

theorem guards_iff_ready {dflt : Option Xs} {c : Ctor} {tr : List (Op × Status)} {s : Obj} (hr : Run dflt c tr s) :
    evolveGuards s = true ↔ Ready c tr := by
  have m := run_mirror hr
  unfold Ready evolveGuards
  rw [← m.body, ← m.track, ← m.energy, ← m.state]
  simp only [Bool.and_eq_true, m.itrack]
  constructor
  · rintro ⟨⟨⟨⟨⟨h1, h2⟩, h3⟩, -⟩, h5⟩, h6⟩; exact ⟨⟨h1, h2⟩, h3, h6, h5⟩
  · rintro ⟨⟨h1, h2⟩, h3, h6, h5⟩; exact ⟨⟨⟨⟨⟨h1, h2⟩, h3⟩, h3⟩, h5⟩, h6⟩

theorem not_ready_refused {dflt : Option Xs} {c : Ctor} {tr : List (Op × Status)} {s : Obj} (hr : Run dflt c tr s)
    (hn : ¬Ready c tr) : evolveState dflt s = (s, .throws) := by
  have : evolveGuards s = false := by
    cases h : evolveGuards s
    · rfl
    · exact absurd ((guards_iff_ready hr).1 h) hn
  unfold evolveState
  rw [this]; rfl

theorem evolveBy_not_throws (s : Obj) (dt : Rat) : (evolveBy s dt).2 ≠ .throws := by
  unfold evolveBy
  split
  · simp
  · split <;> simp

theorem evolveSteps_not_throws (scale : Rat) : ∀ (n : Nat) (s : Obj), (evolveSteps scale n s).2 ≠ .throws := by
  intro n
  induction n with
  | zero => intro s; simp [evolveSteps]
  | succ n ih =>
    intro s
    unfold evolveSteps
    have h := evolveBy_not_throws s scale
    revert h
    generalize evolveBy s scale = r
    obtain ⟨s1, st⟩ := r
    intro h
    cases st
    · exact ih s1
    · exact absurd rfl h
    · exact h

theorem evolveMain_not_throws (s : Obj) (b : BodyRef) (tr : TrackRef) : (evolveMain s b tr).2 ≠ .throws := by
  unfold evolveMain
  generalize (if tr.xend < tr.xini then { s with h := -s.h } else s) = s1
  dsimp only
  split
  · exact evolveBy_not_throws _ _
  · split
    · split
      · simp
      · split
        · simp
        · split
          · simp
          · rename_i scale _ _ _ n _
            have h1 := evolveSteps_not_throws scale n.toNat s1
            revert h1
            generalize evolveSteps scale n.toNat s1 = r
            obtain ⟨s2, st⟩ := r
            intro h1
            cases st
            · exact evolveBy_not_throws _ _
            · exact absurd rfl h1
            · exact h1
    · exact evolveBy_not_throws _ _

/-- C37, evolution: in every history of calls, `EvolveState` goes through only if the last body given is not null, a track and the
energies were given, and an initial state was set that no later call invalidated. If anything is missing it throws and changes nothing.
Without interactions it throws only then; with interactions the only other reason to throw is the preparation of the tables. -/
theorem c37_evolve_needs_setup (dflt : Option Xs) (c : Ctor) (tr : List (Op × Status)) (s : Obj) (hr : Run dflt c tr s) :
    ((evolveState dflt s).2 = .ok → Ready c tr) ∧
    (¬Ready c tr → evolveState dflt s = (s, .throws)) ∧
    (Ready c tr → (evolveState dflt s).2 = .throws → s.iint = true ∧ (initInteractions dflt s).2 = .throws) := by
  refine ⟨?_, not_ready_refused hr, ?_⟩
  · intro hok
    by_cases h : Ready c tr
    · exact h
    · rw [not_ready_refused hr h] at hok; simp at hok
  · intro hready hth
    have hg := (guards_iff_ready hr).2 hready
    have hb : s.body.isSome = true := by unfold evolveGuards at hg; simp at hg; simp [hg]
    have ht : s.track.isSome = true := by unfold evolveGuards at hg; simp at hg; simp [hg]
    obtain ⟨b, hb⟩ := Option.isSome_iff_exists.1 hb
    obtain ⟨t, ht⟩ := Option.isSome_iff_exists.1 ht
    unfold evolveState at hth
    rw [hg, if_pos rfl, hb, ht] at hth
    dsimp only at hth
    cases hi : s.iint && !s.intInit
    · rw [hi] at hth
      simp only [Bool.false_eq_true, if_false] at hth
      exact absurd hth (evolveMain_not_throws s b t)
    · rw [hi, if_pos rfl] at hth
      refine ⟨by simp at hi; exact hi.1, ?_⟩
      revert hth
      generalize initInteractions dflt s = r
      obtain ⟨s1, st⟩ := r
      intro hth
      cases st
      · exact absurd hth (evolveMain_not_throws s1 b t)
      · rfl
      · simp at hth

/-- A single-energy program that goes through. -/
def demoOps : List Op :=
  [.setBody (some ⟨1, false⟩), .setTrack (some ⟨7, 0, 100, 0⟩), .setE 5, .setInitial [3] .flavor, .evolve, .setAngle 0 1 (1 / 2), .evolve]

example : (exec none (construct (.single 3 .neutrino)).1 demoOps).2 = [.ok, .ok, .ok, .ok, .ok, .ok, .throws] := by decide +kernel

example : ¬Ready (.single 3 .neutrino) (demoOps.dropLast.zip [.ok, .ok, .ok, .ok, .ok, .ok]) := by
  intro ⟨_, _, _, h⟩
  have e : demoOps.dropLast.zip [Status.ok, .ok, .ok, .ok, .ok, .ok] =
    (demoOps.take 5).zip [.ok, .ok, .ok, .ok, .ok] ++ [(.setAngle 0 1 (1 / 2), .ok)] := rfl
  rw [e] at h
  unfold StateValid at h
  rw [since_snoc] at h
  rcases h with ⟨d, b, h⟩ | h
  · simp at h
  · exact h.2 (by simp [Invalidates])

example : Ready (.single 3 .neutrino) ((demoOps.take 4).zip [.ok, .ok, .ok, .ok]) := by
  refine ⟨⟨[], _, _, rfl, ⟨_, rfl⟩, by simp⟩, ⟨_, by simp [demoOps]; rfl⟩, Or.inr ⟨5, by simp [demoOps]⟩,
    ⟨(demoOps.take 3).zip [.ok, .ok, .ok], _, [], rfl, ⟨[3], .flavor, rfl⟩, by simp⟩⟩

theorem inRange_spec (s : Obj) (e lo hi : Rat) (hlo : s.energies.head? = some lo) (hhi : s.energies.getLast? = some hi) :
    inRange s e = .ok (decide (lo ≤ e ∧ e ≤ hi)) := by unfold inRange; rw [hlo, hhi]

/-- C37, evaluation, partial: in every history the flavour evaluations throw if the energies are missing, if antineutrinos are asked of
an object of one kind, and if the energy is outside the range; `EvalMass` outside the mass basis, the single-energy calls, and the calls
at a node likewise. Missing: `EvalMass` in the mass basis, which does not check the energy (`c37_mass_range_violated`). -/
theorem c37_evaluation_partial (dflt : Option Xs) (c : Ctor) (tr : List (Op × Status)) (s : Obj) (hr : Run dflt c tr s)
    (flv rho ei : Nat) (e : Rat) (x : Bool) :
    (¬EnergySet c tr → evalFlavor s flv e rho = .throws ∧ evalMass s flv e rho x = .throws ∧ evalAtNode s flv ei rho = .throws ∧
      evalSingle s flv = .throws) ∧
    (rho ≠ 0 → s.nt ≠ .both → evalFlavor s flv e rho = .throws ∧ evalMass s flv e rho x = .throws ∧ evalAtNode s flv ei rho = .throws) ∧
    (∀ lo hi, s.energies.head? = some lo → s.energies.getLast? = some hi → (e < lo ∨ hi < e) →
      evalFlavor s flv e rho = .throws ∧ (s.basis ≠ .mass → evalMass s flv e rho x = .throws)) := by
  have m := run_mirror hr
  refine ⟨?_, ?_, ?_⟩
  · intro hn
    have : s.ienergy = false := by
      cases h : s.ienergy
      · rfl
      · exact absurd (m.energy.1 h) hn
    simp only [evalFlavor, evalMass, evalAtNode, evalSingle, this]
    cases s.inusquids <;> simp
  · intro h1 h2
    have h3 : rho ≠ 0 ∧ s.nt ≠ .both := ⟨h1, h2⟩
    simp only [evalFlavor, evalMass, evalAtNode, if_pos h3]
    cases s.ienergy <;> simp
  · intro lo hi hlo hhi hout
    have hf : decide (lo ≤ e ∧ e ≤ hi) = false := by
      rw [decide_eq_false_iff_not]
      rintro ⟨h1, h2⟩
      rcases hout with h | h
      · exact absurd h (Rat.not_lt.2 h1)
      · exact absurd h (Rat.not_lt.2 h2)
    simp only [evalFlavor, evalMass, inRange_spec s e lo hi hlo hhi, hf]
    constructor
    · cases s.ienergy <;> simp
    · intro hb
      rw [if_neg hb]
      cases s.ienergy <;> simp

example : (evalFlavor (construct (.multi [1, 2, 4] 3 .neutrino false none)).1 0 5 0 = .throws) ∧
    (evalFlavor (construct (.multi [1, 2, 4] 3 .neutrino false none)).1 0 3 0 = .ok ()) ∧
    (evalFlavor (construct (.multi [1, 2, 4] 3 .neutrino false none)).1 0 3 1 = .throws) ∧
    (evalSingle (construct (.single 3 .neutrino)).1 0 = .throws) := by decide +kernel

/-- The members the constructors fix, in every history. -/
theorem run_shape {dflt : Option Xs} {c : Ctor} {tr : List (Op × Status)} {s : Obj} (h : Run dflt c tr s) :
    (s.nrhos = if s.nt = .both then 2 else 1) ∧ 0 < s.ne ∧ (s.inusquids = true ↔ ∃ n nt, c = .single n nt) ∧
    (s.inusquids = true → s.ne = 1) := by
  induction h with
  | start s h =>
    refine ⟨(construct_fresh c s h).nrhos, ?_⟩
    cases c with
    | single n nt =>
      simp only [construct, ctorSingle] at h
      split at h
      · simp at h
      · split at h
        · simp at h
        · split at h
          · simp at h
          · rename_i h1 h2
            rw [setDefaults_eq _ (by simp [blank]; omega)] at h
            cases nt <;> simp only [iniProj_eq, iniH0, blank, Prod.mk.injEq, and_true] at h <;> subst h <;> simp
    | multi E n nt i x =>
      simp only [construct, ctorMulti] at h
      split at h
      · simp at h
      · split at h
        · simp at h
        · split at h
          · simp at h
          · rename_i h1 h2 h3
            rw [setDefaults_eq _ (by simp [blank]; omega)] at h
            simp only [iniProj_eq, iniH0, blank, Prod.mk.injEq, and_true] at h
            subst h
            simp [List.length_pos_iff, h3]
  | call tr s s' op st _ h _ ih =>
    have f := step_fixed dflt s op
    rw [h] at f
    rw [f.nrhos, f.nt, f.ne, f.inusquids]
    exact ih

/-- The body flag is set by any `Set_Body`, also of a null pointer. -/
theorem run_ibody {dflt : Option Xs} {c : Ctor} {tr : List (Op × Status)} {s : Obj} (h : Run dflt c tr s) :
    s.ibody = true ↔ ∃ b, (Op.setBody b, Status.ok) ∈ tr := by
  induction h with
  | start s h => rw [(construct_fresh c s h).ibody]; simp
  | call tr s s' op st hr h _ ih =>
    by_cases hb : ∃ b, op = .setBody b
    · obtain ⟨b, rfl⟩ := hb
      simp only [step, setBody, Prod.mk.injEq] at h
      obtain ⟨rfl, rfl⟩ := h
      simp
    · have e : s'.ibody = s.ibody := by
        have es := evolveState_same dflt s
        have is := initInteractions_same dflt s
        have ds := setDefaults_eq s (run_sizes hr).1
        cases op <;> simp only [step] at h
        case setBody b => exact absurd ⟨b, rfl⟩ hb
        case evolve => rw [h] at es; exact es.ibody
        case initInteractions => rw [h] at is; exact is.ibody
        case setDefaults => rw [ds] at h; simp only [Prod.mk.injEq] at h; rw [← h.1]
        case setInitial d b =>
          unfold setInitial at h
          split at h
          · split at h
            · simp only [Prod.mk.injEq] at h; rw [← h.1]
            · simp only [iniProj_eq, iniH0, Prod.mk.injEq] at h; rw [← h.1]
          · simp only [Prod.mk.injEq] at h; rw [← h.1]
        case setTrack t => unfold setTrack at h; split at h <;> simp only [Prod.mk.injEq] at h <;> rw [← h.1]
        case setE e => unfold setE at h; split at h <;> simp only [Prod.mk.injEq] at h <;> rw [← h.1]
        case setAngle i j v => unfold setAngle at h; split at h <;> (try split at h) <;> simp only [Prod.mk.injEq] at h <;> rw [← h.1]
        case setPhase i j v => unfold setPhase at h; split at h <;> (try split at h) <;> simp only [Prod.mk.injEq] at h <;> rw [← h.1]
        case setDm2 i v => unfold setDm2 at h; split at h <;> (try split at h) <;> simp only [Prod.mk.injEq] at h <;> rw [← h.1]
        case setBasis b => unfold setBasis at h; split at h <;> simp only [Prod.mk.injEq] at h <;> rw [← h.1]
        case setTau b => unfold setTau at h; split at h <;> simp only [Prod.mk.injEq] at h <;> rw [← h.1]
        case setGlashow b => unfold setGlashow at h; split at h <;> simp only [Prod.mk.injEq] at h <;> rw [← h.1]
        all_goals
          simp only [setOsc, setXs, setSources, Prod.mk.injEq] at h
          rw [← h.1]
      rw [e, ih]
      constructor
      · rintro ⟨b, hb'⟩; exact ⟨b, List.mem_append_left _ hb'⟩
      · rintro ⟨b, hb'⟩
        rw [List.mem_append] at hb'
        rcases hb' with h1 | h1
        · exact ⟨b, h1⟩
        · simp only [List.mem_singleton, Prod.mk.injEq] at h1
          exact absurd ⟨b, h1.1.symm⟩ hb

/-- C37, evaluation: in every history, once the energies are known the evaluations return for every flavour, neutrino kind and energy
in range, and for every node; the single-energy calls return exactly on single-energy objects with the energy set, for flavours that
exist. -/
theorem c37_evaluation_returns (dflt : Option Xs) (c : Ctor) (tr : List (Op × Status)) (s : Obj) (hr : Run dflt c tr s) (flv : Nat) :
    (∀ rho e lo hi x, EnergySet c tr → flv < s.numneu → (rho = 0 ∨ (rho = 1 ∧ s.nt = .both)) → s.energies.head? = some lo →
      s.energies.getLast? = some hi → lo ≤ e → e ≤ hi → evalFlavor s flv e rho = .ok () ∧ evalMass s flv e rho x = .ok ()) ∧
    (∀ rho ei, EnergySet c tr → flv < s.numneu → (rho = 0 ∨ (rho = 1 ∧ s.nt = .both)) → ei < s.ne → evalAtNode s flv ei rho = .ok ()) ∧
    (evalSingle s flv = .ok () ↔ (∃ n nt, c = .single n nt) ∧ EnergySet c tr ∧ flv < s.numneu) ∧
    (evalSingle s flv ≠ .ok () → evalSingle s flv = .throws) := by
  have m := run_mirror hr
  obtain ⟨h1, h2, h3, h4⟩ := run_shape hr
  have hix : ∀ rho, flv < s.numneu → (rho = 0 ∨ (rho = 1 ∧ s.nt = .both)) →
      indexOk s flv rho = true ∧ ¬(rho ≠ 0 ∧ s.nt ≠ .both) := by
    intro rho hf hrho
    rcases hrho with rfl | ⟨rfl, hb⟩
    · refine ⟨?_, fun h => h.1 rfl⟩
      unfold indexOk
      rw [h1]
      split <;> simp [hf]
    · refine ⟨?_, fun h => h.2 hb⟩
      unfold indexOk
      rw [h1, if_pos hb]
      simp [hf]
  refine ⟨?_, ?_, ?_, ?_⟩
  · intro rho e lo hi x hE hf hrho hlo hhi hle hge
    obtain ⟨hi1, hi2⟩ := hix rho hf hrho
    have hE' := m.energy.2 hE
    simp only [evalFlavor, evalMass, if_neg hi2, inRange_spec s e lo hi hlo hhi, hi1, hE', hle, hge]
    simp
  · intro rho ei hE hf hrho hei
    obtain ⟨hi1, hi2⟩ := hix rho hf hrho
    simp only [evalAtNode, if_neg hi2, hi1, m.energy.2 hE, hei]
    simp
  · rw [← m.energy, ← h3]
    unfold evalSingle
    constructor
    · intro h
      by_cases hi : s.inusquids = true
      · by_cases he : s.ienergy = true
        · by_cases hf : flv ≥ s.numneu
          · rw [hi, he] at h; simp [hf] at h
          · exact ⟨hi, he, Nat.not_le.1 hf⟩
        · rw [hi] at h; simp [he] at h
      · simp [hi] at h
    · rintro ⟨a, b, c'⟩
      rw [a, b, h4 a]
      simp [Nat.not_le.2 c']
  · unfold evalSingle
    repeat' split
    all_goals simp

example : EnergySet (.single 3 .neutrino) [(.setE 5, .ok)] ∧
    evalSingle (setE (construct (.single 3 .neutrino)).1 5).1 2 = .ok () ∧
    evalSingle (setE (construct (.single 3 .neutrino)).1 5).1 3 = .throws ∧
    evalMass (construct (.multi [1, 2, 4] 3 .both false none)).1 2 4 1 false = .ok () :=
  ⟨Or.inr ⟨5, by simp⟩, by decide +kernel, by decide +kernel, by decide +kernel⟩

/-- The shapes an initial state may have: one number per flavour for a single-energy object, per energy and flavour for objects of one
kind, per energy, kind and flavour for objects of both kinds. It is given in the mass or the flavour basis. -/
def ShapeOk (s : Obj) (dims : List Nat) (basis : Basis) : Prop :=
  basis ≠ .interaction ∧
  ((s.nt ≠ .both ∧ s.ne = 1 ∧ dims = [s.numneu]) ∨ (s.nt ≠ .both ∧ dims = [s.ne, s.numneu]) ∨
    (s.nt = .both ∧ dims = [s.ne, 2, s.numneu]))

/-- C37, initial state: in every history `Set_initial_state` is accepted exactly if a body, a track and the energies were set before and
the state has the right shape; otherwise it throws and changes nothing. -/
theorem c37_initial_needs_setup (dflt : Option Xs) (c : Ctor) (tr : List (Op × Status)) (s : Obj) (hr : Run dflt c tr s)
    (dims : List Nat) (basis : Basis) :
    ((setInitial s dims basis).2 = .ok ↔
      (∃ b, (Op.setBody b, Status.ok) ∈ tr) ∧ TrackSet tr ∧ EnergySet c tr ∧ ShapeOk s dims basis) ∧
    ((setInitial s dims basis).2 ≠ .ok → setInitial s dims basis = (s, .throws)) := by
  have m := run_mirror hr
  obtain ⟨h1, h2, -, -⟩ := run_shape hr
  have h0 := (run_sizes hr).1
  have hg : initialGuards s dims basis = true ↔ s.ibody = true ∧ s.itrack = true ∧ s.ienergy = true ∧ ShapeOk s dims basis := by
    unfold initialGuards ShapeOk
    match dims with
    | [] => simp
    | [a] =>
      simp
      constructor
      · rintro ⟨⟨⟨⟨⟨⟨⟨a0, a1⟩, a2⟩, a3⟩, a4⟩, a5⟩, a6⟩, a7⟩; exact ⟨a6, a5, a7, a2, a3, a4, a1⟩
      · rintro ⟨a6, a5, a7, a2, a3, a4, a1⟩; exact ⟨⟨⟨⟨⟨⟨⟨by omega, a1⟩, a2⟩, a3⟩, a4⟩, a5⟩, a6⟩, a7⟩
    | [a, b] =>
      simp
      constructor
      · rintro ⟨⟨⟨⟨⟨⟨⟨a0, a1⟩, a2⟩, a3⟩, a4⟩, a5⟩, a6⟩, a7⟩; exact ⟨a6, a5, a7, a3, a4, a1, a2⟩
      · rintro ⟨a6, a5, a7, a3, a4, a1, a2⟩
        exact ⟨⟨⟨⟨⟨⟨⟨Nat.mul_ne_zero (by omega) (by omega), a1⟩, a2⟩, a3⟩, a4⟩, a5⟩, a6⟩, a7⟩
    | [a, b, d] =>
      simp
      rw [h1]
      constructor
      · rintro ⟨⟨⟨⟨⟨⟨⟨⟨a0, a1⟩, a2⟩, a3⟩, a4⟩, a5⟩, a6⟩, a7⟩, a8⟩
        rw [if_pos a5] at a2
        exact ⟨a7, a6, a8, a4, a5, a1, a2, a3⟩
      · rintro ⟨a7, a6, a8, a4, a5, a1, a2, a3⟩
        rw [if_pos a5]
        exact ⟨⟨⟨⟨⟨⟨⟨⟨Nat.mul_ne_zero (Nat.mul_ne_zero (by omega) (by omega)) (by omega), a1⟩, a2⟩, a3⟩, a4⟩, a5⟩, a6⟩, a7⟩, a8⟩
    | a :: b :: d :: e :: l => simp
  have ht : s.itrack = true ↔ TrackSet tr := by rw [m.itrack, m.track]
  rw [← run_ibody hr, ← ht, ← m.energy, ← hg]
  unfold setInitial
  cases hgv : initialGuards s dims basis
  · simp
  · have : s.track.isSome = true := by rw [← m.itrack]; exact (hg.1 hgv).2.1
    obtain ⟨t, ht'⟩ := Option.isSome_iff_exists.1 this
    rw [ht']
    simp

example : (setInitial (exec none (construct (.multi [1, 2] 3 .both false none)).1
      [.setBody (some ⟨1, false⟩), .setTrack (some ⟨7, 0, 100, 0⟩)]).1 [2, 2, 3] .flavor).2 = .ok ∧
    (setInitial (exec none (construct (.multi [1, 2] 3 .both false none)).1
      [.setBody (some ⟨1, false⟩), .setTrack (some ⟨7, 0, 100, 0⟩)]).1 [2, 3] .flavor).2 = .throws := by decide +kernel

/-- C37, disagreement: in the mass basis `EvalMass` returns for an energy outside the range instead of throwing, if the interpolation
of the base class extrapolates there. -/
theorem c37_mass_range_violated :
    ∃ s, Run none (.multi [1, 2, 4] 3 .neutrino false none) [(.setBasis .mass, .ok)] s ∧ evalMass s 0 5 0 true = .ok () ∧
      evalFlavor s 0 5 0 = .throws :=
  ⟨_, run_exec none (.multi [1, 2, 4] 3 .neutrino false none) [.setBasis .mass] (by decide +kernel) (by decide +kernel),
    by decide +kernel, by decide +kernel⟩

/-- C37, disagreement: the evaluations do not check the flavour or the node: an index outside the arrays is undefined behaviour. -/
theorem c37_index_violated :
    ∃ s, Run none (.multi [1, 2, 4] 3 .neutrino false none) [] s ∧ evalFlavor s 3 2 0 = .ub ∧ evalAtNode s 0 3 0 = .ub :=
  ⟨_, run_exec none (.multi [1, 2, 4] 3 .neutrino false none) [] (by decide +kernel) (by decide +kernel),
    by decide +kernel, by decide +kernel⟩

/-! ## C46 -/

/-- The indices that make sense for `n` flavours. -/
def ValidPair (n i j : Nat) : Prop := i < j ∧ j < n

def ValidMass (n i : Nat) : Prop := 0 < i ∧ i < n

/-- C46, partial: in every history the sensible indices are accepted, a get after a set returns the value and leaves the other entries
alone, the state is invalidated, and indices above the number of flavours or out of order are refused with nothing changed. Missing:
the index equal to the number of flavours is accepted for fewer than six flavours (`c46_off_by_one_violated`). -/
theorem c46_indices_partial (dflt : Option Xs) (c : Ctor) (tr : List (Op × Status)) (s : Obj) (hr : Run dflt c tr s) :
    (∀ i j v, ValidPair s.numneu i j →
      (setAngle s i j v).2 = .ok ∧ getAngle (setAngle s i j v).1 i j = .ok v ∧ (setAngle s i j v).1.istate = false ∧
      (∀ a b, (a, b) ≠ (i, j) → getAngle (setAngle s i j v).1 a b = getAngle s a b) ∧
      (setPhase s i j v).2 = .ok ∧ getPhase (setPhase s i j v).1 i j = .ok v ∧ (setPhase s i j v).1.istate = false ∧
      (∀ a b, (a, b) ≠ (i, j) → getPhase (setPhase s i j v).1 a b = getPhase s a b)) ∧
    (∀ i v, ValidMass s.numneu i →
      (setDm2 s i v).2 = .ok ∧ getDm2 (setDm2 s i v).1 i = .ok v ∧ (setDm2 s i v).1.istate = false ∧
      (∀ a, a ≠ i → getDm2 (setDm2 s i v).1 a = getDm2 s a)) ∧
    (∀ i j v, ¬ValidPair s.numneu i j → j ≠ s.numneu →
      setAngle s i j v = (s, .throws) ∧ getAngle s i j = .throws ∧ setPhase s i j v = (s, .throws) ∧ getPhase s i j = .throws) ∧
    (∀ i v, ¬ValidMass s.numneu i → i ≠ s.numneu → setDm2 s i v = (s, .throws) ∧ getDm2 s i = .throws) := by
  have hsz := run_sizes hr
  refine ⟨?_, ?_, ?_, ?_⟩
  · rintro i j v ⟨h1, h2⟩
    have g : ¬(i > s.numneu ∨ j > s.numneu) := by omega
    have p : pairOk i j = true := by unfold pairOk; simp; omega
    refine ⟨?_, ?_, ?_, ?_, ?_, ?_, ?_, ?_⟩
    · simp [setAngle, g, p]
    · simp only [setAngle, g, p, if_false, if_true, getAngle, set2, and_self]
    · simp [setAngle, g, p]
    · intro a b hab
      have hab' : ¬(a = i ∧ b = j) := fun h => hab (by rw [h.1, h.2])
      simp only [setAngle, g, p, if_false, if_true, getAngle, set2, if_neg hab']
    · simp [setPhase, g, p]
    · simp only [setPhase, g, p, if_false, if_true, getPhase, set2, and_self]
    · simp [setPhase, g, p]
    · intro a b hab
      have hab' : ¬(a = i ∧ b = j) := fun h => hab (by rw [h.1, h.2])
      simp only [setPhase, g, p, if_false, if_true, getPhase, set2, if_neg hab']
  · rintro i v ⟨h1, h2⟩
    have g : ¬(i > s.numneu) := by omega
    have p : 0 < i ∧ i < maxDim := by omega
    refine ⟨?_, ?_, ?_, ?_⟩
    · simp [setDm2, g, p]
    · simp only [setDm2, g, p, if_false, if_true, getDm2, set1, and_self]
    · simp [setDm2, g, p]
    · intro a ha
      simp only [setDm2, g, p, if_false, if_true, getDm2, set1, and_self, if_neg ha]
  · intro i j v hn hj
    unfold ValidPair at hn
    by_cases g : i > s.numneu ∨ j > s.numneu
    · simp only [setAngle, getAngle, setPhase, getPhase, g, if_true, and_self]
    · have p : pairOk i j = false := by unfold pairOk; simp; omega
      simp [setAngle, getAngle, setPhase, getPhase, g, p]
  · intro i v hn hi
    unfold ValidMass at hn
    by_cases g : i > s.numneu
    · simp only [setDm2, getDm2, g, if_true, and_self]
    · have p : ¬(0 < i ∧ i < maxDim) := by omega
      simp only [setDm2, getDm2, g, p, if_false, and_self]

example : getPhase (setPhase (construct (.single 4 .antineutrino)).1 1 3 (2 / 7)).1 1 3 = .ok (2 / 7) ∧
    (setPhase (construct (.single 4 .antineutrino)).1 3 1 (2 / 7)).2 = .throws ∧
    (setPhase (construct (.single 4 .antineutrino)).1 1 5 (2 / 7)).2 = .throws := by decide +kernel

/-- C46, disagreement: the index equal to the number of flavours is accepted by setters and getters for three, four and five
flavours (only for six does the base class refuse it). -/
theorem c46_off_by_one_violated (dflt : Option Xs) (c : Ctor) (tr : List (Op × Status)) (s : Obj) (hr : Run dflt c tr s)
    (hn : s.numneu < maxDim) (i : Nat) (hi : i < s.numneu) (v : Rat) :
    (setAngle s i s.numneu v).2 = .ok ∧ getAngle (setAngle s i s.numneu v).1 i s.numneu = .ok v ∧
    (setPhase s i s.numneu v).2 = .ok ∧ (setDm2 s s.numneu v).2 = .ok := by
  have hsz := run_sizes hr
  have g : ¬(i > s.numneu ∨ s.numneu > s.numneu) := by omega
  have p : pairOk i s.numneu = true := by unfold pairOk; simp; omega
  have p2 : 0 < s.numneu ∧ s.numneu < maxDim := by omega
  refine ⟨?_, ?_, ?_, ?_⟩
  · simp only [setAngle, g, p, if_false, if_true]
  · simp only [setAngle, g, p, if_false, if_true, getAngle, set2, and_self]
  · simp only [setPhase, g, p, if_false, if_true]
  · simp [setDm2, p2]

example : (setAngle (construct (.single 3 .neutrino)).1 0 3 (1 / 10)).2 = .ok := by decide +kernel

end Verif.Life
