import Verif.Lifecycle.Chain
import Verif.Lifecycle.ParamProps

/-! C40, C41, C42, C71: how far, from where, how, and in which direction `EvolveState` evolves. -/

namespace Verif.Life

theorem sum_replicate (n : Nat) (x : Rat) : (List.replicate n x).sum = n * x := by
  induction n with
  | zero => simp [Rat.zero_mul]
  | succ n ih => rw [List.replicate_succ, List.sum_cons, ih]; push_cast; grind

theorem toInt_nonneg (q : Rat) (n : Int) (h : toInt q = some n) (hq : 0 ≤ q) : 0 ≤ n := by
  unfold toInt at h
  rw [if_pos hq] at h
  dsimp only at h
  split at h
  · simp only [Option.some.injEq] at h
    rw [← h]; exact Rat.le_floor_iff.2 hq
  · simp at h

theorem toNat_cast (n : Int) (h : 0 ≤ n) : ((n.toNat : Nat) : Rat) = (n : Rat) := by
  rw [← Rat.intCast_natCast, Int.toNat_of_nonneg h]

/-- How much an accepted `EvolveState` advances the clock, in all cases. -/
theorem advance_eq (dflt : Option Xs) (s s' : Obj) (b : BodyRef) (tr : TrackRef) (hb : s.body = some b) (ht : s.track = some tr)
    (he : evolveState dflt s = (s', .ok)) :
    ∃ dts, Amounts s b tr dts ∧ s'.t = s.t + dts.sum := by
  obtain ⟨s1, b', tr', dts, hb', ht', h1, ha, hc, _⟩ := evolveState_chain dflt s s' he
  rw [hb] at hb'; rw [ht] at ht'
  simp only [Option.some.injEq] at hb' ht'
  subst hb' ht'
  obtain ⟨r1, r2, _⟩ := ready_fields dflt s s1 h1
  have hcl := hc.clock
  rw [(prepared_fields s1 b tr).1, r2] at hcl
  refine ⟨dts, ?_, hcl⟩
  have hsh : Shortcut s1 b ↔ Shortcut s b := by unfold Shortcut; rw [r1.iint, r1.allowConst]
  cases ha with
  | whole h =>
    refine Amounts.whole ?_
    rcases h with h | h
    · exact Or.inl (hsh.1 h)
    · exact Or.inr (by rw [← r1.positivization]; exact h)
  | pieces scale n h hp hs h0 hn =>
    exact Amounts.pieces scale n (fun h' => h (hsh.2 h')) (by rw [← r1.positivization]; exact hp) (by rw [← r1.posScale]; exact hs) h0 hn

/-- C40, partial: an accepted `EvolveState` advances the clock by exactly the length of the track, if positivisation is off or the
constant-density shortcut is taken, or with positivisation if the track starts at zero and runs in the direction of the step. Missing:
positivised evolution of tracks that start elsewhere or run backwards, which evolves by another amount
(`c40_offset_start_violated`, `c40_backwards_violated`). -/
theorem c40_advances_by_track_length_partial (dflt : Option Xs) (s s' : Obj) (b : BodyRef) (tr : TrackRef) (hb : s.body = some b)
    (ht : s.track = some tr) (he : evolveState dflt s = (s', .ok))
    (h : s.positivization = false ∨ (b.isConst = true ∧ s.iint = false ∧ s.allowConst = true) ∨
      (tr.xini = 0 ∧ ∃ scale, s.posScale = some scale ∧ 0 ≤ (tr.xend - tr.xini) / scale)) :
    s'.t - s.t = tr.xend - tr.xini := by
  obtain ⟨dts, ha, hs⟩ := advance_eq dflt s s' b tr hb ht he
  rw [hs]
  cases ha with
  | whole h => simp only [List.sum_cons, List.sum_nil]; grind
  | pieces scale n hns hp hsc h0 hn =>
    rcases h with h | h | ⟨h, scale', hsc', hq⟩
    · rw [hp] at h; simp at h
    · exact absurd (by unfold Shortcut; simp [h]) hns
    · rw [hsc] at hsc'
      simp only [Option.some.injEq] at hsc'
      subst hsc'
      have hn0 := toInt_nonneg _ _ hn hq
      rw [List.sum_append, sum_replicate, toNat_cast n hn0]
      simp only [List.sum_cons, List.sum_nil]
      grind

/-- Any object: positivised with 300 km pieces over a 1000 km track from zero. -/
def posOps (xini xend : Rat) : List Op :=
  [.setBody (some ⟨1, false⟩), .setTrack (some ⟨7, xini, xend, xini⟩), .setPositivity true, .setInitial [1, 3] .flavor, .evolve]

example : (exec none (construct (.multi [5] 3 .neutrino false none)).1 (posOps 0 1000)).2 = [.ok, .ok, .ok, .ok, .ok] ∧
    (exec none (construct (.multi [5] 3 .neutrino false none)).1 (posOps 0 1000)).1.t = 1000 ∧
    ((exec none (construct (.multi [5] 3 .neutrino false none)).1 (posOps 0 1000)).1.log.map fun g => g.t1) = [300, 600, 900, 1000] := by
  decide +kernel

/-- C40, disagreement, in general: positivised evolution of any track that runs in the direction of the step advances the clock by
FinalX. This is the length of the track exactly if the track starts at zero. -/
theorem c40_positivised_violated (dflt : Option Xs) (s s' : Obj) (b : BodyRef) (tr : TrackRef) (hb : s.body = some b)
    (ht : s.track = some tr) (he : evolveState dflt s = (s', .ok)) (hp : s.positivization = true)
    (hns : ¬(b.isConst = true ∧ s.iint = false ∧ s.allowConst = true)) (scale : Rat) (hsc : s.posScale = some scale)
    (hq : 0 ≤ (tr.xend - tr.xini) / scale) :
    s'.t - s.t = tr.xend ∧ (s'.t - s.t = tr.xend - tr.xini ↔ tr.xini = 0) := by
  have key : s'.t - s.t = tr.xend := by
    obtain ⟨dts, ha, hs⟩ := advance_eq dflt s s' b tr hb ht he
    rw [hs]
    cases ha with
    | whole h =>
      rcases h with h | h
      · exact absurd (by unfold Shortcut at h; simpa [and_assoc] using h) hns
      · rw [hp] at h; cases h
    | pieces scale' n hns hp hsc' h0 hn =>
      rw [hsc] at hsc'
      simp only [Option.some.injEq] at hsc'
      subst hsc'
      have hn0 := toInt_nonneg _ _ hn hq
      rw [List.sum_append, sum_replicate, toNat_cast n hn0]
      simp only [List.sum_cons, List.sum_nil]
      grind
  refine ⟨key, ?_⟩
  rw [key]
  grind

example : (exec none (construct (.multi [5] 3 .neutrino false none)).1 (posOps 200 1100)).2 = [.ok, .ok, .ok, .ok, .ok] ∧
    (exec none (construct (.multi [5] 3 .neutrino false none)).1 (posOps 200 1100)).1.t - 200 = 1100 := by
  decide +kernel

/-- C40, disagreement: positivised, a track from 500 to 1500 is evolved over 1500 instead of 1000: the last piece forgets the start. -/
theorem c40_offset_start_violated :
    ∃ tr s, Run none (.multi [5] 3 .neutrino false none) tr s ∧ (Op.evolve, Status.ok) ∈ tr ∧ s.tIni = 500 ∧
      s.track.map (fun t => t.xend - t.xini) = some 1000 ∧ s.t - s.tIni = 1500 := by
  refine ⟨_, _, run_exec none (.multi [5] 3 .neutrino false none) (posOps 500 1500) (by decide +kernel) (by decide +kernel), ?_, ?_, ?_, ?_⟩
  · have : (exec none (construct (.multi [5] 3 .neutrino false none)).1 (posOps 500 1500)).2 = [.ok, .ok, .ok, .ok, .ok] := by decide +kernel
    rw [this]; simp [posOps]
  · decide +kernel
  · decide +kernel
  · decide +kernel

/-- C40, disagreement: positivised, a track from 1000 back to 0 is evolved forwards by 900. -/
theorem c40_backwards_violated :
    ∃ tr s, Run none (.multi [5] 3 .neutrino false none) tr s ∧ (Op.evolve, Status.ok) ∈ tr ∧
      s.track.map (fun t => t.xend - t.xini) = some (-1000) ∧ s.t - s.tIni = 900 := by
  refine ⟨_, _, run_exec none (.multi [5] 3 .neutrino false none) (posOps 1000 0) (by decide +kernel) (by decide +kernel), ?_, ?_, ?_⟩
  · have : (exec none (construct (.multi [5] 3 .neutrino false none)).1 (posOps 1000 0)).2 = [.ok, .ok, .ok, .ok, .ok] := by decide +kernel
    rw [this]; simp [posOps]
  · decide +kernel
  · decide +kernel

/-- C100, disagreement: positivised, a track from 0 to 1000 cut in the middle takes the clock to 1500; evolved at once, to 1000. -/
theorem c100_positivised_violated :
    ∃ tr s tr' s', Run none (.multi [5] 3 .neutrino false none) tr s ∧ Run none (.multi [5] 3 .neutrino false none) tr' s' ∧
      tr = (posOps 0 1000).zip [.ok, .ok, .ok, .ok, .ok] ∧
      tr' = (posOps 0 500 ++ [Op.setTrack (some ⟨8, 500, 1000, 500⟩), Op.evolve]).zip [.ok, .ok, .ok, .ok, .ok, .ok, .ok] ∧
      s.t = 1000 ∧ s'.t = 1500 :=
  ⟨_, _, _, _, run_exec none (.multi [5] 3 .neutrino false none) (posOps 0 1000) (by decide +kernel) (by decide +kernel),
    run_exec none (.multi [5] 3 .neutrino false none) (posOps 0 500 ++ [Op.setTrack (some ⟨8, 500, 1000, 500⟩), Op.evolve]) (by decide +kernel) (by decide +kernel),
    by congr 1; decide +kernel, by congr 1; decide +kernel, by decide +kernel, by decide +kernel⟩

/-- C101, disagreement: positivised, a track from 0 to 1000 and back takes the clock to 1900. -/
theorem c101_positivised_violated :
    ∃ tr s, Run none (.multi [5] 3 .neutrino false none) tr s ∧
      tr = (posOps 0 1000 ++ [Op.setTrack (some ⟨8, 1000, 0, 1000⟩), Op.evolve]).zip [.ok, .ok, .ok, .ok, .ok, .ok, .ok] ∧ s.tIni = 0 ∧ s.t = 1900 :=
  ⟨_, _, run_exec none (.multi [5] 3 .neutrino false none) (posOps 0 1000 ++ [Op.setTrack (some ⟨8, 1000, 0, 1000⟩), Op.evolve]) (by decide +kernel) (by decide +kernel),
    by congr 1; decide +kernel, by decide +kernel, by decide +kernel⟩

/-- C40, disagreement: an object made with the single-energy constructor has no positivisation step until the user sets one; evolving
it with positivisation reads an indeterminate value. -/
theorem c40_no_step_violated :
    ∃ tr s, Run none (.single 3 .neutrino) tr s ∧ (evolveState none s).2 = .ub :=
  ⟨_, _, run_exec none (.single 3 .neutrino)
    [.setBody (some ⟨1, false⟩), .setTrack (some ⟨7, 0, 1000, 0⟩), .setE 5, .setPositivity true, .setInitial [3] .flavor]
    (by decide +kernel) (by decide +kernel), by decide +kernel⟩

/-! ## C41 -/

theorem evolve_throws_keeps (dflt : Option Xs) (s s' : Obj) (h : evolveState dflt s = (s', .throws)) : s'.t = s.t ∧ s'.track = s.track := by
  unfold evolveState at h
  split at h
  · split at h
    · rename_i b tr _ _
      dsimp only at h
      split at h
      · rename_i s1 _
        have := evolveMain_not_throws s1 b tr
        rw [h] at this; exact absurd rfl this
      · rename_i r hr
        by_cases hi : (s.iint && !s.intInit) = true
        · rw [if_pos hi] at h
          have := init_fields dflt s
          rw [h] at this
          exact ⟨this.1, this.2.1⟩
        · rw [if_neg hi] at h; simp at h
    · simp only [Prod.mk.injEq, and_true] at h; subst h; exact ⟨rfl, rfl⟩
  · simp only [Prod.mk.injEq, and_true] at h; subst h; exact ⟨rfl, rfl⟩

/-- Calls that neither place the track nor evolve leave clock, offset and track. -/
theorem step_keeps_place (dflt : Option Xs) (s : Obj) (op : Op) (hn : 3 ≤ s.numneu)
    (h1 : ¬PlacesTrack (op, (step dflt s op).2)) (h2 : ¬Evolved (op, (step dflt s op).2)) (h3 : (step dflt s op).2 ≠ .ub) :
    (step dflt s op).1.t = s.t ∧ (step dflt s op).1.offset = s.offset ∧ (step dflt s op).1.track = s.track := by
  cases op <;> simp only [step] at h1 h2 h3 ⊢
  case evolve =>
    have hs := evolveState_same dflt s
    revert h2 h3 hs
    generalize hr : evolveState dflt s = r
    obtain ⟨s', st⟩ := r
    intro h2 h3 hs
    cases st
    · exact absurd rfl h2
    · have := evolve_throws_keeps dflt s s' hr
      exact ⟨this.1, hs.offset, this.2⟩
    · exact absurd rfl h3
  case initInteractions =>
    have := init_fields dflt s
    exact ⟨this.1, (initInteractions_same dflt s).offset, this.2.1⟩
  case setDefaults => rw [setDefaults_eq s hn]; exact ⟨rfl, rfl, rfl⟩
  case setE e => unfold setE; split <;> exact ⟨rfl, rfl, rfl⟩
  case setTrack t =>
    cases t with
    | none => exact absurd rfl h3
    | some t => exact absurd (Or.inl ⟨t, rfl⟩) h1
  case setInitial d b =>
    revert h1 h3
    unfold setInitial
    split
    · split
      · intro _ h3; exact absurd rfl h3
      · intro h1; exact absurd (Or.inr ⟨d, b, rfl⟩) h1
    · intro _ _; exact ⟨rfl, rfl, rfl⟩
  case setAngle i j v =>
    unfold setAngle
    split
    · exact ⟨rfl, rfl, rfl⟩
    · split <;> exact ⟨rfl, rfl, rfl⟩
  case setPhase i j v =>
    unfold setPhase
    split
    · exact ⟨rfl, rfl, rfl⟩
    · split <;> exact ⟨rfl, rfl, rfl⟩
  case setDm2 i v =>
    unfold setDm2
    split
    · exact ⟨rfl, rfl, rfl⟩
    · split <;> exact ⟨rfl, rfl, rfl⟩
  case setBasis b => unfold setBasis; split <;> exact ⟨rfl, rfl, rfl⟩
  case setTau b => unfold setTau; split <;> exact ⟨rfl, rfl, rfl⟩
  case setGlashow b => unfold setGlashow; split <;> exact ⟨rfl, rfl, rfl⟩
  all_goals simp [setBody, setOsc, setXs, setSources]

theorem run_placed {dflt : Option Xs} {c : Ctor} {tr : List (Op × Status)} {s : Obj} (hr : Run dflt c tr s) :
    Since PlacesTrack Evolved tr → ∃ t, s.track = some t ∧ s.offset = some (s.t - t.xini) := by
  induction hr with
  | start s h => intro h; exact absurd h (since_nil _ _)
  | call tr s s' op st hr hstep hst ih =>
    intro hsin
    rw [since_snoc] at hsin
    by_cases hp : PlacesTrack (op, st)
    · rcases hp with ⟨t, hp⟩ | ⟨d, b, hp⟩
      · simp only [Prod.mk.injEq] at hp
        obtain ⟨rfl, rfl⟩ := hp
        simp only [step, setTrack, Prod.mk.injEq, and_true] at hstep
        subst hstep
        exact ⟨_, rfl, rfl⟩
      · simp only [Prod.mk.injEq] at hp
        obtain ⟨rfl, rfl⟩ := hp
        simp only [step] at hstep
        obtain ⟨t, ht, _, _, _, rfl⟩ := setInitial_ok hstep
        refine ⟨{ t with x := t.xini }, rfl, ?_⟩
        simp only [iniH0, iniProj_eq, Option.some.injEq]
        grind
    · rcases hsin with hsin | ⟨hsin, hev⟩
      · exact absurd hsin hp
      · have hk := step_keeps_place dflt s op (run_sizes hr).1
        rw [hstep] at hk
        obtain ⟨k1, k2, k3⟩ := hk hp hev hst
        obtain ⟨t, h1, h2⟩ := ih hsin
        exact ⟨t, by rw [k3]; exact h1, by rw [k1, k2]; exact h2⟩

/-- C41: in every history in which the track was set, or put back by setting the state, after the last accepted evolution, an accepted
`EvolveState` hands the body positions that start at the track's initial coordinate and move with the clock: at clock time t the
position is InitialX plus the time elapsed. It ends at InitialX plus the amount evolved, which is FinalX unless positivisation evolves by
another amount (C40). -/
theorem c41_position_follows_track (dflt : Option Xs) (c : Ctor) (tr : List (Op × Status)) (s s' : Obj) (hr : Run dflt c tr s)
    (hset : Since PlacesTrack Evolved tr) (he : evolveState dflt s = (s', .ok)) :
    ∃ t new, s.track = some t ∧ s'.log = s.log ++ new ∧ new ≠ [] ∧
      (∀ seg, new.head? = some seg → seg.x0 = t.xini) ∧
      (∀ seg ∈ new, seg.x0 = t.xini + (seg.t0 - s.t)) ∧
      (∀ t', s'.track = some t' → t'.x = t.xini + (s'.t - s.t)) ∧
      (s.positivization = false → ∀ t', s'.track = some t' → t'.x = t.xend) := by
  obtain ⟨t, ht, ho⟩ := run_placed hr hset
  obtain ⟨s1, b, tr', dts, hb, ht', h1, ha, hc, _⟩ := evolveState_chain dflt s s' he
  rw [ht] at ht'
  simp only [Option.some.injEq] at ht'
  subst ht'
  obtain ⟨r1, r2, r3, r4, _⟩ := ready_fields dflt s s1 h1
  have pf := prepared_fields s1 b t
  have ps := prepared_same s1 b t
  obtain ⟨new, l1, l2, l3, l4, l5, _⟩ := hc.log
  have hoff : (prepared s1 b t).offset = some (s.t - t.xini) := by rw [ps.offset, r1.offset, ho]
  have hx : ∀ seg ∈ new, seg.x0 = t.xini + (seg.t0 - s.t) := by
    intro seg hseg
    obtain ⟨off, h3, h4⟩ := l4 seg hseg
    rw [hoff] at h3
    simp only [Option.some.injEq] at h3
    rw [h4, ← h3]; grind
  have hend : ∀ t', s'.track = some t' → t'.x = t.xini + (s'.t - s.t) := by
    intro t' h'
    obtain ⟨off, h3, h4⟩ := hc.position (amounts_ne_nil ha)
    rw [hoff] at h3
    simp only [Option.some.injEq] at h3
    rw [h4 t' h', ← h3]; grind
  refine ⟨t, new, ht, by rw [l1, pf.2.2.1, r4], ?_, ?_, hx, hend, ?_⟩
  · intro hn; rw [hn] at l2; exact amounts_ne_nil ha (List.length_eq_zero_iff.1 l2.symm)
  · intro seg hseg
    have hmem : seg ∈ new := List.mem_of_mem_head? hseg
    rw [hx seg hmem, l5 seg hseg, pf.1, r2]; grind
  · intro hpos t' h'
    rw [hend t' h']
    have := c40_advances_by_track_length_partial dflt s s' b t hb ht he (Or.inl hpos)
    grind

/-- Three tracks one after the other without setting the state again. -/
def chainOps : List Op :=
  [.setBody (some ⟨1, false⟩), .setTrack (some ⟨7, 0, 100, 0⟩), .setInitial [1, 3] .flavor, .evolve,
    .setTrack (some ⟨8, 20, 50, 0⟩), .evolve, .setTrack (some ⟨9, 5, 6, 0⟩), .evolve]

example : (exec none (construct (.multi [5] 3 .neutrino false none)).1 chainOps).2 = [.ok, .ok, .ok, .ok, .ok, .ok, .ok, .ok] ∧
    ((exec none (construct (.multi [5] 3 .neutrino false none)).1 chainOps).1.log.map fun g => (g.t0, g.x0)) =
      [((0 : Rat), (0 : Rat)), (100, 20), (130, 5)] ∧
    (exec none (construct (.multi [5] 3 .neutrino false none)).1 chainOps).1.track.map (fun t => t.x) = some 6 := by decide +kernel

/-! ## C42 -/

theorem chosenBasis_snoc (tr : List (Op × Status)) (x : Op × Status) :
    chosenBasis (tr ++ [x]) = match x with | (.setBasis b', .ok) => b' | _ => chosenBasis tr := by
  unfold chosenBasis
  rw [List.foldl_append, List.foldl_cons, List.foldl_nil]
  rfl

/-- Calls other than evolution leave the log and keep the numerics on; the basis changes on request only. -/
theorem step_keeps_mode (dflt : Option Xs) (s : Obj) (op : Op) (hn : 3 ≤ s.numneu) (hop : op ≠ .evolve) :
    (step dflt s op).1.log = s.log ∧ (s.anyNumerics = true → (step dflt s op).1.anyNumerics = true) ∧
    (step dflt s op).1.basis = (match (op, (step dflt s op).2) with | (.setBasis b', .ok) => b' | _ => s.basis) ∧
    (step dflt s op).1.h = s.h := by
  cases op <;> simp only [step]
  case evolve => exact absurd rfl hop
  case initInteractions => have := init_fields dflt s; exact ⟨this.2.2.1, fun h => by rw [this.2.2.2.2.1]; exact h, this.2.2.2.2.2, this.2.2.2.1⟩
  case setDefaults => rw [setDefaults_eq s hn]; exact ⟨rfl, id, rfl, rfl⟩
  case setE e => unfold setE; split <;> exact ⟨rfl, id, rfl, rfl⟩
  case setTrack t => unfold setTrack; split <;> exact ⟨rfl, id, rfl, rfl⟩
  case setInitial d b =>
    unfold setInitial
    split
    · split
      · exact ⟨rfl, id, rfl, rfl⟩
      · simp [iniH0, iniProj_eq]
    · exact ⟨rfl, id, rfl, rfl⟩
  case setAngle i j v =>
    unfold setAngle
    split
    · exact ⟨rfl, id, rfl, rfl⟩
    · split <;> exact ⟨rfl, id, rfl, rfl⟩
  case setPhase i j v =>
    unfold setPhase
    split
    · exact ⟨rfl, id, rfl, rfl⟩
    · split <;> exact ⟨rfl, id, rfl, rfl⟩
  case setDm2 i v =>
    unfold setDm2
    split
    · exact ⟨rfl, id, rfl, rfl⟩
    · split <;> exact ⟨rfl, id, rfl, rfl⟩
  case setBasis b => unfold setBasis; split <;> exact ⟨rfl, id, rfl, rfl⟩
  case setTau b => unfold setTau; split <;> exact ⟨rfl, id, rfl, rfl⟩
  case setGlashow b => unfold setGlashow; split <;> exact ⟨rfl, id, rfl, rfl⟩
  case setSources b =>
    unfold setSources
    refine ⟨rfl, ?_, rfl, rfl⟩
    intro h
    dsimp only
    split
    · rfl
    · exact h
  all_goals simp [setBody, setOsc, setXs]

theorem evolve_throws_keeps_mode (dflt : Option Xs) (s s' : Obj) (h : evolveState dflt s = (s', .throws)) :
    s'.log = s.log ∧ s'.anyNumerics = s.anyNumerics ∧ s'.basis = s.basis ∧ s'.h = s.h := by
  unfold evolveState at h
  split at h
  · split at h
    · rename_i b tr _ _
      dsimp only at h
      split at h
      · rename_i s1 _
        have := evolveMain_not_throws s1 b tr
        rw [h] at this; exact absurd rfl this
      · by_cases hi : (s.iint && !s.intInit) = true
        · rw [if_pos hi] at h
          have := init_fields dflt s
          rw [h] at this
          exact ⟨this.2.2.1, this.2.2.2.2.1, this.2.2.2.2.2, this.2.2.2.1⟩
        · rw [if_neg hi] at h; simp at h
    · simp only [Prod.mk.injEq, and_true] at h; subst h; exact ⟨rfl, rfl, rfl, rfl⟩
  · simp only [Prod.mk.injEq, and_true] at h; subst h; exact ⟨rfl, rfl, rfl, rfl⟩

/-- An accepted evolution: the segments and the mode and step they ran with. -/
theorem evolve_ok_mode (dflt : Option Xs) (s s' : Obj) (he : evolveState dflt s = (s', .ok)) :
    ∃ b t new, s.body = some b ∧ s.track = some t ∧ s'.log = s.log ++ new ∧ new ≠ [] ∧
      (∀ seg ∈ new, seg.step = s'.h ∧ seg.numeric = s'.anyNumerics ∧ seg.basis = s'.basis ∧
        seg.track.map (fun t => (t.id, t.xini, t.xend)) = some (t.id, t.xini, t.xend)) ∧
      s'.h = (if t.xend < t.xini then -s.h else s.h) ∧
      (¬Shortcut s b → s'.anyNumerics = s.anyNumerics ∧ s'.basis = s.basis) ∧
      (Shortcut s b → s'.anyNumerics = false ∧ s'.basis = .mass) := by
  obtain ⟨s1, b, t, dts, hb, ht, h1, ha, hc, _⟩ := evolveState_chain dflt s s' he
  obtain ⟨r1, r2, r3, r4, r5, r6, r7⟩ := ready_fields dflt s s1 h1
  have pf := prepared_fields s1 b t
  have ps := prepared_same s1 b t
  have hs := hc.same
  obtain ⟨new, l1, l2, l3, l4, l5, _⟩ := hc.log
  have hsh : Shortcut s1 b ↔ Shortcut s b := by unfold Shortcut; rw [r1.iint, r1.allowConst]
  refine ⟨b, t, new, hb, ht, by rw [l1, pf.2.2.1, r4], ?_, ?_, ?_, ?_, ?_⟩
  · intro hn; rw [hn] at l2; exact amounts_ne_nil ha (List.length_eq_zero_iff.1 l2.symm)
  · intro seg hseg
    have f := l3 seg hseg
    refine ⟨f.step.trans hs.h.symm, f.numeric.trans hs.anyNumerics.symm, f.basis.trans hs.basis.symm, ?_⟩
    rw [f.track, ps.trackIni, r1.trackIni, ht]; rfl
  · rw [hs.h, pf.2.2.2.2.2.2.1, r5]
  · intro h
    have := pf.2.2.2.2.2.2.2.1 (fun h' => h (hsh.1 h'))
    rw [hs.anyNumerics, hs.basis, this.1, this.2, r6, r7]; exact ⟨rfl, rfl⟩
  · intro h
    have := pf.2.2.2.2.2.2.2.2.1 (hsh.2 h)
    rw [hs.anyNumerics, hs.basis, this.1, this.2]; exact ⟨rfl, rfl⟩

theorem run_mode {dflt : Option Xs} {c : Ctor} {tr : List (Op × Status)} {s : Obj} (hr : Run dflt c tr s) :
    (∀ seg ∈ s.log, seg.numeric = true) → s.anyNumerics = true ∧ s.basis = chosenBasis tr := by
  induction hr with
  | start s h => intro _; have f := construct_fresh c s h; exact ⟨f.anyNumerics, f.basis⟩
  | call tr s s' op st hr hstep hst ih =>
    intro hall
    rw [chosenBasis_snoc]
    by_cases hop : op = .evolve
    · subst hop
      simp only [step] at hstep
      cases st
      · obtain ⟨b, t, new, hb, ht, h1, h2, h3, h4, h5, h6⟩ := evolve_ok_mode dflt s s' hstep
        have hpre := ih (fun seg hseg => hall seg (by rw [h1]; simp [hseg]))
        by_cases hs : Shortcut s b
        · exfalso
          obtain ⟨seg, hseg⟩ := List.exists_mem_of_ne_nil new h2
          have e1 := (h3 seg hseg).2.1
          rw [hall seg (by rw [h1]; simp [hseg]), (h6 hs).1] at e1
          exact absurd e1 (by simp)
        · rw [(h5 hs).1, (h5 hs).2]; exact hpre
      · obtain ⟨k1, k2, k3, _⟩ := evolve_throws_keeps_mode dflt s s' hstep
        rw [k2, k3]; exact ih (by rw [← k1]; exact hall)
      · exact absurd rfl hst
    · have hk := step_keeps_mode dflt s op (run_sizes hr).1 hop
      rw [hstep] at hk
      obtain ⟨k1, k2, k3, _⟩ := hk
      have hpre := ih (by rw [← k1]; exact hall)
      refine ⟨k2 hpre.1, ?_⟩
      rw [k3, hpre.2]

/-- C42, partial: in every history in which no evolution so far took the constant-density shortcut, an accepted `EvolveState` that does
not take it either integrates numerically and in the basis the user chose. Missing: the same after a shortcut, which leaves the
numerics off and the basis changed (`c42_shortcut_sticks_violated`). -/
theorem c42_no_shortcut_no_effect_partial (dflt : Option Xs) (c : Ctor) (tr : List (Op × Status)) (s s' : Obj) (b : BodyRef)
    (hr : Run dflt c tr s) (hnone : ∀ seg ∈ s.log, seg.numeric = true) (hb : s.body = some b)
    (hnow : b.isConst = false ∨ s.iint = true ∨ s.allowConst = false) (he : evolveState dflt s = (s', .ok)) :
    ∃ new, s'.log = s.log ++ new ∧ new ≠ [] ∧ ∀ seg ∈ new, seg.numeric = true ∧ seg.basis = chosenBasis tr := by
  obtain ⟨b', t, new, hb', ht, h1, h2, h3, h4, h5, h6⟩ := evolve_ok_mode dflt s s' he
  rw [hb] at hb'
  simp only [Option.some.injEq] at hb'
  subst hb'
  obtain ⟨m1, m2⟩ := run_mode hr hnone
  have hs : ¬Shortcut s b := by
    unfold Shortcut
    rcases hnow with h | h | h <;> rw [h] <;> simp
  refine ⟨new, h1, h2, ?_⟩
  intro seg hseg
  obtain ⟨_, g2, g3, _⟩ := h3 seg hseg
  rw [g2, g3, (h5 hs).1, (h5 hs).2]
  exact ⟨m1, m2⟩

/-- A constant-density body, then another body. -/
def shortcutOps (allow : Bool) : List Op :=
  [.setAllowConst allow, .setBody (some ⟨1, true⟩), .setTrack (some ⟨7, 0, 100, 0⟩), .setInitial [1, 3] .flavor, .evolve,
    .setBody (some ⟨2, false⟩), .setTrack (some ⟨8, 0, 50, 0⟩), .setInitial [1, 3] .flavor, .evolve]

example : (exec none (construct (.multi [5] 3 .neutrino false none)).1 (shortcutOps false)).2 = List.replicate 9 .ok ∧
    ((exec none (construct (.multi [5] 3 .neutrino false none)).1 (shortcutOps false)).1.log.map fun g => (g.numeric, g.basis)) =
      [(true, .interaction), (true, .interaction)] := by decide +kernel

/-- C42, disagreement: after the shortcut, `EvolveState` through another body, with the state set anew, runs without the numerical
integration and in the mass basis; without the shortcut the same calls integrate. -/
theorem c42_shortcut_sticks_violated :
    ∃ tr s tr' s', Run none (.multi [5] 3 .neutrino false none) tr s ∧ Run none (.multi [5] 3 .neutrino false none) tr' s' ∧
      tr.tail = tr'.tail ∧
      s.log.map (fun g => (g.body.map (·.id), g.numeric, g.basis)) = [(some 1, false, .mass), (some 2, false, .mass)] ∧
      s'.log.map (fun g => (g.body.map (·.id), g.numeric, g.basis)) = [(some 1, true, .interaction), (some 2, true, .interaction)] :=
  ⟨_, _, _, _, run_exec none (.multi [5] 3 .neutrino false none) (shortcutOps true) (by decide +kernel) (by decide +kernel),
    run_exec none (.multi [5] 3 .neutrino false none) (shortcutOps false) (by decide +kernel) (by decide +kernel),
    by decide +kernel, by decide +kernel, by decide +kernel⟩

/-! ## C71 -/

/-- The segment's track runs forwards. -/
def Forwards (seg : Segment) : Prop := ∃ t, seg.track = some t ∧ t.xini ≤ t.xend

theorem run_step {dflt : Option Xs} {c : Ctor} {tr : List (Op × Status)} {s : Obj} (hr : Run dflt c tr s) :
    (∀ seg ∈ s.log, Forwards seg) → s.h = 1 := by
  induction hr with
  | start s h => intro _; exact (construct_fresh c s h).h
  | call tr s s' op st hr hstep hst ih =>
    intro hall
    by_cases hop : op = .evolve
    · subst hop
      simp only [step] at hstep
      cases st
      · obtain ⟨b, t, new, hb, ht, h1, h2, h3, h4, h5, h6⟩ := evolve_ok_mode dflt s s' hstep
        have hpre := ih (fun seg hseg => hall seg (by rw [h1]; simp [hseg]))
        obtain ⟨seg, hseg⟩ := List.exists_mem_of_ne_nil new h2
        obtain ⟨_, _, _, e⟩ := h3 seg hseg
        obtain ⟨t', ht', hfw⟩ := hall seg (by rw [h1]; simp [hseg])
        rw [ht'] at e
        simp only [Option.map_some, Option.some.injEq, Prod.mk.injEq] at e
        rw [e.2.1, e.2.2] at hfw
        rw [h4, if_neg (Rat.not_lt.2 hfw), hpre]
      · obtain ⟨k1, k2, k3, k4⟩ := evolve_throws_keeps_mode dflt s s' hstep
        rw [k4]; exact ih (by rw [← k1]; exact hall)
      · exact absurd rfl hst
    · have hk := step_keeps_mode dflt s op (run_sizes hr).1 hop
      rw [hstep] at hk
      obtain ⟨k1, k2, k3, k4⟩ := hk
      rw [k4]; exact ih (by rw [← k1]; exact hall)

/-- C71, partial: in every history whose evolutions so far all ran along forward tracks, the step an accepted `EvolveState` hands to
the integrator is positive if the track runs forwards and negative if it runs backwards. Missing: evolutions after a backward one,
which reverses the step for good (`c71_second_backwards_violated`). -/
theorem c71_step_direction_partial (dflt : Option Xs) (c : Ctor) (tr : List (Op × Status)) (s s' : Obj) (hr : Run dflt c tr s)
    (hfw : ∀ seg ∈ s.log, Forwards seg) (he : evolveState dflt s = (s', .ok)) :
    ∃ t new, s.track = some t ∧ s'.log = s.log ++ new ∧ new ≠ [] ∧
      ∀ seg ∈ new, (t.xini ≤ t.xend → 0 < seg.step) ∧ (t.xend < t.xini → seg.step < 0) := by
  obtain ⟨b, t, new, hb, ht, h1, h2, h3, h4, h5, h6⟩ := evolve_ok_mode dflt s s' he
  refine ⟨t, new, ht, h1, h2, ?_⟩
  intro seg hseg
  rw [(h3 seg hseg).1, h4, run_step hr hfw]
  constructor
  · intro h; rw [if_neg (Rat.not_lt.2 h)]; decide
  · intro h; rw [if_pos h]; decide

/-- Two tracks one after the other. -/
def twoTracks (a b c d : Rat) : List Op :=
  [.setBody (some ⟨1, false⟩), .setTrack (some ⟨7, a, b, a⟩), .setInitial [1, 3] .flavor, .evolve, .setTrack (some ⟨8, c, d, c⟩), .evolve]

example : ((exec none (construct (.multi [5] 3 .neutrino false none)).1 (twoTracks 0 10 5 2)).1.log.map fun g => g.step) = [1, -1] := by
  decide +kernel

/-- C71, disagreement: of two backward tracks the second runs with a positive step, and a forward track after a backward one with a
negative step. -/
theorem c71_second_backwards_violated :
    (∃ tr s, Run none (.multi [5] 3 .neutrino false none) tr s ∧
      s.log.map (fun g => (g.t1 - g.t0, g.step)) = [((-10 : Rat), (-1 : Rat)), (-3, 1)]) ∧
    (∃ tr s, Run none (.multi [5] 3 .neutrino false none) tr s ∧
      s.log.map (fun g => (g.t1 - g.t0, g.step)) = [((-10 : Rat), (-1 : Rat)), (3, -1)]) :=
  ⟨⟨_, _, run_exec none (.multi [5] 3 .neutrino false none) (twoTracks 10 0 5 2) (by decide +kernel) (by decide +kernel),
    by decide +kernel⟩,
   ⟨_, _, run_exec none (.multi [5] 3 .neutrino false none) (twoTracks 10 0 2 5) (by decide +kernel) (by decide +kernel),
    by decide +kernel⟩⟩

end Verif.Life
