import Verif.StateIO.Props

/-!
# More objects that are not read back (C57)
-/

namespace Verif.StateIO

open Life

/-! ## Settings that are not saved -/

def settingsOps : List Op :=
  [.setBody (some ⟨1, false⟩), .setTrack (some ⟨7, 0, 1, 0⟩), .setPositivity true, .setAllowConst true, .setInitial [2, 2, 3] .flavor, .evolve]

def settingsObj : Obj := (exec none (construct demoCtor).1 settingsOps).1

theorem settings_run : Run none demoCtor (settingsOps.zip (exec none (construct demoCtor).1 settingsOps).2) settingsObj :=
  run_exec none demoCtor settingsOps (by decide +kernel) (by decide +kernel)

theorem settings_lost {c : Ctor} {h : List (Op × Status)} {o : Obj} (hr : Run none c h o) (b : BodyRef) (tr : TrackRef)
    (hg : evolveGuards o = true) (hb : o.body = some b) (ht : o.track = some tr) (hi : o.iint = false) (hne : o.ne = 2)
    (comps : Nat → Nat → Nat → ℝ) : ∃ f s', write none true none ⟨o, comps⟩ = .ok f ∧ read fresh f = .ok s' ∧
      s'.obj.positivization = false ∧ s'.obj.allowConst = false := by
  have hw := write_simple none true none o comps b tr hg hb ht hi
  obtain ⟨s', h3, _, _, _, _, h4, h5⟩ := read_written ⟨fun _ _ => 0, fun _ _ _ => 0⟩ none c h ⟨o, comps⟩ hr
    (by rw [hne]; simp) true (fun _ => rfl) none (by simp) _ hw
  exact ⟨_, s', hw, h3, h4, h5⟩

/-- C57 does not extend to all settings: the positivity constraint and the switch for the constant-density shortcut are lost. -/
theorem c57_settings_violated : ∃ (c : Ctor) (h : List (Op × Status)) (o : Obj), Run none c h o ∧ o.positivization = true ∧
    o.allowConst = true ∧ ∀ comps, ∃ f s', write none true none ⟨o, comps⟩ = .ok f ∧ read fresh f = .ok s' ∧
      s'.obj.positivization = false ∧ s'.obj.allowConst = false :=
  ⟨demoCtor, _, settingsObj, settings_run, by decide +kernel, by decide +kernel,
    settings_lost settings_run ⟨1, false⟩ ⟨7, 0, 1, 1⟩ (by decide +kernel) (by decide +kernel) (by decide +kernel) (by decide +kernel)
      (by decide +kernel)⟩

/-! ## One energy and both types -/

/-- Whatever the rest of the object, a file with one energy and both types cannot be read. -/
theorem read_one_both (f : File) (e : Rat) (hE : f.energies = [e]) (hnt : f.nt = ntCode .both) : read fresh f = .throws := by
  unfold read readCommon
  rw [hnt]
  simp only [ntCode, ntOfCode]
  unfold readInit
  rw [hE]
  rfl

def oneBothOps : List Op :=
  [.setBody (some ⟨1, false⟩), .setTrack (some ⟨7, 0, 1, 0⟩), .setInitial [1, 2, 3] .flavor, .evolve]

def oneBothCtor : Ctor := .multi [1] 3 .both false none

def oneBothObj : Obj := (exec none (construct oneBothCtor).1 oneBothOps).1

theorem oneBoth_run : Run none oneBothCtor (oneBothOps.zip (exec none (construct oneBothCtor).1 oneBothOps).2) oneBothObj :=
  run_exec none oneBothCtor oneBothOps (by decide +kernel) (by decide +kernel)

/-- C57 fails for an object with a list of one energy and both types: it is written and cannot be read. -/
theorem c57_one_energy_both_violated : ∃ (c : Ctor) (h : List (Op × Status)) (o : Obj), Run none c h o ∧
    ∀ comps, ∃ f, write none true none ⟨o, comps⟩ = .ok f ∧ read fresh f = .throws := by
  have h2 : evolveGuards oneBothObj = true ∧ oneBothObj.body = some ⟨1, false⟩ ∧ oneBothObj.track = some ⟨7, 0, 1, 1⟩ ∧
    oneBothObj.iint = false ∧ oneBothObj.energies = [1] ∧ oneBothObj.nt = .both := by decide +kernel
  refine ⟨oneBothCtor, _, oneBothObj, oneBoth_run, fun comps => ?_⟩
  have hw := write_simple none true none oneBothObj comps _ _ h2.1 h2.2.1 h2.2.2.1 h2.2.2.2.1
  exact ⟨_, hw, read_one_both _ 1 h2.2.2.2.2.1 (congrArg ntCode h2.2.2.2.2.2)⟩

/-! ## Interactions -/

def intXs : Xs := ⟨5, true, false, true, true⟩

def intOps : List Op :=
  [.setBody (some ⟨1, false⟩), .setTrack (some ⟨7, 0, 1, 0⟩), .setInitial [2, 2, 3] .flavor, .evolve]

def intCtor : Ctor := .multi [1, 2] 3 .both true (some intXs)

def intObj : Obj := (exec none (construct intCtor).1 intOps).1

theorem int_run : Run none intCtor (intOps.zip (exec none (construct intCtor).1 intOps).2) intObj :=
  run_exec none intCtor intOps (by decide +kernel) (by decide +kernel)

theorem int_facts : evolveGuards intObj = true ∧ intObj.body = some ⟨1, false⟩ ∧ intObj.track = some ⟨7, 0, 1, 1⟩ ∧
    intObj.iint = true ∧ intObj.energies = [1, 2] ∧ intObj.nt = .both ∧ intObj.ne = 2 ∧ intObj.numneu = 3 ∧
    (initInteractions none intObj).2 = .ok ∧ (initInteractions none intObj).1.tables = some ⟨5, true, false⟩ := by decide +kernel

/-- C57 fails for objects with interactions written without their tables: the file cannot be read. -/
theorem c57_without_tables_violated : ∃ (c : Ctor) (h : List (Op × Status)) (o : Obj), Run none c h o ∧
    ∀ stray comps, ∃ f, write none false stray ⟨o, comps⟩ = .ok f ∧ read fresh f = .throws := by
  obtain ⟨h1, h2, h3, h4, h5, h6, h7, h8, _⟩ := int_facts
  refine ⟨intCtor, _, intObj, int_run, fun stray comps => ⟨fileOf ⟨intObj, comps⟩ ⟨1, false⟩ ⟨7, 0, 1, 1⟩ none, ?_, ?_⟩⟩
  · unfold write
    rw [if_pos h1]
    simp [h2, h3]
  · obtain ⟨o, A, P, D, ist, hi, hAP, hD, hread⟩ := readCommon_ok fresh ⟨intObj, comps⟩ ⟨1, false⟩ ⟨7, 0, 1, 1⟩ none
      (by rw [h8]) (by rw [h8]; decide) (by rw [h5]; simp) (by rw [h5]; simp) rfl
    unfold read
    rw [hread]
    have hi4 : o.iint = true := hi.iint.trans h4
    simp [Outcome.bind, iniH0, iniProj_eq, hi4, fileOf]

/-- C57 fails for objects with interactions written with their tables, read strictly: writing them reads an extent that is not there
(1945). -/
theorem c57_padding_test_violated : ∃ (c : Ctor) (h : List (Op × Status)) (o : Obj), Run none c h o ∧
    ∀ comps, write none true none ⟨o, comps⟩ = .ub := by
  obtain ⟨h1, h2, h3, h4, _, _, _, _, h9, h10⟩ := int_facts
  refine ⟨intCtor, _, intObj, int_run, fun comps => ?_⟩
  unfold write
  rw [if_pos h1]
  simp only [h2, h3, h4, Bool.and_self, if_true]
  generalize hr : initInteractions none intObj = r at h9 h10 ⊢
  obtain ⟨o', st⟩ := r
  simp only at h9 h10
  subst h9
  simp [h10, savedTables, Outcome.map]

/-- If that read happens to yield a number other than that of the energies, the object is read back with its tables. -/
example (R : Rep) (comps : Nat → Nat → Nat → ℝ) : ∃ f s', write none true (some 7) ⟨intObj, comps⟩ = .ok f ∧ read fresh f = .ok s' ∧
    SameReport R ⟨intObj, comps⟩ s' ∧ s'.obj.tables = some ⟨5, true, false⟩ := by
  obtain ⟨h1, h2, h3, h4, _, _, h7, _, h9, h10⟩ := int_facts
  have hb : intObj.basis = .interaction := by decide +kernel
  have hw : write none true (some 7) ⟨intObj, comps⟩ = .ok (fileOf ⟨intObj, comps⟩ ⟨1, false⟩ ⟨7, 0, 1, 1⟩ (some ⟨5, true, false⟩)) := by
    unfold write
    rw [if_pos h1]
    simp only [h2, h3, h4, Bool.and_self, if_true]
    generalize hr : initInteractions none intObj = r at h9 h10 ⊢
    obtain ⟨o', st⟩ := r
    simp only at h9 h10
    subst h9
    simp [h10, savedTables, Outcome.map, h7]
  have hr := int_run
  generalize intObj = o at *
  obtain ⟨s', e1, e2, _, e4⟩ := c57_read_back_partial R none intCtor _ ⟨o, comps⟩ hr hb (by rw [h7]; simp) true
    (fun _ => rfl) (some 7) (by rw [h7]; simp) _ hw
  exact ⟨_, s', hw, e1, e2, (e4 h4).trans h10⟩

/-! ## An object in use -/

def usedOps : List Op := [.setE 1, .setBody (some ⟨1, false⟩), .setTrack (some ⟨7, 0, 1, 0⟩), .setInitial [3] .flavor]
def laterOps : List Op := [.setE 1, .setBody (some ⟨1, false⟩), .setTrack (some ⟨8, 5, 7, 5⟩), .setInitial [3] .flavor, .evolve]

def usedObj : Obj := (exec none (construct massCtor).1 usedOps).1
def laterObj : Obj := (exec none (construct massCtor).1 laterOps).1

theorem read_plain {s0 : State} {f : File} {x : Obj} {c : Nat → Nat → Nat → ℝ} (h : readCommon s0 f = .ok ⟨iniH0 (iniProj x), c⟩)
    (hx : x.iint = false) : ∃ s', read s0 f = .ok s' ∧ s'.obj.t = x.t ∧ s'.obj.tIni = x.tIni := by
  have hi : (iniH0 (iniProj x)).iint = false := by simpa [iniH0, iniProj_eq] using hx
  refine ⟨readTail ⟨iniH0 (iniProj x), c⟩ none, ?_, ?_, ?_⟩
  · unfold read
    rw [h]
    simp only [Outcome.bind, hi]
    rfl
  · simp [readTail, iniH0, iniProj_eq]
  · simp [readTail, iniH0, iniProj_eq]

/-- C57 fails for a single-energy object that was used before: it keeps the time it started from, so the contents are evolved over the
wrong time. -/
theorem c57_object_in_use_violated : ∃ (o o' : Obj) (h h' : List (Op × Status)), Run none massCtor h o ∧ Run none massCtor h' o' ∧
    ∀ comps comps', ∃ f s', write none true none ⟨o', comps'⟩ = .ok f ∧ read ⟨o, comps⟩ f = .ok s' ∧
      o'.t - o'.tIni = 2 ∧ s'.obj.t - s'.obj.tIni = 7 := by
  have h1 : usedObj.inusquids = true ∧ usedObj.numneu = 3 ∧ usedObj.tIni = 0 := by decide +kernel
  have h2 : evolveGuards laterObj = true ∧ laterObj.body = some ⟨1, false⟩ ∧ laterObj.track = some ⟨8, 5, 7, 7⟩ ∧
    laterObj.iint = false ∧ laterObj.energies = [1] ∧ laterObj.nt = .neutrino ∧ laterObj.numneu = 3 ∧ laterObj.t = 7 ∧
    laterObj.tIni = 5 := by decide +kernel
  obtain ⟨g1, g2, g3, g4, g5, g6, g7, g8, g9⟩ := h2
  refine ⟨usedObj, laterObj, _, _, run_exec none massCtor usedOps (by decide +kernel) (by decide +kernel),
    run_exec none massCtor laterOps (by decide +kernel) (by decide +kernel), fun comps comps' => ?_⟩
  have hw := write_simple none true none laterObj comps' _ _ g1 g2 g3 g4
  have hl : loaded usedObj ⟨laterObj, comps'⟩ ⟨1, false⟩ ⟨8, 5, 7, 7⟩ = { usedObj with
      numneu := laterObj.numneu, nt := laterObj.nt, iint := laterObj.iint, osc := laterObj.osc, tauregen := laterObj.tauregen,
      glashow := laterObj.glashow, body := some ⟨1, false⟩, track := some ⟨8, 5, 7, 7⟩, ne := laterObj.energies.length,
      energies := laterObj.energies } := rfl
  have ho : readInit usedObj (loaded usedObj ⟨laterObj, comps'⟩ ⟨1, false⟩ ⟨8, 5, 7, 7⟩)
      (fileOf ⟨laterObj, comps'⟩ ⟨1, false⟩ ⟨8, 5, 7, 7⟩ none) =
      .ok { loaded usedObj ⟨laterObj, comps'⟩ ⟨1, false⟩ ⟨8, 5, 7, 7⟩ with energies := [1], ienergy := true, istate := false } := by
    have hE : (fileOf ⟨laterObj, comps'⟩ ⟨1, false⟩ ⟨8, 5, 7, 7⟩ none).energies = [1] := g5
    unfold readInit
    rw [hE]
    simp only [h1.1, if_true]
    rw [if_pos (by rw [hl]; simp only; rw [h1.2.1, g7, g6]; decide)]
    simp only [Outcome.bind, setE]
    rw [if_neg (by rw [hl]; simp only; rw [g5]; decide)]
    rfl
  obtain ⟨A, P, D, ist, _, _, hread⟩ := readCommon_of_init ⟨usedObj, comps⟩ ⟨laterObj, comps'⟩ ⟨1, false⟩ ⟨8, 5, 7, 7⟩ none
    (by rw [g7]; decide) _ ho rfl
  obtain ⟨s', hs, ht, hti⟩ := read_plain hread g4
  refine ⟨_, s', hw, hs, by rw [g8, g9]; decide +kernel, ?_⟩
  rw [ht, hti]
  change laterObj.t - usedObj.tIni = 7
  rw [g8, h1.2.2]
  decide +kernel

end Verif.StateIO
