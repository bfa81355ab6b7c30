import Verif.Atm.StateFileProps

/-!
# Atmospheric objects that are not saved or not read back as they were (C95)
-/

namespace Verif.Atm

open Life (Status Xs Tables BodyRef TrackRef)
open StateIO (State File Rep)

/-! ## A concrete object -/

/-- An object with given values at its nodes. -/
def fill (a : Sky) (costh enu : List Rat) (earth : Option BodyRef) (comps : Nat → Nat → Nat → Nat → ℝ) : FullSky :=
  ⟨a.iini, a.iatm, costh, enu, a.nodes.zipIdx.map fun p => ⟨p.1, comps p.2⟩, earth, a.ncs, a.tables, a.threads⟩

theorem fill_sky (a : Sky) (costh enu : List Rat) (earth : Option BodyRef) (comps : Nat → Nat → Nat → Nat → ℝ)
    (h1 : costh.length = a.nCosth) (h2 : enu.length = a.nE) : (fill a costh enu earth comps).sky = a := by
  unfold fill FullSky.sky
  have : (a.nodes.zipIdx.map fun p => (⟨p.1, comps p.2⟩ : State)).map State.obj = a.nodes := by
    rw [List.map_map]
    change a.nodes.zipIdx.map Prod.fst = a.nodes
    rw [List.zipIdx_map_fst]
  simp only [this, h1, h2]

def savedXs : Xs := ⟨42, true, false, true, true⟩
def savedCtor : Life.Ctor := .multi [5] 3 .neutrino false none
def savedTracks : List TrackRef := [⟨7, 0, 100, 0⟩, ⟨8, 0, 50, 0⟩]
def savedOps : List AOp := [.setPositivity true, .setXs (some savedXs), .setThreads 2 8, .setInitial [2, 1, 3] .flavor, .evolve [1, 0]]

/-- Two zeniths, one energy; the positivity constraint on, a library of cross sections and two threads chosen. -/
theorem saved_sky : ∃ tr sky, ARun none none savedCtor ⟨1, false⟩ savedTracks tr sky ∧ (lastValues savedCtor ⟨1, false⟩ tr).body = some ⟨1, false⟩ ∧
    sky.iini = some true ∧ sky.nCosth = 2 ∧ sky.nE = 1 ∧ sky.nodes.length = 2 ∧ sky.ncs = some savedXs ∧ getThreads sky = .ok 2 ∧
    (evolve none sky [1, 0]).2 = .ok ∧
    ∀ o ∈ sky.nodes, Life.evolveGuards o = true ∧ o.iint = false ∧ o.nt ≠ .both ∧ o.positivization = true ∧ o.basis = .interaction := by
  have h : ∃ a, create none savedCtor ⟨1, false⟩ savedTracks = .ok a ∧
      (∀ st ∈ (aexec none a savedOps).2, st ≠ .ub) ∧
      (lastValues savedCtor ⟨1, false⟩ (savedOps.zip (aexec none a savedOps).2)).body = some ⟨1, false⟩ ∧
      (aexec none a savedOps).1.iini = some true ∧ (aexec none a savedOps).1.nCosth = 2 ∧ (aexec none a savedOps).1.nE = 1 ∧
      (aexec none a savedOps).1.nodes.length = 2 ∧ (aexec none a savedOps).1.ncs = some savedXs ∧
      getThreads (aexec none a savedOps).1 = .ok 2 ∧ (evolve none (aexec none a savedOps).1 [1, 0]).2 = .ok ∧
      ∀ o ∈ (aexec none a savedOps).1.nodes, Life.evolveGuards o = true ∧ o.iint = false ∧ o.nt ≠ .both ∧ o.positivization = true ∧
        o.basis = .interaction :=
    ⟨_, rfl, by decide +kernel, by decide +kernel, by decide +kernel, by decide +kernel, by decide +kernel, by decide +kernel,
      by decide +kernel, by decide +kernel, by decide +kernel, by decide +kernel⟩
  obtain ⟨a, h1, h2, h3⟩ := h
  exact ⟨_, _, arun_append savedOps [] a (.start a h1) h2, h3⟩

/-- There are objects with this history, whatever the values at the nodes. -/
example (comps : Nat → Nat → Nat → Nat → ℝ) : ∃ tr A, History none none savedCtor ⟨1, false⟩ savedTracks tr A ∧ A.costh = [-1, 1 / 2] ∧
    A.earth = some ⟨1, false⟩ ∧ A.nodes.map State.comps = [comps 0, comps 1] := by
  obtain ⟨tr, sky, h1, h2, h3, h4, h5, h6, _⟩ := saved_sky
  refine ⟨tr, fill sky [-1, 1 / 2] [5] (some ⟨1, false⟩) comps, ⟨?_, h2.symm⟩, rfl, rfl, ?_⟩
  · rw [fill_sky sky [-1, 1 / 2] [5] _ _ h4.symm h5.symm]; exact h1
  · unfold fill
    obtain ⟨o1, o2, ho⟩ := List.length_eq_two.1 h6
    rw [ho]; rfl

/-- Saved and read back. -/
theorem saved_back (R : Rep) (rnd : Rat → Int) (hr : Rounds rnd) {tr : List (AOp × Status)} {sky : Sky}
    (h3 : sky.iini = some true)
    (h9 : ∀ o ∈ sky.nodes, Life.evolveGuards o = true ∧ o.iint = false ∧ o.nt ≠ .both ∧ o.positivization = true ∧ o.basis = .interaction)
    (A : FullSky) (hA : History none none savedCtor ⟨1, false⟩ savedTracks tr A) (hs : A.sky = sky) (hz : A.costh = [-1, 1 / 2]) (a0 : FullSky) :
    ∃ f a', writeSky rnd none none true A = .ok f ∧ readSky rnd (fun _ => true) a0 f = .ok a' ∧ SameSky R 3 A a' ∧
      List.Forall₂ (NodeBack R a'.tables) A.nodes a'.nodes ∧ a'.ncs = a0.ncs ∧ a'.threads = a0.threads := by
  have hnodes : ∀ s ∈ A.nodes, s.obj ∈ sky.nodes := fun s hsn => by rw [← hs]; exact List.mem_map_of_mem hsn
  obtain ⟨f, hf⟩ := c95_written_partial rnd hr none none savedCtor ⟨1, false⟩ savedTracks tr A hA (by rw [← h3, ← hs]; rfl)
    (fun s hsn => (h9 _ (hnodes s hsn)).1) (by rw [hz]; simp only [Apart, List.pairwise_cons]; norm_num) none
    (fun s hsn hi => by rw [(h9 _ (hnodes s (List.mem_of_head? hsn))).2.1] at hi; simp at hi)
  obtain ⟨a', h1, h2, h4, h5, h6, _⟩ := read_sky R rnd (fun _ => true) none none savedCtor ⟨1, false⟩ savedTracks tr A hA (fun _ _ => rfl)
    (fun s hsn _ => (h9 _ (hnodes s hsn)).2.2.1) none (by simp) true f hf a0
  exact ⟨f, a', hf, h1, h2, h4, h5, h6⟩

/-- The concrete object is read back. -/
example (R : Rep) (rnd : Rat → Int) (hr : Rounds rnd) : ∃ A f a', A.costh = [-1, 1 / 2] ∧ writeSky rnd none none true A = .ok f ∧
    readSky rnd (fun _ => true) emptySky f = .ok a' ∧ SameSky R 3 A a' := by
  obtain ⟨tr, sky, h1, h2, h3, h4, h5, h6, _, _, _, h9⟩ := saved_sky
  have hsky := fill_sky sky [-1, 1 / 2] [5] (some ⟨1, false⟩) (fun _ _ _ _ => 1) h4.symm h5.symm
  obtain ⟨f, a', e1, e2, e3, _⟩ := saved_back R rnd hr h3 h9 (fill sky [-1, 1 / 2] [5] (some ⟨1, false⟩) fun _ _ _ _ => 1)
    ⟨by rw [hsky]; exact h1, h2.symm⟩ hsky rfl emptySky
  exact ⟨_, f, a', rfl, e1, e2, e3⟩

/-- As many nodes as zeniths are read. -/
theorem readSkyNodes_length (rnd : Rat → Int) (f : SkyFile) (iis : Option Tables) (zs : List Rat) (l : List State) (h : readSkyNodes rnd f iis zs = .ok l) :
    l.length = zs.length := by
  induction zs generalizing l with
  | nil => cases h; rfl
  | cons x xs ih =>
    rw [readSkyNodes] at h
    cases hg : f.groups.lookup (nodeName rnd x) with
    | none => rw [hg] at h; cases h
    | some g =>
      rw [hg] at h
      dsimp only at h
      cases hs : StateIO.readInternal iis StateIO.fresh g with
      | throws => rw [hs] at h; cases h
      | ub => rw [hs] at h; cases h
      | ok s =>
        cases hl : readSkyNodes rnd f iis xs with
        | throws => rw [hs, hl] at h; cases h
        | ub => rw [hs, hl] at h; cases h
        | ok l' =>
          rw [hs, hl] at h
          obtain rfl := Outcome.ok.inj h
          rw [List.length_cons, List.length_cons, ih l' hl]

/-- C95: the constructor that reads a file makes an object with both flags set and a node for each zenith, as the histories of C61-C64 take it. -/
theorem c95_constructor (rnd : Rat → Int) (isEarthAtm : BodyRef → Bool) (f : SkyFile) (a : FullSky) (h : readSky rnd isEarthAtm emptySky f = .ok a) :
    a.sky = fromFile (a.nodes.map State.obj) f.energies.length a.tables ∧ a.iini = some true ∧ a.iatm = true ∧ a.nodes.length = f.zeniths.length := by
  unfold readSky at h
  cases hz : f.zeniths with
  | nil => rw [hz] at h; cases h
  | cons x xs =>
    rw [hz] at h
    dsimp only at h
    cases hg : f.groups.lookup (nodeName rnd x) with
    | none => rw [hg] at h; cases h
    | some g =>
      rw [hg] at h
      dsimp only at h
      cases hs : StateIO.read StateIO.fresh { g with tables := f.shared } with
      | throws => rw [hs] at h; cases h
      | ub => rw [hs] at h; cases h
      | ok s =>
        rw [hs] at h
        change ((readSkyNodes rnd f (if s.obj.iint then s.obj.tables else emptySky.tables) xs).bind fun l => _) = _ at h
        cases hl : readSkyNodes rnd f (if s.obj.iint then s.obj.tables else emptySky.tables) xs with
        | throws => rw [hl] at h; cases h
        | ub => rw [hl] at h; cases h
        | ok l =>
          rw [hl] at h
          have hlen := readSkyNodes_length rnd f _ xs l hl
          simp only [Outcome.bind] at h
          cases hb : s.obj.body with
          | none => rw [hb] at h; cases h
          | some b =>
            rw [hb] at h
            dsimp only at h
            split at h
            · obtain rfl := Outcome.ok.inj h
              refine ⟨?_, rfl, rfl, ?_⟩
              · simp only [FullSky.sky, fromFile, List.length_cons, List.map_cons, List.length_map, hlen, emptySky]
              · simp only [List.length_cons, hlen]
            · cases h

/-! ## Where the claim fails -/

/-- C95 fails for the number of threads: the object the constructor makes from a file answers every query as before but its number of
threads is uninitialised; asking for it, or evolving, is undefined, where the object saved evolves. -/
theorem c95_threads_violated (rnd : Rat → Int) (hr : Rounds rnd) : ∃ tr sky,
    ARun none none savedCtor ⟨1, false⟩ savedTracks tr sky ∧ getThreads sky = .ok 2 ∧ (evolve none sky [1, 0]).2 = .ok ∧
    ∀ A, History none none savedCtor ⟨1, false⟩ savedTracks tr A → A.sky = sky → A.costh = [-1, 1 / 2] →
      ∃ f a', writeSky rnd none none true A = .ok f ∧ readSky rnd (fun _ => true) emptySky f = .ok a' ∧
        getThreads a'.sky = .ub ∧ ∀ order, (evolve none a'.sky order).2 = .ub := by
  obtain ⟨tr, sky, h1, h2, h3, h4, h5, h6, _, h7, h8, h9⟩ := saved_sky
  refine ⟨tr, sky, h1, h7, h8, fun A hA hs hz => ?_⟩
  obtain ⟨f, a', e1, e2, e3, e4, _, e6⟩ := saved_back ⟨fun _ _ => 0, fun _ _ _ => 0⟩ rnd hr h3 h9 A hA hs hz emptySky
  refine ⟨f, a', e1, e2, ?_, fun order => ?_⟩
  · unfold getThreads FullSky.sky
    rw [e6]; rfl
  · have hp : prepare none a'.sky = (a'.sky, .ok) := by
      have hlen : A.nodes.length = 2 := by rw [← h6, ← hs]; simp [FullSky.sky]
      cases hn : a'.nodes with
      | nil => rw [hn] at e4; cases hA' : A.nodes <;> rw [hA'] at e4 hlen <;> [simp at hlen; cases e4]
      | cons s' l' =>
        cases hA' : A.nodes with
        | nil => rw [hA'] at hlen; simp at hlen
        | cons s l =>
          rw [hn, hA'] at e4
          cases e4 with
          | cons hx _ =>
            have hi : s'.obj.iint = false := by
              have : s.obj.iint = false := (h9 s.obj (by rw [← hs]; exact List.mem_map_of_mem (by rw [hA']; exact List.mem_cons_self ..))).2.1
              rw [← this]; exact hx.report.iint
            unfold prepare FullSky.sky
            simp [hn, hi]
    unfold evolve
    have hi : a'.sky.iini = some true := e3.ready.1
    have ha : a'.sky.iatm = true := e3.ready.2.1
    have ht : a'.sky.threads = none := e6
    rw [hi, ha, hp]
    simp [ht]

/-- C95 fails for the settings that are not saved: the positivity constraint is off and the library of cross sections gone. -/
theorem c95_settings_violated (rnd : Rat → Int) (hr : Rounds rnd) : ∃ tr sky,
    ARun none none savedCtor ⟨1, false⟩ savedTracks tr sky ∧ sky.ncs = some savedXs ∧ (∀ o ∈ sky.nodes, o.positivization = true) ∧
    ∀ A, History none none savedCtor ⟨1, false⟩ savedTracks tr A → A.sky = sky → A.costh = [-1, 1 / 2] →
      ∃ f a', writeSky rnd none none true A = .ok f ∧ readSky rnd (fun _ => true) emptySky f = .ok a' ∧
        a'.sky.ncs = none ∧ a'.nodes.length = 2 ∧ ∀ s ∈ a'.nodes, s.obj.positivization = false := by
  obtain ⟨tr, sky, h1, h2, h3, h4, h5, h6, hx, h7, h8, h9⟩ := saved_sky
  refine ⟨tr, sky, h1, hx, fun o ho => (h9 o ho).2.2.2.1, fun A hA hs hz => ?_⟩
  obtain ⟨f, a', e1, e2, e3, e4, e5, _⟩ := saved_back ⟨fun _ _ => 0, fun _ _ _ => 0⟩ rnd hr h3 h9 A hA hs hz emptySky
  refine ⟨f, a', e1, e2, e5, ?_, ?_⟩
  · rw [← e4.length_eq, ← h6, ← hs]; simp [FullSky.sky]
  · have : ∀ (l1 l2 : List State), List.Forall₂ (NodeBack ⟨fun _ _ => 0, fun _ _ _ => 0⟩ a'.tables) l1 l2 →
        ∀ z ∈ l2, z.obj.positivization = false := by
      intro l1 l2 hf
      induction hf with
      | nil => simp
      | cons hx _ ih =>
        intro z hz
        rcases List.mem_cons.1 hz with rfl | hz
        · exact hx.positivization
        · exact ih z hz
    exact this _ _ e4

/-- C95 fails without the permission to overwrite: no object at all is saved, also where no file is in the way. -/
theorem c95_no_overwrite_violated (rnd : Rat → Int) (dflt : Option Xs) (stray : Option Nat) (a : FullSky) :
    ∀ f, writeSky rnd dflt stray false a ≠ .ok f := by
  intro f h
  unfold writeSky at h
  split at h
  · simp at h
  · simp at h
  · by_cases hx : a.iatm = true <;> simp [hx] at h

theorem two_nodes {A : FullSky} (h : A.sky.nodes.length = 2) : ∃ s1 s2, A.nodes = [s1, s2] := by
  have : A.nodes.length = 2 := by rw [← h]; simp [FullSky.sky]
  exact List.length_eq_two.1 this

/-- C95 fails for nodes closer than the names tell: the object is not saved. -/
theorem c95_close_nodes_violated (rnd : Rat → Int) (hr : Rounds rnd) : ∃ tr sky,
    ARun none none savedCtor ⟨1, false⟩ savedTracks tr sky ∧ (evolve none sky [1, 0]).2 = .ok ∧
    ∀ A, A.sky = sky → A.costh = [1 / 10, 1000001 / 10000000] → writeSky rnd none none true A = .throws := by
  obtain ⟨tr, sky, h1, h2, h3, h4, h5, h6, _, h7, h8, h9⟩ := saved_sky
  refine ⟨tr, sky, h1, h8, fun A hs hz => ?_⟩
  obtain ⟨s1, s2, hn⟩ := two_nodes (A := A) (by rw [hs]; exact h6)
  have hg1 := h9 s1.obj (by rw [← hs]; simp [FullSky.sky, hn])
  have hg2 := h9 s2.obj (by rw [← hs]; simp [FullSky.sky, hn])
  have hgs' := hg1.1
  simp only [Life.evolveGuards, Bool.and_eq_true] at hgs'
  obtain ⟨b, hb⟩ := Option.isSome_iff_exists.1 hgs'.1.1.1.1.1
  obtain ⟨t, ht⟩ := Option.isSome_iff_exists.1 hgs'.1.1.1.2
  obtain ⟨g, hw, _⟩ := (StateIO.c57_written none s1 hg1.1 b t hb ht true).1 none (Or.inl hg1.2.1)
  have hii : A.iini = some true := by rw [← h3, ← hs]; rfl
  have hia : A.iatm = true := by
    have : sky.iatm = true := (arun_grid h1).iatm
    rw [← this, ← hs]; rfl
  unfold writeSky
  rw [hii, hia, hz, hn]
  simp only [Bool.not_true, Bool.false_eq_true, if_false]
  unfold writeSkyNodes
  rw [if_pos hg1.1]
  simp only [List.lookup_nil, hw, Outcome.bind]
  unfold writeSkyNodes
  rw [if_pos hg2.1, (c62_close_nodes_violated rnd hr).2.1]
  simp

/-! ## One energy and both types; interactions -/

def bothCtor : Life.Ctor := .multi [5] 3 .both false none

theorem both_sky : ∃ tr sky, ARun none none bothCtor ⟨1, false⟩ savedTracks tr sky ∧
    sky.iini = some true ∧ sky.nodes.length = 2 ∧ (evolve none sky []).2 = .ok ∧
    ∀ o ∈ sky.nodes, Life.evolveGuards o = true ∧ o.iint = false ∧ o.nt = .both ∧ o.energies = [5] := by
  have h : ∃ a, create none bothCtor ⟨1, false⟩ savedTracks = .ok a ∧
      (∀ st ∈ (aexec none a [.setInitial [2, 1, 2, 3] .flavor]).2, st ≠ .ub) ∧
      (aexec none a [.setInitial [2, 1, 2, 3] .flavor]).1.iini = some true ∧
      (aexec none a [.setInitial [2, 1, 2, 3] .flavor]).1.nodes.length = 2 ∧
      (evolve none (aexec none a [.setInitial [2, 1, 2, 3] .flavor]).1 []).2 = .ok ∧
      ∀ o ∈ (aexec none a [.setInitial [2, 1, 2, 3] .flavor]).1.nodes, Life.evolveGuards o = true ∧ o.iint = false ∧ o.nt = .both ∧
        o.energies = [5] :=
    ⟨_, rfl, by decide +kernel, by decide +kernel, by decide +kernel, by decide +kernel, by decide +kernel⟩
  obtain ⟨a, h1, h2, h3⟩ := h
  exact ⟨_, _, arun_append [.setInitial [2, 1, 2, 3] .flavor] [] a (.start a h1) h2, h3⟩

/-- C95 fails for one energy and both types: the object is saved and the file cannot be read. -/
theorem c95_one_energy_both_violated (rnd : Rat → Int) (hr : Rounds rnd) (isEarthAtm : BodyRef → Bool) : ∃ tr sky,
    ARun none none bothCtor ⟨1, false⟩ savedTracks tr sky ∧ (evolve none sky []).2 = .ok ∧
    ∀ A, History none none bothCtor ⟨1, false⟩ savedTracks tr A → A.sky = sky → A.costh = [-1, 1 / 2] →
      ∃ f, writeSky rnd none none true A = .ok f ∧ ∀ a0, readSky rnd isEarthAtm a0 f = .throws := by
  obtain ⟨tr, sky, h1, h2, h3, h4, h5⟩ := both_sky
  refine ⟨tr, sky, h1, h4, fun A hA hs hz => ?_⟩
  have hnodes : ∀ s ∈ A.nodes, s.obj ∈ sky.nodes := fun s hsn => by rw [← hs]; exact List.mem_map_of_mem hsn
  obtain ⟨f, hf⟩ := c95_written_partial rnd hr none none bothCtor ⟨1, false⟩ savedTracks tr A hA (by rw [← h2, ← hs]; rfl)
    (fun s hsn => (h5 _ (hnodes s hsn)).1) (by rw [hz]; simp only [Apart, List.pairwise_cons]; norm_num) none
    (fun s hsn hi => by rw [(h5 _ (hnodes s (List.mem_of_head? hsn))).2.1] at hi; simp at hi)
  refine ⟨f, hf, fun a0 => ?_⟩
  obtain ⟨s1, s2, hn⟩ := two_nodes (A := A) (by rw [hs]; exact h3)
  obtain ⟨w1, _, ⟨g, wg, wl, ws⟩, _⟩ := writeSky_ok hz hn hf
  have hb := h5 s1.obj (hnodes s1 (by rw [hn]; simp))
  obtain ⟨_, b, t, tabs, hb1, hb2, hfo, _⟩ := StateIO.write_ok wg
  unfold readSky
  rw [w1, hz]
  simp only [wl]
  rw [show ({ ({ g with tables := none } : File) with tables := f.shared } : File) = g by rw [ws], hfo,
    StateIO.read_one_both _ 5 hb.2.2.2 (congrArg StateIO.ntCode hb.2.2.1)]
  rfl

def intSkyCtor : Life.Ctor := .multi [5, 6] 3 .neutrino true (some savedXs)

theorem int_sky : ∃ tr sky, ARun none none intSkyCtor ⟨1, false⟩ savedTracks tr sky ∧
    sky.iini = some true ∧ sky.iatm = true ∧ sky.nodes.length = 2 ∧ (evolve none sky []).2 = .ok ∧
    ∀ o ∈ sky.nodes, Life.evolveGuards o = true ∧ o.iint = true ∧ (Life.initInteractions none o).2 = .ok ∧
      (Life.initInteractions none o).1.tables.isSome = true := by
  have h : ∃ a, create none intSkyCtor ⟨1, false⟩ savedTracks = .ok a ∧
      (∀ st ∈ (aexec none a [.setInitial [2, 2, 3] .flavor]).2, st ≠ .ub) ∧
      (aexec none a [.setInitial [2, 2, 3] .flavor]).1.iini = some true ∧
      (aexec none a [.setInitial [2, 2, 3] .flavor]).1.iatm = true ∧
      (aexec none a [.setInitial [2, 2, 3] .flavor]).1.nodes.length = 2 ∧
      (evolve none (aexec none a [.setInitial [2, 2, 3] .flavor]).1 []).2 = .ok ∧
      ∀ o ∈ (aexec none a [.setInitial [2, 2, 3] .flavor]).1.nodes, Life.evolveGuards o = true ∧ o.iint = true ∧
        (Life.initInteractions none o).2 = .ok ∧ (Life.initInteractions none o).1.tables.isSome = true :=
    ⟨_, rfl, by decide +kernel, by decide +kernel, by decide +kernel, by decide +kernel, by decide +kernel, by decide +kernel⟩
  obtain ⟨a, h1, h2, h3⟩ := h
  exact ⟨_, _, arun_append [.setInitial [2, 2, 3] .flavor] [] a (.start a h1) h2, h3⟩

/-- C95 fails for interactions, read strictly: saving the tables reads an extent that is not there (src/nuSQuIDS.cpp 1945). -/
theorem c95_padding_test_violated (rnd : Rat → Int) : ∃ tr sky,
    ARun none none intSkyCtor ⟨1, false⟩ savedTracks tr sky ∧ (evolve none sky []).2 = .ok ∧
    ∀ A x xs, A.sky = sky → A.costh = x :: xs → writeSky rnd none none true A = .ub := by
  obtain ⟨tr, sky, h1, h2, h3, h4, h5, h6⟩ := int_sky
  refine ⟨tr, sky, h1, h5, fun A x xs hs hz => ?_⟩
  obtain ⟨s1, s2, hn⟩ := two_nodes (A := A) (by rw [hs]; exact h4)
  obtain ⟨g1, g2, g3, g4⟩ := h6 s1.obj (by rw [← hs]; simp [FullSky.sky, hn])
  have hgs' := g1
  simp only [Life.evolveGuards, Bool.and_eq_true] at hgs'
  obtain ⟨b, hb⟩ := Option.isSome_iff_exists.1 hgs'.1.1.1.1.1
  obtain ⟨t, ht⟩ := Option.isSome_iff_exists.1 hgs'.1.1.1.2
  obtain ⟨tb, htb⟩ := Option.isSome_iff_exists.1 g4
  have hw : StateIO.write none true none s1 = .ub := by
    unfold StateIO.write
    rw [if_pos g1]
    simp only [hb, ht, g2, Bool.and_self, if_true]
    generalize Life.initInteractions none s1.obj = r at g3 htb ⊢
    obtain ⟨o', st⟩ := r
    simp only at g3 htb
    subst g3
    simp [htb, StateIO.savedTables, Outcome.map]
  have hii : A.iini = some true := by rw [← h2, ← hs]; rfl
  have hia : A.iatm = true := by rw [← h3, ← hs]; rfl
  unfold writeSky
  rw [hii, hia, hz, hn]
  simp only [Bool.not_true, Bool.false_eq_true, if_false]
  unfold writeSkyNodes
  rw [if_pos g1]
  simp [hw, Outcome.bind]

/-- If that read yields a number other than that of the energies, the object with interactions is saved, and read back with its tables. -/
example (rnd : Rat → Int) (hr : Rounds rnd) : ∃ tr sky, ARun none none intSkyCtor ⟨1, false⟩ savedTracks tr sky ∧
    ∀ A, History none none intSkyCtor ⟨1, false⟩ savedTracks tr A → A.sky = sky → A.costh = [-1, 1 / 2] →
      (∀ s ∈ A.nodes, s.obj.ne ≠ 7 ∧ s.obj.nt ≠ .both) → ∃ f a' t, writeSky rnd none (some 7) true A = .ok f ∧
        readSky rnd (fun _ => true) emptySky f = .ok a' ∧ a'.tables = some t ∧ ∀ s' ∈ a'.nodes, s'.obj.tables = some t := by
  obtain ⟨tr, sky, h1, h2, h3, h4, h5, h6⟩ := int_sky
  refine ⟨tr, sky, h1, fun A hA hs hz hne => ?_⟩
  have hnodes : ∀ s ∈ A.nodes, s.obj ∈ sky.nodes := fun s hsn => by rw [← hs]; exact List.mem_map_of_mem hsn
  obtain ⟨f, hf⟩ := c95_written_partial rnd hr none none intSkyCtor ⟨1, false⟩ savedTracks tr A hA (by rw [← h2, ← hs]; rfl)
    (fun s hsn => (h6 _ (hnodes s hsn)).1) (by rw [hz]; simp only [Apart, List.pairwise_cons]; norm_num) (some 7)
    (fun s hsn _ => ⟨rfl, (h6 _ (hnodes s (List.mem_of_head? hsn))).2.2.1, (h6 _ (hnodes s (List.mem_of_head? hsn))).2.2.2⟩)
  obtain ⟨s1, s2, hn⟩ := two_nodes (A := A) (by rw [hs]; exact h4)
  obtain ⟨a', t, e1, _, e3, e4⟩ := c95_tables_partial rnd (fun _ => true) none none intSkyCtor ⟨1, false⟩ savedTracks tr A hA (fun _ _ => rfl)
    (fun s hsn _ => (hne s hsn).2) (some 7) (fun k hk s hsn e => absurd (by cases hk; exact e.symm) (hne s hsn).1) true f hf emptySky s1
    (by rw [hn]; rfl) (h6 _ (hnodes s1 (by rw [hn]; simp))).2.1
  exact ⟨f, a', t, hf, e1, e3, e4⟩

end Verif.Atm
