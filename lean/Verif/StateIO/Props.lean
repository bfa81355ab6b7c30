import Verif.StateIO.ReadBack
import Verif.Density.Rotation

/-!
# A saved state read back (C57)
-/

namespace Verif.StateIO

open Life
open Density (rot rot_contents half_facts)

/-- C57, for objects in the interaction picture: every reachable object that can be written is read back, into a new object, with the
same energies, parameters, switches, body, track, clock and contents at every node. With interactions the tables have to be saved, and
come back. Missing: objects in the mass basis and objects with one energy and both neutrinos and antineutrinos, for which the claim
fails (below); the settings that are not saved; reading into an object in use. -/
theorem c57_read_back_partial (R : Rep) (dflt : Option Xs) (c : Ctor) (h : List (Op × Status)) (s : State) (hr : Run dflt c h s.obj)
    (hbasis : s.obj.basis = .interaction) (hone : s.obj.ne = 1 → s.obj.nt ≠ .both)
    (save : Bool) (hsave : s.obj.iint = true → save = true)
    (stray : Option Nat) (hpad : ∀ k, stray = some k → k = s.obj.ne → s.obj.ne % 4 = 0)
    (f : File) (hw : write dflt save stray s = .ok f) :
    ∃ s', read fresh f = .ok s' ∧ SameReport R s s' ∧ evolveGuards s'.obj = true ∧
      (s.obj.iint = true → s'.obj.tables = (initInteractions dflt s.obj).1.tables) := by
  obtain ⟨s', h1, h2, h3, h4, _⟩ := read_written R dflt c h s hr hone save hsave stray hpad f hw
  refine ⟨s', h1, ?_, h3, h4⟩
  have : asInteraction s = s := by
    obtain ⟨o, cs⟩ := s
    unfold asInteraction
    simp only at hbasis ⊢
    rw [← hbasis]
  rwa [this] at h2

/-! ## Concrete histories -/

/-- C57: an object that may be evolved and has a body and a track is written: always if it has no interactions or its tables are not to be
saved, and otherwise whenever its tables can be initialised and the stray read (1945) yields some number. -/
theorem c57_written (dflt : Option Xs) (s : State) (hg : evolveGuards s.obj = true) (b : BodyRef) (tr : TrackRef) (hb : s.obj.body = some b)
    (ht : s.obj.track = some tr) (save : Bool) :
    (∀ stray, (s.obj.iint = false ∨ save = false) → ∃ f, write dflt save stray s = .ok f ∧ f.body = b ∧ f.track = tr) ∧
    (∀ k t, (initInteractions dflt s.obj).2 = .ok → (initInteractions dflt s.obj).1.tables = some t →
      ∃ f, write dflt save (some k) s = .ok f ∧ f.body = b ∧ f.track = tr) := by
  refine ⟨fun stray h => ⟨fileOf s b tr none, ?_, rfl, rfl⟩, fun k t h1 h2 => ?_⟩
  · unfold write
    rw [if_pos hg, hb, ht]
    rcases h with h | h <;> simp [h]
  · by_cases hc : (s.obj.iint && save) = true
    · refine ⟨fileOf s b tr (some (if k = s.obj.ne ∧ s.obj.ne % 4 ≠ 0 then { t with complete := false } else t)), ?_, rfl, rfl⟩
      unfold write
      rw [if_pos hg, hb, ht]
      dsimp only
      rw [if_pos hc]
      revert h1 h2
      cases initInteractions dflt s.obj with
      | mk o st =>
        intro h1 h2
        dsimp only at h1 h2
        subst h1
        dsimp only
        rw [h2]
        rfl
    · refine ⟨fileOf s b tr none, ?_, rfl, rfl⟩
      unfold write
      rw [if_pos hg, hb, ht]
      dsimp only
      rw [if_neg hc]

/-- Two energies, both types, a changed angle, evolved. -/
def demoOps : List Op :=
  [.setBody (some ⟨1, false⟩), .setTrack (some ⟨7, 0, 1, 0⟩), .setAngle 0 1 (1 / 2), .setPhase 0 2 1, .setInitial [2, 2, 3] .flavor, .evolve]

def demoCtor : Ctor := .multi [1, 2] 3 .both false none

def demoObj : Obj := (exec none (construct demoCtor).1 demoOps).1

theorem demo_run : Run none demoCtor (demoOps.zip (exec none (construct demoCtor).1 demoOps).2) demoObj :=
  run_exec none demoCtor demoOps (by decide +kernel) (by decide +kernel)

theorem write_simple (dflt : Option Xs) (save : Bool) (stray : Option Nat) (o : Obj) (comps : Nat → Nat → Nat → ℝ) (b : BodyRef)
    (tr : TrackRef) (hg : evolveGuards o = true) (hb : o.body = some b) (ht : o.track = some tr) (hi : o.iint = false) :
    write dflt save stray ⟨o, comps⟩ = .ok (fileOf ⟨o, comps⟩ b tr none) := by
  unfold write
  rw [if_pos hg]
  simp [hi, hb, ht]

example (R : Rep) (comps : Nat → Nat → Nat → ℝ) : ∃ f s', write none true none ⟨demoObj, comps⟩ = .ok f ∧ read fresh f = .ok s' ∧
    SameReport R ⟨demoObj, comps⟩ s' ∧ s'.obj.t = 1 ∧ getAngle s'.obj 0 1 = .ok (1 / 2) := by
  have hg : evolveGuards demoObj = true := by decide +kernel
  have hb : demoObj.body = some ⟨1, false⟩ := by decide +kernel
  have ht : demoObj.track = some ⟨7, 0, 1, 1⟩ := by decide +kernel
  have hi : demoObj.iint = false := by decide +kernel
  have h1' : demoObj.basis = .interaction := by decide +kernel
  have h2' : demoObj.ne = 1 → demoObj.nt ≠ .both := by decide +kernel
  have h3' : demoObj.t = 1 := by decide +kernel
  have h4' : 1 < demoObj.numneu := by decide +kernel
  have h5' : getAngle demoObj 0 1 = .ok (1 / 2) := by decide +kernel
  have hw := write_simple none true none demoObj comps ⟨1, false⟩ ⟨7, 0, 1, 1⟩ hg hb ht hi
  obtain ⟨s', h1, h2, _⟩ := c57_read_back_partial R none demoCtor _ ⟨demoObj, comps⟩ demo_run h1' h2' true
    (fun _ => rfl) none (by simp) _ hw
  refine ⟨_, s', hw, h1, h2, ?_, ?_⟩
  · rw [h2.t]; exact h3'
  · rw [h2.angles 0 1 (Nat.zero_lt_of_lt h4') h4']; exact h5'

/-! ## The basis is not saved -/

/-- One energy, two flavours mixed by an angle of 1/2, one wave number of 1 along a path of 1 through a body of constant density with the
shortcut for these switched on. -/
def massOps : List Op :=
  [.setE (1 / 2), .setBody (some ⟨1, true⟩), .setTrack (some ⟨7, 0, 1, 0⟩), .setAngle 0 1 (1 / 2), .setAngle 0 2 0, .setAngle 1 2 0,
    .setDm2 1 1, .setDm2 2 0, .setAllowConst true, .setInitial [3] .flavor, .evolve]

def massCtor : Ctor := .single 3 .neutrino

def massObj : Obj := (exec none (construct massCtor).1 massOps).1

theorem mass_run : Run none massCtor (massOps.zip (exec none (construct massCtor).1 massOps).2) massObj :=
  run_exec none massCtor massOps (by decide +kernel) (by decide +kernel)

/-- The angles of the object. -/
def halfAngle : Nat → Nat → Rat := fun i j => if i = 0 ∧ j = 1 then 1 / 2 else 0

/-- What the shortcut leaves in vacuum of an object filled with the first flavour (`Density.shortcut`). -/
noncomputable def afterShortcut : Density.Mat 3 :=
  Density.uTransform (Density.projector 1) 1 (Density.toB1 (rot (1 / 2)) (Density.projector 0))

theorem vacuum_one : vacuumH 3 true (fun i => if i = 1 then 1 else 0) (1 / 2) = Density.projector 1 := by
  unfold vacuumH
  rw [if_pos rfl, Fin.sum_univ_three]
  simp

theorem mass_facts : massObj.basis = .mass ∧ massObj.ne = 1 ∧ massObj.nt = .neutrino ∧ massObj.iint = false ∧ massObj.numneu = 3 ∧
    massObj.osc = true ∧ massObj.t = 1 ∧ massObj.tIni = 0 ∧ massObj.energies = [1 / 2] ∧ massObj.nrhos = 1 ∧
    evolveGuards massObj = true ∧ massObj.body = some ⟨1, true⟩ ∧ massObj.track = some ⟨7, 0, 1, 1⟩ := by decide +kernel

theorem mass_key : onPairs 3 (massObj.b1 0 0).angle = halfAngle ∧ onPairs 3 (massObj.b1 0 0).phase = (fun _ _ => 0) ∧
    (massObj.b1 0 0).flv = 0 := by
  have h : ∀ j, j < 3 → ∀ i, i < j → (massObj.b1 0 0).angle i j = halfAngle i j ∧ (massObj.b1 0 0).phase i j = 0 := by decide +kernel
  refine ⟨?_, ?_, by decide +kernel⟩
  · funext i j
    unfold onPairs
    by_cases hij : i < j ∧ j < 3
    · rw [if_pos hij]; exact (h j hij.2 i hij.1).1
    · rw [if_neg hij]
      unfold halfAngle
      rw [if_neg]
      rintro ⟨rfl, rfl⟩
      exact hij (by decide)
  · funext i j
    unfold onPairs
    by_cases hij : i < j ∧ j < 3
    · rw [if_pos hij]; exact (h j hij.2 i hij.1).2
    · rw [if_neg hij]

theorem mass_dm2 : massObj.dm2Key 1 = 1 ∧ massObj.dm2Key 2 = 0 := by decide +kernel

theorem vacuum_mass : vacuumH 3 true massObj.dm2Key (1 / 2) = Density.projector 1 := by
  rw [← vacuum_one]
  unfold vacuumH
  rw [if_pos rfl, if_pos rfl, Fin.sum_univ_three, Fin.sum_univ_three]
  simp [mass_dm2]

theorem mass_value (R : Rep) (comps : Nat → Nat → Nat → ℝ)
    (hmix : R.mix 3 halfAngle (fun _ _ => 0) = rot (1 / 2)) (hvec : R.vec 3 (onComps 3 (comps 0 0)) = afterShortcut) (m : Bool) :
    flavourValue R 3 m true 1 massObj.dm2Key (1 / 2) (massObj.b1 0 0) (comps 0 0) =
      1 - 2 * (Real.cos (1 / 2) * Real.sin (1 / 2)) ^ 2 * (1 - Real.cos (if m then 1 else 2)) := by
  have hk : keyMat R 3 (massObj.b1 0 0) = Density.toB1 (rot (1 / 2)) (Density.projector 0) := by
    unfold keyMat
    rw [mass_key.1, mass_key.2.1, mass_key.2.2, hmix]
    rfl
  have ha : afterShortcut = Density.evolve (Density.projector 1) (-1) (Density.toB1 (rot (1 / 2)) (Density.projector 0)) := by
    unfold afterShortcut Density.uTransform Density.evolve
    rw [neg_neg]
  unfold flavourValue valueOf
  rw [hk, hvec, ha, vacuum_mass, Rat.cast_one]
  cases m with
  | true =>
    have := rot_contents (1 / 2) 0 (-1)
    rw [Density.evolve_zero_time, sub_zero, Real.cos_neg] at this
    simpa using this
  | false =>
    have := rot_contents (1 / 2) (-1) 1
    rw [show (1 : ℝ) - -1 = 2 by norm_num] at this
    simpa using this

/-- C57 fails in the mass basis: the basis is not saved, the object read back is in the interaction picture, and its flavour contents are
evolved once more. -/
theorem c57_mass_basis_violated : ∃ (c : Ctor) (h : List (Op × Status)) (o : Obj), Run none c h o ∧
    ∀ (R : Rep) (comps : Nat → Nat → Nat → ℝ), R.mix 3 halfAngle (fun _ _ => 0) = rot (1 / 2) →
      R.vec 3 (onComps 3 (comps 0 0)) = afterShortcut →
      ∃ f s', write none true none ⟨o, comps⟩ = .ok f ∧ read fresh f = .ok s' ∧
        flavourAt R ⟨o, comps⟩ 0 0 0 = .ok (1 - 2 * (Real.cos (1 / 2) * Real.sin (1 / 2)) ^ 2 * (1 - Real.cos 1)) ∧
        flavourAt R s' 0 0 0 = .ok (1 - 2 * (Real.cos (1 / 2) * Real.sin (1 / 2)) ^ 2 * (1 - Real.cos 2)) ∧
        flavourAt R s' 0 0 0 ≠ flavourAt R ⟨o, comps⟩ 0 0 0 := by
  refine ⟨massCtor, _, massObj, mass_run, ?_⟩
  intro R comps hmix hvec
  obtain ⟨hb, hne, hnt, hii, hn, ho, ht, hti, hen, hrh, hg, hbo, htr⟩ := mass_facts
  have hev : evalAtNode massObj 0 0 0 = .ok () := by decide +kernel
  have hw := write_simple none true none massObj comps _ _ hg hbo htr hii
  obtain ⟨s', h1, h2, _⟩ := read_written R none massCtor _ ⟨massObj, comps⟩ mass_run (fun _ => by rw [hnt]; nofun) true
    (fun _ => rfl) none (by simp) _ hw
  have e1 : flavourAt R ⟨massObj, comps⟩ 0 0 0 =
      .ok (1 - 2 * (Real.cos (1 / 2) * Real.sin (1 / 2)) ^ 2 * (1 - Real.cos 1)) := by
    have := mass_value R comps hmix hvec true
    rw [if_pos rfl] at this
    rw [← this]
    unfold flavourAt
    simp only [hev, hen, hn, hb, ho, ht, hti, Outcome.bind]
    simp
  have e2 : flavourAt R s' 0 0 0 = .ok (1 - 2 * (Real.cos (1 / 2) * Real.sin (1 / 2)) ^ 2 * (1 - Real.cos 2)) := by
    have := mass_value R comps hmix hvec false
    rw [if_neg (by decide)] at this
    rw [h2.flavour, ← this]
    unfold flavourAt
    have hev' : evalAtNode (asInteraction ⟨massObj, comps⟩).obj 0 0 0 = .ok () := hev
    rw [hev']
    change (match massObj.energies[0]? with
      | none => Outcome.ub
      | some E => .ok (flavourValue R massObj.numneu (decide (Basis.interaction = Basis.mass)) massObj.osc (massObj.t - massObj.tIni)
          massObj.dm2Key E (massObj.b1 0 0) (comps 0 0))) = _
    simp only [hen, hn, ho, ht, hti]
    simp
  refine ⟨_, s', hw, h1, e1, e2, ?_⟩
  rw [e1, e2]
  intro h
  injection h with h
  have h12 : Real.cos 2 < Real.cos 1 := Real.cos_lt_cos_of_nonneg_of_le_pi (by norm_num) Real.two_le_pi (by norm_num)
  nlinarith [half_facts]

/-- Such a representation of the vectors, with such components, exists. -/
example : ∃ (R : Rep) (comps : Nat → Nat → Nat → ℝ), R.mix 3 halfAngle (fun _ _ => 0) = rot (1 / 2) ∧
    R.vec 3 (onComps 3 (comps 0 0)) = afterShortcut := by
  refine ⟨⟨fun n _ => if h : n = 3 then h ▸ afterShortcut else 0, fun n _ _ => if h : n = 3 then h ▸ rot (1 / 2) else 0⟩, fun _ _ _ => 0, ?_, ?_⟩
  · simp
  · simp

end Verif.StateIO
