import Verif.Body.Serial
import Verif.Interp.AkimaProps
import Mathlib.Tactic.NormNum
import Mathlib.Tactic.Linarith
import Mathlib.Tactic.FieldSimp

/-!
# Properties C32, C33, C36: serialisation of bodies and tracks, type registry
-/

namespace Verif.Bodies

open Verif.Interp

/-! ## C32: bodies -/

/-- The bodies a program can have: made by a constructor, possibly changed by the two setters. -/
inductive Built (u : Units) : Body → Prop where
  | vacuum : Built u mkVacuum
  | constant (rho ye : ℝ) : Built u (mkConstant rho ye)
  | table (xs rho ye : List ℝ) (b : Body) (h : mkVariable xs rho ye = .ok b) : Built u b
  | earth (xs rho ye : List ℝ) (b : Body) (h : mkEarth xs rho ye = .ok b) : Built u b
  | sun (xs rho xh : List ℝ) (b : Body) (h : mkSun u xs rho xh = .ok b) : Built u b
  | sunASnu (xs rho xh : List ℝ) (b : Body) (h : mkSunASnu u xs rho xh = .ok b) : Built u b
  | sunASnuFile (xs rho xh : List ℝ) (b : Body) (h : mkSunASnuFile u xs rho xh = .ok b) : Built u b
  | earthAtm (xs rho ye : List ℝ) (b : Body) (h : mkEarthAtm xs rho ye = .ok b) : Built u b
  | setHeight (b : Body) (hb : Built u b) (height : ℝ) : Built u (b.setAtmosphereHeight height)
  | setConst (b : Body) (hb : Built u b) (v : Bool) : Built u (b.setIsConst v)

/-- Invariant of built bodies: tables consistent with their splines, radii as the constructors set them. -/
private def Inv (u : Units) : Kind → Prop
  | .vacuum => True
  | .constant .. => True
  | .«variable» t => Tab.make t.xs t.rho t.ye = .ok t
  | .earth t r => Tab.make t.xs t.rho t.ye = .ok t ∧ r = 6371
  | .sun t r => Tab.make t.xs t.rho t.ye = .ok t ∧ r = 695980 * u.km
  | .sunASnu t r => Tab.make t.xs t.rho t.ye = .ok t ∧ (r = 695980 * u.km ∨ r = 694439 * u.km)
  | .earthAtm t r h e => Tab.make t.xs t.rho t.ye = .ok t ∧ r = 6371 ∧ e = r + h

private theorem tab_make_fields {xs rho ye : List ℝ} {t : Tab} (h : Tab.make xs rho ye = .ok t) :
    t.xs = xs ∧ t.rho = rho ∧ t.ye = ye := by
  unfold Tab.make at h
  cases h1 : ofVectors xs rho with
  | ok s =>
    cases h2 : ofVectors xs ye with
    | ok s' => rw [h1, h2] at h; cases h; exact ⟨rfl, rfl, rfl⟩
    | throws => rw [h1, h2] at h; cases h
    | ub => rw [h1, h2] at h; cases h
  | throws => rw [h1] at h; cases h
  | ub => rw [h1] at h; cases h

private theorem tab_make_self {xs rho ye : List ℝ} {t : Tab} (h : Tab.make xs rho ye = .ok t) :
    Tab.make t.xs t.rho t.ye = .ok t := by
  obtain ⟨h1, h2, h3⟩ := tab_make_fields h
  rw [h1, h2, h3, h]

private theorem tab_lengths {t : Tab} (h : Tab.make t.xs t.rho t.ye = .ok t) :
    t.rho.length = t.xs.length ∧ t.ye.length = t.xs.length := by
  unfold Tab.make at h
  constructor
  · by_contra hc
    rw [ofVectors, if_neg (fun e => hc e.symm)] at h
    cases h
  · by_contra hc
    cases h1 : ofVectors t.xs t.rho with
    | ok s => rw [h1, Outcome.bind_ok, ofVectors, if_neg (fun e => hc e.symm)] at h; cases h
    | throws => rw [h1] at h; cases h
    | ub => rw [h1] at h; cases h

private theorem map_inv {α β : Type} {o : Outcome α} {f : α → β} {b : β} (h : o.map f = .ok b) :
    ∃ a, o = .ok a ∧ f a = b := by
  cases o with
  | ok a => cases h; exact ⟨a, rfl, rfl⟩
  | throws => cases h
  | ub => cases h

private theorem inv_of_built {u : Units} {b : Body} (h : Built u b) : Inv u b.kind := by
  induction h with
  | vacuum => trivial
  | constant => trivial
  | table xs rho ye b h => obtain ⟨t, ht, rfl⟩ := map_inv h; exact tab_make_self ht
  | earth xs rho ye b h => obtain ⟨t, ht, rfl⟩ := map_inv h; exact ⟨tab_make_self ht, rfl⟩
  | sun xs rho ye b h => obtain ⟨t, ht, rfl⟩ := map_inv h; exact ⟨tab_make_self ht, rfl⟩
  | sunASnu xs rho ye b h => obtain ⟨t, ht, rfl⟩ := map_inv h; exact ⟨tab_make_self ht, Or.inl rfl⟩
  | sunASnuFile xs rho ye b h => obtain ⟨t, ht, rfl⟩ := map_inv h; exact ⟨tab_make_self ht, Or.inr rfl⟩
  | earthAtm xs rho ye b h => obtain ⟨t, ht, rfl⟩ := map_inv h; exact ⟨tab_make_self ht, rfl, rfl⟩
  | setHeight b hb height ih =>
    obtain ⟨k, c⟩ := b
    cases k with
    | earthAtm t r h e => exact ⟨ih.1, ih.2.1, rfl⟩
    | _ => exact ih
  | setConst b hb v ih => exact ih

private theorem readTab_addTab (name nx nr ny : String) (t : Tab) (h1 : nr ≠ nx) (h2 : ny ≠ nx)
    (h3 : ny ≠ nr) (hl : t.rho.length = t.xs.length ∧ t.ye.length = t.xs.length) (extra : List (String × Attr)) :
    Group.readTab ⟨[("name", .str name), ("arraysize", .uint t.xs.length)] ++ extra, [(nx, t.xs), (nr, t.rho), (ny, t.ye)]⟩
      nx nr ny = .ok (t.xs, t.rho, t.ye) := by
  have a1 : (nr == nx) = false := by simpa using h1
  have a2 : (ny == nx) = false := by simpa using h2
  have a3 : (ny == nr) = false := by simpa using h3
  simp [Group.readTab, Group.uint, Group.arr, List.lookup, a1, a2, a3, hl.1, hl.2]

/-- The table that `Serialize` writes, in closed form. -/
private theorem addTab_eq (name nx nr ny : String) (t : Tab) (h1 : nr ≠ nx) (h2 : ny ≠ nx) (h3 : ny ≠ nr) :
    (Group.empty.add "name" (.str name)).addTab t nx nr ny =
      ⟨[("name", .str name), ("arraysize", .uint t.xs.length)], [(nx, t.xs), (nr, t.rho), (ny, t.ye)]⟩ := by
  have a1 : (nr == nx) = false := by simpa using h1
  have a2 : (ny == nx) = false := by simpa using h2
  have a3 : (ny == nr) = false := by simpa using h3
  simp [Group.addTab, Group.add, Group.addArr, Group.empty, List.lookup, a1, a2, a3]

/-- Round trip of any built body, except a SunASnu read from a file: the restored object is the same up to the constant-density
flag. -/
private theorem restored {u : Units} {b : Body} (h : Built u b)
    (hfile : ∀ t r, b.kind = .sunASnu t r → r = 695980 * u.km) :
    deserializeBody u b.kind.name b.serialize = .ok { b with isConst := false } := by
  have hI := inv_of_built h
  obtain ⟨k, c⟩ := b
  cases k with
  | vacuum => rfl
  | constant rho ye => simp [deserializeBody, Body.serialize, Kind.name, Group.add, Group.empty, Group.num, List.lookup,
      mkConstant]
  | «variable» t =>
    have hr := readTab_addTab "VariableDensity" "x_arr" "density_arr" "ye_arr" t (by decide) (by decide)
      (by decide) (tab_lengths hI) []
    simp only [deserializeBody, Body.serialize, Kind.name]
    rw [addTab_eq _ _ _ _ t (by decide) (by decide) (by decide)]
    rw [List.append_nil] at hr
    rw [hr, Outcome.bind_ok]
    simp only [mkVariable]
    rw [show Tab.make t.xs t.rho t.ye = .ok t from hI]
    rfl
  | earth t r =>
    have hr := readTab_addTab "Earth" "earth_radius" "earth_density" "earth_ye" t (by decide) (by decide)
      (by decide) (tab_lengths hI.1) []
    simp only [deserializeBody, Body.serialize, Kind.name]
    rw [addTab_eq _ _ _ _ t (by decide) (by decide) (by decide)]
    rw [List.append_nil] at hr
    rw [hr, Outcome.bind_ok]
    simp only [mkEarth]
    rw [hI.1, hI.2]
    rfl
  | sun t r =>
    have hr := readTab_addTab "Sun" "sun_radius" "sun_density" "sun_xh" t (by decide) (by decide)
      (by decide) (tab_lengths hI.1) []
    simp only [deserializeBody, Body.serialize, Kind.name]
    rw [addTab_eq _ _ _ _ t (by decide) (by decide) (by decide)]
    rw [List.append_nil] at hr
    rw [hr, Outcome.bind_ok]
    simp only [mkSun]
    rw [hI.1, hI.2]
    rfl
  | sunASnu t r =>
    have hr := readTab_addTab "SunASnu" "sun_radius" "sun_density" "sun_xh" t (by decide) (by decide)
      (by decide) (tab_lengths hI.1) []
    simp only [deserializeBody, Body.serialize, Kind.name]
    rw [addTab_eq _ _ _ _ t (by decide) (by decide) (by decide)]
    rw [List.append_nil] at hr
    rw [hr, Outcome.bind_ok]
    simp only [mkSunASnu]
    rw [hI.1, hfile t r rfl]
    rfl
  | earthAtm t r hgt e =>
    have hr := readTab_addTab "EarthAtm" "earth_radius" "earth_density" "earth_ye" t (by decide) (by decide)
      (by decide) (tab_lengths hI.1) [("radius", .num r), ("atm_height", .num hgt)]
    simp only [deserializeBody, Body.serialize, Kind.name]
    rw [addTab_eq _ _ _ _ t (by decide) (by decide) (by decide)]
    have e1 : (Group.add (Group.add ⟨[("name", .str "EarthAtm"), ("arraysize", .uint t.xs.length)],
        [("earth_radius", t.xs), ("earth_density", t.rho), ("earth_ye", t.ye)]⟩ "radius" (.num r)) "atm_height" (.num hgt)) =
        ⟨[("name", .str "EarthAtm"), ("arraysize", .uint t.xs.length)] ++ [("radius", .num r), ("atm_height", .num hgt)],
        [("earth_radius", t.xs), ("earth_density", t.rho), ("earth_ye", t.ye)]⟩ := by
      simp [Group.add, List.lookup]
    rw [e1, hr, Outcome.bind_ok]
    have n1 : ∀ ds, Group.numOr ⟨[("name", .str "EarthAtm"), ("arraysize", .uint t.xs.length)] ++
        [("radius", .num r), ("atm_height", .num hgt)], ds⟩ "radius" 6371 = .ok r := by
      intro ds; simp [Group.numOr, List.lookup]
    have n2 : ∀ ds, Group.numOr ⟨[("name", .str "EarthAtm"), ("arraysize", .uint t.xs.length)] ++
        [("radius", .num r), ("atm_height", .num hgt)], ds⟩ "atm_height" 22 = .ok hgt := by
      intro ds; simp [Group.numOr, List.lookup]
    rw [n1, Outcome.bind_ok, n2, Outcome.bind_ok, mkEarthAtm, hI.1, hI.2.2]
    rfl

/-- A body written and read back reports the same density and composition at every position of every track, and the same radius,
height and parameters. Missing from the full claim: SunASnu bodies read from a file (`c32_sunasnu_violated`). -/
theorem c32_roundtrip_partial (u : Units) (b : Body) (h : Built u b)
    (hfile : ∀ t r, b.kind = .sunASnu t r → r = 695980 * u.km) :
    ∃ b', deserializeBody u b.kind.name b.serialize = .ok b' ∧ b'.sizes = b.sizes ∧ b'.params = b.params ∧
      ∀ tr, density u b' tr = density u b tr ∧ ye u b' tr = ye u b tr :=
  ⟨_, restored h hfile, rfl, rfl, fun _ => ⟨rfl, rfl⟩⟩

/-- An EarthAtm body with the height changed to 30 km is built and restored with that height. -/
example (u : Units) : ∃ b, Built u b ∧ b.kind.name = "EarthAtm" ∧ b.sizes = [6371, 30] := by
  have h : ofVectors [0, 1, 2] ([3, 2, 1] : List ℝ) ≠ .throws ∧ ofVectors [0, 1, 2] ([3, 2, 1] : List ℝ) ≠ .ub := by
    refine ⟨?_, (c24_rejects_exactly _ _).2⟩
    rw [Ne, (c24_rejects_exactly _ _).1]
    simp
  cases hs : ofVectors [0, 1, 2] ([3, 2, 1] : List ℝ) with
  | throws => exact absurd hs h.1
  | ub => exact absurd hs h.2
  | ok s =>
    refine ⟨_, .setHeight _ (.earthAtm [0, 1, 2] [3, 2, 1] [3, 2, 1] ⟨.earthAtm ⟨_, _, _, s, s⟩ 6371 22 (6371 + 22), false⟩
      (by simp only [mkEarthAtm, Tab.make, hs]; rfl)) 30, rfl, rfl⟩

/-- A SunASnu body read from a file comes back with another radius: 695980 km instead of 694439 km. -/
theorem c32_sunasnu_violated (u : Units) (hkm : 0 < u.km) (xs rho xh : List ℝ) (b : Body)
    (h : mkSunASnuFile u xs rho xh = .ok b) :
    ∃ b', deserializeBody u b.kind.name b.serialize = .ok b' ∧ b.sizes = [694439 * u.km] ∧
      b'.sizes = [695980 * u.km] ∧ b'.sizes ≠ b.sizes := by
  obtain ⟨t, ht, rfl⟩ := map_inv h
  have ht' := tab_make_self ht
  have hb : Built u ⟨.sunASnu t (695980 * u.km), false⟩ :=
    .sunASnu t.xs t.rho t.ye _ (by simp only [mkSunASnu, ht']; rfl)
  have hr := restored hb (fun t' r hk => by cases hk; rfl)
  refine ⟨_, hr, rfl, rfl, ?_⟩
  intro he
  simp only [Body.sizes, List.cons.injEq, and_true] at he
  linarith

/-- Such bodies exist: every table with three increasing abscissas and columns of that length makes one. -/
example (u : Units) : ∃ b, mkSunASnuFile u [0, 1, 2] [3, 2, 1] [3, 2, 1] = .ok b := by
  cases hs : ofVectors [0, 1, 2] ([3, 2, 1] : List ℝ) with
  | throws =>
    rw [(c24_rejects_exactly _ _).1] at hs
    simp at hs
  | ub => exact absurd hs (c24_rejects_exactly _ _).2
  | ok s => exact ⟨_, by simp only [mkSunASnuFile, Tab.make, hs]; rfl⟩

/-- The flag set by `SetIsConstantDensity` is not saved. -/
theorem c32_constant_flag_violated (u : Units) (xs rho ye : List ℝ) (b : Body) (h : mkVariable xs rho ye = .ok b) :
    ∃ b', deserializeBody u b.kind.name (b.setIsConst true).serialize = .ok b' ∧
      (b.setIsConst true).isConstantDensity = true ∧ b'.isConstantDensity = false := by
  have hb : Built u (b.setIsConst true) := .setConst b (.table xs rho ye b h) true
  obtain ⟨t, ht, rfl⟩ := map_inv h
  have hr := restored hb (fun t' r hk => by cases hk)
  exact ⟨_, hr, rfl, rfl⟩

/-! ## C33: tracks -/

/-- Tracks without members of their own, and Earth tracks, come back identical, reversed or not. Missing from the full claim:
SunASnu and EarthAtm tracks. -/
theorem c33_plain_partial (u : Units) (x xini xend : ℝ) :
    (∀ name ∈ ["VacuumTrack", "ConstantDensityTrack", "VariableDensityTrack", "SunTrack"],
      deserializeTrack u name (mkPlainTrack name x xini xend).serialize = .ok (mkPlainTrack name x xini xend)) ∧
    ∀ baseline, deserializeTrack u "EarthTrack" (mkEarthTrack x xini xend baseline).serialize =
      .ok (mkEarthTrack x xini xend baseline) := by
  constructor
  · intro name (hn : name ∈ plainNames)
    simp [deserializeTrack, hn, Track.serialize, mkPlainTrack, Group.add, Group.empty, Group.num, List.lookup]
  · intro b
    rw [deserializeTrack, if_neg (by decide), if_pos rfl]
    simp [Track.serialize, mkEarthTrack, Group.add, Group.empty, Group.num, List.lookup]

private theorem atm_read (u : Units) (x xini xend c R h L : ℝ) :
    deserializeTrack u "EarthAtmTrack" (Track.serialize ⟨x, xini, xend, .earthAtm c R h L⟩) =
      .ok ((mkAtmTrackCosine u c R h).setX x) := by
  rw [deserializeTrack, if_neg (by decide), if_neg (by decide), if_neg (by decide), if_pos rfl]
  simp [Track.serialize, Group.add, Group.empty, Group.num, Group.numOr, List.lookup]

/-- EarthAtm tracks that are not reversed: made from an angle, they keep position, ends and baseline; made with the default Earth
radius and height (from angle or cosine) they come back identical. -/
theorem c33_earthatm_partial (u : Units) (x : ℝ) :
    (∀ phi R h, ∃ t', deserializeTrack u "EarthAtmTrack" ((mkAtmTrack phi R h).setX x).serialize = .ok t' ∧
      t'.x = x ∧ t'.xini = (mkAtmTrack phi R h).xini ∧ t'.xend = (mkAtmTrack phi R h).xend ∧
      t'.baseline = (mkAtmTrack phi R h).baseline) ∧
    (∀ phi, deserializeTrack u "EarthAtmTrack" ((mkAtmTrack phi (6371 * u.km) (22 * u.km)).setX x).serialize =
      .ok ((mkAtmTrack phi (6371 * u.km) (22 * u.km)).setX x)) ∧
    (∀ c, deserializeTrack u "EarthAtmTrack" ((mkAtmTrackCosine u c (6371 * u.km) (22 * u.km)).setX x).serialize =
      .ok ((mkAtmTrackCosine u c (6371 * u.km) (22 * u.km)).setX x)) :=
  ⟨fun _ _ _ => ⟨_, atm_read u x _ _ _ _ _ _, rfl, rfl, rfl, rfl⟩, fun _ => atm_read u x _ _ _ _ _ _,
    fun _ => atm_read u x _ _ _ _ _ _⟩

/-- A reversed EarthAtm track comes back unreversed. -/
theorem c33_reversed_violated (u : Units) (phi R h : ℝ) (hL : atmLength (Real.cos phi) R h ≠ 0) :
    ∃ t', deserializeTrack u "EarthAtmTrack" (mkAtmTrack phi R h).reverse.serialize = .ok t' ∧
      t'.xini = 0 ∧ (mkAtmTrack phi R h).reverse.xini ≠ 0 := by
  refine ⟨_, atm_read u _ _ _ _ _ _ _, rfl, ?_⟩
  exact hL

example : atmLength (Real.cos 0) 6371 22 ≠ 0 := by
  unfold atmLength
  dsimp only
  rw [Real.cos_zero, show ((6371:ℝ) + 22) * (6371 + 22) - 6371 * 6371 * (1 - 1 * 1) = (6371 + 22) * (6371 + 22) by norm_num,
    Real.sqrt_mul_self (by norm_num)]
  norm_num

/-- An EarthAtm track made from an angle with a height other than 22 km comes back with the height 22 km. -/
theorem c33_height_violated (u : Units) (phi R h : ℝ) (hh : h ≠ 22 * u.km) :
    ∃ t', deserializeTrack u "EarthAtmTrack" (mkAtmTrack phi R h).serialize = .ok t' ∧
      t'.params ≠ (mkAtmTrack phi R h).params := by
  refine ⟨_, atm_read u _ _ _ _ _ _ _, ?_⟩
  intro he
  simp only [Track.params, Track.derivedParams, mkAtmTrack, mkAtmTrackCosine, Track.setX, List.cons_append, List.nil_append,
    List.cons.injEq, and_true, true_and] at he
  exact hh he.2.symm

/-- An EarthAtm track made from a cosine with another height comes back with another length: vertically downgoing, the height
h becomes 22 km. -/
theorem c33_cosine_violated (u : Units) (R h : ℝ) (hR : 0 ≤ R) (hh : 0 ≤ h) (hkm : 0 < u.km) (hne : h ≠ 22 * u.km) :
    ∃ t', deserializeTrack u "EarthAtmTrack" (mkAtmTrackCosine u 1 R h).serialize = .ok t' ∧
      (mkAtmTrackCosine u 1 R h).baseline = some h ∧ t'.baseline = some (22 * u.km) ∧
      t'.baseline ≠ (mkAtmTrackCosine u 1 R h).baseline := by
  have len : ∀ R h : ℝ, 0 ≤ R → 0 ≤ h → atmLength 1 R h = h := by
    intro R h hR hh
    simp only [atmLength]
    rw [show (R + h) * (R + h) - R * R * (1 - 1 * 1) = (R + h) * (R + h) by ring, Real.sqrt_mul_self (by linarith)]
    ring
  have e1 : (mkAtmTrackCosine u 1 R h).baseline = some h := by
    simp only [mkAtmTrackCosine, Track.baseline, len R h hR hh]
  refine ⟨_, atm_read u _ _ _ _ _ _ _, e1, ?_, ?_⟩
  · simp only [mkAtmTrackCosine, Track.setX, Track.baseline]
    rw [len _ _ (by positivity) (by positivity)]
  · rw [e1]
    simp only [mkAtmTrackCosine, Track.setX, Track.baseline]
    rw [len _ _ (by positivity) (by positivity)]
    intro he
    exact hne (Option.some.inj he).symm

/-- A SunASnu track comes back with its end position as impact parameter; the impact parameter is lost whenever the two differ. -/
theorem c33_sunasnu_violated (u : Units) (x xini b : ℝ) :
    ∃ t', deserializeTrack u "SunASnuTrack" (mkSunASnuTrack u x xini b).serialize = .ok t' ∧
      t' = mkSunASnuTrack u x xini (mkSunASnuTrack u x xini b).xend ∧
      ((mkSunASnuTrack u x xini b).xend ≠ b → t'.params ≠ (mkSunASnuTrack u x xini b).params) := by
  refine ⟨_, ?_, rfl, ?_⟩
  · rw [deserializeTrack, if_neg (by decide), if_neg (by decide), if_pos rfl]
    simp [Track.serialize, mkSunASnuTrack, Group.add, Group.empty, Group.num, List.lookup]
  · intro hne he
    simp only [Track.params, Track.derivedParams, mkSunASnuTrack, List.cons_append, List.nil_append,
      List.cons.injEq, and_true, true_and] at he
    exact hne he.2

/-- A track through the centre (impact parameter 0) ends at twice the solar radius, which is not 0. -/
example (u : Units) (hkm : 0 < u.km) : (mkSunASnuTrack u 0 0 0).xend = 2 * (694439 * u.km) ∧
    (mkSunASnuTrack u 0 0 0).xend ≠ 0 := by
  have : (mkSunASnuTrack u 0 0 0).xend = 2 * (694439 * u.km) := by
    simp only [mkSunASnuTrack, mul_zero, sub_zero]
    rw [Real.sqrt_mul_self (by positivity)]
  rw [this]
  exact ⟨rfl, by positivity⟩

/-! ## C36: registry -/

/-- A sequence of registrations applied to a registry. -/
def registerAll {α : Type} (r : Registry α) (l : List (String × α)) : Registry α :=
  l.foldl (fun r p => r.register p.1 p.2) r

/-- The creator first registered under a name. -/
def firstRegistered {α : Type} (l : List (String × α)) (name : String) : Option α :=
  (l.find? fun p => p.1 == name).map (·.2)

private theorem lookup_append {α : Type} (m : List (String × α)) (n : String) (f : α) (name : String) :
    (m ++ [(n, f)]).lookup name = match m.lookup name with
      | some g => some g
      | none => if name = n then some f else none := by
  induction m with
  | nil =>
    simp only [List.nil_append, List.lookup]
    by_cases h : name = n
    · simp [h]
    · have : (name == n) = false := by simpa using h
      simp [this, h]
  | cons p m ih =>
    obtain ⟨k, v⟩ := p
    simp only [List.cons_append, List.lookup]
    cases name == k with
    | true => rfl
    | false => exact ih

private theorem registerAll_some {α : Type} (l : List (String × α)) (m : List (String × α)) :
    ∃ m', registerAll (some m) l = some m' ∧ ∀ name, m'.lookup name =
      match m.lookup name with | some g => some g | none => firstRegistered l name := by
  induction l generalizing m with
  | nil =>
    refine ⟨m, rfl, fun name => ?_⟩
    simp only [firstRegistered, List.find?_nil, Option.map_none]
    cases m.lookup name <;> rfl
  | cons p l ih =>
    obtain ⟨n, f⟩ := p
    have hstep : registerAll (some m) ((n, f) :: l) =
        registerAll (if (m.lookup n).isSome then some m else some (m ++ [(n, f)])) l := rfl
    rw [hstep]
    cases hm : m.lookup n with
    | some g =>
      obtain ⟨m', h1, h2⟩ := ih m
      rw [if_pos (by simp)]
      refine ⟨m', h1, fun name => ?_⟩
      rw [h2]
      cases hk : m.lookup name with
      | some _ => rfl
      | none =>
        have hne : ¬ n = name := by rintro rfl; rw [hm] at hk; cases hk
        have : (n == name) = false := by simpa using hne
        simp [firstRegistered, this]
    | none =>
      obtain ⟨m', h1, h2⟩ := ih (m ++ [(n, f)])
      rw [if_neg (by simp)]
      refine ⟨m', h1, fun name => ?_⟩
      rw [h2, lookup_append]
      cases hk : m.lookup name with
      | some _ => rfl
      | none =>
        by_cases hn : name = n
        · subst hn
          simp [firstRegistered]
        · have : (n == name) = false := by simpa using Ne.symm hn
          simp [firstRegistered, this, hn]

/-- After any non-empty sequence of registrations, looking a name up gives the creator registered first under it, and throws
exactly if there is none. -/
theorem c36_lookup {α : Type} (l : List (String × α)) (hl : l ≠ []) (name : String) :
    Registry.get (registerAll none l) name =
      match firstRegistered l name with | some f => .ok f | none => .throws := by
  cases l with
  | nil => exact absurd rfl hl
  | cons p l =>
    have e : registerAll none (p :: l) = registerAll (some []) (p :: l) := rfl
    obtain ⟨m', h1, h2⟩ := registerAll_some (p :: l) []
    rw [e, h1]
    have h2' := h2 name
    simp only [List.lookup] at h2'
    simp only [Registry.get, h2']
    cases firstRegistered (p :: l) name <;> rfl

/-- Registering other names does not change what a name gives. -/
theorem c36_others {α : Type} (l l' : List (String × α)) (hl : l ≠ []) (name : String) (h : ∀ p ∈ l', p.1 ≠ name) :
    Registry.get (registerAll none (l ++ l')) name = Registry.get (registerAll none l) name := by
  rw [c36_lookup _ (by simp [hl]), c36_lookup _ hl]
  have : firstRegistered (l ++ l') name = firstRegistered l name := by
    have h0 : l'.find? (fun p => p.1 == name) = none := by
      rw [List.find?_eq_none]
      intro p hp
      simpa using h p hp
    simp [firstRegistered, List.find?_append, h0]
  rw [this]

/-- The seven default registrations happen before `main` (body.cpp 941-947), so the null registry is never looked up; without
any registration the lookup would be undefined. -/
theorem c36_null {α : Type} (name : String) : Registry.get (none : Registry α) name = .ub := rfl

example : ∀ p ∈ [("Sun", 2), ("Moon", 3)], p.1 ≠ "Earth" := by decide

example : Registry.get (registerAll none [("Earth", 1), ("Sun", 2), ("Earth", 3)]) "Earth" = .ok 1 ∧
    Registry.get (registerAll none [("Earth", 1), ("Sun", 2), ("Earth", 3)]) "Moon" = .throws := by decide

end Verif.Bodies
