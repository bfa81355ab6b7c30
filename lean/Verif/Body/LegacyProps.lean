import Verif.Body.Legacy
import Verif.Body.SerialProps

/-!
# C104: bodies and tracks of state files of the first version
-/

namespace Verif.Bodies

open Verif.Interp

/-! ## Spec -/

/-- Bodies with the standard data or with their own parameters, each with a track through it at any position. -/
inductive Common (u : Units) (d : Standard) : Body → Track → Prop where
  | vacuum (x xini xend : ℝ) : Common u d mkVacuum (mkPlainTrack "VacuumTrack" x xini xend)
  | constant (rho ye x xini xend : ℝ) : Common u d (mkConstant rho ye) (mkPlainTrack "ConstantDensityTrack" x xini xend)
  | table (xs rho ye : List ℝ) (b : Body) (h : mkVariable xs rho ye = .ok b) (x xini xend : ℝ) :
      Common u d b (mkPlainTrack "VariableDensityTrack" x xini xend)
  | earth (b : Body) (h : mkEarth d.earth.1 d.earth.2.1 d.earth.2.2 = .ok b) (x xini xend baseline : ℝ) :
      Common u d b (mkEarthTrack x xini xend baseline)
  | sun (b : Body) (h : mkSun u d.sun.1 d.sun.2.1 d.sun.2.2 = .ok b) (x xini xend : ℝ) : Common u d b (mkPlainTrack "SunTrack" x xini xend)
  | earthAtm (b : Body) (h : mkEarthAtm d.earthAtm.1 d.earthAtm.2.1 d.earthAtm.2.2 = .ok b) (phi x : ℝ) (t : Track)
      (ht : b.makeTrack u phi = some t) : Common u d b (t.setX x)
  | earthAtmCosine (b : Body) (h : mkEarthAtm d.earthAtm.1 d.earthAtm.2.1 d.earthAtm.2.2 = .ok b) (c x : ℝ) (hc : c ∈ Set.Icc (-1 : ℝ) 1) (t : Track)
      (ht : b.makeTrackWithCosine u c = some t) : Common u d b (t.setX x)

/-! ## Lemmas -/

private theorem map_ok_inv {α β : Type} {o : Outcome α} {f : α → β} {b : β} (h : o.map f = .ok b) : ∃ a, o = .ok a ∧ b = f a := by
  cases o with
  | ok a => exact ⟨a, rfl, (Outcome.ok.inj h).symm⟩
  | throws => cases h
  | ub => cases h

private theorem make_columns {xs rho ye : List ℝ} {t : Tab} (h : Tab.make xs rho ye = .ok t) :
    (t.xs = xs ∧ t.rho = rho ∧ t.ye = ye) ∧ rho.length = xs.length ∧ ye.length = xs.length := by
  unfold Tab.make at h
  cases h1 : ofVectors xs rho with
  | ok s =>
    cases h2 : ofVectors xs ye with
    | ok s' =>
      rw [h1, h2] at h
      cases h
      have k1 := (not_congr (c24_rejects_exactly xs rho).1).1 (by rw [h1]; intro h; cases h)
      have k2 := (not_congr (c24_rejects_exactly xs ye).1).1 (by rw [h2]; intro h; cases h)
      refine ⟨⟨rfl, rfl, rfl⟩, ?_, ?_⟩
      · by_contra hne
        exact k1 (by simp; tauto)
      · by_contra hne
        exact k2 (by simp; tauto)
    | throws => rw [h1, h2] at h; cases h
    | ub => rw [h1, h2] at h; cases h
  | throws => rw [h1] at h; cases h
  | ub => rw [h1] at h; cases h

private theorem bind_ok_inv {α β : Type} {o : Outcome α} {f : α → Outcome β} {b : β} : o.bind f = .ok b ↔ ∃ a, o = .ok a ∧ f a = .ok b := by
  cases o <;> simp [Outcome.bind]

private theorem map_some_ne {α β : Type} {o : Outcome α} {f : α → β} : o.map (fun a => some (f a)) ≠ .ok none := by
  cases o <;> simp [Outcome.map]

/-- Columns of increasing abscissas make a table. -/
theorem make_exists (a b c p q r s t v : ℝ) (h1 : a < b) (h2 : b < c) : ∃ T, Tab.make [a, b, c] [p, q, r] [s, t, v] = .ok T := by
  have key : ∀ p q r : ℝ, ∃ s, ofVectors [a, b, c] [p, q, r] = .ok s := by
    intro p q r
    cases hs : ofVectors [a, b, c] [p, q, r] with
    | ok s => exact ⟨s, rfl⟩
    | throws =>
      rw [(c24_rejects_exactly _ _).1] at hs
      simp [h1, h2, h1.trans h2] at hs
    | ub => exact absurd hs (c24_rejects_exactly _ _).2
  obtain ⟨s1, h1⟩ := key p q r
  obtain ⟨s2, h2⟩ := key s t v
  exact ⟨_, by unfold Tab.make; rw [h1, h2]; rfl⟩

/-! ## C104 -/

/-- C104, partial: what `GetId`, `GetBodyParams`, `GetTrackParams` and `GetX` report of a body with a track is read as the same body with
the same track. Missing: the tracks of `SunASnu` (`c104_sunasnu_violated`), reversed tracks through `EarthAtm` (`c104_reversed_violated`),
bodies with other data or another height (`c104_tables_violated`, `c104_height_violated`), and what is to happen with other files
(`c104_unknown_violated`, `c104_short_violated`). -/
theorem c104_restored_partial (u : Units) (d : Standard) (b : Body) (t : Track) (h : Common u d b t) : readOld u d (saveOld b t) = .ok (some (b, t)) := by
  cases h with
  | vacuum x xini xend => rfl
  | constant rho ye x xini xend => rfl
  | table xs rho ye b h x xini xend =>
    obtain ⟨T, hT, rfl⟩ := map_ok_inv h
    obtain ⟨⟨e1, e2, e3⟩, l1, l2⟩ := make_columns hT
    obtain ⟨c1, c2, c3, c4⟩ := columns xs rho ye l1 l2
    have hp : Body.params ⟨.variable T, false⟩ = xs ++ rho ++ ye := by
      show T.xs ++ T.rho ++ T.ye = _
      rw [e1, e2, e3]
    show ((setBodyTrack u d 3 (Body.params ⟨.variable T, false⟩) _).map _) = _
    rw [hp]
    unfold setBodyTrack
    dsimp only
    rw [c1, c2, Outcome.bind_ok, c3, Outcome.bind_ok, c4, Outcome.bind_ok, h]
    rfl
  | earth b h x xini xend baseline =>
    obtain ⟨T, hT, rfl⟩ := map_ok_inv h
    show ((setBodyTrack u d 4 _ _).map _) = _
    unfold setBodyTrack
    dsimp only
    rw [h]
    rfl
  | sun b h x xini xend =>
    obtain ⟨T, hT, rfl⟩ := map_ok_inv h
    show ((setBodyTrack u d 5 _ _).map _) = _
    unfold setBodyTrack
    dsimp only
    rw [h]
    rfl
  | earthAtm b h phi x t ht =>
    obtain ⟨T, hT, rfl⟩ := map_ok_inv h
    cases ht
    show ((setBodyTrack u d 7 _ _).map _) = _
    unfold setBodyTrack
    dsimp only
    rw [h]
    show Outcome.ok (some (_, (mkAtmTrack (Real.arccos (Real.cos phi)) (6371 * u.km) (22 * u.km)).setX x)) = _
    unfold mkAtmTrack
    rw [Real.cos_arccos (Real.neg_one_le_cos _) (Real.cos_le_one _)]
  | earthAtmCosine b h c x hc t ht =>
    obtain ⟨T, hT, rfl⟩ := map_ok_inv h
    cases ht
    show ((setBodyTrack u d 7 _ _).map _) = _
    unfold setBodyTrack
    dsimp only
    rw [h]
    show Outcome.ok (some (_, (mkAtmTrack (Real.arccos c) (6371 * u.km) (22 * u.km)).setX x)) = _
    unfold mkAtmTrack
    rw [Real.cos_arccos hc.1 hc.2]
    rfl

/-- A table with three rows, and the standard atmosphere with a track at an angle. -/
example (u : Units) (d : Standard) (hd : d.earthAtm = ([0, 1, 2], [13, 5, 3], [1, 1, 1])) :
    (∃ b, mkVariable [0, 1, 2] [3, 2, 1] [4, 5, 6] = .ok b ∧ Common u d b (mkPlainTrack "VariableDensityTrack" 1 0 2) ∧
      (saveOld b (mkPlainTrack "VariableDensityTrack" 1 0 2)).body = [0, 1, 2, 3, 2, 1, 4, 5, 6]) ∧
    ∃ b t, Common u d b (t.setX 5) ∧ b.makeTrack u 2 = some t := by
  obtain ⟨T, hT⟩ := make_exists 0 1 2 3 2 1 4 5 6 (by norm_num) (by norm_num)
  obtain ⟨T', hT'⟩ := make_exists 0 1 2 13 5 3 1 1 1 (by norm_num) (by norm_num)
  obtain ⟨⟨e1, e2, e3⟩, _⟩ := make_columns hT
  refine ⟨⟨⟨.variable T, false⟩, by unfold mkVariable; rw [hT]; rfl, .table [0, 1, 2] [3, 2, 1] [4, 5, 6] _ (by unfold mkVariable; rw [hT]; rfl) 1 0 2, ?_⟩,
    ⟨.earthAtm T' 6371 22 (6371 + 22), false⟩, _, .earthAtm _ (by unfold mkEarthAtm; rw [hd, hT']; rfl) 2 5 _ rfl, rfl⟩
  show T.xs ++ T.rho ++ T.ye = _
  rw [e1, e2, e3]
  rfl

/-- C104, disagreement: the second parameter of a track through `SunASnu` is its end, the third its impact parameter; the second is taken
for the impact parameter. -/
theorem c104_sunasnu_violated (u : Units) (d : Standard) (b : Body) (h : mkSunASnuFile u d.sunASnu.1 d.sunASnu.2.1 d.sunASnu.2.2 = .ok b)
    (x xini bi : ℝ) :
    let t := mkSunASnuTrack u x xini bi
    readOld u d (saveOld b t) = .ok (some (b, mkSunASnuTrack u x xini t.xend)) ∧ (t.xend ≠ bi → mkSunASnuTrack u x xini t.xend ≠ t) := by
  intro t
  obtain ⟨T, hT, rfl⟩ := map_ok_inv h
  refine ⟨?_, fun hne he => hne ?_⟩
  · show ((setBodyTrack u d 6 _ _).map _) = _
    unfold setBodyTrack
    dsimp only
    rw [h]
    rfl
  · have := congrArg Track.kind he
    simp only [t, mkSunASnuTrack, TrackKind.sunASnu.injEq, true_and] at this
    exact this

/-- Through the centre: the impact parameter 0 becomes the diameter. -/
example (u : Units) (hkm : 0 < u.km) : (mkSunASnuTrack u 0 0 0).xend ≠ 0 := by
  have : (mkSunASnuTrack u 0 0 0).xend = 2 * (694439 * u.km) := by
    simp only [mkSunASnuTrack, mul_zero, sub_zero]
    rw [Real.sqrt_mul_self (by positivity)]
  rw [this]
  positivity

/-- C104, disagreement: an Earth with its own data comes back with the standard data; here the density is 5 instead of 3. -/
theorem c104_tables_violated (u : Units) (d : Standard) (hd : d.earth = ([2, 3, 4], [5, 5, 5], [1, 1, 1])) :
    ∃ b b', mkEarth [2, 3, 4] [3, 3, 3] [1, 1, 1] = .ok b ∧ readOld u d (saveOld b (mkEarthTrack 0 0 1 1)) = .ok (some (b', mkEarthTrack 0 0 1 1)) ∧
      density u b (mkEarthTrack 0 0 1 1) = .ok 3 ∧ density u b' (mkEarthTrack 0 0 1 1) = .ok 5 := by
  obtain ⟨T, hT⟩ := make_exists 2 3 4 3 3 3 1 1 1 (by norm_num) (by norm_num)
  obtain ⟨T', hT'⟩ := make_exists 2 3 4 5 5 5 1 1 1 (by norm_num) (by norm_num)
  have key : ∀ (T : Tab) (v : ℝ), T.xs = [2, 3, 4] → T.rho = [v, v, v] → density u ⟨.earth T 6371, false⟩ (mkEarthTrack 0 0 1 1) = .ok v := by
    intro T v h1 h2
    have hr : earthDistance u 6371 1 0 = .ok 6371 := by
      unfold earthDistance
      dsimp only
      rw [zero_div, mul_zero, mul_zero, add_zero, sub_zero, if_pos (by norm_num), Real.sqrt_mul_self (by norm_num)]
    show (earthDistance u 6371 1 0).bind _ = _
    rw [hr, Outcome.bind_ok, h1, h2]
    unfold clampedLookup first
    rw [if_pos (by norm_num)]
    rfl
  obtain ⟨⟨e1, e2, _⟩, _⟩ := make_columns hT
  obtain ⟨⟨e1', e2', _⟩, _⟩ := make_columns hT'
  refine ⟨⟨.earth T 6371, false⟩, ⟨.earth T' 6371, false⟩, by unfold mkEarth; rw [hT]; rfl, ?_, key T 3 e1 e2, key T' 5 e1' e2'⟩
  show ((setBodyTrack u d 4 _ _).map _) = _
  unfold setBodyTrack mkEarth
  dsimp only
  rw [hd, hT']
  rfl

/-- C104, disagreement: an atmosphere with another height comes back with 22 km, and so does the track. -/
theorem c104_height_violated (u : Units) (d : Standard) (b : Body) (h : mkEarthAtm d.earthAtm.1 d.earthAtm.2.1 d.earthAtm.2.2 = .ok b) (height phi : ℝ) :
    ∃ t t', (b.setAtmosphereHeight height).makeTrack u phi = some t ∧ readOld u d (saveOld (b.setAtmosphereHeight height) t) = .ok (some (b, t')) ∧
      (b.setAtmosphereHeight height).sizes = [6371, height] ∧ b.sizes = [6371, 22] ∧
      t.params = [0, t.xend, Real.arccos (Real.cos phi), 6371 * u.km, height * u.km] ∧
      t'.params = [0, t'.xend, Real.arccos (Real.cos phi), 6371 * u.km, 22 * u.km] := by
  obtain ⟨T, hT, rfl⟩ := map_ok_inv h
  refine ⟨_, (mkAtmTrack (Real.arccos (Real.cos phi)) (6371 * u.km) (22 * u.km)), rfl, ?_, rfl, rfl, rfl, ?_⟩
  · show ((setBodyTrack u d 7 _ _).map _) = _
    unfold setBodyTrack
    dsimp only
    rw [h]
    rfl
  · show [0, _, Real.arccos (Real.cos (Real.arccos (Real.cos phi))), _, _] = _
    rw [Real.cos_arccos (Real.neg_one_le_cos _) (Real.cos_le_one _)]

/-- C104, disagreement: a reversed track through the atmosphere comes back as it was before. -/
theorem c104_reversed_violated (u : Units) (d : Standard) (b : Body) (h : mkEarthAtm d.earthAtm.1 d.earthAtm.2.1 d.earthAtm.2.2 = .ok b) (phi : ℝ) :
    ∃ t, b.makeTrack u phi = some t ∧ readOld u d (saveOld b t.reverse) = .ok (some (b, t)) ∧ (t.xend ≠ 0 → t.reverse ≠ t) := by
  obtain ⟨T, hT, rfl⟩ := map_ok_inv h
  refine ⟨_, rfl, ?_, fun hne he => hne (congrArg Track.xini he)⟩
  show ((setBodyTrack u d 7 _ _).map _) = _
  unfold setBodyTrack
  dsimp only
  rw [h]
  show Outcome.ok (some (_, (mkAtmTrack (Real.arccos (Real.cos phi)) (6371 * u.km) (22 * u.km)).setX 0)) = _
  unfold mkAtmTrack
  rw [Real.cos_arccos (Real.neg_one_le_cos _) (Real.cos_le_one _)]
  rfl

/-- C104, disagreement: for an identifier that is not known there is no exception; the process ends. -/
theorem c104_unknown_violated (u : Units) (d : Standard) (f : OldFile) : readOld u d f = .ok none ↔ f.id = 0 ∨ 7 < f.id := by
  obtain ⟨id, bp, tp, x⟩ := f
  have hn : readOld u d ⟨id, bp, tp, x⟩ = .ok none ↔ setBodyTrack u d id bp tp = .ok none := by
    unfold readOld
    dsimp only
    cases setBodyTrack u d id bp tp with
    | ok r => cases r <;> simp [Outcome.map]
    | throws => simp [Outcome.map]
    | ub => simp [Outcome.map]
  rw [hn]
  match id with
  | 0 => exact ⟨fun _ => Or.inl rfl, fun _ => rfl⟩
  | 1 | 2 | 3 | 4 | 5 | 6 =>
    refine ⟨fun h => ?_, fun h => absurd h (by simp)⟩
    unfold setBodyTrack at h
    simp only [bind_ok_inv, map_some_ne, Outcome.ok.injEq, reduceCtorEq, and_false, exists_false] at h
  | 7 =>
    refine ⟨fun h => ?_, fun h => absurd h (by simp)⟩
    unfold setBodyTrack at h
    simp only [bind_ok_inv] at h
    obtain ⟨b, _, phi, _, h⟩ := h
    split at h <;> cases h
  | n + 8 => exact ⟨fun _ => Or.inr (by show 7 < n + 8; omega), fun _ => rfl⟩

/-- A file with the identifier of a body that was added later. -/
example (u : Units) (d : Standard) : readOld u d ⟨8, [], [0, 1], 0⟩ = .ok none := (c104_unknown_violated u d _).2 (Or.inr (by decide))

/-- C104, disagreement: parameters that are missing are read all the same. -/
theorem c104_short_violated (u : Units) (d : Standard) (bp tp : List ℝ) (x : ℝ) :
    (tp.length < 2 → readOld u d ⟨1, bp, tp, x⟩ = .ub) ∧ (bp.length < 2 → readOld u d ⟨2, bp, tp, x⟩ = .ub) := by
  constructor
  · intro h
    match tp, h with
    | [], _ => rfl
    | [_], _ => rfl
    | _ :: _ :: l, h => exact absurd h (by simp)
  · intro h
    match bp, h with
    | [], _ => rfl
    | [_], _ => rfl
    | _ :: _ :: l, h => exact absurd h (by simp)

/-- A constant density without the electron fraction. -/
example (u : Units) (d : Standard) : readOld u d ⟨2, [3], [0, 1], 0⟩ = .ub := (c104_short_violated u d _ _ _).2 (by decide)

end Verif.Bodies
