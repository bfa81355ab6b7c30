import Verif.Body.Model
import Verif.Interp.AkimaProps
import Mathlib.Tactic.NormNum
import Mathlib.Tactic.Linarith
import Mathlib.Tactic.FieldSimp
import Mathlib.Tactic.LinearCombination

/-!
# Properties C34, C35: geometry of Earth and atmosphere tracks, and the table the density is taken from
-/

namespace Verif.Bodies

open Verif.Interp

/-! ## Specification

The detector sits at `(0, R)`; the neutrino comes from zenith angle `phi`, so that after a path `x` of a track of length `L` it is at
distance `L - x` from the detector, in the direction `(sin phi, cos phi)`. -/

/-- The distance from the centre of the Earth of the point at path `x`. -/
noncomputable def pointRadius (R s c L x : ℝ) : ℝ := √((s * (L - x)) ^ 2 + (R + c * (L - x)) ^ 2)

/-- A track of the body, of radius R and atmosphere height h in km, at zenith cosine c. -/
noncomputable def trackLength (u : Units) (c R h : ℝ) : ℝ := atmLength c (R * u.km) (h * u.km)

/-! ## Lemmas -/

private theorem under_root_nonneg {c R h : ℝ} (hR : 0 ≤ R) (hh : 0 ≤ h) : 0 ≤ (R + h) * (R + h) - R * R * (1 - c * c) := by
  nlinarith [mul_nonneg hR hh, mul_nonneg hh hh, mul_self_nonneg (R * c)]

private theorem trackLength_eq {u : Units} (hkm : 0 < u.km) (c R h : ℝ) :
    trackLength u c R h = u.km * atmLength c R h := by
  unfold trackLength atmLength
  dsimp only
  rw [show (R * u.km + h * u.km) * (R * u.km + h * u.km) - R * u.km * (R * u.km) * (1 - c * c) =
    (u.km * u.km) * ((R + h) * (R + h) - R * R * (1 - c * c)) by ring, Real.sqrt_mul (by positivity),
    Real.sqrt_mul_self hkm.le]
  ring

private theorem radius_sq (R h s c y : ℝ) (hR : 0 ≤ R) (hh : 0 ≤ h) (hsc : s * s + c * c = 1) :
    (s * (atmLength c R h - y)) ^ 2 + (R + c * (atmLength c R h - y)) ^ 2 =
      (R + h) * (R + h) + y * y - (atmLength c R h +
        (√((R + h) * (R + h) - R * R * (1 - c * c)) + R * c)) * y := by
  have hS := Real.mul_self_sqrt (under_root_nonneg (c := c) hR hh)
  unfold atmLength
  dsimp only
  generalize √((R + h) * (R + h) - R * R * (1 - c * c)) = S at hS
  linear_combination (S - R * c - y) ^ 2 * hsc + hS

private theorem distance_eq (u : Units) (hkm : 0 < u.km) (R h s c x : ℝ) (hR : 0 ≤ R) (hh : 0 ≤ h)
    (hsc : s * s + c * c = 1) : atmDistance u R (R + h) c (trackLength u c R h) x =
      pointRadius R s c (atmLength c R h) (x / u.km) := by
  unfold atmDistance pointRadius
  rw [radius_sq R h s c (x / u.km) hR hh hsc, trackLength_eq hkm,
    mul_div_cancel_left₀ _ hkm.ne']
  dsimp only
  split
  · rfl
  · exact (Real.sqrt_eq_zero_of_nonpos (not_lt.1 (by assumption))).symm

private theorem length_nonneg (c R h : ℝ) (hR : 0 ≤ R) (hh : 0 ≤ h) : 0 ≤ atmLength c R h := by
  unfold atmLength
  dsimp only
  have : R * c ≤ √((R + h) * (R + h) - R * R * (1 - c * c)) := by
    apply Real.le_sqrt_of_sq_le
    nlinarith [mul_nonneg hR hh, mul_nonneg hh hh]
  linarith

/-! ## C34 -/

/-- The radius the code uses is the distance from the centre of the point on the straight line to the detector. -/
theorem c34_straight_line (u : Units) (hkm : 0 < u.km) (R h phi x : ℝ) (hR : 0 ≤ R) (hh : 0 ≤ h) :
    atmDistance u R (R + h) (Real.cos phi) (trackLength u (Real.cos phi) R h) x =
      pointRadius R (Real.sin phi) (Real.cos phi) (trackLength u (Real.cos phi) R h / u.km) (x / u.km) := by
  rw [distance_eq u hkm R h (Real.sin phi) (Real.cos phi) x hR hh
    (by have := Real.sin_sq_add_cos_sq phi; nlinarith), trackLength_eq hkm, mul_div_cancel_left₀ _ hkm.ne']

/-- The track starts at radius R + h and ends at radius R. -/
theorem c34_ends (u : Units) (hkm : 0 < u.km) (R h c : ℝ) (hc : c * c ≤ 1) (hR : 0 ≤ R) (hh : 0 ≤ h) :
    atmDistance u R (R + h) c (trackLength u c R h) 0 = R + h ∧
    atmDistance u R (R + h) c (trackLength u c R h) (trackLength u c R h) = R := by
  have hs : √(1 - c * c) * √(1 - c * c) + c * c = 1 := by rw [Real.mul_self_sqrt (by linarith)]; ring
  rw [distance_eq u hkm R h _ c _ hR hh hs, distance_eq u hkm R h _ c _ hR hh hs]
  constructor
  · unfold pointRadius
    rw [radius_sq R h _ c _ hR hh hs, zero_div, mul_zero, mul_zero, sub_zero, add_zero,
      Real.sqrt_mul_self (by linarith)]
  · unfold pointRadius
    rw [trackLength_eq hkm, mul_div_cancel_left₀ _ hkm.ne', sub_self, mul_zero, mul_zero, add_zero,
      zero_pow (by decide), zero_add, Real.sqrt_sq hR]

/-- The track never leaves the sphere of radius R + h, and above the horizon it stays outside the Earth. -/
theorem c34_bounds (u : Units) (hkm : 0 < u.km) (R h c x : ℝ) (hc : c * c ≤ 1) (hR : 0 ≤ R) (hh : 0 ≤ h)
    (hx0 : 0 ≤ x) (hx1 : x ≤ trackLength u c R h) :
    atmDistance u R (R + h) c (trackLength u c R h) x ≤ R + h ∧
    (0 ≤ c → R ≤ atmDistance u R (R + h) c (trackLength u c R h) x) := by
  have hs : √(1 - c * c) * √(1 - c * c) + c * c = 1 := by rw [Real.mul_self_sqrt (by linarith)]; ring
  rw [distance_eq u hkm R h _ c _ hR hh hs]
  have hy0 : 0 ≤ x / u.km := by positivity
  have hy1 : x / u.km ≤ atmLength c R h := by
    rw [trackLength_eq hkm] at hx1
    rw [div_le_iff₀ hkm]; linarith
  constructor
  · unfold pointRadius
    rw [Real.sqrt_le_left (by linarith), radius_sq R h _ c _ hR hh hs]
    have hS : 0 ≤ √((R + h) * (R + h) - R * R * (1 - c * c)) := Real.sqrt_nonneg _
    have hL : atmLength c R h = √((R + h) * (R + h) - R * R * (1 - c * c)) - R * c := rfl
    have hSc : 0 ≤ √((R + h) * (R + h) - R * R * (1 - c * c)) + R * c := by
      have := length_nonneg (-c) R h hR hh
      unfold atmLength at this
      dsimp only at this
      rw [neg_mul_neg] at this
      linarith
    nlinarith [mul_nonneg hy0 (sub_nonneg.2 hy1), mul_nonneg hy0 hSc]
  · intro hc0
    unfold pointRadius
    apply Real.le_sqrt_of_sq_le
    have hd : 0 ≤ atmLength c R h - x / u.km := by linarith
    nlinarith [mul_nonneg (mul_nonneg hR hc0) hd, sq_nonneg (√(1 - c * c) * (atmLength c R h - x / u.km)),
      sq_nonneg (c * (atmLength c R h - x / u.km))]

/-- The length is h for vertical downgoing and 2R + h for vertical upgoing; in between it is between the two. -/
theorem c34_vertical (u : Units) (hkm : 0 < u.km) (R h : ℝ) (hR : 0 ≤ R) (hh : 0 ≤ h) :
    trackLength u 1 R h = h * u.km ∧ trackLength u (-1) R h = (2 * R + h) * u.km ∧
    ∀ c, c * c ≤ 1 → h * u.km ≤ trackLength u c R h ∧ trackLength u c R h ≤ (2 * R + h) * u.km := by
  refine ⟨?_, ?_, fun c hc => ?_⟩
  · rw [trackLength_eq hkm]
    unfold atmLength
    dsimp only
    rw [show (R + h) * (R + h) - R * R * (1 - 1 * 1) = (R + h) * (R + h) by ring, Real.sqrt_mul_self (by linarith)]
    ring
  · rw [trackLength_eq hkm]
    unfold atmLength
    dsimp only
    rw [show (R + h) * (R + h) - R * R * (1 - -1 * -1) = (R + h) * (R + h) by ring, Real.sqrt_mul_self (by linarith)]
    ring
  · have h1 : c ≤ 1 := by nlinarith
    have h2 : -1 ≤ c := by nlinarith
    have lo : h ≤ atmLength c R h := by
      unfold atmLength
      dsimp only
      have : h + R * c ≤ √((R + h) * (R + h) - R * R * (1 - c * c)) := by
        apply Real.le_sqrt_of_sq_le
        nlinarith [mul_nonneg (mul_nonneg hR hh) (sub_nonneg.2 h1)]
      linarith
    have hi : atmLength c R h ≤ 2 * R + h := by
      unfold atmLength
      dsimp only
      have : √((R + h) * (R + h) - R * R * (1 - c * c)) ≤ 2 * R + h + R * c := by
        apply Real.sqrt_le_iff.2
        have h3 : 0 ≤ R * (1 + c) := mul_nonneg hR (by linarith)
        refine ⟨by nlinarith, ?_⟩
        nlinarith [mul_nonneg h3 (add_nonneg hR hh)]
      linarith
    rw [trackLength_eq hkm, mul_comm, mul_comm _ u.km]
    exact ⟨mul_le_mul_of_nonneg_left lo hkm.le, mul_le_mul_of_nonneg_left hi hkm.le⟩

/-- The tracks made by the body, from an angle or its cosine, are these tracks. -/
theorem c34_made (u : Units) (b : Body) (t : Tab) (R h e phi : ℝ) (hb : b.kind = .earthAtm t R h e) :
    (b.makeTrack u phi).map (fun t => (t.x, t.xini, t.xend, t.baseline)) =
      some (0, 0, trackLength u (Real.cos phi) R h, some (trackLength u (Real.cos phi) R h)) ∧
    (b.makeTrackWithCosine u (Real.cos phi)).map (fun t => (t.x, t.xini, t.xend, t.baseline)) =
      some (0, 0, trackLength u (Real.cos phi) R h, some (trackLength u (Real.cos phi) R h)) := by
  simp only [Body.makeTrack, Body.makeTrackWithCosine, hb, mkAtmTrack, mkAtmTrackCosine, Option.map_some, Track.baseline]
  exact ⟨rfl, rfl⟩

/-- Horizontal track in the default atmosphere: its length is the root of (R+h)² − R². -/
example : trackLength ⟨1, 1⟩ 0 5 8 = 12 := by
  unfold trackLength atmLength
  dsimp only
  rw [show ((5:ℝ) * 1 + 8 * 1) * (5 * 1 + 8 * 1) - 5 * 1 * (5 * 1) * (1 - 0 * 0) = 12 * 12 by norm_num,
    Real.sqrt_mul_self (by norm_num)]
  norm_num

/-- Both ends of an Earth chord are on the surface, and the distance, hence density and composition, are the same at `x` and
`baseline - x`. -/
theorem c34_earth (u : Units) (R baseline x : ℝ) (hR : 0 < R) :
    earthDistance u R baseline 0 = .ok R ∧ earthDistance u R baseline baseline = .ok R ∧
    earthDistance u R baseline (baseline - x) = earthDistance u R baseline x := by
  refine ⟨?_, ?_, ?_⟩
  · unfold earthDistance
    dsimp only
    rw [zero_div, mul_zero, mul_zero, sub_zero, add_zero, if_pos (by positivity), Real.sqrt_mul_self hR.le]
  · unfold earthDistance
    dsimp only
    rw [add_sub_cancel_right, if_pos (by positivity), Real.sqrt_mul_self hR.le]
  · unfold earthDistance
    dsimp only
    rw [show R * R + (baseline - x) / u.km * ((baseline - x) / u.km) - baseline / u.km * ((baseline - x) / u.km) =
      R * R + x / u.km * (x / u.km) - baseline / u.km * (x / u.km) by
        rw [sub_div]; ring]

theorem c34_earth_symmetric (u : Units) (b : Body) (t : Tab) (R x xini xend baseline : ℝ) (hR : 0 < R)
    (hb : b.kind = .earth t R) :
    density u b (mkEarthTrack (baseline - x) xini xend baseline) = density u b (mkEarthTrack x xini xend baseline) ∧
    ye u b (mkEarthTrack (baseline - x) xini xend baseline) = ye u b (mkEarthTrack x xini xend baseline) := by
  have h := (c34_earth u R baseline x hR).2.2
  constructor
  · simp only [density, hb, mkEarthTrack, h]
  · simp only [ye, hb, mkEarthTrack, h]

/-- A chord shorter than the diameter never gives the impossible-geometry exception. -/
theorem c34_earth_no_throw (u : Units) (hkm : 0 < u.km) (R baseline x : ℝ) (hR : 0 < R) (hb0 : 0 ≤ baseline)
    (hb : baseline ≤ 2 * R * u.km) : ∃ r, earthDistance u R baseline x = .ok r := by
  have hb' : baseline / u.km ≤ 2 * R := by rw [div_le_iff₀ hkm]; exact hb
  have hb0' : 0 ≤ baseline / u.km := by positivity
  have h : 0 ≤ R * R + x / u.km * (x / u.km) - baseline / u.km * (x / u.km) := by
    nlinarith [sq_nonneg (x / u.km - baseline / u.km / 2), mul_nonneg hb0' (sub_nonneg.2 hb')]
  unfold earthDistance
  dsimp only
  rcases h.lt_or_eq with h1 | h1
  · exact ⟨_, if_pos h1⟩
  · refine ⟨0, ?_⟩
    rw [← h1, if_neg (lt_irrefl _), if_pos (by norm_num)]

/-! ## C35 -/

/-- The value the table should give at fractional radius `v`: clamped to the tabulated range. -/
noncomputable def tableAt (xs col : List ℝ) (s : Spline ℝ) (v : ℝ) : Outcome ℝ :=
  if v < first xs then .ok (first col) else if v > last xs then .ok (last col) else s.eval v

/-- What the full claim says about density. -/
def TakesTableAtFractionalRadius (u : Units) (b : Body) (t : Tab) (R : ℝ) (tr : Track) (r : ℝ) : Prop :=
  (r < R → density u b tr = tableAt t.xs t.rho t.interRho (r / R) ∧ ye u b tr = tableAt t.xs t.ye t.interYe (r / R)) ∧
  (R < r → density u b tr = .ok (0.0012 * Real.exp (-(r - R) / 7.594)) ∧ ye u b tr = .ok 0.494)

/-- The full claim holds without atmosphere. With one, inside the Earth the table is entered at r / (R + h) instead of r / R; above
the surface the atmospheric values are used, if the table reaches inwards to the surface. -/
theorem c35_table_partial (u : Units) (b : Body) (t : Tab) (R h c eR eh L x r : ℝ) (hR : 0 < R) (hh : 0 ≤ h)
    (hb : b.kind = .earthAtm t R h (R + h)) (hr : r = atmDistance u R (R + h) c L x) (hmin : first t.xs * (R + h) ≤ R) :
    (r < R → density u b ⟨x, 0, L, .earthAtm c eR eh L⟩ = tableAt t.xs t.rho t.interRho (r / (R + h)) ∧
      ye u b ⟨x, 0, L, .earthAtm c eR eh L⟩ = tableAt t.xs t.ye t.interYe (r / (R + h))) ∧
    (R < r → density u b ⟨x, 0, L, .earthAtm c eR eh L⟩ = .ok (0.0012 * Real.exp (-(r - R) / 7.594)) ∧
      ye u b ⟨x, 0, L, .earthAtm c eR eh L⟩ = .ok 0.494) ∧
    (h = 0 → TakesTableAtFractionalRadius u b t R ⟨x, 0, L, .earthAtm c eR eh L⟩ r) := by
  have hin : ∀ (col : List ℝ) (s : Spline ℝ) (above : ℝ), r < R →
      atmLookup t.xs col s R (R + h) r above = tableAt t.xs col s (r / (R + h)) := by
    intro col s above hlt
    unfold atmLookup tableAt
    dsimp only
    rw [if_neg (not_lt.2 hlt.le) (c := r > R)]
    simp only [hlt, and_true]
  have hout : ∀ (col : List ℝ) (s : Spline ℝ) (above : ℝ), R < r →
      atmLookup t.xs col s R (R + h) r above = .ok above := by
    intro col s above hlt
    unfold atmLookup
    dsimp only
    have h1 : ¬ r / (R + h) < first t.xs := by
      rw [not_lt, le_div_iff₀ (by linarith)]; linarith
    rw [if_neg h1, if_neg (fun hc => absurd hc.2 (not_lt.2 hlt.le)), if_pos hlt]
  have hd : density u b ⟨x, 0, L, .earthAtm c eR eh L⟩ =
      atmLookup t.xs t.rho t.interRho R (R + h) r (0.0012 * Real.exp (-(r - R) / 7.594)) := by
    simp only [density, hb, hr]
  have hy : ye u b ⟨x, 0, L, .earthAtm c eR eh L⟩ = atmLookup t.xs t.ye t.interYe R (R + h) r 0.494 := by
    simp only [ye, hb, hr]
  refine ⟨fun hlt => ?_, fun hlt => ?_, fun h0 => ⟨fun hlt => ?_, fun hlt => ?_⟩⟩
  · rw [hd, hy, hin _ _ _ hlt, hin _ _ _ hlt]; exact ⟨rfl, rfl⟩
  · rw [hd, hy, hout _ _ _ hlt, hout _ _ _ hlt]; exact ⟨rfl, rfl⟩
  · rw [hd, hy, hin _ _ _ hlt, hin _ _ _ hlt, h0, add_zero]; exact ⟨rfl, rfl⟩
  · rw [hd, hy, hout _ _ _ hlt, hout _ _ _ hlt]; exact ⟨rfl, rfl⟩

/-- The claim fails for the default body. With a density table that is the fractional radius itself, half way up a vertical
upgoing track through the Earth, at r = R/2, the density should be 1/2 and is (R/2)/(R+h) = 6371/12786. -/
theorem c35_fraction_violated (u : Units) (hkm : 0 < u.km) : ∃ (b : Body) (t : Tab) (tr : Track),
    mkEarthAtm [0, 1 / 2, 1] [0, 1 / 2, 1] [0, 1 / 2, 1] = .ok b ∧ b.kind = .earthAtm t 6371 22 (6371 + 22) ∧
    b.makeTrackWithCosine u (-1) = some tr ∧
    ∃ x, atmDistance u 6371 (6371 + 22) (-1) tr.xend x = 6371 / 2 ∧
      tableAt t.xs t.rho t.interRho (6371 / 2 / 6371) = .ok (1 / 2) ∧
      density u b (tr.setX x) = .ok (6371 / 12786) := by
  have hs : ∃ s, ofVectors [0, 1 / 2, 1] ([0, 1 / 2, 1] : List ℝ) = .ok s := by
    have h1 : ofVectors [0, 1 / 2, 1] ([0, 1 / 2, 1] : List ℝ) ≠ .throws := by
      rw [Ne, (c24_rejects_exactly _ _).1]
      norm_num
    have h2 := (c24_rejects_exactly [0, 1 / 2, 1] ([0, 1 / 2, 1] : List ℝ)).2
    cases h : ofVectors [0, 1 / 2, 1] ([0, 1 / 2, 1] : List ℝ) with
    | ok s => exact ⟨s, rfl⟩
    | throws => exact absurd h h1
    | ub => exact absurd h h2
  obtain ⟨s, hs⟩ := hs
  have hev : ∀ v, s.eval v = .ok v := by
    intro v
    have := (c23_lines_exact _ _ s hs 0 1 (by
      intro i a b ha hb
      have : a = b := by
        have := ha.symm.trans hb
        exact Option.some.inj this
      rw [this]; ring) v).1
    rw [this, zero_add, one_mul]
  refine ⟨⟨.earthAtm ⟨[0, 1 / 2, 1], [0, 1 / 2, 1], [0, 1 / 2, 1], s, s⟩ 6371 22 (6371 + 22), false⟩, ⟨[0, 1 / 2, 1], [0, 1 / 2, 1], [0, 1 / 2, 1], s, s⟩, _, ?_, rfl, rfl,
    (6371 + 22 + 6371 / 2) * u.km, ?_, ?_, ?_⟩
  · simp only [mkEarthAtm, Tab.make, hs]; rfl
  · have hd := distance_eq u hkm 6371 22 0 (-1) ((6371 + 22 + 6371 / 2) * u.km) (by norm_num) (by norm_num) (by norm_num)
    unfold trackLength at hd
    simp only [mkAtmTrackCosine]
    rw [hd, mul_div_cancel_right₀ _ hkm.ne']
    have hL : atmLength (-1) 6371 22 = 2 * 6371 + 22 := by
      unfold atmLength
      dsimp only
      rw [show ((6371:ℝ) + 22) * (6371 + 22) - 6371 * 6371 * (1 - -1 * -1) = (6371 + 22) * (6371 + 22) by norm_num,
        Real.sqrt_mul_self (by norm_num)]
      norm_num
    unfold pointRadius
    rw [hL, show ((0:ℝ) * (2 * 6371 + 22 - (6371 + 22 + 6371 / 2))) ^ 2 +
      (6371 + -1 * (2 * 6371 + 22 - (6371 + 22 + 6371 / 2))) ^ 2 = (6371 / 2) ^ 2 by norm_num, Real.sqrt_sq (by norm_num)]
  · simp only [tableAt, hev, first, last]
    norm_num
  · have hd := distance_eq u hkm 6371 22 0 (-1) ((6371 + 22 + 6371 / 2) * u.km) (by norm_num) (by norm_num) (by norm_num)
    unfold trackLength at hd
    have hL : atmLength (-1) 6371 22 = 2 * 6371 + 22 := by
      unfold atmLength
      dsimp only
      rw [show ((6371:ℝ) + 22) * (6371 + 22) - 6371 * 6371 * (1 - -1 * -1) = (6371 + 22) * (6371 + 22) by norm_num,
        Real.sqrt_mul_self (by norm_num)]
      norm_num
    have hp : pointRadius 6371 0 (-1) (atmLength (-1) 6371 22) (6371 + 22 + 6371 / 2) = 6371 / 2 := by
      unfold pointRadius
      rw [hL, show ((0:ℝ) * (2 * 6371 + 22 - (6371 + 22 + 6371 / 2))) ^ 2 +
        (6371 + -1 * (2 * 6371 + 22 - (6371 + 22 + 6371 / 2))) ^ 2 = (6371 / 2) ^ 2 by norm_num,
        Real.sqrt_sq (by norm_num)]
    rw [mul_div_cancel_right₀ _ hkm.ne', hp] at hd
    simp only [density, mkAtmTrackCosine, Track.setX]
    rw [hd]
    simp only [atmLookup, hev, first, last]
    norm_num

/-- The hypotheses of `c35_table_partial` are met by that body: the table starts at 0. -/
example : first [0, 1 / 2, (1 : ℝ)] * (6371 + 22) ≤ 6371 := by simp [first]

end Verif.Bodies
