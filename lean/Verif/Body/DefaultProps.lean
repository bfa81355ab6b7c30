import Verif.Body.DefaultLemmas
import Verif.Interact.MatterProps

/-!
# Property C122: the Earth and the Sun that come with the project are made of ordinary matter everywhere

The tables are data of the project; between their rows the code interpolates with cubics, which in general can leave the range of the
rows (`c96_sign_violated`). These do not.
-/

namespace Verif.Bodies

open Verif.Interp

attribute [local irreducible] premXs premRho premYe sunXs sunRho sunXh

/-! ## Specification -/

/-- What the body says at a point of a track: a density between `d0` and `d1` and an electron fraction between `y0` and `y1`. -/
def Ordinary (u : Units) (b : Body) (tr : Track) (d0 d1 y0 y1 : ℝ) : Prop :=
  ∃ d y, density u b tr = .ok d ∧ ye u b tr = .ok y ∧ d0 ≤ d ∧ d ≤ d1 ∧ y0 ≤ y ∧ y ≤ y1

/-! ## C122 -/

/-- The Earth made without naming a table exists, and on every track no longer than the diameter, at every position, its density is
between that of sea water and that of the centre, and its electron fraction between 0.4555 and 0.5058. -/
theorem c122_earth (u : Units) (hkm : 0 < u.km) : ∃ b, defaultEarth = .ok b ∧
    ∀ x xini xend L, 0 ≤ L → L ≤ 2 * 6371 * u.km → Ordinary u b (mkEarthTrack x xini xend L) 1.02 13.0886 0.4555 0.5058 := by
  obtain ⟨s, hs⟩ := premRho_between
  obtain ⟨s', hs'⟩ := premYe_between
  refine ⟨_, by rw [defaultEarth, mkEarth, tab_of_between hs hs']; rfl, fun x xini xend L h0 hL => ?_⟩
  have hd := earthDistance_chord u hkm 6371 L x (by norm_num) h0 hL
  obtain ⟨d, e1, d0, d1⟩ := hs.clamped (chordFraction 6371 (L / u.km) (x / u.km) * 6371 / 6371)
  obtain ⟨y, e2, y0, y1⟩ := hs'.clamped (chordFraction 6371 (L / u.km) (x / u.km) * 6371 / 6371)
  refine ⟨d, y, ?_, ?_, ?_, ?_, ?_, ?_⟩
  · simp only [density, mkEarthTrack, hd, Outcome.bind]; exact e1
  · simp only [ye, mkEarthTrack, hd, Outcome.bind]; exact e2
  all_goals norm_num at *; linarith

/-- Half way through the Earth along a diameter. -/
example (u : Units) (hkm : 0 < u.km) : ∃ b, defaultEarth = .ok b ∧
    Ordinary u b (mkEarthTrack (6371 * u.km) 0 (2 * 6371 * u.km) (2 * 6371 * u.km)) 1.02 13.0886 0.4555 0.5058 := by
  obtain ⟨b, hb, h⟩ := c122_earth u hkm
  exact ⟨b, hb, h _ _ _ _ (by positivity) le_rfl⟩

/-- The Earth with its atmosphere, of whatever height, 22 km if nothing is said: below the surface and at it the same bounds hold;
above it the density is positive and at most 0.0012 and the electron fraction 0.494. -/
theorem c122_atmosphere (u : Units) : ∃ b, defaultEarthAtm = .ok b ∧ b.setAtmosphereHeight 22 = b ∧
    ∀ h, 0 ≤ h → ∀ x xini xend c eR eh L,
      let r := atmDistance u 6371 (6371 + h) c L x
      let tr : Track := ⟨x, xini, xend, .earthAtm c eR eh L⟩
      (r ≤ 6371 → Ordinary u (b.setAtmosphereHeight h) tr 1.02 13.0886 0.4555 0.5058) ∧
      (6371 < r → Ordinary u (b.setAtmosphereHeight h) tr 0 0.0012 0.494 0.494 ∧
        density u (b.setAtmosphereHeight h) tr ≠ .ok 0) := by
  obtain ⟨s, hs⟩ := premRho_between
  obtain ⟨s', hs'⟩ := premYe_between
  refine ⟨_, by rw [defaultEarthAtm, mkEarthAtm, tab_of_between hs hs']; rfl, rfl, fun h hh x xini xend c eR eh L => ?_⟩
  dsimp only [Body.setAtmosphereHeight]
  refine ⟨fun hr => ?_, fun hr => ?_⟩
  · obtain ⟨d, e1, d0, d1⟩ := hs.atm premXs_last 6371 (6371 + h) (atmDistance u 6371 (6371 + h) c L x)
      (0.0012 * Real.exp (-(atmDistance u 6371 (6371 + h) c L x - 6371) / 7.594)) (by norm_num) (by linarith) hr
    obtain ⟨y, e2, y0, y1⟩ := hs'.atm premXs_last 6371 (6371 + h) (atmDistance u 6371 (6371 + h) c L x) 0.494 (by norm_num)
      (by linarith) hr
    refine ⟨d, y, e1, e2, ?_, ?_, ?_, ?_⟩
    all_goals norm_num at *; linarith
  · have e1 := hs.above premXs_first 6371 (6371 + h) (atmDistance u 6371 (6371 + h) c L x)
      (0.0012 * Real.exp (-(atmDistance u 6371 (6371 + h) c L x - 6371) / 7.594)) (by norm_num) (by linarith) hr
    have e2 := hs'.above premXs_first 6371 (6371 + h) (atmDistance u 6371 (6371 + h) c L x) 0.494 (by norm_num) (by linarith) hr
    have p0 := Real.exp_pos (-(atmDistance u 6371 (6371 + h) c L x - 6371) / 7.594)
    have p1 : Real.exp (-(atmDistance u 6371 (6371 + h) c L x - 6371) / 7.594) ≤ 1 :=
      Real.exp_le_one_iff.2 (div_nonpos_of_nonpos_of_nonneg (by linarith) (by norm_num))
    refine ⟨⟨_, _, e1, e2, by positivity, ?_, le_refl _, le_refl _⟩, fun c => ?_⟩
    · generalize Real.exp _ = z at *
      linarith
    · have c' := Outcome.ok.inj (e1.symm.trans c)
      exact absurd c' (ne_of_gt (by positivity))

/-- With 22 km of atmosphere, 10 km above the ground on a vertical track from above. -/
example (u : Units) (hkm : 0 < u.km) : ∃ b, defaultEarthAtm = .ok b ∧
    Ordinary u (b.setAtmosphereHeight 22) ⟨12 * u.km, 0, 22 * u.km, .earthAtm 1 6371 22 (22 * u.km)⟩ 0 0.0012 0.494 0.494 := by
  obtain ⟨b, hb, -, h⟩ := c122_atmosphere u
  refine ⟨b, hb, ((h 22 (by norm_num) (12 * u.km) 0 (22 * u.km) 1 6371 22 (22 * u.km)).2 ?_).1⟩
  have e : (√((6371 + 22) * (6371 + 22) - 6371 * 6371 * (1 - 1 * 1)) : ℝ) = 6371 + 22 := by
    rw [show ((6371 : ℝ) + 22) * (6371 + 22) - 6371 * 6371 * (1 - 1 * 1) = (6371 + 22) ^ 2 by norm_num, Real.sqrt_sq (by norm_num)]
  simp only [atmDistance, mul_div_cancel_right₀ _ hkm.ne', e]
  rw [if_pos (by norm_num)]
  exact Real.lt_sqrt_of_sq_lt (by norm_num)

/-- The Sun along a radius. Up to the end of the table, at 0.98308 of the radius, the density is between 0.000945 and 150.6 and the
electron fraction, from a hydrogen fraction between 0.3646 and 0.7584, between 0.6823 and 0.8792. Beyond it there is nothing. -/
theorem c122_sun (u : Units) : ∃ b, defaultSun u = .ok b ∧ ∀ tr : Track,
    (tr.x / (695980 * u.km) ≤ 0.98308 → Ordinary u b tr 0.000945 150.6 0.6823 0.8792) ∧
    (0.98308 < tr.x / (695980 * u.km) → density u b tr = .ok 0 ∧ ye u b tr = .ok (1 / 2)) := by
  obtain ⟨s, hs⟩ := sunRho_between
  obtain ⟨s', hs'⟩ := sunXh_between
  have hl : last sunXs = 0.98308 := by rw [sunXs_last]; norm_num
  refine ⟨_, by rw [defaultSun, mkSun, tab_of_between hs hs']; rfl, fun tr => ⟨fun hv => ?_, fun hv => ?_⟩⟩
  · rw [← hl] at hv
    obtain ⟨d, e1, d0, d1⟩ := (hs.sun _).1 hv
    obtain ⟨y, e2, y0, y1⟩ := (hs'.sun _).1 hv
    refine ⟨d, 0.5 * (1 + y), e1, ?_, ?_, ?_, ?_, ?_⟩
    · simp only [ye]; rw [e2]; rfl
    all_goals norm_num at *; linarith
  · rw [← hl] at hv
    refine ⟨(hs.sun _).2 hv hs.ordered, ?_⟩
    simp only [ye]
    rw [(hs'.sun _).2 hv hs.ordered]
    exact congrArg Outcome.ok (by norm_num)

/-- Half way out, and at the surface. -/
example (u : Units) (hkm : 0 < u.km) : ∃ b, defaultSun u = .ok b ∧
    Ordinary u b (mkPlainTrack "Sun" (347990 * u.km) 0 (695980 * u.km)) 0.000945 150.6 0.6823 0.8792 ∧
    density u b (mkPlainTrack "Sun" (695980 * u.km) 0 (695980 * u.km)) = .ok 0 := by
  obtain ⟨b, hb, h⟩ := c122_sun u
  refine ⟨b, hb, (h _).1 ?_, ((h _).2 ?_).1⟩
  · show 347990 * u.km / (695980 * u.km) ≤ _
    rw [mul_div_mul_right _ _ hkm.ne']; norm_num
  · show _ < 695980 * u.km / (695980 * u.km)
    rw [mul_div_mul_right _ _ hkm.ne']; norm_num

/-- The Sun crossed at an impact parameter: the same at the fractional distance from the centre along the chord. -/
theorem c122_sunASnu (u : Units) (hkm : 0 < u.km) : ∃ b, defaultSunASnu u = .ok b ∧
    ∀ x xini xend rn bi, |bi| ≤ 694439 * u.km →
      let tr : Track := ⟨x, xini, xend, .sunASnu rn bi⟩
      let v := chordFraction (694439 * u.km) (2 * √((694439 * u.km) ^ 2 - bi ^ 2)) x
      (v ≤ 0.98308 → Ordinary u b tr 0.000945 150.6 0.6823 0.8792) ∧
      (0.98308 < v → density u b tr = .ok 0 ∧ ye u b tr = .ok (1 / 2)) := by
  obtain ⟨s, hs⟩ := sunRho_between
  obtain ⟨s', hs'⟩ := sunXh_between
  have hl : last sunXs = 0.98308 := by rw [sunXs_last]; norm_num
  refine ⟨_, by rw [defaultSunASnu, mkSunASnuFile, tab_of_between hs hs']; rfl, fun x xini xend rn bi hbi => ?_⟩
  dsimp only
  have e : sunDistance (694439 * u.km) x bi = chordFraction (694439 * u.km) (2 * √((694439 * u.km) ^ 2 - bi ^ 2)) x := by
    unfold sunDistance chordFraction
    congr 2
    have h2 : bi ^ 2 ≤ (694439 * u.km) ^ 2 := sq_le_sq.2 (by rwa [abs_of_pos (by positivity : (0 : ℝ) < 694439 * u.km)])
    rw [mul_div_cancel_left₀ _ (by norm_num : (2 : ℝ) ≠ 0), Real.sq_sqrt (sub_nonneg.2 h2), ← sq (694439 * u.km), ← sq bi, sub_sq,
      Real.sq_sqrt (sub_nonneg.2 h2)]
    ring
  refine ⟨fun hv => ?_, fun hv => ?_⟩
  · rw [← hl] at hv
    obtain ⟨d, e1, d0, d1⟩ := (hs.sun _).1 hv
    obtain ⟨y, e2, y0, y1⟩ := (hs'.sun _).1 hv
    refine ⟨d, 0.5 * (1 + y), ?_, ?_, ?_, ?_, ?_, ?_⟩
    · simp only [density, e]; exact e1
    · simp only [ye, e]; rw [e2]; rfl
    all_goals norm_num at *; linarith
  · rw [← hl] at hv
    refine ⟨?_, ?_⟩
    · simp only [density, e]; exact (hs.sun _).2 hv hs.ordered
    · simp only [ye, e]
      rw [(hs'.sun _).2 hv hs.ordered]
      exact congrArg Outcome.ok (by norm_num)

/-- Through the centre, half way in. -/
example (u : Units) (hkm : 0 < u.km) : ∃ b, defaultSunASnu u = .ok b ∧
    Ordinary u b ⟨694439 * u.km / 2, 0, 2 * 694439 * u.km, .sunASnu (694439 * u.km) 0⟩ 0.000945 150.6 0.6823 0.8792 := by
  obtain ⟨b, hb, h⟩ := c122_sunASnu u hkm
  refine ⟨b, hb, (h _ _ _ _ 0 (by rw [abs_zero]; positivity)).1 ?_⟩
  have hp : 0 < 694439 * u.km := by positivity
  generalize 694439 * u.km = R at *
  rw [show R ^ 2 - 0 ^ 2 = R ^ 2 by ring, Real.sqrt_sq hp.le, chordFraction,
    show (R / 2 - 2 * R / 2) ^ 2 + (R ^ 2 - (2 * R / 2) ^ 2) = (R / 2) ^ 2 by ring, Real.sqrt_sq (by linarith),
    div_right_comm, div_self hp.ne']
  norm_num

/-! ## What follows from it -/

open Verif.Matter in
/-- Along every track of the default Earth the matter potential is the textbook one, for every number of flavours, particle type and
mode: the electron fractions for which the code gives another one (`c52_neutron_matter_violated`) do not occur. -/
theorem c122_potential (u : Units) (hkm : 0 < u.km) {V : Type} [AddCommGroup V] [Module ℝ V] : ∃ b, defaultEarth = .ok b ∧
    ∀ x xini xend L, 0 ≤ L → L ≤ 2 * 6371 * u.km → ∃ d y,
      density u b (mkEarthTrack x xini xend L) = .ok d ∧ ye u b (mkEarthTrack x xini xend L) = .ok y ∧
      ∀ (c : ℝ) (nt : NT) (irho n : Nat) (proj : Nat → V) (h : V), 3 ≤ n →
        hi c d y nt .interaction irho proj h =
          matterTerm c d y (decide (nt = .antineutrino ∨ (nt = .both ∧ irho = 1))) n proj := by
  obtain ⟨b, hb, ho⟩ := c122_earth u hkm
  refine ⟨b, hb, fun x xini xend L h0 hL => ?_⟩
  obtain ⟨d, y, e1, e2, -, -, y0, -⟩ := ho x xini xend L h0 hL
  exact ⟨d, y, e1, e2, fun c nt irho n proj h hn =>
    c52_potential_partial c d y (le_trans (by norm_num) y0) nt irho n hn proj h⟩

example : ∃ b, defaultEarth = .ok b ∧ ∃ d, density ⟨1, 1⟩ b (mkEarthTrack 1 0 2 2) = .ok d := by
  obtain ⟨b, hb, h⟩ := c122_potential (V := ℝ) ⟨1, 1⟩ one_pos
  obtain ⟨d, _, hd, _⟩ := h 1 0 2 2 (by norm_num) (by norm_num)
  exact ⟨b, hb, d, hd⟩

open Verif.Matter in
/-- Along every track of the default Earth the isoscalar nucleons account for the mass: the threshold below which the code takes
another number (`c72_vacuum_violated`) is not reached. `hunits` holds of the constants of SQuIDS with 19 orders of magnitude to spare. -/
theorem c122_nucleons (u : Units) (hkm : 0 < u.km) (p : Consts ℝ) (hm : 0 < p.me + p.mp + p.mn)
    (hunits : 1 / 10 ^ 10 * (p.me + p.mp + p.mn) ≤ p.gr * p.cm3) : ∃ b, defaultEarth = .ok b ∧
    ∀ x xini xend L, 0 ≤ L → L ≤ 2 * 6371 * u.km → ∃ d y n,
      density u b (mkEarthTrack x xini xend L) = .ok d ∧ ye u b (mkEarthTrack x xini xend L) = .ok y ∧
      densities p .isoscalar d y = [n] ∧ n * ((p.me + p.mp + p.mn) / 2) = p.gr * p.cm3 * d := by
  obtain ⟨b, hb, ho⟩ := c122_earth u hkm
  refine ⟨b, hb, fun x xini xend L h0 hL => ?_⟩
  obtain ⟨d, y, e1, e2, d0, -, -, -⟩ := ho x xini xend L h0 hL
  have hg : 0 ≤ p.gr * p.cm3 := le_trans (by positivity) hunits
  have hd : (1 : ℝ) ≤ d := le_trans (by norm_num) d0
  have : p.gr * p.cm3 * 1 ≤ p.gr * p.cm3 * d := mul_le_mul_of_nonneg_left hd hg
  obtain ⟨n, h1, h2, -⟩ := c72_isoscalar_partial p d y hm (by linarith)
  exact ⟨d, y, n, e1, e2, h1, h2⟩

/-- The constants of SQuIDS to three digits: gram and inverse cubic centimetre in eV, masses in eV. -/
example : (1 : ℝ) / 10 ^ 10 * (511000 + 938000000 + 940000000) ≤ 561 * 10 ^ 30 * (768 / 10 ^ 17) := by norm_num

end Verif.Bodies
