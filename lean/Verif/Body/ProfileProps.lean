import Verif.Body.GeometryProps
import Mathlib.Topology.Algebra.Order.Field
import Mathlib.Topology.Order.Lattice

/-!
# Property C96: the density and the composition of a body follow its table
-/

set_option linter.unusedSectionVars false

namespace Verif.Bodies

open Verif.Interp

/-! ## Specification -/

/-- `f` follows the table with abscissas `xs` and values `col`: it is continuous, has the tabulated value at every row, and stays
at the value of the first and of the last row before and after the table. -/
structure Follows (xs col : List ℝ) (f : ℝ → ℝ) : Prop where
  continuous : Continuous f
  rows : ∀ (i : Nat) (a v : ℝ), xs[i]? = some a → col[i]? = some v → f a = v
  before : ∀ (a v w : ℝ), xs.head? = some a → col.head? = some v → w ≤ a → f w = v
  after : ∀ (a v w : ℝ), xs.getLast? = some a → col.getLast? = some v → a ≤ w → f w = v

/-- The distance from the centre, in units of the radius `R`, of the point at distance `x` from the start of a chord of length `L`. -/
noncomputable def chordFraction (R L x : ℝ) : ℝ := √((x - L / 2) ^ 2 + (R ^ 2 - (L / 2) ^ 2)) / R

/-! ## The lookups -/

theorem first_eq {l : List ℝ} {a : ℝ} (h : l.head? = some a) : first l = a := by
  cases l with
  | nil => cases h
  | cons b l => cases h; rfl

theorem last_eq {l : List ℝ} {a : ℝ} (h : l.getLast? = some a) : last l = a := by
  unfold last
  rw [List.getLast?_eq_getElem?] at h
  simp [h]

theorem get_first {l : List ℝ} (h : 0 < l.length) : l[0]? = some (first l) := by
  cases l with
  | nil => cases h
  | cons b l => rfl

theorem get_last {l : List ℝ} (h : 0 < l.length) : l[l.length - 1]? = some (last l) := by
  unfold last
  rw [List.getElem?_eq_getElem (by omega)]
  simp [List.getD, List.getElem?_eq_getElem (show l.length - 1 < l.length by omega)]

/-- The abscissas of a table that a spline accepts increase. -/
theorem abscissas_mono {xs col : List ℝ} {s : Spline ℝ} (h : ofVectors xs col = .ok s) {i j : Nat} {a b : ℝ}
    (ha : xs[i]? = some a) (hb : xs[j]? = some b) (hij : i ≤ j) : a ≤ b := by
  have hp : xs.Pairwise (· < ·) := by
    by_contra hc
    have := (c24_rejects_exactly xs col).1.2 (Or.inr (Or.inr hc))
    rw [this] at h; cases h
  rcases hij.lt_or_eq with hlt | rfl
  · obtain ⟨hi, rfl⟩ := List.getElem?_eq_some_iff.1 ha
    obtain ⟨hj, rfl⟩ := List.getElem?_eq_some_iff.1 hb
    exact (List.pairwise_iff_getElem.1 hp i j hi hj hlt).le
  · rw [ha] at hb; cases hb; exact le_refl _

/-- One column: the spline, clamped to the table, follows the table. -/
theorem column_follows {xs col : List ℝ} {s : Spline ℝ} (h : ofVectors xs col = .ok s) :
    ∃ f : ℝ → ℝ, Follows xs col f ∧ ∀ v, first xs ≤ v → v ≤ last xs → s.eval v = .ok (f v) := by
  obtain ⟨g, hg, hev⟩ := c21_continuous xs col s h
  obtain ⟨hl, hn, -, -, -⟩ := ofVectors_ok h
  have hx0 := get_first (l := xs) (by omega)
  have hx1 := get_last (l := xs) (by omega)
  have hle : first xs ≤ last xs := abscissas_mono h hx0 hx1 (by omega)
  have hnode : ∀ (i : Nat) (a v : ℝ), xs[i]? = some a → col[i]? = some v → g a = v := by
    intro i a v ha hv
    have h1 := c21_passes_through_nodes xs col s h i a v ha hv
    rw [hev] at h1; exact Outcome.ok.inj h1
  refine ⟨fun v => g (max (first xs) (min v (last xs))), ⟨?_, ?_, ?_, ?_⟩, ?_⟩
  · exact hg.comp (continuous_const.max (continuous_id.min continuous_const))
  · intro i a v ha hv
    have hi : i < xs.length := (List.getElem?_eq_some_iff.1 ha).1
    have h0 := abscissas_mono h hx0 ha (Nat.zero_le i)
    have h1 := abscissas_mono h ha hx1 (by omega)
    show g (max (first xs) (min a (last xs))) = v
    rw [min_eq_left h1, max_eq_right h0]
    exact hnode i a v ha hv
  · intro a v w ha hv hw
    rw [← first_eq ha] at hw
    show g (max (first xs) (min w (last xs))) = v
    rw [min_eq_left (hw.trans hle), max_eq_left hw]
    refine hnode 0 _ v hx0 ?_
    rw [get_first (by omega), first_eq hv]
  · intro a v w ha hv hw
    rw [← last_eq ha] at hw
    show g (max (first xs) (min w (last xs))) = v
    rw [min_eq_right hw, max_eq_right hle]
    refine hnode _ _ v hx1 ?_
    rw [hl, get_last (by omega), last_eq hv]
  · intro v h0 h1
    show _ = Outcome.ok (g (max (first xs) (min v (last xs))))
    rw [hev, min_eq_left h1, max_eq_right h0]

theorem clamped_follows {xs col : List ℝ} {s : Spline ℝ} (h : ofVectors xs col = .ok s) {f : ℝ → ℝ} (hf : Follows xs col f)
    (hs : ∀ v, first xs ≤ v → v ≤ last xs → s.eval v = .ok (f v)) (v : ℝ) : clampedLookup xs col s v = .ok (f v) := by
  obtain ⟨hl, hn, -, -, -⟩ := ofVectors_ok h
  unfold clampedLookup
  by_cases h0 : v < first xs
  · rw [if_pos h0, hf.before (first xs) (first col) v (by rw [List.head?_eq_getElem?]; exact get_first (by omega))
      (by rw [List.head?_eq_getElem?]; exact get_first (by omega)) h0.le]
  rw [if_neg h0]
  by_cases h1 : v > last xs
  · rw [if_pos h1, hf.after (last xs) (last col) v (by rw [List.getLast?_eq_getElem?]; exact get_last (by omega))
      (by rw [List.getLast?_eq_getElem?]; exact get_last (by omega)) (le_of_lt h1)]
  rw [if_neg h1]
  exact hs v (not_lt.1 h0) (not_lt.1 h1)

theorem sun_follows {xs col : List ℝ} {s : Spline ℝ} (h : ofVectors xs col = .ok s) {f : ℝ → ℝ} (hf : Follows xs col f)
    (hs : ∀ v, first xs ≤ v → v ≤ last xs → s.eval v = .ok (f v)) (v : ℝ) :
    sunLookup xs col s v = .ok (if v ≤ last xs then f v else 0) := by
  have hle : first xs ≤ last xs := by
    obtain ⟨hl, hn, -, -, -⟩ := ofVectors_ok h
    exact abscissas_mono h (get_first (by omega)) (get_last (by omega)) (by omega)
  have hc := clamped_follows h hf hs v
  unfold sunLookup clampedLookup at *
  by_cases h0 : v < first xs
  · rw [if_pos h0] at hc ⊢; rw [hc, if_pos (h0.le.trans hle)]
  rw [if_neg h0] at hc ⊢
  by_cases h1 : v > last xs
  · rw [if_pos h1, if_neg (not_le.2 h1)]
  · rw [if_neg h1] at hc ⊢; rw [hc, if_pos (not_lt.1 h1)]

theorem tab_columns {xs rho ye : List ℝ} {t : Tab} (h : Tab.make xs rho ye = .ok t) :
    t.xs = xs ∧ t.rho = rho ∧ t.ye = ye ∧ ofVectors xs rho = .ok t.interRho ∧ ofVectors xs ye = .ok t.interYe := by
  unfold Tab.make at h
  cases h1 : ofVectors xs rho with
  | throws => rw [h1] at h; cases h
  | ub => rw [h1] at h; cases h
  | ok s =>
    cases h2 : ofVectors xs ye with
    | throws => rw [h1, h2] at h; cases h
    | ub => rw [h1, h2] at h; cases h
    | ok s' => rw [h1, h2] at h; cases h; exact ⟨rfl, rfl, rfl, rfl, rfl⟩

theorem map_ok {α β : Type} {x : Outcome α} {g : α → β} {b : β} (h : x.map g = .ok b) : ∃ a, x = .ok a ∧ g a = b := by
  cases x with
  | throws => cases h
  | ub => cases h
  | ok a => exact ⟨a, rfl, Outcome.ok.inj h⟩

/-- Along a chord no longer than the diameter the distance is the one of elementary geometry. -/
theorem earthDistance_chord (u : Units) (hkm : 0 < u.km) (R L x : ℝ) (hR : 0 < R) (h0 : 0 ≤ L) (hL : L ≤ 2 * R * u.km) :
    earthDistance u R L x = .ok (chordFraction R (L / u.km) (x / u.km) * R) := by
  have hb' : L / u.km ≤ 2 * R := by rw [div_le_iff₀ hkm]; exact hL
  have hb0' : 0 ≤ L / u.km := by positivity
  unfold earthDistance chordFraction
  dsimp only
  rw [div_mul_cancel₀ _ hR.ne']
  have e : R * R + x / u.km * (x / u.km) - L / u.km * (x / u.km) =
      (x / u.km - L / u.km / 2) ^ 2 + (R ^ 2 - (L / u.km / 2) ^ 2) := by ring
  rw [e]
  have hn : 0 ≤ (x / u.km - L / u.km / 2) ^ 2 + (R ^ 2 - (L / u.km / 2) ^ 2) := by
    nlinarith [sq_nonneg (x / u.km - L / u.km / 2)]
  rcases hn.lt_or_eq with h | h
  · rw [if_pos h]
  · rw [← h, if_neg (lt_irrefl _), if_pos (by norm_num), Real.sqrt_zero]

/-! ## C96 -/

/-- The Earth: for every accepted table there are two functions that follow its columns, and at every position of a track no
longer than the diameter the density and the electron fraction are these functions at the fractional distance from the centre. -/
theorem c96_earth (u : Units) (hkm : 0 < u.km) (xs rho yes : List ℝ) (b : Body) (hb : mkEarth xs rho yes = .ok b) :
    ∃ f g : ℝ → ℝ, Follows xs rho f ∧ Follows xs yes g ∧
      ∀ x xini xend L, 0 ≤ L → L ≤ 2 * 6371 * u.km →
        density u b (mkEarthTrack x xini xend L) = .ok (f (chordFraction 6371 (L / u.km) (x / u.km))) ∧
        ye u b (mkEarthTrack x xini xend L) = .ok (g (chordFraction 6371 (L / u.km) (x / u.km))) := by
  obtain ⟨t, ht, rfl⟩ := map_ok hb
  obtain ⟨e1, e2, e3, h1, h2⟩ := tab_columns ht
  obtain ⟨f, hf, hfs⟩ := column_follows h1
  obtain ⟨g, hg, hgs⟩ := column_follows h2
  refine ⟨f, g, hf, hg, fun x xini xend L h0 hL => ?_⟩
  have hd := earthDistance_chord u hkm 6371 L x (by norm_num) h0 hL
  constructor
  · simp only [density, mkEarthTrack, hd, Outcome.bind, e1, e2]
    rw [mul_div_cancel_right₀ _ (by norm_num : (6371 : ℝ) ≠ 0), clamped_follows h1 hf hfs]
  · simp only [ye, mkEarthTrack, hd, Outcome.bind, e1, e3]
    rw [mul_div_cancel_right₀ _ (by norm_num : (6371 : ℝ) ≠ 0), clamped_follows h2 hg hgs]

/-- In particular the profile seen along such a track has no jumps. -/
theorem c96_earth_continuous (u : Units) (hkm : 0 < u.km) (xs rho yes : List ℝ) (b : Body) (hb : mkEarth xs rho yes = .ok b)
    (xini xend L : ℝ) (h0 : 0 ≤ L) (hL : L ≤ 2 * 6371 * u.km) :
    ∃ F G : ℝ → ℝ, Continuous F ∧ Continuous G ∧ ∀ x, density u b (mkEarthTrack x xini xend L) = .ok (F x) ∧
      ye u b (mkEarthTrack x xini xend L) = .ok (G x) := by
  obtain ⟨f, g, hf, hg, h⟩ := c96_earth u hkm xs rho yes b hb
  have hc : Continuous fun x : ℝ => chordFraction 6371 (L / u.km) (x / u.km) := by
    unfold chordFraction; fun_prop
  exact ⟨_, _, hf.continuous.comp hc, hg.continuous.comp hc, fun x => h x xini xend L h0 hL⟩

/-- A body of variable density: inside the table, whose abscissas are in centimetres, density and electron fraction follow it.
Outside both are zero, where the full claim would have the values of the first and last row. -/
theorem c96_variable_partial (u : Units) (xs rho yes : List ℝ) (b : Body) (hb : mkVariable xs rho yes = .ok b) :
    ∃ f g : ℝ → ℝ, Follows xs rho f ∧ Follows xs yes g ∧ ∀ tr : Track,
      (first xs ≤ tr.x / u.cm → tr.x / u.cm ≤ last xs →
        density u b tr = .ok (f (tr.x / u.cm)) ∧ ye u b tr = .ok (g (tr.x / u.cm))) ∧
      (tr.x / u.cm < first xs ∨ last xs < tr.x / u.cm → density u b tr = .ok 0 ∧ ye u b tr = .ok 0) := by
  obtain ⟨t, ht, rfl⟩ := map_ok hb
  obtain ⟨e1, e2, e3, h1, h2⟩ := tab_columns ht
  obtain ⟨f, hf, hfs⟩ := column_follows h1
  obtain ⟨g, hg, hgs⟩ := column_follows h2
  refine ⟨f, g, hf, hg, fun tr => ⟨fun ha hb => ?_, fun h => ?_⟩⟩
  · have hn : ¬ (tr.x / u.cm < first xs ∨ tr.x / u.cm > last xs) := by
      rintro (h | h)
      · exact absurd h (not_lt.2 ha)
      · exact absurd h (not_lt.2 hb)
    simp only [density, ye, e1]
    rw [if_neg hn, if_neg hn, hfs _ ha hb, hgs _ ha hb]
    exact ⟨rfl, rfl⟩
  · simp only [density, ye, e1]
    rw [if_pos h, if_pos h]
    exact ⟨rfl, rfl⟩

/-- The Sun along a radius: up to the end of the table the density follows it, and so does the hydrogen fraction, from which the
electron fraction is (1 + X) / 2. Beyond the end both are taken to be zero. -/
theorem c96_sun_partial (u : Units) (xs rho xh : List ℝ) (b : Body) (hb : mkSun u xs rho xh = .ok b) :
    ∃ f g : ℝ → ℝ, Follows xs rho f ∧ Follows xs xh g ∧ ∀ tr : Track,
      let v := tr.x / (695980 * u.km)
      (v ≤ last xs → density u b tr = .ok (f v) ∧ ye u b tr = .ok ((1 + g v) / 2)) ∧
      (last xs < v → density u b tr = .ok 0 ∧ ye u b tr = .ok (1 / 2)) := by
  obtain ⟨t, ht, rfl⟩ := map_ok hb
  obtain ⟨e1, e2, e3, h1, h2⟩ := tab_columns ht
  obtain ⟨f, hf, hfs⟩ := column_follows h1
  obtain ⟨g, hg, hgs⟩ := column_follows h2
  refine ⟨f, g, hf, hg, fun tr => ⟨fun h => ?_, fun h => ?_⟩⟩
  · simp only [density, ye, e1, e2, e3]
    rw [sun_follows h1 hf hfs, sun_follows h2 hg hgs, if_pos h, if_pos h]
    refine ⟨rfl, ?_⟩
    simp only [Outcome.map]
    congr 1; ring
  · simp only [density, ye, e1, e2, e3]
    rw [sun_follows h1 hf hfs, sun_follows h2 hg hgs, if_neg (not_le.2 h), if_neg (not_le.2 h)]
    refine ⟨rfl, ?_⟩
    simp only [Outcome.map]
    congr 1; norm_num

/-- The Sun crossed at impact parameter `bi` not larger than its radius: the same at the fractional distance from the centre
along the chord. Both constructors; they differ in the radius. -/
theorem c96_sunASnu_partial (u : Units) (hkm : 0 < u.km) (xs rho xh : List ℝ) (b : Body) (R : ℝ)
    (hb : mkSunASnu u xs rho xh = .ok b ∧ R = 695980 * u.km ∨ mkSunASnuFile u xs rho xh = .ok b ∧ R = 694439 * u.km) :
    ∃ f g : ℝ → ℝ, Follows xs rho f ∧ Follows xs xh g ∧ ∀ x xini xend rn bi, |bi| ≤ R →
      let tr : Track := ⟨x, xini, xend, .sunASnu rn bi⟩
      let v := chordFraction R (2 * √(R ^ 2 - bi ^ 2)) x
      (v ≤ last xs → density u b tr = .ok (f v) ∧ ye u b tr = .ok ((1 + g v) / 2)) ∧
      (last xs < v → density u b tr = .ok 0 ∧ ye u b tr = .ok (1 / 2)) := by
  obtain ⟨t, ht, hR, rfl⟩ : ∃ t, Tab.make xs rho xh = .ok t ∧ 0 < R ∧ b = ⟨.sunASnu t R, false⟩ := by
    rcases hb with ⟨hb, rfl⟩ | ⟨hb, rfl⟩
    · obtain ⟨t, ht, rfl⟩ := map_ok hb
      exact ⟨t, ht, by positivity, rfl⟩
    · obtain ⟨t, ht, rfl⟩ := map_ok hb
      exact ⟨t, ht, by positivity, rfl⟩
  obtain ⟨e1, e2, e3, h1, h2⟩ := tab_columns ht
  obtain ⟨f, hf, hfs⟩ := column_follows h1
  obtain ⟨g, hg, hgs⟩ := column_follows h2
  refine ⟨f, g, hf, hg, fun x xini xend rn bi hbi => ?_⟩
  dsimp only
  have e : sunDistance R x bi = chordFraction R (2 * √(R ^ 2 - bi ^ 2)) x := by
    unfold sunDistance chordFraction
    congr 2
    rw [mul_div_cancel_left₀ _ (by norm_num : (2 : ℝ) ≠ 0), ← sq R, ← sq bi]
    ring
  refine ⟨fun h => ?_, fun h => ?_⟩
  · simp only [density, ye, e1, e2, e3, e]
    rw [sun_follows h1 hf hfs, sun_follows h2 hg hgs, if_pos h, if_pos h]
    refine ⟨rfl, ?_⟩
    simp only [Outcome.map]
    congr 1; ring
  · simp only [density, ye, e1, e2, e3, e]
    rw [sun_follows h1 hf hfs, sun_follows h2 hg hgs, if_neg (not_le.2 h), if_neg (not_le.2 h)]
    refine ⟨rfl, ?_⟩
    simp only [Outcome.map]
    congr 1; norm_num

/-- The Earth with its atmosphere: below the surface the table is followed, entered at the distance from the centre over the
radius of the atmosphere (C35); at and above the surface, see C35. -/
theorem c96_atmosphere_partial (u : Units) (xs rho yes : List ℝ) (b : Body) (hb : mkEarthAtm xs rho yes = .ok b) :
    ∃ f g : ℝ → ℝ, Follows xs rho f ∧ Follows xs yes g ∧ ∀ x xini xend c eR eh L,
      let tr : Track := ⟨x, xini, xend, .earthAtm c eR eh L⟩
      let r := atmDistance u 6371 (6371 + 22) c L x
      (r < 6371 → density u b tr = .ok (f (r / (6371 + 22))) ∧ ye u b tr = .ok (g (r / (6371 + 22)))) ∧
      ∃ d y, density u b tr = .ok d ∧ ye u b tr = .ok y := by
  obtain ⟨t, ht, rfl⟩ := map_ok hb
  obtain ⟨e1, e2, e3, h1, h2⟩ := tab_columns ht
  obtain ⟨f, hf, hfs⟩ := column_follows h1
  obtain ⟨g, hg, hgs⟩ := column_follows h2
  obtain ⟨f', -, hev⟩ := c21_continuous _ _ _ h1
  obtain ⟨g', -, gev⟩ := c21_continuous _ _ _ h2
  have hany : ∀ (col : List ℝ) (s : Spline ℝ) (above r : ℝ) (q : ℝ → ℝ), (∀ v, s.eval v = .ok (q v)) →
      ∃ d, atmLookup xs col s 6371 (6371 + 22) r above = .ok d := by
    intro col s above r q hq
    unfold atmLookup
    dsimp only
    by_cases c1 : r / (6371 + 22) < first xs
    · exact ⟨_, if_pos c1⟩
    rw [if_neg c1]
    by_cases c2 : r / (6371 + 22) > last xs ∧ r < 6371
    · exact ⟨_, if_pos c2⟩
    rw [if_neg c2]
    by_cases c3 : r > 6371
    · exact ⟨_, if_pos c3⟩
    rw [if_neg c3]
    exact ⟨_, hq _⟩
  refine ⟨f, g, hf, hg, fun x xini xend c eR eh L => ⟨fun hr => ?_, ?_⟩⟩
  · have hin : ∀ (col : List ℝ) (s : Spline ℝ) (above r : ℝ), r < 6371 →
        atmLookup xs col s 6371 (6371 + 22) r above = clampedLookup xs col s (r / (6371 + 22)) := by
      intro col s above r hr
      unfold atmLookup clampedLookup
      dsimp only
      rw [if_neg (not_lt.2 hr.le) (c := r > 6371)]
      simp only [hr, and_true]
    simp only [density, ye, e1, e2, e3]
    rw [hin _ _ _ _ hr, hin _ _ _ _ hr, clamped_follows h1 hf hfs, clamped_follows h2 hg hgs]
    exact ⟨rfl, rfl⟩
  · obtain ⟨d, hd⟩ := hany rho t.interRho (0.0012 * Real.exp (-(atmDistance u 6371 (6371 + 22) c L x - 6371) / 7.594))
      (atmDistance u 6371 (6371 + 22) c L x) _ hev
    obtain ⟨y, hy⟩ := hany yes t.interYe 0.494 (atmDistance u 6371 (6371 + 22) c L x) _ gev
    refine ⟨d, y, ?_, ?_⟩
    · simp only [density, e1, e2]; exact hd
    · simp only [ye, e1, e3]; exact hy

theorem ofVectors_some (xs col : List ℝ) (hl : xs.length = col.length) (hn : 3 ≤ xs.length) (hp : xs.Pairwise (· < ·)) :
    ∃ s, ofVectors xs col = .ok s := by
  have h1 : ofVectors xs col ≠ .throws := by
    rw [Ne, (c24_rejects_exactly _ _).1]
    rintro (h | h | h)
    · exact h hl
    · omega
    · exact h hp
  have h2 := (c24_rejects_exactly xs col).2
  cases h : ofVectors xs col with
  | ok s => exact ⟨s, rfl⟩
  | throws => exact absurd h h1
  | ub => exact absurd h h2

theorem tab_some (xs rho ye : List ℝ) (hl : xs.length = rho.length) (hl' : xs.length = ye.length) (hn : 3 ≤ xs.length)
    (hp : xs.Pairwise (· < ·)) : ∃ t, Tab.make xs rho ye = .ok t := by
  obtain ⟨s, hs⟩ := ofVectors_some xs rho hl hn hp
  obtain ⟨s', hs'⟩ := ofVectors_some xs ye hl' hn hp
  exact ⟨_, by rw [Tab.make, hs, Outcome.bind, hs']; rfl⟩

/-- Every such table is accepted by every constructor, so the theorems above are about bodies that exist. -/
example (u : Units) : (∃ b, mkEarth [0, 1 / 2, 1] [13, 5, 3] [0.46, 0.48, 0.5] = .ok b) ∧
    (∃ b, mkVariable [0, 1 / 2, 1] [13, 5, 3] [0.46, 0.48, 0.5] = .ok b) ∧
    (∃ b, mkSun u [0, 1 / 2, 1] [13, 5, 3] [0.46, 0.48, 0.5] = .ok b) ∧
    (∃ b, mkSunASnu u [0, 1 / 2, 1] [13, 5, 3] [0.46, 0.48, 0.5] = .ok b) ∧
    (∃ b, mkEarthAtm [0, 1 / 2, 1] [13, 5, 3] [0.46, 0.48, 0.5] = .ok b) := by
  obtain ⟨t, ht⟩ := tab_some [0, 1 / 2, 1] [13, 5, 3] [0.46, 0.48, 0.5] rfl rfl (by decide) (by norm_num)
  simp only [mkEarth, mkVariable, mkSun, mkSunASnu, mkEarthAtm, ht, Outcome.map]
  exact ⟨⟨_, rfl⟩, ⟨_, rfl⟩, ⟨_, rfl⟩, ⟨_, rfl⟩, ⟨_, rfl⟩⟩

/-! ## Where the claim fails -/

/-- Beyond the end of the table a variable body has no matter and no electrons, whatever the last row says: the profile jumps. Here
density 3 and electron fraction 1/2 up to 2 cm, then 0 and 0 at every later point. -/
theorem c96_edge_violated (u : Units) (hcm : 0 < u.cm) (xini xend : ℝ) :
    ∃ b, mkVariable [0, 1, 2] [3, 3, 3] [1 / 2, 1 / 2, 1 / 2] = .ok b ∧
      density u b (mkPlainTrack "VariableDensity" (2 * u.cm) xini xend) = .ok 3 ∧
      ye u b (mkPlainTrack "VariableDensity" (2 * u.cm) xini xend) = .ok (1 / 2) ∧
      ∀ x, 2 * u.cm < x → density u b (mkPlainTrack "VariableDensity" x xini xend) = .ok 0 ∧
        ye u b (mkPlainTrack "VariableDensity" x xini xend) = .ok 0 := by
  obtain ⟨t, ht⟩ := tab_some [0, 1, 2] [3, 3, 3] [1 / 2, 1 / 2, 1 / 2] rfl rfl (by decide) (by norm_num)
  have hb : mkVariable [0, 1, 2] [3, 3, 3] [1 / 2, 1 / 2, 1 / 2] = .ok ⟨.variable t, false⟩ := by rw [mkVariable, ht]; rfl
  obtain ⟨f, g, hf, hg, h⟩ := c96_variable_partial u _ _ _ _ hb
  refine ⟨_, hb, ?_, ?_, fun x hx => ?_⟩
  · have := ((h (mkPlainTrack "VariableDensity" (2 * u.cm) xini xend)).1
      (by simp only [mkPlainTrack, first]; rw [mul_div_cancel_right₀ _ hcm.ne']; norm_num)
      (by simp only [mkPlainTrack, last]; rw [mul_div_cancel_right₀ _ hcm.ne']; norm_num)).1
    rw [this]
    simp only [mkPlainTrack]
    rw [mul_div_cancel_right₀ _ hcm.ne', hf.rows 2 2 3 rfl rfl]
  · have := ((h (mkPlainTrack "VariableDensity" (2 * u.cm) xini xend)).1
      (by simp only [mkPlainTrack, first]; rw [mul_div_cancel_right₀ _ hcm.ne']; norm_num)
      (by simp only [mkPlainTrack, last]; rw [mul_div_cancel_right₀ _ hcm.ne']; norm_num)).2
    rw [this]
    simp only [mkPlainTrack]
    rw [mul_div_cancel_right₀ _ hcm.ne', hg.rows 2 2 (1 / 2) rfl rfl]
  · exact (h (mkPlainTrack "VariableDensity" x xini xend)).2 (Or.inr (by
      simp only [mkPlainTrack, last]; rw [lt_div_iff₀ hcm]; simpa using hx))

/-- Between the rows of a table without negative entries the density and the electron fraction can be negative: the cubic between
the third and the fourth row of this table goes below zero half way. -/
theorem c96_sign_violated (u : Units) (hcm : 0 < u.cm) (xini xend : ℝ) :
    ∃ b d y, mkVariable [0, 1, 2, 3, 4] [100, 50, 1, 0, 0] [1, 1 / 2, 1 / 100, 0, 0] = .ok b ∧
      density u b (mkPlainTrack "VariableDensity" (5 / 2 * u.cm) xini xend) = .ok d ∧ d < 0 ∧
      ye u b (mkPlainTrack "VariableDensity" (5 / 2 * u.cm) xini xend) = .ok y ∧ y < 0 := by
  obtain ⟨t, ht⟩ := tab_some [0, 1, 2, 3, 4] [100, 50, 1, 0, 0] [1, 1 / 2, 1 / 100, 0, 0] rfl rfl (by decide) (by norm_num)
  have hb : mkVariable [0, 1, 2, 3, 4] [100, 50, 1, 0, 0] [1, 1 / 2, 1 / 100, 0, 0] = .ok ⟨.variable t, false⟩ := by
    rw [mkVariable, ht]; rfl
  obtain ⟨e1, e2, e3, h1, h2⟩ := tab_columns ht
  have key : ∀ (col : List ℝ) (s : Spline ℝ), ofVectors [0, 1, 2, 3, 4] col = .ok s →
      s.eval (5 / 2) = .ok ((segAt (([0, 1, 2, 3, 4] : List ℝ).getD · 0) (col.getD · 0) 5 2).eval (5 / 2)) := by
    intro col s hs
    obtain ⟨hl, hn, hi, ha, -⟩ := ofVectors_ok hs
    exact eval_segment hn hi ha (by decide) (by norm_num) (by intro _; norm_num)
  have hn : ¬ ((5 / 2 : ℝ) < first [0, 1, 2, 3, 4] ∨ (5 / 2 : ℝ) > last [0, 1, 2, 3, 4]) := by
    simp only [first, last]; norm_num
  have m0 : ∀ x y : Nat → ℝ, mHelper x y 5 0 = chord x y 0 := fun _ _ => rfl
  have m1 : ∀ x y : Nat → ℝ, mHelper x y 5 1 = chord x y 1 := fun _ _ => rfl
  have m2 : ∀ x y : Nat → ℝ, mHelper x y 5 2 = chord x y 2 := fun _ _ => rfl
  have m3 : ∀ x y : Nat → ℝ, mHelper x y 5 3 = chord x y 3 := fun _ _ => rfl
  have m4 : ∀ x y : Nat → ℝ, mHelper x y 5 4 = 2 * chord x y 3 - chord x y 2 := fun _ _ => rfl
  have hd : density u ⟨.variable t, false⟩ (mkPlainTrack "VariableDensity" (5 / 2 * u.cm) xini xend) = t.interRho.eval (5 / 2) := by
    simp only [density, mkPlainTrack, e1]
    rw [mul_div_cancel_right₀ _ hcm.ne', if_neg hn]
  have hy : ye u ⟨.variable t, false⟩ (mkPlainTrack "VariableDensity" (5 / 2 * u.cm) xini xend) = t.interYe.eval (5 / 2) := by
    simp only [ye, mkPlainTrack, e1]
    rw [mul_div_cancel_right₀ _ hcm.ne', if_neg hn]
  refine ⟨_, _, _, hb, hd.trans (key _ _ h1), ?_, hy.trans (key _ _ h2), ?_⟩
  · simp only [Seg.eval, segAt, tRight, tLeft, Nat.cast_ofNat, Int.reduceSub, Int.reduceAdd, m0, m1, m2, m3, m4]
    norm_num [chord]
  · simp only [Seg.eval, segAt, tRight, tLeft, Nat.cast_ofNat, Int.reduceSub, Int.reduceAdd, m0, m1, m2, m3, m4]
    norm_num [chord]

/-- A track longer than the diameter has no density around its middle: the exception of the impossible geometry. -/
theorem c96_long_track_violated (u : Units) (hkm : 0 < u.km) (xs rho yes : List ℝ) (b : Body) (hb : mkEarth xs rho yes = .ok b)
    (xini xend L : ℝ) (hL : 2 * 6372 * u.km ≤ L) :
    density u b (mkEarthTrack (L / 2) xini xend L) = .throws ∧ ye u b (mkEarthTrack (L / 2) xini xend L) = .throws := by
  obtain ⟨t, ht, rfl⟩ := map_ok hb
  have hl : 2 * 6372 ≤ L / u.km := by rw [le_div_iff₀ hkm]; exact hL
  have hd : earthDistance u 6371 L (L / 2) = .throws := by
    unfold earthDistance
    dsimp only
    have e : (6371 : ℝ) * 6371 + L / 2 / u.km * (L / 2 / u.km) - L / u.km * (L / 2 / u.km) =
        6371 * 6371 - (L / u.km / 2) ^ 2 := by ring
    have hneg : (6371 : ℝ) * 6371 - (L / u.km / 2) ^ 2 < -1 := by nlinarith
    rw [e, if_neg (by linarith), if_neg]
    rw [not_lt, abs_of_neg (by linarith)]
    have : (1e-6 : ℝ) ≤ 1 := by norm_num
    linarith
  constructor
  · simp only [density, mkEarthTrack, hd, Outcome.bind]
  · simp only [ye, mkEarthTrack, hd, Outcome.bind]

end Verif.Bodies
