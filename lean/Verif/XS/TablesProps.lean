import Verif.XS.Tables
import Verif.Interp.AkimaProps
import Verif.Interp.BiCubicProps
import Mathlib.Analysis.SpecialFunctions.Pow.Continuity

/-! C65: table cross sections are total on their domain and zero for steriles. -/

namespace Verif.XS

open Verif.Interp

/-! ## Specification -/

/-- A spline or interpolator that a constructor has made. -/
def MadeSpline (s : Spline ℝ) : Prop := ∃ x y, ofVectors x y = .ok s

def MadeGrid (b : BiCubic ℝ) : Prop := ∃ data xs ys, BiCubic.make data xs ys = .ok b

/-- Tables as the readers leave them: a positive range and made interpolators for the three active flavours. -/
structure Usable (t : Tables) : Prop where
  pos : 0 < t.Emin
  le : t.Emin ≤ t.Emax
  made : ∀ f, f < 3 → ∃ p, t.data f = some p ∧ (∀ k, MadeSpline (p.s k)) ∧ ∀ k, MadeGrid (p.d k)

/-! ## Lemmas -/

theorem GeV_pos : 0 < GeV := by unfold GeV; positivity

theorem dblMin_pos : 0 < dblMin := by unfold dblMin; positivity

theorem pow10_pos (x : ℝ) : 0 < pow10 x := Real.rpow_pos_of_pos (by norm_num) x

theorem active {f : Nat} (h : f < 3) : f = 0 ∨ f = 1 ∨ f = 2 := by omega

/-- At the lower edge and above: the value of the spline. -/
theorem totalWith_inside (again : ℝ → Outcome ℝ) (t : Tables) (ht : Usable t) (f : Nat) (hf : f < 3) (nt : NType) (c : Cur) :
    ∃ g : ℝ → ℝ, Continuous g ∧ ∀ E, t.Emin ≤ E → E ≤ t.Emax → ¬(E < 10 * GeV ∧ t.Emin > 10 * GeV) →
      totalWith again t f nt c E = .ok (pow10 (g (Real.logb 10 E))) := by
  obtain ⟨p, hp, hs, -⟩ := ht.made f hf
  obtain ⟨x, y, hxy⟩ := hs (which nt c)
  obtain ⟨g, hg, hv⟩ := c21_continuous x y _ hxy
  refine ⟨g, hg, ?_⟩
  intro E h1 h2 h3
  unfold totalWith
  rw [if_neg (not_not.2 (active hf)), if_neg (not_lt.2 h2), if_neg h3, if_neg (not_lt.2 h1), getFlavor, hp]
  dsimp only [Outcome.bind_ok]
  rw [log10, if_pos (lt_of_lt_of_le ht.pos h1)]
  dsimp only [Outcome.bind_ok]
  rw [hv]
  rfl

theorem not_cut (t : Tables) : ¬(t.Emin < 10 * GeV ∧ t.Emin > 10 * GeV) := fun h => absurd h.1 (not_lt.2 (le_of_lt h.2))

theorem totalWith_congr {a b : ℝ → Outcome ℝ} (t : Tables) (f : Nat) (nt : NType) (c : Cur) (E : ℝ) (h : a t.Emin = b t.Emin) :
    totalWith a t f nt c E = totalWith b t f nt c E := by
  unfold totalWith
  rw [h]

/-! ## Theorems -/

/-- The model of the recursion is right: `TotalCrossSection` satisfies its defining equation, for all tables whatever. -/
theorem c65_recursion (t : Tables) (f : Nat) (nt : NType) (c : Cur) (E : ℝ) :
    total t f nt c E = totalWith (total t f nt c) t f nt c E := by
  have h0 : totalWith (fun _ => .ub) t f nt c t.Emin = total t f nt c t.Emin := by
    unfold total
    conv_lhs => unfold totalWith
    conv_rhs => unfold totalWith
    rw [if_neg (lt_irrefl _), if_neg (lt_irrefl _)]
  conv_lhs => unfold total
  exact totalWith_congr t f nt c E h0

/-- C65: 0 for flavours that are not active, whatever the tables. -/
theorem c65_sterile_zero (t : Tables) (f : Nat) (hf : 3 ≤ f) (nt : NType) (c : Cur) (E E1 E2 : ℝ) :
    total t f nt c E = .ok 0 ∧ single t f nt c E1 E2 = .ok 0 := by
  have h : ¬(f = 0 ∨ f = 1 ∨ f = 2) := by omega
  constructor
  · unfold total totalWith
    rw [if_pos h]
  · unfold single
    rw [if_pos h]

/-- C65: both throw above the tables, for active flavours. -/
theorem c65_throws_above (t : Tables) (f : Nat) (hf : f < 3) (nt : NType) (c : Cur) (E E2 : ℝ) (h : t.Emax < E) :
    total t f nt c E = .throws ∧ single t f nt c E E2 = .throws := by
  constructor
  · unfold total totalWith
    rw [if_neg (not_not.2 (active hf)), if_pos h]
  · unfold single
    rw [if_neg (not_not.2 (active hf)), if_pos h]

/-- C65: below the tables, unless the cut at 10 GeV applies, the total cross section is proportional to the energy. -/
theorem c65_scales_below (t : Tables) (ht : Usable t) (f : Nat) (hf : f < 3) (nt : NType) (c : Cur) :
    ∃ v, 0 < v ∧ total t f nt c t.Emin = .ok v ∧
      ∀ E, E < t.Emin → ¬(E < 10 * GeV ∧ t.Emin > 10 * GeV) → total t f nt c E = .ok (v * (E / t.Emin)) := by
  obtain ⟨g, -, hg⟩ := totalWith_inside (totalWith (fun _ => .ub) t f nt c) t ht f hf nt c
  have hv : total t f nt c t.Emin = _ := hg t.Emin (le_refl _) ht.le (not_cut t)
  refine ⟨_, pow10_pos _, hv, ?_⟩
  intro E hE hc
  rw [c65_recursion]
  unfold totalWith
  rw [if_neg (not_not.2 (active hf)), if_neg (not_lt.2 (le_of_lt (lt_of_lt_of_le hE ht.le))), if_neg hc, if_pos hE, hv]
  rfl

/-- C65: up to the end of the tables the total cross section has a value, positive for positive energies; with the cut it is the smallest
positive double below 10 GeV. -/
theorem c65_total_positive (t : Tables) (ht : Usable t) (f : Nat) (hf : f < 3) (nt : NType) (c : Cur) (E : ℝ) (hE : E ≤ t.Emax) :
    ∃ v, total t f nt c E = .ok v ∧ (0 ≤ E → 0 ≤ v) ∧ (0 < E → 0 < v) ∧ (E < 10 * GeV → t.Emin > 10 * GeV → v = dblMin) := by
  by_cases hc : E < 10 * GeV ∧ t.Emin > 10 * GeV
  · refine ⟨dblMin, ?_, fun _ => dblMin_pos.le, fun _ => dblMin_pos, fun _ _ => rfl⟩
    unfold total totalWith
    rw [if_neg (not_not.2 (active hf)), if_neg (not_lt.2 hE), if_pos hc]
  · by_cases hlt : E < t.Emin
    · obtain ⟨v, hv, -, hs⟩ := c65_scales_below t ht f hf nt c
      refine ⟨_, hs E hlt hc, ?_, ?_, fun h1 h2 => absurd ⟨h1, h2⟩ hc⟩
      · intro h
        have := div_nonneg h ht.pos.le
        positivity
      · intro h
        have := div_pos h ht.pos
        positivity
    · obtain ⟨g, -, hg⟩ := totalWith_inside (totalWith (fun _ => .ub) t f nt c) t ht f hf nt c
      exact ⟨_, hg E (not_lt.1 hlt) hE hc, fun _ => (pow10_pos _).le, fun _ => pow10_pos _, fun h1 h2 => absurd ⟨h1, h2⟩ hc⟩

/-- C65: the total cross section is continuous, also at the lower edge of the tables: everywhere up to the upper edge if the tables begin at
10 GeV or below, and from 10 GeV on if they begin above. -/
theorem c65_continuous (t : Tables) (ht : Usable t) (f : Nat) (hf : f < 3) (nt : NType) (c : Cur) :
    ∃ F : ℝ → ℝ, Continuous F ∧
      ∀ E, E ≤ t.Emax → (t.Emin ≤ 10 * GeV ∨ 10 * GeV ≤ E) → total t f nt c E = .ok (F E) := by
  obtain ⟨g, hg, hv⟩ := totalWith_inside (totalWith (fun _ => .ub) t f nt c) t ht f hf nt c
  obtain ⟨v, -, hv0, hs⟩ := c65_scales_below t ht f hf nt c
  have hv1 : v = pow10 (g (Real.logb 10 t.Emin)) := by
    have : total t f nt c t.Emin = _ := hv t.Emin (le_refl _) ht.le (not_cut t)
    rw [hv0] at this
    exact Outcome.ok.inj this
  refine ⟨fun E => v * (min E t.Emin / t.Emin) * (pow10 (g (Real.logb 10 (max E t.Emin))) / v), ?_, ?_⟩
  · have hlog : Continuous fun E : ℝ => Real.logb 10 (max E t.Emin) := by
      have h1 : Continuous fun E : ℝ => Real.log (max E t.Emin) := by
        refine Continuous.log (by fun_prop) ?_
        intro E
        exact ne_of_gt (lt_of_lt_of_le ht.pos (le_max_right _ _))
      unfold Real.logb
      exact h1.div_const _
    have hp : Continuous fun E : ℝ => pow10 (g (Real.logb 10 (max E t.Emin))) := by
      unfold pow10
      exact (Real.continuous_const_rpow (by norm_num)).comp (hg.comp hlog)
    fun_prop
  · intro E hE hd
    have hc : ¬(E < 10 * GeV ∧ t.Emin > 10 * GeV) := by
      rintro ⟨h1, h2⟩
      rcases hd with h | h
      · exact absurd h2 (not_lt.2 h)
      · exact absurd h1 (not_lt.2 h)
    dsimp only
    have hvne : v ≠ 0 := by rw [hv1]; exact (pow10_pos _).ne'
    by_cases hlt : E < t.Emin
    · rw [hs E hlt hc, min_eq_left hlt.le, max_eq_right hlt.le, ← hv1, div_self hvne, mul_one]
    · have hle := not_lt.1 hlt
      have : total t f nt c E = _ := hv E hle hE hc
      rw [this, min_eq_right hle, max_eq_left hle, div_self ht.pos.ne', mul_one]
      congr 1
      field_simp

/-- C65: the differential cross section has a positive value for every energy up to the end of the tables and every outgoing energy. -/
theorem c65_single_positive (t : Tables) (ht : Usable t) (f : Nat) (hf : f < 3) (nt : NType) (c : Cur) (E1 E2 : ℝ) (hE : E1 ≤ t.Emax) :
    ∃ v, single t f nt c E1 E2 = .ok v ∧ 0 < v := by
  unfold single
  rw [if_neg (not_not.2 (active hf)), if_neg (not_lt.2 hE)]
  by_cases h1 : E1 ≤ t.Emin
  · rw [if_pos h1]
    exact ⟨_, rfl, dblMin_pos⟩
  · rw [if_neg h1]
    have hpos : 0 < E1 := lt_trans ht.pos (not_le.1 h1)
    obtain ⟨p, hp, -, hd⟩ := ht.made f hf
    obtain ⟨data, xs, ys, hb⟩ := hd (which nt c)
    obtain ⟨g, -, hg⟩ := c25_continuous data xs ys _ hb
    rw [getFlavor, hp]
    dsimp only [Outcome.bind_ok]
    rw [log10, if_pos hpos]
    dsimp only [Outcome.bind_ok]
    rw [hg, hg]
    dsimp only [Outcome.bind_ok, Outcome.map_ok]
    have hdiv : 0 < E1 / GeV := div_pos hpos GeV_pos
    split
    · exact ⟨_, rfl, div_pos (pow10_pos _) hdiv⟩
    · exact ⟨_, rfl, div_pos (pow10_pos _) hdiv⟩

/-- C65: without tables for an active flavour a query inside the range throws. -/
theorem c65_missing_flavour (t : Tables) (f : Nat) (hf : f < 3) (hn : t.data f = none) (nt : NType) (c : Cur) (E : ℝ) (h1 : t.Emin ≤ E)
    (hc : ¬(E < 10 * GeV ∧ t.Emin > 10 * GeV)) : total t f nt c E = .throws := by
  unfold total totalWith
  rw [if_neg (not_not.2 (active hf))]
  by_cases h2 : E > t.Emax
  · rw [if_pos h2]
  · rw [if_neg h2, if_neg hc, if_neg (not_lt.2 h1), getFlavor, hn]
    rfl

/-! ## Example -/

theorem someSpline : ∃ s, ofVectors [9, 10, 12] [-38, -37, -36] = .ok (s : Spline ℝ) := by
  have h := c24_rejects_exactly (K := ℝ) [9, 10, 12] [-38, -37, -36]
  cases e : ofVectors ([9, 10, 12] : List ℝ) [-38, -37, -36] with
  | ok s => exact ⟨s, rfl⟩
  | ub => exact absurd e h.2
  | throws =>
    have := h.1.1 e
    simp at this
    norm_num at this

theorem someGrid : ∃ b, BiCubic.make ⟨3, 3, fun i j => -38 - (i : ℝ) + j⟩ [9, 10, 12] [0, 1 / 2, 1] = .ok (b : BiCubic ℝ) := by
  have h := c25_constructor_throws_iff (K := ℝ) ⟨3, 3, fun i j => -38 - (i : ℝ) + j⟩ [9, 10, 12] [0, 1 / 2, 1]
  cases e : BiCubic.make ⟨3, 3, fun i j => -38 - (i : ℝ) + j⟩ [9, 10, 12] [0, 1 / 2, 1] with
  | ok s => exact ⟨s, rfl⟩
  | ub => exact absurd e h.2
  | throws =>
    have := h.1.1 e
    simp at this
    norm_num at this

example : ∃ t : Tables, Usable t ∧ t.Emin = 10 ^ 9 ∧ t.Emax = 10 ^ 12 := by
  obtain ⟨s, hs⟩ := someSpline
  obtain ⟨b, hb⟩ := someGrid
  exact ⟨⟨10 ^ 9, 10 ^ 12, fun _ => some ⟨fun _ => s, fun _ => b⟩⟩,
    ⟨by norm_num, by norm_num, fun f _ => ⟨_, rfl, fun _ => ⟨_, _, hs⟩, fun _ => ⟨_, _, _, hb⟩⟩⟩, rfl, rfl⟩

end Verif.XS
