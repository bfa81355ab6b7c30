import Verif.XS.TablesProps

/-!
# Property C65: values at the nodes of the tables
-/

namespace Verif.XS

open Verif.Interp

/-- Number of the table for a type and a current: charged currents before neutral ones, neutrinos before antineutrinos. -/
def slot (nt : NType) (c : Cur) : Fin 4 := (if nt = .neutrino then 0 else 2) + (if c = .CC then 0 else 1)

theorem which_eq (nt : NType) (c : Cur) : which nt c = slot nt c := by cases nt <;> cases c <;> rfl

theorem log10_pow10 (a : ℝ) : log10 (pow10 a) = .ok a := by
  rw [log10, if_pos (pow10_pos a), pow10, Real.logb_rpow (by norm_num) (by norm_num)]

/-- C65: at a tabulated energy the total cross section of an active flavour is the tabulated one, from the table of the type and the current
asked for (the tables hold decimal logarithms). -/
theorem c65_total_tabulated (t : Tables) (f : Nat) (hf : f < 3) (nt : NType) (c : Cur) (p : PerFlavor) (hp : t.data f = some p)
    (x y : List ℝ) (hs : ofVectors x y = .ok (p.s (slot nt c))) (i : Nat) (a b : ℝ) (ha : x[i]? = some a) (hb : y[i]? = some b)
    (h1 : t.Emin ≤ pow10 a) (h2 : pow10 a ≤ t.Emax) (hc : ¬(pow10 a < 10 * GeV ∧ t.Emin > 10 * GeV)) :
    total t f nt c (pow10 a) = .ok (pow10 b) := by
  unfold total totalWith
  rw [if_neg (not_not.2 (active hf)), if_neg (not_lt.2 h2), if_neg hc, if_neg (not_lt.2 h1), getFlavor, hp]
  dsimp only [Outcome.bind_ok]
  rw [log10_pow10, Outcome.bind_ok, which_eq, c21_passes_through_nodes x y _ hs i a b ha hb]
  rfl

/-- C65: at a tabulated energy and a tabulated z the differential cross section is the tabulated one (a decimal logarithm) divided by the
energy in GeV. -/
theorem c65_single_tabulated (t : Tables) (f : Nat) (hf : f < 3) (nt : NType) (c : Cur) (p : PerFlavor) (hp : t.data f = some p)
    (g : Grid2 ℝ) (x z : List ℝ) (hs : BiCubic.make g x z = .ok (p.d (slot nt c))) (i j : Nat) (a b : ℝ) (ha : x[i]? = some a) (hb : z[j]? = some b)
    (h1 : t.Emin < pow10 a) (h2 : pow10 a ≤ t.Emax) (E2 : ℝ) (hz : E2 = t.Emin + b * (pow10 a - t.Emin)) (hb0 : 0 < b) :
    single t f nt c (pow10 a) E2 = .ok (pow10 (g.at_ j i) / (pow10 a / GeV)) := by
  have hpos : 0 < pow10 a - t.Emin := sub_pos.2 h1
  have hE2 : ¬E2 ≤ t.Emin := by rw [hz]; have := mul_pos hb0 hpos; linarith
  have hzz : (E2 - t.Emin) / (pow10 a - t.Emin) = b := by rw [hz]; field_simp; ring
  unfold single
  rw [if_neg (not_not.2 (active hf)), if_neg (not_lt.2 h2), if_neg (not_le.2 h1), getFlavor, hp]
  dsimp only [Outcome.bind_ok]
  rw [log10_pow10, Outcome.bind_ok, which_eq, hzz, c25_reproduces_nodes g x z _ hs i j a b ha hb, Outcome.bind_ok, if_neg hE2]
  rfl

/-- C65: for outgoing energies at or below the lower edge of the tables the differential cross section is not larger than at the edge. -/
theorem c65_single_below (t : Tables) (ht : Usable t) (f : Nat) (hf : f < 3) (nt : NType) (c : Cur) (E1 E2 : ℝ) (hE : E1 ≤ t.Emax)
    (h2 : E2 ≤ t.Emin) : ∃ v v0, single t f nt c E1 E2 = .ok v ∧ single t f nt c E1 t.Emin = .ok v0 ∧ v ≤ v0 := by
  by_cases h1 : E1 ≤ t.Emin
  · refine ⟨dblMin, dblMin, ?_, ?_, le_refl _⟩ <;>
    · unfold single
      rw [if_neg (not_not.2 (active hf)), if_neg (not_lt.2 hE), if_pos h1]
  · have hpos : 0 < E1 := lt_trans ht.pos (not_le.1 h1)
    obtain ⟨p, hp, -, hd⟩ := ht.made f hf
    obtain ⟨data, xs, ys, hb⟩ := hd (which nt c)
    obtain ⟨g, -, hg⟩ := c25_continuous data xs ys _ hb
    have key : ∀ E2, E2 ≤ t.Emin → single t f nt c E1 E2 =
        .ok (pow10 (min (g (Real.logb 10 E1, (E2 - t.Emin) / (E1 - t.Emin))) (g (Real.logb 10 E1, 0))) / (E1 / GeV)) := by
      intro E2 h2
      unfold single
      rw [if_neg (not_not.2 (active hf)), if_neg (not_lt.2 hE), if_neg h1, getFlavor, hp]
      dsimp only [Outcome.bind_ok]
      rw [log10, if_pos hpos]
      dsimp only [Outcome.bind_ok]
      rw [hg, hg, Outcome.bind_ok, if_pos h2]
      dsimp only [Outcome.bind_ok, Outcome.map_ok]
      congr 3
      split
      · rename_i hlt
        rw [min_eq_right (le_of_lt hlt)]
      · rename_i hlt
        rw [min_eq_left (not_lt.1 hlt)]
    refine ⟨_, _, key E2 h2, key t.Emin (le_refl _), ?_⟩
    rw [sub_self, zero_div, min_self]
    refine div_le_div_of_nonneg_right ?_ (div_pos hpos GeV_pos).le
    exact Real.rpow_le_rpow_of_exponent_le (by norm_num) (min_le_right _ _)

/-- Tables, energies and z as in the theorems. -/
example : ∃ (t : Tables) (p : PerFlavor), Usable t ∧ t.data 1 = some p ∧ ofVectors [9, 10, 12] [-38, -37, -36] = .ok (p.s (slot .antineutrino .NC)) ∧
    BiCubic.make ⟨3, 3, fun i j => -38 - (i : ℝ) + j⟩ [9, 10, 12] [0, 1 / 2, 1] = .ok (p.d (slot .antineutrino .NC)) ∧
    t.Emin < pow10 10 ∧ pow10 10 ≤ t.Emax ∧ ¬(pow10 10 < 10 * GeV ∧ t.Emin > 10 * GeV) := by
  obtain ⟨s, hs⟩ := someSpline
  obtain ⟨b, hb⟩ := someGrid
  have e : pow10 10 = 10 ^ 10 := by rw [pow10]; exact_mod_cast Real.rpow_natCast 10 10
  refine ⟨⟨10 ^ 9, 10 ^ 12, fun _ => some ⟨fun _ => s, fun _ => b⟩⟩, ⟨fun _ => s, fun _ => b⟩,
    ⟨by norm_num, by norm_num, fun f _ => ⟨_, rfl, fun _ => ⟨_, _, hs⟩, fun _ => ⟨_, _, _, hb⟩⟩⟩, rfl, hs, hb, ?_, ?_, ?_⟩
  · rw [e]; norm_num
  · rw [e]; norm_num
  · rw [e, GeV]; norm_num

end Verif.XS
