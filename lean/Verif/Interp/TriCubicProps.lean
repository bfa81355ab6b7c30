import Verif.Interp.GridLemmas
import Verif.Interp.TriCubicCoeffs
import Mathlib.Algebra.Order.Ring.Rat
import Mathlib.Analysis.Calculus.Deriv.Pow
import Mathlib.Analysis.Calculus.Deriv.Mul
import Mathlib.Analysis.Calculus.Deriv.Add

/-!
# Property C26: `TriCubicInterpolator`
-/

set_option linter.unusedSectionVars false

namespace Verif.Interp

variable {K : Type} [Field K] [LinearOrder K] [IsStrictOrderedRing K]

/-! ## The cell polynomial -/

/-- `partialPoly` is what its name says: over the reals, turning on the flag of an axis is differentiation along it. -/
theorem partialPoly_hasDerivAt (c : Nat → ℝ) (t u v : ℝ) (o o' : Bool) :
    HasDerivAt (fun t => partialPoly false o o' c t u v) (partialPoly true o o' c t u v) t ∧
    HasDerivAt (fun u => partialPoly o false o' c t u v) (partialPoly o true o' c t u v) u ∧
    HasDerivAt (fun v => partialPoly o o' false c t u v) (partialPoly o o' true c t u v) v := by
  have lin : ∀ (o : Bool) (f0 f1 f2 f3 : ℝ → ℝ) (g0 g1 g2 g3 s w : ℝ), HasDerivAt f0 g0 w → HasDerivAt f1 g1 w →
      HasDerivAt f2 g2 w → HasDerivAt f3 g3 w →
      HasDerivAt (fun w => dhorner o (f0 w) (f1 w) (f2 w) (f3 w) s) (dhorner o g0 g1 g2 g3 s) w := by
    intro o f0 f1 f2 f3 g0 g1 g2 g3 s w h0 h1 h2 h3
    cases o
    · exact (((((h3.mul_const s).add h2).mul_const s).add h1).mul_const s).add h0
    · exact (((((h3.const_mul 3).mul_const s).add (h2.const_mul 2)).mul_const s).add h1)
  have self : ∀ (a b c d w : ℝ), HasDerivAt (fun w => dhorner false a b c d w) (dhorner true a b c d w) w := by
    intro a b c d w
    have h := hasDerivAt_id' w
    have := (((((((h.const_mul d).add_const c).mul h).add_const b).mul h).add_const a))
    refine this.congr_deriv ?_
    simp only [dhorner, if_true, Pi.mul_apply]
    ring
  refine ⟨?_, ?_, ?_⟩
  · simp only [partialPoly]
    refine lin _ _ _ _ _ _ _ _ _ _ _ ?_ ?_ ?_ ?_ <;>
    · refine lin _ _ _ _ _ _ _ _ _ _ _ ?_ ?_ ?_ ?_ <;> exact self _ _ _ _ _
  · simp only [partialPoly]
    refine lin _ _ _ _ _ _ _ _ _ _ _ ?_ ?_ ?_ ?_ <;> exact self _ _ _ _ _
  · exact self _ _ _ _ _

/-- Position in the data vector of the derivative of order (ox,oy,oz) at corner (cx,cy,cz): eight blocks of eight corners, in
the order f, f_x, f_y, f_z, f_xy, f_xz, f_yz, f_xyz. -/
def datum (ox oy oz : Bool) (cx cy cz : Bool) : Nat :=
  8 * (match ox, oy, oz with
    | false, false, false => 0 | true, false, false => 1 | false, true, false => 2 | false, false, true => 3
    | true, true, false => 4 | true, false, true => 5 | false, true, true => 6 | true, true, true => 7) +
  (cx.toNat + 2 * cy.toNat + 4 * cz.toNat)

/-- The 64 conditions: at each of the eight corners the cell polynomial has the given value, first derivatives, mixed second
derivatives and mixed third derivative, whatever the 64 data. -/
theorem c26_cell_interpolates (d : Nat → K) (ox oy oz cx cy cz : Bool) :
    partialPoly ox oy oz (coeffs d) (if cx then 1 else 0) (if cy then 1 else 0) (if cz then 1 else 0) =
      d (datum ox oy oz cx cy cz) := by
  rw [partialPoly_coeffs]
  cases ox <;> cases oy <;> cases oz <;> cases cx <;> cases cy <;> cases cz <;>
    simp only [if_true, if_false, Bool.false_eq_true, dherm_zero, dherm_one, dherm'_zero, dherm'_one] <;> rfl

/-- With the data 0, 1, …, 63: the mixed derivative f_xz at the corner (1,1,0) is entry 43. -/
example : partialPoly true false true (coeffs fun n => (n : Rat)) 1 1 0 = 43 := by decide +kernel

/-! ## Construction -/

private theorem table3_ok {m1 m2 n : Nat} {x : Nat → K} {slice : Nat → Nat → Nat → K} (hn : 3 ≤ n)
    (hi : Increasing x n) : ∃ t, table3 m1 m2 x slice n = .ok t := by
  have : ∀ a b, ∃ d, sliceDerivs x (slice a b) n = .ok d := fun a b => sliceDerivs_ok hn hi
  choose g hg using this
  have h2 : ∀ a, ∃ t, tabulate (fun _ => (0 : K)) m2 (fun b => sliceDerivs x (slice a b) n) = .ok t := by
    intro a
    obtain ⟨t, ht, _⟩ := tabulate_ok (d := fun _ => (0 : K)) (m := m2) (fun b _ => hg a b)
    exact ⟨t, ht⟩
  choose g2 hg2 using h2
  obtain ⟨t, ht, _⟩ := tabulate_ok (d := fun _ _ => (0 : K)) (m := m1) (fun a _ => hg2 a)
  exact ⟨t, ht⟩

private theorem table3_inv {m1 m2 n : Nat} {x : Nat → K} {slice : Nat → Nat → Nat → K} {t : Nat → Nat → Nat → K}
    (h : table3 m1 m2 x slice n = .ok t) : ∀ a b, a < m1 → b < m2 → sliceDerivs x (slice a b) n = .ok (t a b) :=
  fun a b ha hb => tabulate_inv (tabulate_inv h a ha) b hb

private theorem table3_throws {m1 m2 n : Nat} {x : Nat → K} {slice : Nat → Nat → Nat → K} (h1 : 0 < m1) (h2 : 0 < m2)
    (hc : ¬ (3 ≤ n ∧ Increasing x n)) : table3 m1 m2 x slice n = .throws :=
  tabulate_throws h1 fun _ _ => tabulate_throws h2 fun _ _ => sliceDerivs_throws hc

private theorem table3_zero {m1 m2 n : Nat} {x : Nat → K} {slice : Nat → Nat → Nat → K} (h : m1 = 0 ∨ m2 = 0) :
    ∃ t, table3 m1 m2 x slice n = .ok t := by
  rcases h with h | h
  · subst h; exact ⟨_, rfl⟩
  · subst h
    obtain ⟨t, ht, _⟩ := tabulate_ok (d := fun _ _ => (0 : K)) (m := m1)
      (f := fun a => tabulate (fun _ => (0 : K)) 0 fun b => sliceDerivs x (slice a b) n) (g := fun _ _ _ => 0)
      (fun _ _ => rfl)
    exact ⟨t, ht⟩

private theorem table3_cases {m1 m2 n : Nat} {x : Nat → K} {slice : Nat → Nat → Nat → K} :
    (∃ t, table3 m1 m2 x slice n = .ok t) ∨ table3 m1 m2 x slice n = .throws := by
  by_cases hc : 3 ≤ n ∧ Increasing x n
  · exact Or.inl (table3_ok hc.1 hc.2)
  · by_cases h0 : m1 = 0 ∨ m2 = 0
    · exact Or.inl (table3_zero h0)
    · exact Or.inr (table3_throws (by omega) (by omega) hc)

private theorem bind_inv {α β : Type} {o : Outcome α} {f : α → Outcome β} {b : β} (h : o.bind f = .ok b) :
    ∃ a, o = .ok a ∧ f a = .ok b := by
  cases o with
  | ok a => exact ⟨a, rfl, h⟩
  | throws => cases h
  | ub => cases h

private theorem usable_of_table3 {m1 m2 : Nat} {l : List K} {n : Nat} (hl : l.length = n)
    {slice : Nat → Nat → Nat → K} {t : Nat → Nat → Nat → K} (h1 : 0 < m1) (h2 : 0 < m2)
    (h : table3 m1 m2 (l.getD · 0) slice n = .ok t) : Usable l := by
  by_contra hc
  rw [table3_throws h1 h2 (by rw [← hl]; exact hc)] at h
  cases h

/-- What is known of a constructed interpolator with data. -/
private theorem make_ok {data : Grid3 K} {xs ys zs : List K} {T : TriCubic K}
    (h : TriCubic.make data xs ys zs = .ok T) :
    xs.length = data.n2 ∧ ys.length = data.n1 ∧ zs.length = data.n0 ∧
    T.data = data ∧ T.xs = xs ∧ T.ys = ys ∧ T.zs = zs ∧
    (0 < data.n0 → 0 < data.n1 → 0 < data.n2 → Usable xs ∧ Usable ys ∧ Usable zs ∧ data.n1 ≤ data.n2) ∧
    (∀ k j, k < data.n0 → j < data.n1 →
      sliceDerivs (xs.getD · 0) (fun i => data.at_ k j i) data.n2 = .ok (fun i => T.dfdx k j i)) ∧
    (∀ k i, k < data.n0 → i < data.n2 →
      sliceDerivs (ys.getD · 0) (fun j => data.at_ k j i) data.n1 = .ok (fun j => T.dfdy k j i)) ∧
    (∀ j i, j < data.n1 → i < data.n2 →
      sliceDerivs (zs.getD · 0) (fun k => data.at_ k j i) data.n0 = .ok (fun k => T.dfdz k j i)) ∧
    (∀ k j, k < data.n0 → j < data.n1 →
      sliceDerivs (xs.getD · 0) (fun i => T.dfdy k j i) data.n2 = .ok (fun i => T.d2fdxdy k j i)) ∧
    (∀ k j, k < data.n0 → j < data.n1 →
      sliceDerivs (xs.getD · 0) (fun i => T.dfdz k j i) data.n2 = .ok (fun i => T.d2fdxdz k j i)) ∧
    (∀ k j i, T.d2fdydz k j i = T.d2fdxdz (data.n0 - 1) (data.n1 - 1) j) ∧
    (∀ k j, k < data.n0 → j < data.n1 →
      sliceDerivs (xs.getD · 0) (fun i => T.d2fdydz k j i) data.n2 = .ok (fun i => T.d3fdxdydz k j i)) := by
  simp only [TriCubic.make] at h
  split at h
  · cases h
  split at h
  · cases h
  split at h
  · cases h
  rename_i hx hy hz
  obtain ⟨fx, h1, h⟩ := bind_inv h
  obtain ⟨fy, h2, h⟩ := bind_inv h
  obtain ⟨fz, h3, h⟩ := bind_inv h
  obtain ⟨fxy, h4, h⟩ := bind_inv h
  obtain ⟨fxz, h5, h⟩ := bind_inv h
  obtain ⟨w, h6, h⟩ := bind_inv h
  split at h
  · cases h
  rename_i hub
  obtain ⟨fxyz, h7, h⟩ := bind_inv h
  cases h
  have hx := not_not.1 hx
  have hy := not_not.1 hy
  have hz := not_not.1 hz
  refine ⟨hx, hy, hz, rfl, rfl, rfl, rfl, ?_, table3_inv h1, table3_inv h2, table3_inv h3, table3_inv h4,
    table3_inv h5, fun _ _ _ => rfl, table3_inv h7⟩
  intro p0 p1 p2
  exact ⟨usable_of_table3 hx p0 p1 h1, usable_of_table3 hy p0 p2 h2, usable_of_table3 hz p1 p2 h3, by omega⟩

/-- A table with data along all three axes. -/
def Grid3.NonEmpty (g : Grid3 K) : Prop := 0 < g.n0 ∧ 0 < g.n1 ∧ 0 < g.n2

/-- Construction succeeds on every well-formed grid whose y axis is not longer than its x axis. Missing from the full claim:
longer y axes (`c26_constructor_violated`). -/
theorem c26_constructor_partial (data : Grid3 K) (xs ys zs : List K) (hx : xs.length = data.n2)
    (hy : ys.length = data.n1) (hz : zs.length = data.n0) (ux : 3 ≤ xs.length ∧ Increasing (xs.getD · 0) xs.length)
    (uy : 3 ≤ ys.length ∧ Increasing (ys.getD · 0) ys.length)
    (uz : 3 ≤ zs.length ∧ Increasing (zs.getD · 0) zs.length) (hle : data.n1 ≤ data.n2) :
    ∃ T, TriCubic.make data xs ys zs = .ok T := by
  simp only [TriCubic.make]
  rw [if_neg (not_not.2 hx), if_neg (not_not.2 hy), if_neg (not_not.2 hz)]
  rw [hx] at ux
  rw [hy] at uy
  rw [hz] at uz
  obtain ⟨t1, h1⟩ := table3_ok (m1 := data.n0) (m2 := data.n1) (slice := fun k j i => data.at_ k j i) ux.1 ux.2
  obtain ⟨t2, h2⟩ := table3_ok (m1 := data.n0) (m2 := data.n2) (slice := fun k i j => data.at_ k j i) uy.1 uy.2
  obtain ⟨t3, h3⟩ := table3_ok (m1 := data.n1) (m2 := data.n2) (slice := fun j i k => data.at_ k j i) uz.1 uz.2
  obtain ⟨t4, h4⟩ := table3_ok (m1 := data.n0) (m2 := data.n1) (slice := fun k j i => t2 k i j) ux.1 ux.2
  obtain ⟨t5, h5⟩ := table3_ok (m1 := data.n0) (m2 := data.n1) (slice := fun k j i => t3 j i k) ux.1 ux.2
  obtain ⟨t6, h6⟩ := table3_ok (m1 := data.n0) (m2 := data.n2) (slice := fun k i j => t3 j i k) uy.1 uy.2
  obtain ⟨t7, h7⟩ := table3_ok (m1 := data.n0) (m2 := data.n1)
    (slice := fun _ j _ => t5 (data.n0 - 1) (data.n1 - 1) j) ux.1 ux.2
  rw [h1, Outcome.bind_ok, h2, Outcome.bind_ok, h3, Outcome.bind_ok, h4, Outcome.bind_ok, h5, Outcome.bind_ok, h6,
    Outcome.bind_ok, if_neg (by omega), h7, Outcome.bind_ok]
  exact ⟨_, rfl⟩

/-- With more y than x coordinates the constructor reads beyond the end of the x slice, on every otherwise well-formed grid. -/
theorem c26_constructor_violated (data : Grid3 K) (xs ys zs : List K) (hx : xs.length = data.n2)
    (hy : ys.length = data.n1) (hz : zs.length = data.n0) (ux : 3 ≤ xs.length ∧ Increasing (xs.getD · 0) xs.length)
    (uy : 3 ≤ ys.length ∧ Increasing (ys.getD · 0) ys.length)
    (uz : 3 ≤ zs.length ∧ Increasing (zs.getD · 0) zs.length) (hlt : data.n2 < data.n1) :
    TriCubic.make data xs ys zs = .ub := by
  simp only [TriCubic.make]
  rw [if_neg (not_not.2 hx), if_neg (not_not.2 hy), if_neg (not_not.2 hz)]
  rw [hx] at ux
  rw [hy] at uy
  rw [hz] at uz
  obtain ⟨t1, h1⟩ := table3_ok (m1 := data.n0) (m2 := data.n1) (slice := fun k j i => data.at_ k j i) ux.1 ux.2
  obtain ⟨t2, h2⟩ := table3_ok (m1 := data.n0) (m2 := data.n2) (slice := fun k i j => data.at_ k j i) uy.1 uy.2
  obtain ⟨t3, h3⟩ := table3_ok (m1 := data.n1) (m2 := data.n2) (slice := fun j i k => data.at_ k j i) uz.1 uz.2
  obtain ⟨t4, h4⟩ := table3_ok (m1 := data.n0) (m2 := data.n1) (slice := fun k j i => t2 k i j) ux.1 ux.2
  obtain ⟨t5, h5⟩ := table3_ok (m1 := data.n0) (m2 := data.n1) (slice := fun k j i => t3 j i k) ux.1 ux.2
  obtain ⟨t6, h6⟩ := table3_ok (m1 := data.n0) (m2 := data.n2) (slice := fun k i j => t3 j i k) uy.1 uy.2
  rw [h1, Outcome.bind_ok, h2, Outcome.bind_ok, h3, Outcome.bind_ok, h4, Outcome.bind_ok, h5, Outcome.bind_ok, h6,
    Outcome.bind_ok, if_pos (by omega)]

example : (TriCubic.make ⟨3, 4, 3, fun _ _ _ => (0 : Rat)⟩ [0, 1, 2] [0, 1, 2, 3] [0, 1, 2]).map (fun _ => ()) = .ub ∧
    (TriCubic.make ⟨3, 3, 4, fun _ _ _ => (0 : Rat)⟩ [0, 1, 2, 3] [0, 1, 2] [0, 1, 2]).map (fun _ => ()) = .ok () := by
  decide +kernel

/-- Whatever is not a well-formed grid is refused: a coordinate count different from the extent of the table on any axis, and,
for a table with data, any axis with fewer than three coordinates or coordinates that do not strictly increase. -/
theorem c26_constructor_refuses (data : Grid3 K) (xs ys zs : List K) :
    ((xs.length ≠ data.n2 ∨ ys.length ≠ data.n1 ∨ zs.length ≠ data.n0) → TriCubic.make data xs ys zs = .throws) ∧
    (data.NonEmpty →
      (¬ (3 ≤ xs.length ∧ Increasing (xs.getD · 0) xs.length) ∨ ¬ (3 ≤ ys.length ∧ Increasing (ys.getD · 0) ys.length) ∨
        ¬ (3 ≤ zs.length ∧ Increasing (zs.getD · 0) zs.length)) → TriCubic.make data xs ys zs = .throws) := by
  have count : (xs.length ≠ data.n2 ∨ ys.length ≠ data.n1 ∨ zs.length ≠ data.n0) →
      TriCubic.make data xs ys zs = .throws := by
    intro h
    simp only [TriCubic.make]
    by_cases hx : xs.length ≠ data.n2
    · rw [if_pos hx]
    rw [if_neg hx]
    by_cases hy : ys.length ≠ data.n1
    · rw [if_pos hy]
    rw [if_neg hy]
    rw [if_pos (by rcases h with h | h | h <;> [exact absurd h hx; exact absurd h hy; exact h])]
  refine ⟨count, fun ⟨p0, p1, p2⟩ h => ?_⟩
  by_cases hc : xs.length ≠ data.n2 ∨ ys.length ≠ data.n1 ∨ zs.length ≠ data.n0
  · exact count hc
  have hx : xs.length = data.n2 := by omega
  have hy : ys.length = data.n1 := by omega
  have hz : zs.length = data.n0 := by omega
  simp only [TriCubic.make]
  rw [if_neg (not_not.2 hx), if_neg (not_not.2 hy), if_neg (not_not.2 hz)]
  rw [hx, hy, hz] at h
  by_cases ux : 3 ≤ data.n2 ∧ Increasing (xs.getD · 0) data.n2
  · obtain ⟨t1, h1⟩ := table3_ok (m1 := data.n0) (m2 := data.n1) (slice := fun k j i => data.at_ k j i) ux.1 ux.2
    rw [h1, Outcome.bind_ok]
    by_cases uy : 3 ≤ data.n1 ∧ Increasing (ys.getD · 0) data.n1
    · obtain ⟨t2, h2⟩ := table3_ok (m1 := data.n0) (m2 := data.n2) (slice := fun k i j => data.at_ k j i) uy.1 uy.2
      rw [h2, Outcome.bind_ok]
      have uz : ¬ (3 ≤ data.n0 ∧ Increasing (zs.getD · 0) data.n0) := by
        rcases h with h | h | h
        · exact absurd ux h
        · exact absurd uy h
        · exact h
      rw [table3_throws p1 p2 uz]
      rfl
    · rw [table3_throws p0 p2 uy]
      rfl
  · rw [table3_throws p0 p1 ux]
    rfl

example : (TriCubic.make ⟨3, 3, 3, fun _ _ _ => (0 : Rat)⟩ [0, 1, 2, 3] [0, 1, 2] [0, 1, 2]).map (fun _ => ()) = .throws ∧
    (TriCubic.make ⟨3, 3, 3, fun _ _ _ => (0 : Rat)⟩ [0, 1, 2] [0, 1, 1] [0, 1, 2]).map (fun _ => ()) = .throws ∧
    (TriCubic.make ⟨2, 3, 3, fun _ _ _ => (0 : Rat)⟩ [0, 1, 2] [0, 1, 2] [0, 1]).map (fun _ => ()) = .throws := by
  decide +kernel

/-! ## Values -/

/-- Every query is answered by the polynomial of a cell of the grid: the one containing the point, or the border cell along
each axis on which the point is outside. -/
theorem c26_query_in_range (data : Grid3 K) (xs ys zs : List K) (T : TriCubic K)
    (h : TriCubic.make data xs ys zs = .ok T) (hne : data.NonEmpty) (x y z : K) :
    ∃ i j k, i + 1 < xs.length ∧ j + 1 < ys.length ∧ k + 1 < zs.length ∧
      (xs.getD i 0 ≤ x ∨ i = 0) ∧ (x < xs.getD (i + 1) 0 ∨ i + 2 = xs.length) ∧
      (ys.getD j 0 ≤ y ∨ j = 0) ∧ (y < ys.getD (j + 1) 0 ∨ j + 2 = ys.length) ∧
      (zs.getD k 0 ≤ z ∨ k = 0) ∧ (z < zs.getD (k + 1) 0 ∨ k + 2 = zs.length) ∧
      T.eval x y z = .ok (T.inCell i j k x y z) := by
  obtain ⟨h1, h2, h3, rfl, rfl, rfl, rfl, hU, _⟩ := make_ok h
  obtain ⟨ux, uy, uz, _⟩ := hU hne.1 hne.2.1 hne.2.2
  obtain ⟨i, a1, a2, a3, a4⟩ := cell_spec ux x
  obtain ⟨j, b1, b2, b3, b4⟩ := cell_spec uy y
  obtain ⟨k, c1, c2, c3, c4⟩ := cell_spec uz z
  refine ⟨i, j, k, a2, b2, c2, a3, a4, b3, b4, c3, c4, ?_⟩
  simp only [TriCubic.eval, a1, b1, c1]
  rw [if_pos ⟨by omega, by omega, by omega⟩]

/-- At every grid node the interpolant takes the tabulated value (whenever the constructor returned). -/
theorem c26_reproduces_nodes (data : Grid3 K) (xs ys zs : List K) (T : TriCubic K)
    (h : TriCubic.make data xs ys zs = .ok T) (i j k : Nat) (x y z : K) (hx : xs[i]? = some x) (hy : ys[j]? = some y)
    (hz : zs[k]? = some z) : T.eval x y z = .ok (data.at_ k j i) := by
  have hi : i < xs.length := (List.getElem?_eq_some_iff.1 hx).1
  have hj : j < ys.length := (List.getElem?_eq_some_iff.1 hy).1
  have hk : k < zs.length := (List.getElem?_eq_some_iff.1 hz).1
  obtain ⟨h1, h2, h3, rfl, rfl, rfl, rfl, hU, _⟩ := make_ok h
  obtain ⟨ux, uy, uz, _⟩ := hU (by omega) (by omega) (by omega)
  have ex : x = T.xs.getD i 0 := by rw [List.getD_eq_getElem?_getD, hx]; rfl
  have ey : y = T.ys.getD j 0 := by rw [List.getD_eq_getElem?_getD, hy]; rfl
  have ez : z = T.zs.getD k 0 := by rw [List.getD_eq_getElem?_getD, hz]; rfl
  obtain ⟨p, hp, hp1, hp2⟩ := cell_node ux hi
  obtain ⟨q, hq, hq1, hq2⟩ := cell_node uy hj
  obtain ⟨r, hr, hr1, hr2⟩ := cell_node uz hk
  subst ex ey ez
  simp only [TriCubic.eval, hp, hq, hr]
  rw [if_pos ⟨by omega, by omega, by omega⟩]
  simp only [TriCubic.inCell, ← partialPoly_false, partialPoly_coeffs]
  rcases hp2 with ⟨e1, e2⟩ | ⟨e1, e2⟩ <;> rcases hq2 with ⟨e3, e4⟩ | ⟨e3, e4⟩ <;>
    rcases hr2 with ⟨e5, e6⟩ | ⟨e5, e6⟩ <;>
  · rw [e2, e4, e6]
    subst e1 e3 e5
    simp only [dherm_zero, dherm_one]
    rfl

/-- Cells that share a face agree on it. -/
theorem c26_cells_agree (data : Grid3 K) (xs ys zs : List K) (T : TriCubic K)
    (h : TriCubic.make data xs ys zs = .ok T) (hne : data.NonEmpty) (i j k : Nat) (x y z : K) :
    (i + 2 < xs.length → T.inCell i j k (xs.getD (i + 1) 0) y z = T.inCell (i + 1) j k (xs.getD (i + 1) 0) y z) ∧
    (j + 2 < ys.length → T.inCell i j k x (ys.getD (j + 1) 0) z = T.inCell i (j + 1) k x (ys.getD (j + 1) 0) z) ∧
    (k + 2 < zs.length → T.inCell i j k x y (zs.getD (k + 1) 0) = T.inCell i j (k + 1) x y (zs.getD (k + 1) 0)) := by
  obtain ⟨h1, h2, h3, rfl, rfl, rfl, rfl, hU, _⟩ := make_ok h
  obtain ⟨ux, uy, uz, _⟩ := hU hne.1 hne.2.1 hne.2.2
  have ne : ∀ l : List K, Usable l → ∀ i, i + 1 < l.length → l.getD (i + 1) 0 - l.getD i 0 ≠ 0 := by
    intro l hl i hi h0
    exact absurd (sub_eq_zero.1 h0) (ne_of_gt (hl.2 i hi))
  simp only [TriCubic.inCell, ← partialPoly_false, partialPoly_coeffs]
  refine ⟨fun hi => ?_, fun hj => ?_, fun hk => ?_⟩
  · simp only [div_self (ne _ ux i (by omega)), sub_self, zero_div, dherm_zero, dherm_one]
    rfl
  · simp only [div_self (ne _ uy j (by omega)), sub_self, zero_div, dherm_zero, dherm_one]
    rfl
  · simp only [div_self (ne _ uz k (by omega)), sub_self, zero_div, dherm_zero, dherm_one]
    rfl

/-- The interpolant is a continuous function on the whole space. -/
theorem c26_continuous (data : Grid3 ℝ) (xs ys zs : List ℝ) (T : TriCubic ℝ)
    (h : TriCubic.make data xs ys zs = .ok T) (hne : data.NonEmpty) :
    ∃ f : ℝ × ℝ × ℝ → ℝ, Continuous f ∧ ∀ x y z, T.eval x y z = .ok (f (x, y, z)) := by
  obtain ⟨h1, h2, h3, _, _, _, _, hU, _⟩ := make_ok h
  obtain ⟨ux, uy, uz, _⟩ := hU hne.1 hne.2.1 hne.2.2
  have incr : ∀ l : List ℝ, Usable l → ∀ j, j + 1 ≤ l.length - 2 → l.getD j 0 < l.getD (j + 1) 0 :=
    fun l hl j hj => hl.2 j (by omega)
  let zf : Nat → Nat → ℝ × ℝ × ℝ → ℝ := fun i j =>
    glue (fun p : ℝ × ℝ × ℝ => p.2.2) (zs.getD · 0) (fun k p => T.inCell i j k p.1 p.2.1 p.2.2) (zs.length - 2)
  let yf : Nat → ℝ × ℝ × ℝ → ℝ := fun i => glue (fun p : ℝ × ℝ × ℝ => p.2.1) (ys.getD · 0) (zf i) (ys.length - 2)
  have glue_congr : ∀ (φ : ℝ × ℝ × ℝ → ℝ) (c : Nat → ℝ) (P Q : Nat → ℝ × ℝ × ℝ → ℝ) (m : Nat) (p : ℝ × ℝ × ℝ),
      (∀ j, P j p = Q j p) → glue φ c P m p = glue φ c Q m p := by
    intro φ c P Q m p hPQ
    induction m with
    | zero => exact hPQ 0
    | succ m ih => simp only [glue]; rw [hPQ, ih]
  have hcell : ∀ i j k, Continuous fun p : ℝ × ℝ × ℝ => T.inCell i j k p.1 p.2.1 p.2.2 := by
    intro i j k
    unfold TriCubic.inCell evalPoly horner
    fun_prop
  have hz : ∀ i j, Continuous (zf i j) := by
    intro i j
    refine glue_continuous (by fun_prop) (incr zs uz) (fun k _ => hcell i j k) ?_
    intro k p hk hp
    rw [hp]
    exact (c26_cells_agree data xs ys zs T h hne i j k p.1 p.2.1 p.2.2).2.2 (by omega)
  have hy : ∀ i, Continuous (yf i) := by
    intro i
    refine glue_continuous (by fun_prop) (incr ys uy) (fun j _ => hz i j) ?_
    intro j p hj hp
    refine glue_congr _ _ _ _ _ _ fun k => ?_
    rw [hp]
    exact (c26_cells_agree data xs ys zs T h hne i j k p.1 p.2.1 p.2.2).2.1 (by omega)
  refine ⟨glue (fun p : ℝ × ℝ × ℝ => p.1) (xs.getD · 0) yf (xs.length - 2), ?_, ?_⟩
  · refine glue_continuous (by fun_prop) (incr xs ux) (fun i _ => hy i) ?_
    intro i p hi hp
    refine glue_congr _ _ _ _ _ _ fun j => glue_congr _ _ _ _ _ _ fun k => ?_
    rw [hp]
    exact (c26_cells_agree data xs ys zs T h hne i j k p.1 p.2.1 p.2.2).1 (by omega)
  · intro x y z
    obtain ⟨i, j, k, hi, hj, hk, a1, a2, b1, b2, c1, c2, he⟩ := c26_query_in_range data xs ys zs T h hne x y z
    rw [he]
    congr 1
    rw [glue_eq (fun p : ℝ × ℝ × ℝ => p.1) (xs.getD · 0) yf (xs.length - 2) i (x, y, z) (by omega) (incr xs ux) a1
      (a2.imp id fun h => by omega)]
    change _ = glue (fun p : ℝ × ℝ × ℝ => p.2.1) (ys.getD · 0) (zf i) (ys.length - 2) (x, y, z)
    rw [glue_eq (fun p : ℝ × ℝ × ℝ => p.2.1) (ys.getD · 0) (zf i) (ys.length - 2) j (x, y, z) (by omega) (incr ys uy) b1
      (b2.imp id fun h => by omega)]
    exact (glue_eq (fun p : ℝ × ℝ × ℝ => p.2.2) (zs.getD · 0) (fun k p => T.inCell i j k p.1 p.2.1 p.2.2)
      (zs.length - 2) k (x, y, z) (by omega) (incr zs uz) c1 (c2.imp id fun h => by omega)).symm

/-! ## Derivative tables -/

/-- The derivative tables: f_x, f_y, f_z are the spline derivatives of the data along x, y, z; f_xy and f_xz those of f_y and
f_z along x; f_xyz that of f_yz along x. Missing from the full claim: f_yz (`c26_mixed_table_violated`). -/
theorem c26_tables_partial (data : Grid3 K) (xs ys zs : List K) (T : TriCubic K)
    (h : TriCubic.make data xs ys zs = .ok T) (k j i : Nat) (hk : k < data.n0) (hj : j < data.n1) (hi : i < data.n2) :
    sliceDerivs (xs.getD · 0) (fun i => data.at_ k j i) data.n2 = .ok (fun i => T.dfdx k j i) ∧
    sliceDerivs (ys.getD · 0) (fun j => data.at_ k j i) data.n1 = .ok (fun j => T.dfdy k j i) ∧
    sliceDerivs (zs.getD · 0) (fun k => data.at_ k j i) data.n0 = .ok (fun k => T.dfdz k j i) ∧
    sliceDerivs (xs.getD · 0) (fun i => T.dfdy k j i) data.n2 = .ok (fun i => T.d2fdxdy k j i) ∧
    sliceDerivs (xs.getD · 0) (fun i => T.dfdz k j i) data.n2 = .ok (fun i => T.d2fdxdz k j i) ∧
    sliceDerivs (xs.getD · 0) (fun i => T.d2fdydz k j i) data.n2 = .ok (fun i => T.d3fdxdydz k j i) := by
  obtain ⟨_, _, _, _, _, _, _, _, t1, t2, t3, t4, t5, _, t7⟩ := make_ok h
  exact ⟨t1 k j hk hj, t2 k i hk hi, t3 j i hj hi, t4 k j hk hj, t5 k j hk hj, t7 k j hk hj⟩

/-- The table that should hold f_yz holds, for every point, the last row of the f_xz table. -/
theorem c26_mixed_table_violated (data : Grid3 K) (xs ys zs : List K) (T : TriCubic K)
    (h : TriCubic.make data xs ys zs = .ok T) (k j i : Nat) :
    T.d2fdydz k j i = T.d2fdxdz (data.n0 - 1) (data.n1 - 1) j := by
  obtain ⟨_, _, _, _, _, _, _, _, _, _, _, _, _, t6, _⟩ := make_ok h
  exact t6 k j i

/-- f(x,y,z) = y·z on the grid {0,1,2}³ is not reproduced: at (0, 1/3, 1/4) the interpolant gives 11/144, not 1/12. -/
theorem c26_yz_violated :
    (TriCubic.make ⟨3, 3, 3, fun k j _ => ((j : Rat) * (k : Rat))⟩ [0, 1, 2] [0, 1, 2] [0, 1, 2]).bind
      (fun T => T.eval 0 (1 / 3) (1 / 4)) = .ok (11 / 144) := by decide +kernel

/-- f(x,y,z) = x·z is not reproduced either, because the f_xz row is stored as f_yz: at (0, 1/3, 1/4) the value is 1/144,
not 0. -/
theorem c26_xz_violated :
    (TriCubic.make ⟨3, 3, 3, fun k _ i => ((i : Rat) * (k : Rat))⟩ [0, 1, 2] [0, 1, 2] [0, 1, 2]).bind
      (fun T => T.eval 0 (1 / 3) (1 / 4)) = .ok (1 / 144) := by decide +kernel

/-- Data of the form p + q·x + r·y + s·z + w·x·y are reproduced exactly everywhere. Missing from the full claim: terms
containing x·z or y·z. -/
theorem c26_exact_partial (data : Grid3 K) (xs ys zs : List K) (T : TriCubic K)
    (h : TriCubic.make data xs ys zs = .ok T) (hne : data.NonEmpty) (p q r s w : K)
    (hd : ∀ i j k, i < data.n2 → j < data.n1 → k < data.n0 →
      data.at_ k j i = p + q * xs.getD i 0 + r * ys.getD j 0 + s * zs.getD k 0 + w * xs.getD i 0 * ys.getD j 0)
    (x y z : K) : T.eval x y z = .ok (p + q * x + r * y + s * z + w * x * y) := by
  obtain ⟨i, j, k, hi, hj, hk, _, _, _, _, _, _, he⟩ := c26_query_in_range data xs ys zs T h hne x y z
  obtain ⟨h1, h2, h3, rfl, rfl, rfl, rfl, hU, t1, t2, t3, t4, t5, t6, t7⟩ := make_ok h
  obtain ⟨ux, uy, uz, hle⟩ := hU hne.1 hne.2.1 hne.2.2
  have dx : ∀ k j i, k < T.data.n0 → j < T.data.n1 → i < T.data.n2 → T.dfdx k j i = q + w * T.ys.getD j 0 :=
    fun k j i hk hj hi => sliceDerivs_line (p := p + r * T.ys.getD j 0 + s * T.zs.getD k 0) (t1 k j hk hj)
      (fun i hi => by rw [hd i j k hi hj hk]; ring) i hi
  have dy : ∀ k j i, k < T.data.n0 → j < T.data.n1 → i < T.data.n2 → T.dfdy k j i = r + w * T.xs.getD i 0 :=
    fun k j i hk hj hi => sliceDerivs_line (p := p + q * T.xs.getD i 0 + s * T.zs.getD k 0) (t2 k i hk hi)
      (fun j hj => by rw [hd i j k hi hj hk]; ring) j hj
  have dz : ∀ k j i, k < T.data.n0 → j < T.data.n1 → i < T.data.n2 → T.dfdz k j i = s :=
    fun k j i hk hj hi => sliceDerivs_line
      (p := p + q * T.xs.getD i 0 + r * T.ys.getD j 0 + w * T.xs.getD i 0 * T.ys.getD j 0) (t3 j i hj hi)
      (fun k hk => by rw [hd i j k hi hj hk]; ring) k hk
  have dxy : ∀ k j i, k < T.data.n0 → j < T.data.n1 → i < T.data.n2 → T.d2fdxdy k j i = w :=
    fun k j i hk hj hi => sliceDerivs_line (p := r) (t4 k j hk hj) (fun i hi => by rw [dy k j i hk hj hi]) i hi
  have dxz : ∀ k j i, k < T.data.n0 → j < T.data.n1 → i < T.data.n2 → T.d2fdxdz k j i = 0 :=
    fun k j i hk hj hi => sliceDerivs_line (p := s) (t5 k j hk hj) (fun i hi => by rw [dz k j i hk hj hi]; ring) i hi
  have dyz : ∀ k j i, k < T.data.n0 → j < T.data.n1 → i < T.data.n2 → T.d2fdydz k j i = 0 :=
    fun k j i hk hj hi => by rw [t6]; exact dxz _ _ _ (by omega) (by omega) (by omega)
  have dxyz : ∀ k j i, k < T.data.n0 → j < T.data.n1 → i < T.data.n2 → T.d3fdxdydz k j i = 0 :=
    fun k j i hk hj hi => sliceDerivs_line (p := 0) (t7 k j hk hj) (fun i hi => by rw [dyz k j i hk hj hi]; ring) i hi
  have ne : ∀ l : List K, Usable l → ∀ i, i + 1 < l.length → l.getD (i + 1) 0 - l.getD i 0 ≠ 0 := by
    intro l hl i hi h0
    exact absurd (sub_eq_zero.1 h0) (ne_of_gt (hl.2 i hi))
  rw [he]
  congr 1
  simp only [TriCubic.inCell, ← partialPoly_false, partialPoly_coeffs]
  obtain ⟨t, ht⟩ : ∃ t, t = (x - T.xs.getD i 0) / (T.xs.getD (i + 1) 0 - T.xs.getD i 0) := ⟨_, rfl⟩
  obtain ⟨u, hu⟩ : ∃ u, u = (y - T.ys.getD j 0) / (T.ys.getD (j + 1) 0 - T.ys.getD j 0) := ⟨_, rfl⟩
  obtain ⟨v, hv⟩ : ∃ v, v = (z - T.zs.getD k 0) / (T.zs.getD (k + 1) 0 - T.zs.getD k 0) := ⟨_, rfl⟩
  have hx : x = T.xs.getD i 0 + t * (T.xs.getD (i + 1) 0 - T.xs.getD i 0) := by
    rw [ht, div_mul_cancel₀ _ (ne _ ux i hi)]; ring
  have hy : y = T.ys.getD j 0 + u * (T.ys.getD (j + 1) 0 - T.ys.getD j 0) := by
    rw [hu, div_mul_cancel₀ _ (ne _ uy j hj)]; ring
  have hz : z = T.zs.getD k 0 + v * (T.zs.getD (k + 1) 0 - T.zs.getD k 0) := by
    rw [hv, div_mul_cancel₀ _ (ne _ uz k hk)]; ring
  have line : ∀ (t a b m : K), b = a + m → dherm false t a b m m = a + t * m := by
    intro t a b m hb
    subst hb
    simp only [dherm, dhorner, hc, Bool.false_eq_true, if_false]
    ring
  rw [← ht, ← hu, ← hv]
  simp only [TriCubic.collect]
  have i0 : i < T.data.n2 := by omega
  have i1 : i + 1 < T.data.n2 := by omega
  have j0 : j < T.data.n1 := by omega
  have j1 : j + 1 < T.data.n1 := by omega
  have k0 : k < T.data.n0 := by omega
  have k1 : k + 1 < T.data.n0 := by omega
  simp only [hd _ _ _ i0 j0 k0, hd _ _ _ i1 j0 k0, hd _ _ _ i0 j1 k0, hd _ _ _ i1 j1 k0, hd _ _ _ i0 j0 k1,
    hd _ _ _ i1 j0 k1, hd _ _ _ i0 j1 k1, hd _ _ _ i1 j1 k1,
    dx _ _ _ k0 j0 i0, dx _ _ _ k0 j0 i1, dx _ _ _ k0 j1 i0, dx _ _ _ k0 j1 i1, dx _ _ _ k1 j0 i0, dx _ _ _ k1 j0 i1,
    dx _ _ _ k1 j1 i0, dx _ _ _ k1 j1 i1,
    dy _ _ _ k0 j0 i0, dy _ _ _ k0 j0 i1, dy _ _ _ k0 j1 i0, dy _ _ _ k0 j1 i1, dy _ _ _ k1 j0 i0, dy _ _ _ k1 j0 i1,
    dy _ _ _ k1 j1 i0, dy _ _ _ k1 j1 i1,
    dz _ _ _ k0 j0 i0, dz _ _ _ k0 j0 i1, dz _ _ _ k0 j1 i0, dz _ _ _ k0 j1 i1, dz _ _ _ k1 j0 i0, dz _ _ _ k1 j0 i1,
    dz _ _ _ k1 j1 i0, dz _ _ _ k1 j1 i1,
    dxy _ _ _ k0 j0 i0, dxy _ _ _ k0 j0 i1, dxy _ _ _ k0 j1 i0, dxy _ _ _ k0 j1 i1, dxy _ _ _ k1 j0 i0,
    dxy _ _ _ k1 j0 i1, dxy _ _ _ k1 j1 i0, dxy _ _ _ k1 j1 i1,
    dxz _ _ _ k0 j0 i0, dxz _ _ _ k0 j0 i1, dxz _ _ _ k0 j1 i0, dxz _ _ _ k0 j1 i1, dxz _ _ _ k1 j0 i0,
    dxz _ _ _ k1 j0 i1, dxz _ _ _ k1 j1 i0, dxz _ _ _ k1 j1 i1,
    dyz _ _ _ k0 j0 i0, dyz _ _ _ k0 j0 i1, dyz _ _ _ k0 j1 i0, dyz _ _ _ k0 j1 i1, dyz _ _ _ k1 j0 i0,
    dyz _ _ _ k1 j0 i1, dyz _ _ _ k1 j1 i0, dyz _ _ _ k1 j1 i1,
    dxyz _ _ _ k0 j0 i0, dxyz _ _ _ k0 j0 i1, dxyz _ _ _ k0 j1 i0, dxyz _ _ _ k0 j1 i1, dxyz _ _ _ k1 j0 i0,
    dxyz _ _ _ k1 j0 i1, dxyz _ _ _ k1 j1 i0, dxyz _ _ _ k1 j1 i1, zero_mul]
  generalize T.xs.getD i 0 = X0 at *
  generalize T.xs.getD (i + 1) 0 = X1 at *
  generalize T.ys.getD j 0 = Y0 at *
  generalize T.ys.getD (j + 1) 0 = Y1 at *
  generalize T.zs.getD k 0 = Z0 at *
  generalize T.zs.getD (k + 1) 0 = Z1 at *
  repeat rw [line t _ _ _ (by ring)]
  repeat rw [line u _ _ _ (by ring)]
  rw [line v _ _ _ (by ring), hx, hy, hz]
  ring

/-- p + q·x + r·y + s·z + w·x·y = 1 + 2x + 3y + 4z + 5xy on a 3×3×4 grid, at a point between nodes. -/
example : (TriCubic.make ⟨3, 3, 4, fun k j i => 1 + 2 * (i : Rat) + 3 * j + 4 * k + 5 * i * j⟩ [0, 1, 2, 3] [0, 1, 2]
    [0, 1, 2]).bind (fun T => T.eval (5 / 2) (1 / 2) (7 / 3)) = .ok (1 + 5 + 3 / 2 + 28 / 3 + 25 / 4) := by
  decide +kernel

end Verif.Interp
