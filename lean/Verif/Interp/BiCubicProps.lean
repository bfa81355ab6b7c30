import Verif.Interp.GridLemmas
import Mathlib.Algebra.Order.Ring.Rat
import Mathlib.Topology.Algebra.Field
import Mathlib.Tactic.LinearCombination

/-!
# Property C25: `BiCubicInterpolator`
-/

set_option linter.unusedSectionVars false

namespace Verif.Interp

variable {K : Type} [Field K] [LinearOrder K] [IsStrictOrderedRing K]

private theorem usable_iff (xs : List K) : Usable xs ↔ 3 ≤ xs.length ∧ xs.Pairwise (· < ·) := by
  refine and_congr_right fun _ => ⟨fun h => ?_, fun h j hj => ?_⟩
  · rw [List.pairwise_iff_getElem]
    intro i j hi hj hij
    have := h.lt hij hj
    simpa [List.getD_eq_getElem?_getD, hi, hj] using this
  · rw [List.pairwise_iff_getElem] at h
    have := h j (j + 1) (by omega) hj (by omega)
    simpa [List.getD_eq_getElem?_getD, hj, show j < xs.length by omega] using this

/-- Construction in closed form. -/
private theorem make_spec (data : Grid2 K) (xs ys : List K) :
    (xs.length ≠ data.n1 ∨ ys.length ≠ data.n0 ∨ ((data.n0 ≠ 0 ∨ data.n1 ≠ 0) ∧ (¬ Usable xs ∨ ¬ Usable ys)) →
      BiCubic.make data xs ys = .throws) ∧
    (xs.length = data.n1 → ys.length = data.n0 → ((data.n0 = 0 ∧ data.n1 = 0) ∨ (Usable xs ∧ Usable ys)) →
      ∃ b, BiCubic.make data xs ys = .ok b) := by
  constructor
  · intro h
    simp only [BiCubic.make]
    by_cases hx : xs.length = data.n1
    · by_cases hy : ys.length = data.n0
      · rw [if_neg (not_not.2 hx), if_neg (not_not.2 hy)]
        have h : (data.n0 ≠ 0 ∨ data.n1 ≠ 0) ∧ (¬ Usable xs ∨ ¬ Usable ys) := by
          rcases h with h | h | h
          exacts [absurd hx h, absurd hy h, h]
        by_cases hU : Usable ys
        · have hy0 : 0 < data.n0 := by have := hU.1; omega
          have hUx : ¬ Usable xs := by rcases h.2 with h | h; exacts [h, absurd hU h]
          have cyok : ∃ t, (tabulate (fun _ => (0 : K)) data.n1 fun i =>
              sliceDerivs (ys.getD · 0) (fun j => data.at_ j i) data.n0) = .ok t := by
            have : ∀ i, ∃ d, sliceDerivs (ys.getD · 0) (fun j => data.at_ j i) data.n0 = .ok d := by
              intro i; rw [← hy]; exact sliceDerivs_ok hU.1 hU.2
            choose g hg using this
            obtain ⟨t, ht, _⟩ := tabulate_ok (d := fun _ => (0 : K)) (m := data.n1) (fun i _ => hg i)
            exact ⟨t, ht⟩
          obtain ⟨t, ht⟩ := cyok
          rw [ht, Outcome.bind_ok, tabulate_throws hy0 (fun i _ => sliceDerivs_throws (by rw [← hx]; exact hUx))]
          rfl
        · by_cases h1 : data.n1 = 0
          · have hy0 : 0 < data.n0 := by omega
            rw [h1]
            simp only [tabulate, Outcome.bind_ok]
            rw [tabulate_throws hy0 (fun i _ => sliceDerivs_throws (by omega))]
            rfl
          · rw [tabulate_throws (by omega) (fun i _ => sliceDerivs_throws (by rw [← hy]; exact hU))]
            rfl
      · rw [if_neg (not_not.2 hx), if_pos hy]
    · rw [if_pos hx]
  · intro hx hy h
    simp only [BiCubic.make]
    rw [if_neg (not_not.2 hx), if_neg (not_not.2 hy)]
    rcases h with ⟨h0, h1⟩ | ⟨hU, hV⟩
    · rw [h0, h1]; exact ⟨_, rfl⟩
    · have mk : ∀ (l : List K), Usable l → ∀ (m : Nat) (v : Nat → Nat → K),
          ∃ t, (tabulate (fun _ => (0 : K)) m fun i => sliceDerivs (l.getD · 0) (v i) l.length) = .ok t := by
        intro l hl m v
        have : ∀ i, ∃ d, sliceDerivs (l.getD · 0) (v i) l.length = .ok d := fun i => sliceDerivs_ok hl.1 hl.2
        choose g hg using this
        obtain ⟨t, ht, _⟩ := tabulate_ok (d := fun _ => (0 : K)) (m := m) (fun i _ => hg i)
        exact ⟨t, ht⟩
      obtain ⟨t1, h1⟩ := mk ys hV data.n1 (fun i j => data.at_ j i)
      obtain ⟨t2, h2⟩ := mk xs hU data.n0 (fun j i => data.at_ j i)
      obtain ⟨t3, h3⟩ := mk xs hU data.n0 (fun j i => t1 i j)
      rw [hy] at h1
      rw [hx] at h2 h3
      rw [h1, Outcome.bind_ok, h2, Outcome.bind_ok, h3, Outcome.bind_ok]
      exact ⟨_, rfl⟩

/-- What is known of a constructed interpolator with data. -/
private theorem make_ok {data : Grid2 K} {xs ys : List K} {b : BiCubic K} (h : BiCubic.make data xs ys = .ok b)
    (hne : data.n0 ≠ 0 ∨ data.n1 ≠ 0) :
    xs.length = data.n1 ∧ ys.length = data.n0 ∧ Usable xs ∧ Usable ys ∧ b.data = data ∧ b.xs = xs ∧ b.ys = ys ∧
    (∀ i, i < data.n1 → sliceDerivs (ys.getD · 0) (fun j => data.at_ j i) data.n0 = .ok (fun j => b.dzdy j i)) ∧
    (∀ j, j < data.n0 → sliceDerivs (xs.getD · 0) (fun i => data.at_ j i) data.n1 = .ok (fun i => b.dzdx j i)) ∧
    (∀ j, j < data.n0 → sliceDerivs (xs.getD · 0) (fun i => b.dzdy j i) data.n1 = .ok (fun i => b.dzdxdy j i)) := by
  have hc : ¬ (xs.length ≠ data.n1 ∨ ys.length ≠ data.n0 ∨
      ((data.n0 ≠ 0 ∨ data.n1 ≠ 0) ∧ (¬ Usable xs ∨ ¬ Usable ys))) := by
    intro hc
    rw [(make_spec data xs ys).1 hc] at h
    cases h
  have hx : xs.length = data.n1 := by by_contra e; exact hc (Or.inl e)
  have hy : ys.length = data.n0 := by by_contra e; exact hc (Or.inr (Or.inl e))
  have hU : Usable xs := by by_contra e; exact hc (Or.inr (Or.inr ⟨hne, Or.inl e⟩))
  have hV : Usable ys := by by_contra e; exact hc (Or.inr (Or.inr ⟨hne, Or.inr e⟩))
  simp only [BiCubic.make] at h
  rw [if_neg (not_not.2 hx), if_neg (not_not.2 hy)] at h
  cases h1 : (tabulate (fun _ => (0 : K)) data.n1 fun i =>
      sliceDerivs (ys.getD · 0) (fun j => data.at_ j i) data.n0) with
  | throws => rw [h1] at h; cases h
  | ub => rw [h1] at h; cases h
  | ok cy =>
    rw [h1, Outcome.bind_ok] at h
    cases h2 : (tabulate (fun _ => (0 : K)) data.n0 fun j =>
        sliceDerivs (xs.getD · 0) (fun i => data.at_ j i) data.n1) with
    | throws => rw [h2] at h; cases h
    | ub => rw [h2] at h; cases h
    | ok cx =>
      rw [h2, Outcome.bind_ok] at h
      cases h3 : (tabulate (fun _ => (0 : K)) data.n0 fun j =>
          sliceDerivs (xs.getD · 0) (fun i => cy i j) data.n1) with
      | throws => rw [h3] at h; cases h
      | ub => rw [h3] at h; cases h
      | ok cxy =>
        rw [h3, Outcome.bind_ok] at h
        cases h
        exact ⟨hx, hy, hU, hV, rfl, rfl, rfl, tabulate_inv h1, tabulate_inv h2, tabulate_inv h3⟩

/-! ## C25 -/

/-- The constructor throws exactly when a coordinate count does not match the table or, for a table that is not empty in both
directions, an axis has fewer than three or not strictly increasing coordinates. It never reads out of range. -/
theorem c25_constructor_throws_iff (data : Grid2 K) (xs ys : List K) :
    (BiCubic.make data xs ys = .throws ↔
      xs.length ≠ data.n1 ∨ ys.length ≠ data.n0 ∨
      ((data.n0 ≠ 0 ∨ data.n1 ≠ 0) ∧
        (¬ (3 ≤ xs.length ∧ xs.Pairwise (· < ·)) ∨ ¬ (3 ≤ ys.length ∧ ys.Pairwise (· < ·))))) ∧
    BiCubic.make data xs ys ≠ .ub := by
  rw [← usable_iff, ← usable_iff]
  obtain ⟨h1, h2⟩ := make_spec data xs ys
  by_cases hc : xs.length ≠ data.n1 ∨ ys.length ≠ data.n0 ∨
      ((data.n0 ≠ 0 ∨ data.n1 ≠ 0) ∧ (¬ Usable xs ∨ ¬ Usable ys))
  · rw [h1 hc]
    exact ⟨⟨fun _ => hc, fun _ => rfl⟩, (fun h => nomatch h)⟩
  · have hx : xs.length = data.n1 := by by_contra e; exact hc (Or.inl e)
    have hy : ys.length = data.n0 := by by_contra e; exact hc (Or.inr (Or.inl e))
    obtain ⟨b, hb⟩ := h2 hx hy (by
      by_cases h0 : data.n0 ≠ 0 ∨ data.n1 ≠ 0
      · right
        constructor
        · by_contra e; exact hc (Or.inr (Or.inr ⟨h0, Or.inl e⟩))
        · by_contra e; exact hc (Or.inr (Or.inr ⟨h0, Or.inr e⟩))
      · left; omega)
    rw [hb]
    exact ⟨⟨(fun h => nomatch h), fun h => absurd h hc⟩, (fun h => nomatch h)⟩

/-- At every grid node the interpolant takes the tabulated value. -/
theorem c25_reproduces_nodes (data : Grid2 K) (xs ys : List K) (b : BiCubic K) (h : BiCubic.make data xs ys = .ok b)
    (i j : Nat) (x y : K) (hx : xs[i]? = some x) (hy : ys[j]? = some y) : b.eval x y = .ok (data.at_ j i) := by
  have hi : i < xs.length := (List.getElem?_eq_some_iff.1 hx).1
  have hj : j < ys.length := (List.getElem?_eq_some_iff.1 hy).1
  have hne : data.n0 ≠ 0 ∨ data.n1 ≠ 0 := by
    by_contra hc
    have hlen : ¬ (xs.length ≠ data.n1 ∨ ys.length ≠ data.n0 ∨
      ((data.n0 ≠ 0 ∨ data.n1 ≠ 0) ∧ (¬ Usable xs ∨ ¬ Usable ys))) := by
      intro hc; rw [(make_spec data xs ys).1 hc] at h; cases h
    have : xs.length = data.n1 := by by_contra e; exact hlen (Or.inl e)
    omega
  obtain ⟨h1, h2, hU, hV, rfl, rfl, rfl, _⟩ := make_ok h hne
  have ex : x = b.xs.getD i 0 := by rw [List.getD_eq_getElem?_getD, hx]; rfl
  have ey : y = b.ys.getD j 0 := by rw [List.getD_eq_getElem?_getD, hy]; rfl
  obtain ⟨p, hp, hp1, hp2⟩ := cell_node hU hi
  obtain ⟨q, hq, hq1, hq2⟩ := cell_node hV hj
  have h0 : b.data.n0 * b.data.n1 ≠ 0 := Nat.mul_ne_zero (by omega) (by omega)
  subst ex ey
  simp only [BiCubic.eval, if_neg h0, hp, hq]
  rw [if_pos ⟨by omega, by omega⟩]
  simp only [BiCubic.inCell]
  rcases hp2 with ⟨e1, e2⟩ | ⟨e1, e2⟩ <;> rcases hq2 with ⟨e3, e4⟩ | ⟨e3, e4⟩ <;>
  · rw [e2, e4]
    subst e1 e3
    simp only [cellPoly, BiCubic.corners]
    congr 1
    ring

/-- On the edge shared by two horizontally adjacent cells both give the same value, at every height. -/
theorem c25_cells_agree_x (data : Grid2 K) (xs ys : List K) (b : BiCubic K) (h : BiCubic.make data xs ys = .ok b)
    (i j : Nat) (hi : i + 2 < xs.length) (y : K) :
    b.inCell i j (xs.getD (i + 1) 0) y = b.inCell (i + 1) j (xs.getD (i + 1) 0) y := by
  have hne : data.n0 ≠ 0 ∨ data.n1 ≠ 0 := by
    by_contra hc
    have hlen : ¬ (xs.length ≠ data.n1 ∨ ys.length ≠ data.n0 ∨
      ((data.n0 ≠ 0 ∨ data.n1 ≠ 0) ∧ (¬ Usable xs ∨ ¬ Usable ys))) := by
      intro hc; rw [(make_spec data xs ys).1 hc] at h; cases h
    have : xs.length = data.n1 := by by_contra e; exact hlen (Or.inl e)
    omega
  obtain ⟨h1, h2, hU, hV, rfl, rfl, rfl, _⟩ := make_ok h hne
  have hne : b.xs.getD (i + 1) 0 - b.xs.getD i 0 ≠ 0 := by
    have := hU.2 i (by omega)
    intro h0
    exact absurd (sub_eq_zero.1 h0) (ne_of_gt this)
  simp only [BiCubic.inCell, div_self hne, sub_self, zero_div]
  simp only [cellPoly, BiCubic.corners]
  ring

/-- On the edge shared by two vertically adjacent cells both give the same value. -/
theorem c25_cells_agree_y (data : Grid2 K) (xs ys : List K) (b : BiCubic K) (h : BiCubic.make data xs ys = .ok b)
    (i j : Nat) (hj : j + 2 < ys.length) (x : K) :
    b.inCell i j x (ys.getD (j + 1) 0) = b.inCell i (j + 1) x (ys.getD (j + 1) 0) := by
  have hne : data.n0 ≠ 0 ∨ data.n1 ≠ 0 := by
    by_contra hc
    have hlen : ¬ (xs.length ≠ data.n1 ∨ ys.length ≠ data.n0 ∨
      ((data.n0 ≠ 0 ∨ data.n1 ≠ 0) ∧ (¬ Usable xs ∨ ¬ Usable ys))) := by
      intro hc; rw [(make_spec data xs ys).1 hc] at h; cases h
    have : ys.length = data.n0 := by by_contra e; exact hlen (Or.inr (Or.inl e))
    omega
  obtain ⟨h1, h2, hU, hV, rfl, rfl, rfl, _⟩ := make_ok h hne
  have hne : b.ys.getD (j + 1) 0 - b.ys.getD j 0 ≠ 0 := by
    have := hV.2 j (by omega)
    intro h0
    exact absurd (sub_eq_zero.1 h0) (ne_of_gt this)
  simp only [BiCubic.inCell, div_self hne, sub_self, zero_div]
  simp only [cellPoly, BiCubic.corners]
  ring

/-- Every query, inside or outside the table, is answered by the polynomial of a cell of the grid: the cell that contains the
point, or along each axis the border cell when the point is outside. -/
theorem c25_query_in_range (data : Grid2 K) (xs ys : List K) (b : BiCubic K) (h : BiCubic.make data xs ys = .ok b)
    (hne : data.n0 ≠ 0 ∨ data.n1 ≠ 0) (x y : K) :
    ∃ i j, i + 1 < xs.length ∧ j + 1 < ys.length ∧ i + 1 < data.n1 ∧ j + 1 < data.n0 ∧
      (xs.getD i 0 ≤ x ∨ i = 0) ∧ (x < xs.getD (i + 1) 0 ∨ i + 2 = xs.length) ∧
      (ys.getD j 0 ≤ y ∨ j = 0) ∧ (y < ys.getD (j + 1) 0 ∨ j + 2 = ys.length) ∧
      b.eval x y = .ok (b.inCell i j x y) := by
  obtain ⟨h1, h2, hU, hV, rfl, rfl, rfl, _⟩ := make_ok h hne
  obtain ⟨i, a1, a2, a3, a4⟩ := cell_spec hU x
  obtain ⟨j, b1, b2, b3, b4⟩ := cell_spec hV y
  refine ⟨i, j, a2, b2, by omega, by omega, a3, a4, b3, b4, ?_⟩
  have h0 : b.data.n0 * b.data.n1 ≠ 0 := Nat.mul_ne_zero (by omega) (by omega)
  simp only [BiCubic.eval, if_neg h0, a1, b1]
  rw [if_pos ⟨by omega, by omega⟩]

/-- An interpolator without data evaluates to 0. -/
theorem c25_empty (x y : K) : (BiCubic.empty : BiCubic K).eval x y = .ok 0 := by
  simp [BiCubic.eval, BiCubic.empty]

/-- Data of the form p + q·x + r·y + s·x·y are reproduced exactly everywhere: the derivative tables along each axis and the
mixed one are those of the function. -/
theorem c25_bilinear_exact (data : Grid2 K) (xs ys : List K) (b : BiCubic K) (h : BiCubic.make data xs ys = .ok b)
    (hne : data.n0 ≠ 0 ∨ data.n1 ≠ 0) (p q r s : K)
    (hd : ∀ i j, i < data.n1 → j < data.n0 →
      data.at_ j i = p + q * xs.getD i 0 + r * ys.getD j 0 + s * xs.getD i 0 * ys.getD j 0) (x y : K) :
    b.eval x y = .ok (p + q * x + r * y + s * x * y) := by
  obtain ⟨i, j, _, _, hi, hj, _, _, _, _, he⟩ := c25_query_in_range data xs ys b h hne x y
  obtain ⟨h1, h2, hU, hV, rfl, rfl, rfl, ty, tx, txy⟩ := make_ok h hne
  have dy : ∀ i j, i < b.data.n1 → j < b.data.n0 → b.dzdy j i = r + s * b.xs.getD i 0 := fun i j hi hj =>
    sliceDerivs_line (p := p + q * b.xs.getD i 0) (ty i hi) (fun j hj => by rw [hd i j hi hj]; ring) j hj
  have dx : ∀ i j, i < b.data.n1 → j < b.data.n0 → b.dzdx j i = q + s * b.ys.getD j 0 := fun i j hi hj =>
    sliceDerivs_line (p := p + r * b.ys.getD j 0) (tx j hj) (fun i hi => by rw [hd i j hi hj]; ring) i hi
  have dxy : ∀ i j, i < b.data.n1 → j < b.data.n0 → b.dzdxdy j i = s := fun i j hi hj =>
    sliceDerivs_line (p := r) (txy j hj) (fun i hi => by rw [dy i j hi hj]) i hi
  have nx : b.xs.getD (i + 1) 0 - b.xs.getD i 0 ≠ 0 := by
    have := hU.2 i (by omega)
    intro h0
    exact absurd (sub_eq_zero.1 h0) (ne_of_gt this)
  have ny : b.ys.getD (j + 1) 0 - b.ys.getD j 0 ≠ 0 := by
    have := hV.2 j (by omega)
    intro h0
    exact absurd (sub_eq_zero.1 h0) (ne_of_gt this)
  rw [he]
  congr 1
  simp only [BiCubic.inCell]
  obtain ⟨t, ht⟩ : ∃ t, t = (x - b.xs.getD i 0) / (b.xs.getD (i + 1) 0 - b.xs.getD i 0) := ⟨_, rfl⟩
  obtain ⟨u, hu⟩ : ∃ u, u = (y - b.ys.getD j 0) / (b.ys.getD (j + 1) 0 - b.ys.getD j 0) := ⟨_, rfl⟩
  have hx : x = b.xs.getD i 0 + t * (b.xs.getD (i + 1) 0 - b.xs.getD i 0) := by
    rw [ht, div_mul_cancel₀ _ nx]; ring
  have hy : y = b.ys.getD j 0 + u * (b.ys.getD (j + 1) 0 - b.ys.getD j 0) := by
    rw [hu, div_mul_cancel₀ _ ny]; ring
  rw [← ht, ← hu]
  simp only [cellPoly, BiCubic.corners]
  rw [dy i j (by omega) (by omega), dy (i + 1) j (by omega) (by omega), dy i (j + 1) (by omega) (by omega),
    dy (i + 1) (j + 1) (by omega) (by omega), dx i j (by omega) (by omega), dx (i + 1) j (by omega) (by omega),
    dx i (j + 1) (by omega) (by omega), dx (i + 1) (j + 1) (by omega) (by omega), dxy i j (by omega) (by omega),
    dxy (i + 1) j (by omega) (by omega), dxy i (j + 1) (by omega) (by omega),
    dxy (i + 1) (j + 1) (by omega) (by omega),
    hd i j (by omega) (by omega), hd (i + 1) j (by omega) (by omega), hd i (j + 1) (by omega) (by omega),
    hd (i + 1) (j + 1) (by omega) (by omega), hx, hy]
  ring

/-- The interpolant is a continuous function on the whole plane. -/
theorem c25_continuous (data : Grid2 ℝ) (xs ys : List ℝ) (b : BiCubic ℝ) (h : BiCubic.make data xs ys = .ok b) :
    ∃ f : ℝ × ℝ → ℝ, Continuous f ∧ ∀ x y, b.eval x y = .ok (f (x, y)) := by
  by_cases hne : data.n0 ≠ 0 ∨ data.n1 ≠ 0
  · obtain ⟨h1, h2, hU, hV, e1, e2, e3, _⟩ := make_ok h hne
    let col : Nat → ℝ × ℝ → ℝ := fun i =>
      glue (fun p : ℝ × ℝ => p.2) (ys.getD · 0) (fun j p => b.inCell i j p.1 p.2) (ys.length - 2)
    have incr_y : ∀ j, j + 1 ≤ ys.length - 2 → ys.getD j 0 < ys.getD (j + 1) 0 := fun j hj => hV.2 j (by omega)
    have incr_x : ∀ j, j + 1 ≤ xs.length - 2 → xs.getD j 0 < xs.getD (j + 1) 0 := fun j hj => hU.2 j (by omega)
    have hcell : ∀ i j, Continuous fun p : ℝ × ℝ => b.inCell i j p.1 p.2 := by
      intro i j
      unfold BiCubic.inCell cellPoly
      fun_prop
    have hcol : ∀ i, Continuous (col i) := by
      intro i
      refine glue_continuous (by fun_prop) incr_y (fun j _ => hcell i j) ?_
      intro j p hj hp
      have := c25_cells_agree_y data xs ys b h i j (by omega) p.1
      rw [hp]; exact this
    refine ⟨glue (fun p : ℝ × ℝ => p.1) (xs.getD · 0) col (xs.length - 2), ?_, ?_⟩
    · refine glue_continuous (by fun_prop) incr_x (fun i _ => hcol i) ?_
      intro i p hi hp
      have key : ∀ k, glue (fun p : ℝ × ℝ => p.2) (ys.getD · 0) (fun j p => b.inCell i j p.1 p.2) k p =
          glue (fun p : ℝ × ℝ => p.2) (ys.getD · 0) (fun j p => b.inCell (i + 1) j p.1 p.2) k p := by
        intro k
        have one : ∀ j, b.inCell i j p.1 p.2 = b.inCell (i + 1) j p.1 p.2 := by
          intro j
          have := c25_cells_agree_x data xs ys b h i j (by omega) p.2
          rw [hp]; exact this
        induction k with
        | zero => exact one 0
        | succ k ih => simp only [glue]; rw [one, ih]
      exact key _
    · intro x y
      obtain ⟨i, j, hi, hj, _, _, a1, a2, b1, b2, he⟩ := c25_query_in_range data xs ys b h hne x y
      rw [he]
      congr 1
      rw [glue_eq (fun p : ℝ × ℝ => p.1) (xs.getD · 0) col (xs.length - 2) i (x, y) (by omega) incr_x a1
        (a2.imp id fun h => by omega)]
      exact (glue_eq (fun p : ℝ × ℝ => p.2) (ys.getD · 0) (fun j p => b.inCell i j p.1 p.2) (ys.length - 2) j (x, y)
        (by omega) incr_y b1 (b2.imp id fun h => by omega)).symm
  · refine ⟨fun _ => 0, continuous_const, fun x y => ?_⟩
    have h0 : data.n0 = 0 := by omega
    have hb : b.data = data := by
      simp only [BiCubic.make] at h
      split at h
      · cases h
      split at h
      · cases h
      have h1 : data.n1 = 0 := by omega
      rw [h0, h1] at h
      simp only [tabulate, Outcome.bind_ok] at h
      cases h; rfl
    simp [BiCubic.eval, hb, h0]

/-- A 3 by 4 table of (x+1)·y² at x = 0, 1, 3, 4 and y = 0, 1, 2: two nodes and a query between nodes. -/
example : let b := BiCubic.make ⟨3, 4, fun j i => ([0, 1, 3, 4].getD i 0 + 1) * (j : Rat) ^ 2⟩ [0, 1, 3, 4] [0, 1, 2]
    b.bind (·.eval 3 2) = .ok 16 ∧ b.bind (·.eval 4 1) = .ok 5 ∧ b.bind (·.eval 2 (1 / 2)) = .ok (3 / 4) := by
  decide +kernel

end Verif.Interp
