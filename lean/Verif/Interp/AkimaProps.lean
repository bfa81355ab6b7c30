import Verif.Interp.AkimaLemmas
import Mathlib.Analysis.Calculus.Deriv.Pow
import Mathlib.Analysis.Calculus.Deriv.Mul
import Mathlib.Analysis.Calculus.Deriv.Add
import Mathlib.Topology.Instances.Real.Lemmas
import Mathlib.Algebra.Order.Ring.Rat

/-!
# Properties C21-C24: `AkimaSpline`

A table is a pair of vectors `x`, `y`; `ofVectors x y = .ok s` says that the constructor returned the spline `s`.
-/

set_option linter.unusedSectionVars false

namespace Verif.Interp

variable {K : Type} [Field K] [LinearOrder K] [IsStrictOrderedRing K]

/-! ## Preliminaries -/

private theorem increasing_iff (x : List K) : Increasing (x.getD · 0) x.length ↔ x.Pairwise (· < ·) := by
  constructor
  · intro h
    rw [List.pairwise_iff_getElem]
    intro i j hi hj hij
    have := h.lt hij hj
    simpa [List.getD_eq_getElem?_getD, hi, hj] using this
  · intro h j hj
    rw [List.pairwise_iff_getElem] at h
    have := h j (j + 1) (by omega) hj (by omega)
    simpa [List.getD_eq_getElem?_getD, hj, show j < x.length by omega] using this

theorem ofVectors_ok {x y : List K} {s : Spline K} (h : ofVectors x y = .ok s) :
    x.length = y.length ∧ 3 ≤ x.length ∧ Increasing (x.getD · 0) x.length ∧
    akimaInit (x.getD · 0) (y.getD · 0) x.length = .ok s ∧
    s = ⟨(List.range (x.length - 1)).map (segAt (x.getD · 0) (y.getD · 0) x.length), x.getD (x.length - 1) 0,
      y.getD (x.length - 1) 0⟩ := by
  simp only [ofVectors] at h
  split at h
  · rename_i hl
    have h' := h
    rw [akimaInit_spec] at h
    split at h
    · rename_i hc
      cases h
      exact ⟨hl, hc.1, hc.2, h', rfl⟩
    · cases h
  · cases h

theorem getD_of {l : List K} {i : Nat} {a : K} (h : l[i]? = some a) : l.getD i 0 = a := by
  rw [List.getD_eq_getElem?_getD, h]; rfl

theorem lt_of_get {l : List K} {i : Nat} {a : K} (h : l[i]? = some a) : i < l.length := by
  exact (List.getElem?_eq_some_iff.1 h).1

theorem segs_get {x y : List K} {s : Spline K} (h : ofVectors x y = .ok s) {k : Nat} {g : Seg K}
    (hg : s.segs[k]? = some g) : k + 1 < x.length ∧ g = segAt (x.getD · 0) (y.getD · 0) x.length k := by
  obtain ⟨_, hn, _, _, rfl⟩ := ofVectors_ok h
  simp only [List.getElem?_map, Option.map_eq_some_iff] at hg
  obtain ⟨k', hk, rfl⟩ := hg
  have := List.getElem?_eq_some_iff.1 hk
  obtain ⟨h1, h2⟩ := this
  simp at h1 h2
  subst h2
  exact ⟨by omega, rfl⟩

/-! ## C21 -/

/-- The spline takes the tabulated value at every node, the last one included. -/
theorem c21_passes_through_nodes (x y : List K) (s : Spline K) (h : ofVectors x y = .ok s) (i : Nat) (a b : K)
    (ha : x[i]? = some a) (hb : y[i]? = some b) : s.eval a = .ok b := by
  obtain ⟨hl, hn, hi, hs, _⟩ := ofVectors_ok h
  have hlt := lt_of_get ha
  by_cases hlast : i + 1 < x.length
  · have := eval_segment hn hi hs (v := a) (k := i) hlast (by rw [getD_of ha]) (by
      intro h2; have := hi i hlast; simp only [getD_of ha] at this; exact this)
    rw [this]
    have e := segAt_start (x.getD · 0) (y.getD · 0) x.length i
    simp only [getD_of ha, getD_of hb] at e
    rw [e]
  · obtain ⟨k, rfl⟩ : ∃ k, i = k + 1 := ⟨i - 1, by omega⟩
    have hlt' := hi k hlt
    have := eval_segment hn hi hs (v := a) (k := k) hlt (by simp only [getD_of ha] at hlt'; exact le_of_lt hlt') (by omega)
    rw [this]
    have e := segAt_end (x := (x.getD · 0)) (y := (y.getD · 0)) (n := x.length) hlt hlt'
    simp only [getD_of ha, getD_of hb] at e
    rw [e]

/-- There is one segment per interval, anchored at the interval's left end; a query inside an interval is answered by
that interval's segment, a query before the first node by the first segment, a query from the second to last node on by the
last segment. -/
theorem c21_segment_selection (x y : List K) (s : Spline K) (h : ofVectors x y = .ok s) :
    s.segs.length + 1 = x.length ∧
    (∀ (k : Nat) (g : Seg K) (a : K), s.segs[k]? = some g → x[k]? = some a → g.x = a) ∧
    (∀ (k : Nat) (g : Seg K) (a b v : K), s.segs[k]? = some g → x[k]? = some a → x[k + 1]? = some b →
      a ≤ v → v < b → s.eval v = .ok (g.eval v)) ∧
    (∀ (g : Seg K) (a v : K), s.segs.head? = some g → x.head? = some a → v < a → s.eval v = .ok (g.eval v)) ∧
    (∀ (g : Seg K) (a v : K), s.segs.getLast? = some g → x.getLast? = some a → a ≤ v → s.eval v = .ok (g.eval v)) := by
  have h' := h
  obtain ⟨hl, hn, hi, hs, e⟩ := ofVectors_ok h
  have hlen : s.segs.length = x.length - 1 := by rw [e]; simp
  refine ⟨by omega, ?_, ?_, ?_, ?_⟩
  · intro k g a hg ha
    obtain ⟨_, rfl⟩ := segs_get h' hg
    exact getD_of ha
  · intro k g a b v hg ha hb h1 h2
    obtain ⟨hk, rfl⟩ := segs_get h' hg
    exact eval_segment hn hi hs hk (by rwa [getD_of ha]) (fun _ => by rwa [getD_of hb])
  · intro g a v hg ha hv
    rw [List.head?_eq_getElem?] at hg ha
    obtain ⟨hk, rfl⟩ := segs_get h' hg
    exact eval_before hs (by rwa [getD_of ha])
  · intro g a v hg ha hv
    rw [List.getLast?_eq_getElem?, hlen] at hg
    rw [List.getLast?_eq_getElem?] at ha
    obtain ⟨hk, rfl⟩ := segs_get h' hg
    refine eval_segment hn hi hs hk ?_ (by omega)
    have := hi.lt (i := x.length - 1 - 1) (j := x.length - 1) (by omega) (by omega)
    simp only [getD_of ha] at this
    exact le_trans (le_of_lt this) hv

/-- The two segments meeting at a node take the same value there. -/
theorem c21_pieces_agree (x y : List K) (s : Spline K) (h : ofVectors x y = .ok s) (k : Nat) (g g' : Seg K)
    (hg : s.segs[k]? = some g) (hg' : s.segs[k + 1]? = some g') : g.eval g'.x = g'.eval g'.x := by
  obtain ⟨hl, hn, hi, hs, _⟩ := ofVectors_ok h
  obtain ⟨hk, rfl⟩ := segs_get h hg
  obtain ⟨hk', rfl⟩ := segs_get h hg'
  have e1 := segAt_end (x := (x.getD · 0)) (y := (y.getD · 0)) (n := x.length) hk (hi k hk)
  have e2 := segAt_start (x.getD · 0) (y.getD · 0) x.length (k + 1)
  exact e1.trans e2.symm

/-- `getAbscissas` and `getOrdinates` give the table back. -/
theorem c21_accessors (x y : List K) (s : Spline K) (h : ofVectors x y = .ok s) :
    s.abscissas = x ∧ s.ordinates = y := by
  obtain ⟨hl, hn, hi, hs, rfl⟩ := ofVectors_ok h
  have key : ∀ l : List K, l.length = x.length →
      (List.range (x.length - 1)).map (l.getD · 0) ++ [l.getD (x.length - 1) 0] = l := by
    intro l hll
    apply List.ext_getElem?
    intro i
    by_cases hi : i < x.length - 1
    · rw [List.getElem?_append_left (by simpa using hi)]
      simp [hi, show i < l.length by omega]
    · by_cases hi' : i = x.length - 1
      · rw [List.getElem?_append_right (by simp; omega)]
        simp [hi', show x.length - 1 < l.length by omega]
      · rw [List.getElem?_eq_none (by simp; omega), List.getElem?_eq_none (by omega)]
  refine ⟨?_, ?_⟩
  · simp only [Spline.abscissas, List.map_map]
    exact key x rfl
  · simp only [Spline.ordinates, List.map_map]
    exact key y hl.symm

example : ∃ s, ofVectors [0, 1, 3, 4] [2, 5, 4, (9 : Rat)] = .ok s ∧ s.eval 4 = .ok 9 ∧ s.eval 1 = .ok 5 ∧
    s.eval 2 = .ok (9 / 2) ∧ s.eval (-1) = .ok (-95 / 18) ∧ s.segs.length = 3 ∧ s.abscissas = [0, 1, 3, 4] :=
  ⟨⟨[⟨0, 2, 19 / 4, -77 / 36, 7 / 18⟩, ⟨1, 5, 59 / 36, -77 / 24, 77 / 72⟩, ⟨3, 4, 59 / 36, 143 / 36, -11 / 18⟩], 4, 9⟩,
    by decide +kernel⟩

/-! ### Continuity on the real line -/

theorem Seg.continuous_eval (g : Seg ℝ) : Continuous g.eval := by
  unfold Seg.eval
  fun_prop

/-- The value of a spline as a chain of comparisons. -/
private noncomputable def chain (x y : Nat → ℝ) (n : Nat) : Nat → ℝ → ℝ
  | 0 => (segAt x y n 0).eval
  | k + 1 => fun v => if x (k + 1) ≤ v then (segAt x y n (k + 1)).eval v else chain x y n k v

private theorem chain_at (x y : Nat → ℝ) (n k : Nat) (v : ℝ) (h : x k ≤ v) :
    chain x y n k v = (segAt x y n k).eval v := by
  cases k with
  | zero => rfl
  | succ k => simp only [chain]; rw [if_pos h]

private theorem chain_continuous (x y : Nat → ℝ) (n k : Nat) (hi : Increasing x n) (hk : k + 1 < n) :
    Continuous (chain x y n k) := by
  induction k with
  | zero => exact Seg.continuous_eval _
  | succ k ih =>
    refine Continuous.if_le (Seg.continuous_eval _) (ih (by omega)) continuous_const continuous_id ?_
    intro v hv
    subst hv
    rw [segAt_start, chain_at _ _ _ _ _ (le_of_lt (hi k (by omega))), segAt_end (by omega) (hi k (by omega))]

private theorem chain_eval {x y : Nat → ℝ} {n : Nat} {s : Spline ℝ} (hn : 3 ≤ n) (hi : Increasing x n)
    (hs : akimaInit x y n = .ok s) (v : ℝ) : s.eval v = .ok (chain x y n (n - 2) v) := by
  have low : ∀ k j, k + 1 < n → j ≤ k → (∀ i, j < i → i ≤ k → v < x i) →
      chain x y n k v = chain x y n j v := by
    intro k j hk hj hlt
    induction k with
    | zero => have : j = 0 := by omega
              rw [this]
    | succ k ih =>
      by_cases e : j = k + 1
      · rw [e]
      · rw [← ih (by omega) (by omega) (fun i h1 h2 => hlt i h1 (by omega))]
        simp only [chain]
        rw [if_neg (not_le.2 (hlt (k + 1) (by omega) (by omega)))]
  by_cases h0 : v < x 0
  · rw [eval_before hs h0, low (n - 2) 0 (by omega) (by omega)]
    · rfl
    · intro i h1 h2
      exact lt_trans h0 (hi.lt h1 (by omega))
  · obtain ⟨k, hk, h1, h2⟩ := exists_segment (x := x) (n := n) (by omega) v (not_lt.1 h0)
    rw [eval_segment hn hi hs hk h1 h2, low (n - 2) k (by omega) (by omega), chain_at _ _ _ _ _ h1]
    intro i hki hi2
    have h3 := h2 (by omega)
    rcases Nat.eq_or_lt_of_le (show k + 1 ≤ i from hki) with e | e
    · rw [← e]; exact h3
    · exact lt_trans h3 (hi.lt e (by omega))

/-- The interpolant is a continuous function on the whole real line, extrapolation included. -/
theorem c21_continuous (x y : List ℝ) (s : Spline ℝ) (h : ofVectors x y = .ok s) :
    ∃ f : ℝ → ℝ, Continuous f ∧ ∀ v, s.eval v = .ok (f v) := by
  obtain ⟨hl, hn, hi, hs, _⟩ := ofVectors_ok h
  exact ⟨_, chain_continuous _ _ _ (x.length - 2) hi (by omega), chain_eval hn hi hs⟩

/-! ## C22 -/

/-- The slope of the chord from point `i` to point `i+1` of the table. -/
def secant (x y : List K) (i : Nat) : K :=
  (y.getD (i + 1) 0 - y.getD i 0) / (x.getD (i + 1) 0 - x.getD i 0)

/-- The table has a corner at node `j`: two equal chords before it and two equal chords, of another slope, after it. -/
def Corner (x y : List K) (j : Nat) : Prop :=
  2 ≤ j ∧ j + 2 < x.length ∧ secant x y (j - 2) = secant x y (j - 1) ∧ secant x y j = secant x y (j + 1) ∧
    secant x y (j - 1) ≠ secant x y j

theorem tangents_ne_iff {x y : List K} (hn : 3 ≤ x.length) {k : Nat} (hk : k + 2 < x.length) :
    tLeft (x.getD · 0) (y.getD · 0) x.length k ≠ tRight (x.getD · 0) (y.getD · 0) x.length (k + 1) ↔
      Corner x y (k + 1) := by
  have hm : ∀ i : Nat, i + 1 < x.length → mHelper (x.getD · 0) (y.getD · 0) x.length i = secant x y i :=
    fun i hi => mHelper_nat hi
  have a1 : (k : Int) + 1 - 2 = k - 1 := by omega
  have a2 : (k : Int) + 1 - 1 = k := by omega
  have a3 : ((k + 1 : Nat) : Int) = k + 1 := by omega
  have a4 : (k : Int) + 1 + 1 = k + 2 := by omega
  have mk : mHelper (x.getD · 0) (y.getD · 0) x.length k = secant x y k := hm k (by omega)
  have mk1 : mHelper (x.getD · 0) (y.getD · 0) x.length (k + 1) = secant x y (k + 1) := hm (k + 1) (by omega)
  have hne : tLeft (x.getD · 0) (y.getD · 0) x.length k ≠ tRight (x.getD · 0) (y.getD · 0) x.length (k + 1) ↔
      (mHelper (x.getD · 0) (y.getD · 0) x.length (k - 1) = secant x y k ∧
       secant x y (k + 1) = mHelper (x.getD · 0) (y.getD · 0) x.length (k + 2) ∧
       secant x y k ≠ secant x y (k + 1)) := by
    simp only [tLeft, tRight, a3, a1, a2, a4, mk, mk1]
    generalize mHelper (x.getD · 0) (y.getD · 0) x.length (k - 1) = p
    generalize mHelper (x.getD · 0) (y.getD · 0) x.length (k + 2) = q
    generalize secant x y k = u
    generalize secant x y (k + 1) = w
    by_cases hN : |p - u| + |w - q| > 0
    · rw [if_pos hN, if_pos hN]
      constructor
      · intro h; exact absurd rfl h
      · rintro ⟨rfl, rfl, _⟩
        simp at hN
    · rw [if_neg hN, if_neg hN]
      have h1 := abs_nonneg (p - u)
      have h2 := abs_nonneg (w - q)
      have e1 : p = u := by
        have : |p - u| = 0 := by linarith
        exact sub_eq_zero.1 (abs_eq_zero.1 this)
      have e2 : w = q := by
        have : |w - q| = 0 := by linarith
        exact sub_eq_zero.1 (abs_eq_zero.1 this)
      constructor
      · intro h; exact ⟨e1, e2, h⟩
      · rintro ⟨_, _, h⟩; exact h
  rw [hne]
  constructor
  · rintro ⟨h1, h2, h3⟩
    have hk0 : k ≠ 0 := by
      rintro rfl
      apply h3
      simp only [mHelper] at h1
      norm_num at h1
      change 2 * secant x y 0 - secant x y 1 = secant x y 0 at h1
      rw [show 0 + 1 = 1 from rfl]
      linarith
    have hke : k + 3 < x.length := by
      by_contra hc
      have e : x.length = k + 3 := by omega
      apply h3
      simp only [mHelper] at h2
      rw [e] at h2
      rw [if_neg (by omega), if_neg (by omega), if_pos (by push_cast; omega)] at h2
      change secant x y (k + 1) = 2 * secant x y (k + 1) - secant x y k at h2
      linarith
    refine ⟨by omega, by omega, ?_, ?_, h3⟩
    · rw [show k + 1 - 2 = k - 1 from rfl, show k + 1 - 1 = k from rfl, ← h1, ← hm (k - 1) (by omega)]
      congr 1; omega
    · rw [h2, ← hm (k + 1 + 1) (by omega)]
      congr 1
  · rintro ⟨h1, h2, h3, h4, h5⟩
    refine ⟨?_, ?_, h5⟩
    · rw [show k + 1 - 2 = k - 1 from rfl, show k + 1 - 1 = k from rfl, ← hm (k - 1) (by omega)] at h3
      rw [← h3]
      congr 1; omega
    · rw [h4, ← hm (k + 1 + 1) (by omega)]
      congr 1

/-- At an interior node the derivatives of the two pieces agree unless the table has a corner there, and then they
differ. -/
theorem c22_smooth_iff_no_corner_partial (x y : List K) (s : Spline K) (h : ofVectors x y = .ok s) (k : Nat)
    (g g' : Seg K) (hg : s.segs[k]? = some g) (hg' : s.segs[k + 1]? = some g') :
    g.derivative g'.x = g'.derivative g'.x ↔ ¬ Corner x y (k + 1) := by
  obtain ⟨hl, hn, hi, hs, _⟩ := ofVectors_ok h
  obtain ⟨hk, rfl⟩ := segs_get h hg
  obtain ⟨hk', rfl⟩ := segs_get h hg'
  have e1 := segAt_deriv_end (x := (x.getD · 0)) (y := (y.getD · 0)) (n := x.length) (hi k hk)
  have e2 := segAt_deriv_start (x.getD · 0) (y.getD · 0) x.length (k + 1)
  rw [← tangents_ne_iff hn hk', not_not]
  exact Iff.intro (fun h => e1.symm.trans (h.trans e2)) (fun h => e1.trans (h.trans e2.symm))

/-- A table with a corner: two flat chords, then two of slope one. -/
theorem c22_smooth_violated : ∃ (s : Spline Rat) (g g' : Seg Rat),
    ofVectors [0, 1, 2, 3, 4] [0, 0, 0, 1, 2] = .ok s ∧ s.segs[1]? = some g ∧ s.segs[2]? = some g' ∧
    g.derivative g'.x = 0 ∧ g'.derivative g'.x = 1 := by
  refine ⟨⟨[⟨0, 0, 0, 0, 0⟩, ⟨1, 0, 0, 0, 0⟩, ⟨2, 0, 1, 0, 0⟩, ⟨3, 1, 1, 0, 0⟩], 4, 2⟩, ⟨1, 0, 0, 0, 0⟩,
    ⟨2, 0, 1, 0, 0⟩, ?_, rfl, rfl, ?_, ?_⟩
  all_goals decide +kernel

theorem derivs_eq {x y : List K} {s : Spline K} (h : ofVectors x y = .ok s) :
    ∃ d, s.derivs = .ok d ∧ d.length = x.length ∧
      (∀ j, j + 1 < x.length → d[j]? = some (tRight (x.getD · 0) (y.getD · 0) x.length j)) ∧
      d[x.length - 1]? = some (tLeft (x.getD · 0) (y.getD · 0) x.length (x.length - 2)) := by
  obtain ⟨hl, hn, hi, hs, e⟩ := ofVectors_ok h
  have hlast : s.segs.getLast? = some (segAt (x.getD · 0) (y.getD · 0) x.length (x.length - 2)) := by
    rw [List.getLast?_eq_getElem?, e]
    have : x.length - 1 - 1 = x.length - 2 := by omega
    simp [this, show x.length - 2 < x.length - 1 by omega]
  refine ⟨s.segs.map Seg.a1 ++
    [(segAt (x.getD · 0) (y.getD · 0) x.length (x.length - 2)).derivative s.xLast], ?_, ?_, ?_, ?_⟩
  · simp only [Spline.derivs, hlast]
  · rw [e]; simp; omega
  · intro j hj
    rw [e, List.getElem?_append_left (by simp; omega)]
    simp [show j < x.length - 1 by omega, segAt]
  · rw [e, List.getElem?_append_right (by simp)]
    simp only [List.length_map, List.length_range, Nat.sub_self, List.getElem?_cons_zero, Option.some.injEq]
    have := segAt_deriv_end (x := (x.getD · 0)) (y := (y.getD · 0)) (n := x.length) (hi (x.length - 2) (by omega))
    rw [show x.length - 2 + 1 = x.length - 1 by omega] at this
    exact this

theorem Seg.hasDerivAt_eval (g : Seg ℝ) (v : ℝ) : HasDerivAt g.eval (g.derivative v) v := by
  have h1 : HasDerivAt (fun u : ℝ => u - g.x) 1 v := (hasDerivAt_id v).sub_const _
  have h2 := ((((((h1.const_mul g.a3).add_const g.a2).mul h1).add_const g.a1).mul h1).add_const g.a0)
  refine h2.congr_deriv ?_
  simp only [Seg.derivative, Pi.mul_apply]
  ring

/-- Over the reals: the table of `getAbscissaDerivatives` holds the derivative of the interpolant at every node that
is not a corner, the first and the last included. Missing from the full claim: nodes with a corner
(`c22_smooth_violated`). -/
theorem c22_derivative_table_partial (x y : List ℝ) (s : Spline ℝ) (h : ofVectors x y = .ok s) :
    ∃ d, s.derivs = .ok d ∧ d.length = x.length ∧
      ∀ (f : ℝ → ℝ), (∀ v, s.eval v = .ok (f v)) →
      ∀ (j : Nat) (a e : ℝ), x[j]? = some a → d[j]? = some e → ¬ Corner x y j → HasDerivAt f e a := by
  obtain ⟨hl, hn, hi, hs, _⟩ := ofVectors_ok h
  obtain ⟨d, hd, hdl, hd1, hd2⟩ := derivs_eq h
  refine ⟨d, hd, hdl, ?_⟩
  intro f hf j a e ha he hc
  have hj := lt_of_get ha
  generalize hX : (fun i => x.getD i 0) = X at *
  generalize hY : (fun i => y.getD i 0) = Y at *
  have hXa : X j = a := by rw [← hX]; exact getD_of ha
  have fval : ∀ v w, s.eval v = .ok w → f v = w := by
    intro v w hv
    have := hf v
    rw [hv] at this
    cases this; rfl
  have hnode : ∀ i, i < x.length → f (X i) = Y i := by
    intro i hil
    refine fval _ _ (c21_passes_through_nodes x y s h i _ _ ?_ ?_)
    · rw [← hX]; simp [hil]
    · rw [← hY]; simp [show i < y.length by omega]
  -- the function to the right of the node is that of one segment
  have right : HasDerivWithinAt f e (Set.Ici a) a := by
    by_cases hlast : j + 1 < x.length
    · have e1 : (segAt X Y x.length j).derivative a = e := by
        rw [← hXa, segAt_deriv_start]
        have := hd1 j hlast; rw [he] at this; exact (Option.some.inj this).symm
      have hg := (Seg.hasDerivAt_eval (segAt X Y x.length j) a).hasDerivWithinAt (s := Set.Ici a)
      rw [e1] at hg
      refine hg.congr_of_eventuallyEq ?_ ?_
      · have hlt := hi j hlast
        rw [hXa] at hlt
        filter_upwards [mem_nhdsWithin_of_mem_nhds (Iio_mem_nhds hlt), self_mem_nhdsWithin] with v hv1 hv2
        exact fval _ _ (eval_segment hn hi hs hlast (by rw [hXa]; exact hv2) (fun _ => hv1))
      · rw [← hXa, segAt_start, hnode j hj]
    · have ej : j = x.length - 1 := by omega
      have hlt := hi (x.length - 2) (by omega)
      have e0 : x.length - 2 + 1 = j := by omega
      rw [e0, hXa] at hlt
      have e1 : (segAt X Y x.length (x.length - 2)).derivative a = e := by
        have t := segAt_deriv_end (x := X) (y := Y) (n := x.length) (i := x.length - 2) (by rw [e0, hXa]; exact hlt)
        rw [e0, hXa] at t
        rw [t]
        rw [← ej, he] at hd2; exact (Option.some.inj hd2).symm
      have hg := (Seg.hasDerivAt_eval (segAt X Y x.length (x.length - 2)) a).hasDerivWithinAt (s := Set.Ici a)
      rw [e1] at hg
      have hv : ∀ v, a ≤ v → f v = (segAt X Y x.length (x.length - 2)).eval v := fun v hv =>
        fval _ _ (eval_segment hn hi hs (by omega) (le_trans (le_of_lt hlt) hv) (by omega))
      exact hg.congr hv (hv a le_rfl)
  have left : HasDerivWithinAt f e (Set.Iic a) a := by
    by_cases h0 : j = 0
    · have e1 : (segAt X Y x.length 0).derivative a = e := by
        rw [← hXa, h0, segAt_deriv_start]
        have := hd1 0 (by omega); rw [h0] at he; rw [he] at this; exact (Option.some.inj this).symm
      have hg := (Seg.hasDerivAt_eval (segAt X Y x.length 0) a).hasDerivWithinAt (s := Set.Iic a)
      rw [e1] at hg
      have ha0 : f a = (segAt X Y x.length 0).eval a := by
        rw [← hXa, h0, segAt_start, hnode 0 (by omega)]
      refine hg.congr (fun v hv => ?_) ha0
      rcases lt_or_eq_of_le (show v ≤ a from hv) with hlt | heq
      · exact fval _ _ (eval_before hs (by rw [← h0, hXa]; exact hlt))
      · rw [heq]; exact ha0
    · obtain ⟨k, rfl⟩ : ∃ k, j = k + 1 := ⟨j - 1, by omega⟩
      have hlt := hi k hj
      have e1 : (segAt X Y x.length k).derivative a = e := by
        rw [← hXa, segAt_deriv_end hlt]
        by_cases hlast : k + 2 < x.length
        · have hR := hd1 (k + 1) hlast
          rw [he] at hR
          rw [Option.some.inj hR]
          by_contra hne
          rw [← hX, ← hY] at hne
          exact hc ((tangents_ne_iff hn hlast).1 hne)
        · have e0 : x.length - 1 = k + 1 := by omega
          have e00 : x.length - 2 = k := by omega
          rw [e0, he, e00] at hd2
          exact (Option.some.inj hd2).symm
      rw [hXa] at hlt
      have hg := (Seg.hasDerivAt_eval (segAt X Y x.length k) a).hasDerivWithinAt (s := Set.Iic a)
      rw [e1] at hg
      have hend : f a = (segAt X Y x.length k).eval a := by
        have := segAt_end (x := X) (y := Y) (n := x.length) hj (by rw [hXa]; exact hlt)
        rw [hXa] at this
        rw [this, ← hnode (k + 1) hj, hXa]
      refine hg.congr_of_eventuallyEq ?_ hend
      filter_upwards [mem_nhdsWithin_of_mem_nhds (Ioi_mem_nhds hlt), self_mem_nhdsWithin] with v hv1 hv2
      rcases lt_or_eq_of_le (show v ≤ a from hv2) with hva | hva
      · exact fval _ _ (eval_segment hn hi hs hj (le_of_lt hv1) (fun _ => by rw [hXa]; exact hva))
      · rw [hva]; exact hend
  have := left.union right
  rw [Set.Iic_union_Ici] at this
  exact hasDerivWithinAt_univ.1 this

/-- A table without corners, and its derivative table. -/
example : ∃ s : Spline Rat, ofVectors [0, 1, 2] [0, 1, 4] = .ok s ∧ s.derivs = .ok [0, 2, 4] ∧
    ¬ Corner [0, 1, 2] [0, 1, (4 : Rat)] 1 := by
  refine ⟨⟨[⟨0, 0, 0, 1, 0⟩, ⟨1, 1, 2, 1, 0⟩], 2, 4⟩, ?_, ?_, ?_⟩
  · decide +kernel
  · decide +kernel
  · rintro ⟨h, _⟩; omega

/-! ## C23 -/

/-- If the points lie on one line the spline is that line everywhere, extrapolation included, and its derivative table is
constant. -/
theorem c23_lines_exact (x y : List K) (s : Spline K) (h : ofVectors x y = .ok s) (p q : K)
    (hline : ∀ (i : Nat) (a b : K), x[i]? = some a → y[i]? = some b → b = p + q * a) (v : K) :
    s.eval v = .ok (p + q * v) ∧ s.derivs = .ok (List.replicate x.length q) := by
  obtain ⟨hl, hn, hi, hs, e⟩ := ofVectors_ok h
  have hy : ∀ j, j < x.length → y.getD j 0 = p + q * x.getD j 0 := by
    intro j hj
    refine hline j _ _ ?_ ?_
    · simp [hj]
    · simp [show j < y.length by omega]
  have hseg : ∀ i, i + 1 < x.length → segAt (x.getD · 0) (y.getD · 0) x.length i =
      ⟨x.getD i 0, p + q * x.getD i 0, q, 0, 0⟩ := fun i h => segAt_line hn hi hy h
  have hval : ∀ i, i + 1 < x.length → (segAt (x.getD · 0) (y.getD · 0) x.length i).eval v = p + q * v := by
    intro i h
    rw [hseg i h]
    simp only [Seg.eval]
    ring
  refine ⟨?_, ?_⟩
  · by_cases h0 : v < x.getD 0 0
    · rw [eval_before hs h0, hval 0 (by omega)]
    · obtain ⟨k, hk, h1, h2⟩ := exists_segment (x := (x.getD · 0)) (n := x.length) (by omega) v (not_lt.1 h0)
      rw [eval_segment hn hi hs hk h1 h2, hval k hk]
  · have hmap : (List.range (x.length - 1)).map (segAt (x.getD · 0) (y.getD · 0) x.length) =
        (List.range (x.length - 1)).map fun i => ⟨x.getD i 0, p + q * x.getD i 0, q, 0, 0⟩ :=
      List.map_congr_left fun i hi' => hseg i (by have := List.mem_range.1 hi'; omega)
    have hlast : s.segs.getLast? = some ⟨x.getD (x.length - 2) 0, p + q * x.getD (x.length - 2) 0, q, 0, 0⟩ := by
      rw [List.getLast?_eq_getElem?, e, hmap]
      have : x.length - 1 - 1 = x.length - 2 := by omega
      simp [this, show x.length - 2 < x.length - 1 by omega]
    simp only [Spline.derivs, hlast]
    rw [e, hmap]
    simp only [List.map_map, Seg.derivative, Outcome.ok.injEq]
    obtain ⟨m, hm⟩ : ∃ m, x.length = m + 1 := ⟨x.length - 1, by omega⟩
    rw [hm, List.replicate_succ']
    congr 1
    · rw [List.eq_replicate_iff]
      simp
    · simp

example : ∃ s : Spline Rat, ofVectors [-1, 0, 5/2] [5, 3, -2] = .ok s ∧ s.eval 10 = .ok (3 + -2 * 10) := by
  refine ⟨⟨[⟨-1, 5, -2, 0, 0⟩, ⟨0, 3, -2, 0, 0⟩], 5/2, -2⟩, ?_, ?_⟩
  · decide +kernel
  · decide +kernel

/-! ## C24 -/

/-- The constructor throws exactly when the numbers of abscissas and ordinates differ, there are fewer than three points, or
the abscissas are not strictly increasing; it never reads out of range. -/
theorem c24_rejects_exactly (x y : List K) :
    (ofVectors x y = .throws ↔ x.length ≠ y.length ∨ x.length < 3 ∨ ¬ x.Pairwise (· < ·)) ∧
    ofVectors x y ≠ .ub := by
  simp only [ofVectors]
  by_cases hl : x.length = y.length
  · rw [if_pos hl, akimaInit_spec]
    by_cases hc : 3 ≤ x.length ∧ Increasing (x.getD · 0) x.length
    · rw [if_pos hc]
      refine ⟨⟨(fun h => nomatch h), ?_⟩, (fun h => nomatch h)⟩
      rintro (h | h | h)
      · exact absurd hl h
      · omega
      · exact absurd ((increasing_iff x).1 hc.2) h
    · rw [if_neg hc]
      refine ⟨⟨fun _ => ?_, fun _ => rfl⟩, (fun h => nomatch h)⟩
      rw [increasing_iff] at hc
      by_cases h3 : 3 ≤ x.length
      · exact Or.inr (Or.inr fun hp => hc ⟨h3, hp⟩)
      · exact Or.inr (Or.inl (by omega))
  · rw [if_neg hl]
    exact ⟨⟨fun _ => Or.inl hl, fun _ => rfl⟩, (fun h => nomatch h)⟩

/-- `initialize` reads no cell beyond the `n` it is given. -/
theorem c24_reads_in_range (x y x' y' : Nat → K) (n : Nat) (hx : ∀ j, j < n → x j = x' j)
    (hy : ∀ j, j < n → y j = y' j) : akimaInit x y n = akimaInit x' y' n := akimaInit_congr hx hy

example : ofVectors [0, 1, 1] [1, 2, (3 : Rat)] = .throws ∧ ofVectors [0, 1] [1, (3 : Rat)] = .throws ∧
    ofVectors [0, 1, 2] [1, (3 : Rat)] = .throws ∧ ofVectors [0, 2, 1] [1, 2, (3 : Rat)] = .throws ∧
    ofVectors [0, 1, 2] [1, 2, (3 : Rat)] ≠ .throws := by decide +kernel

end Verif.Interp
