import Verif.Interp.AkimaExact
import Verif.Interp.AkimaProps

/-!
# Property C77: slopes of `AkimaSpline`
-/

set_option linter.unusedSectionVars false

namespace Verif.Interp

variable {K : Type} [Field K] [LinearOrder K] [IsStrictOrderedRing K]

/-- The abscissas are equally spaced. -/
def EquallySpaced (x : List K) (a h : K) : Prop := ∀ (i : Nat) (u : K), x[i]? = some u → u = a + i * h

/-- If the abscissas are equally spaced and the points lie on one parabola the spline is that parabola everywhere, extrapolation included,
and the derivative table is that of the parabola. -/
theorem c77_parabolas_exact (x y : List K) (s : Spline K) (hs : ofVectors x y = .ok s) (a h p q r : K) (hx : EquallySpaced x a h)
    (hpar : ∀ (i : Nat) (u b : K), x[i]? = some u → y[i]? = some b → b = p + q * u + r * u ^ 2) (v : K) :
    s.eval v = .ok (p + q * v + r * v ^ 2) ∧ s.derivs = .ok (x.map fun u => q + 2 * r * u) := by
  obtain ⟨hl, hn, hi, hs', e⟩ := ofVectors_ok hs
  have hX : ∀ j, j < x.length → x.getD j 0 = a + j * h := fun j hj => hx j _ (by simp [hj])
  have hh : h ≠ 0 := by
    intro h0
    have := hi 0 (by omega)
    simp only [Nat.zero_add] at this
    rw [hX 0 (by omega), hX 1 (by omega), h0] at this
    simp at this
  have hY : ∀ j, j < x.length → y.getD j 0 = p + q * x.getD j 0 + r * x.getD j 0 ^ 2 := by
    intro j hj
    refine hpar j _ _ ?_ ?_
    · simp [hj]
    · simp [show j < y.length by omega]
  have hval : ∀ i, i + 1 < x.length → (segAt (x.getD · 0) (y.getD · 0) x.length i).eval v = p + q * v + r * v ^ 2 := by
    intro i h
    rw [segAt_parabola hn hh hX hY h]
    simp only [Seg.eval]
    ring
  refine ⟨?_, ?_⟩
  · by_cases h0 : v < x.getD 0 0
    · rw [eval_before hs' h0, hval 0 (by omega)]
    · obtain ⟨k, hk, h1, h2⟩ := exists_segment (x := (x.getD · 0)) (n := x.length) (by omega) v (not_lt.1 h0)
      rw [eval_segment hn hi hs' hk h1 h2, hval k hk]
  · obtain ⟨d, hd, hdl, hd1, hd2⟩ := derivs_eq hs
    rw [hd]
    congr 1
    apply List.ext_getElem?
    intro i
    by_cases h1 : i + 1 < x.length
    · rw [hd1 i h1, tRight_parabola hn hh hX hY h1, List.getElem?_map]
      simp [show i < x.length by omega]
    · by_cases h2 : i = x.length - 1
      · subst h2
        rw [hd2, tLeft_parabola hn hh hX hY (by omega), List.getElem?_map, show x.length - 2 + 1 = x.length - 1 by omega]
        simp [show x.length - 1 < x.length by omega]
      · rw [List.getElem?_eq_none (by omega), List.getElem?_eq_none (by simp; omega)]

example : ∃ s : Spline Rat, ofVectors [-1, 1, 3, 5] [2, 0, 14, 44] = .ok s ∧ s.eval 10 = .ok (-1 + -1 * 10 + 2 * 10 ^ 2) ∧
    s.eval (-4) = .ok (-1 + -1 * (-4) + 2 * (-4) ^ 2) ∧ s.derivs = .ok [-5, 3, 11, 19] :=
  ⟨⟨[⟨-1, 2, -5, 2, 0⟩, ⟨1, 0, 3, 2, 0⟩, ⟨3, 14, 11, 2, 0⟩], 5, 44⟩, by decide +kernel⟩

example : EquallySpaced [-1, 1, 3, (5 : Rat)] (-1) 2 := by
  intro i u h
  match i, h with
  | 0, h => cases h; norm_num
  | 1, h => cases h; norm_num
  | 2, h => cases h; norm_num
  | 3, h => cases h; norm_num

/-- At a node that is not an end the tabulated derivative is between the slopes of the two adjacent chords. -/
theorem c77_slopes_between (x y d : List K) (s : Spline K) (hs : ofVectors x y = .ok s) (hd : s.derivs = .ok d) (k : Nat) (e : K)
    (hk : k + 2 < x.length) (he : d[k + 1]? = some e) :
    min (secant x y k) (secant x y (k + 1)) ≤ e ∧ e ≤ max (secant x y k) (secant x y (k + 1)) := by
  obtain ⟨d', hd', _, hd1, _⟩ := derivs_eq hs
  rw [hd] at hd'
  cases hd'
  rw [hd1 (k + 1) (by omega)] at he
  cases he
  exact tRight_between (x := (x.getD · 0)) (y := (y.getD · 0)) hk

/-- If the ordinates increase the derivatives at the nodes that are not ends are not negative. -/
theorem c77_increasing_data (x y d : List K) (s : Spline K) (hs : ofVectors x y = .ok s) (hd : s.derivs = .ok d)
    (hy : y.Pairwise (· ≤ ·)) (k : Nat) (e : K) (hk : k + 2 < x.length) (he : d[k + 1]? = some e) : 0 ≤ e := by
  obtain ⟨hl, hn, hi, _, _⟩ := ofVectors_ok hs
  have pos : ∀ j, j + 1 < x.length → 0 ≤ secant x y j := by
    intro j hj
    have h1 := hi j hj
    have h2 : y.getD j 0 ≤ y.getD (j + 1) 0 := by
      rw [List.pairwise_iff_getElem] at hy
      have := hy j (j + 1) (by omega) (by omega) (by omega)
      simpa [List.getD_eq_getElem?_getD, show j < y.length by omega, show j + 1 < y.length by omega] using this
    exact div_nonneg (sub_nonneg.2 h2) (sub_nonneg.2 (le_of_lt h1))
  exact le_trans (le_min (pos k (by omega)) (pos (k + 1) (by omega))) (c77_slopes_between x y d s hs hd k e hk he).1

/-- The value in an interval depends on its ends and the two nearest points on either side only. -/
theorem c77_local (x y y' : List K) (s s' : Spline K) (hs : ofVectors x y = .ok s) (hs' : ofVectors x y' = .ok s') (k : Nat) (a b v : K)
    (ha : x[k]? = some a) (hb : x[k + 1]? = some b) (h1 : a ≤ v) (h2 : v ≤ b)
    (hy : ∀ j, k ≤ j + 2 → j ≤ k + 3 → y[j]? = y'[j]?) : s.eval v = s'.eval v := by
  obtain ⟨hl, hn, hi, hs1, _⟩ := ofVectors_ok hs
  obtain ⟨hl', _, _, hs2, _⟩ := ofVectors_ok hs'
  have hk := lt_of_get hb
  rcases lt_or_eq_of_le h2 with h2 | h2
  · rw [eval_segment hn hi hs1 hk (by rwa [getD_of ha]) (fun _ => by rwa [getD_of hb]),
      eval_segment hn hi hs2 hk (by rwa [getD_of ha]) (fun _ => by rwa [getD_of hb]),
      segAt_local hn hk (y' := (y'.getD · 0)) fun j _ j1 j2 => by simp only [List.getD_eq_getElem?_getD]; rw [hy j j1 j2]]
  · subst h2
    obtain ⟨w, hw⟩ : ∃ w, y[k + 1]? = some w := ⟨_, List.getElem?_eq_getElem (by omega)⟩
    rw [c21_passes_through_nodes x y s hs (k + 1) v w hb hw,
      c21_passes_through_nodes x y' s' hs' (k + 1) v w hb (by rw [← hy (k + 1) (by omega) (by omega)]; exact hw)]

example : (ofVectors [0, 1, 2, 3, 4, 5, (6 : Rat)] [0, 0, 1, 1, 3, 7, 1]).bind (·.eval (3 / 2)) =
    (ofVectors [0, 1, 2, 3, 4, 5, 6] [0, 0, 1, 1, 3, -7, 8]).bind (·.eval (3 / 2)) ∧
    (ofVectors [0, 1, 2, 3, 4, 5, (6 : Rat)] [0, 0, 1, 1, 3, 7, 1]).bind (·.derivs) = .ok [-1 / 2, 1 / 2, 2 / 3, 2 / 3, 7 / 3, 7 / 3, -11] := by
  decide +kernel

end Verif.Interp
