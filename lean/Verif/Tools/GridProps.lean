import Verif.Tools.Grid

/-!
# Property C27: `linspace` and `logspace`
-/

namespace Verif.Tools

/-- No points: both throw. -/
theorem c27_zero_points {K : Type} [Field K] (junk a b : K) (j' a' b' : ℝ) :
    linspace junk a b 0 = .throws ∧ logspace j' a' b' 0 = .throws := ⟨rfl, rfl⟩

/-- One point: the upper bound. -/
theorem c27_one_point {K : Type} [Field K] (junk a b : K) (j' a' b' : ℝ) :
    linspace junk a b 1 = .ok [b] ∧ logspace j' a' b' 1 = .ok [b'] := ⟨rfl, rfl⟩

/-- n ≥ 2 points of `linspace`: the list a, a+s, a+2s, …, b with s = (b-a)/(n-1). Every cell has been written. -/
theorem c27_linspace {K : Type} [Field K] [CharZero K] (junk a b : K) (n : Nat) (hn : 2 ≤ n) :
    ∃ l, linspace junk a b n = .ok l ∧ l.length = n ∧ l[0]? = some a ∧ l[n - 1]? = some b ∧
      ∀ i, i < n → l[i]? = some (a + i * ((b - a) / ((n : K) - 1))) := by
  simp only [linspace]
  rw [if_neg (by omega)]
  obtain ⟨l', h1, h2, h3, h4⟩ := fillLoop_spec id ((b - a) / ((n - 1 : Nat) : K)) (n - 1) 0 a (List.replicate n junk)
    (by rw [List.length_replicate]; omega)
  rw [List.length_replicate] at h2
  rw [h1, Outcome.bind_ok, store, if_pos (by omega)]
  have hc : ((n - 1 : Nat) : K) = (n : K) - 1 := by
    rw [Nat.cast_sub (by omega)]; simp
  have hne : ((n : K) - 1) ≠ 0 := by
    rw [← hc]
    exact Nat.cast_ne_zero.2 (by omega)
  have main : ∀ i, i < n → (l'.set (n - 1) b)[i]? = some (a + i * ((b - a) / ((n : K) - 1))) := by
    intro i hi
    by_cases he : i = n - 1
    · rw [he, List.getElem?_set_self (by omega), hc]
      congr 1
      field_simp
      ring
    · rw [List.getElem?_set_ne (by omega)]
      have := h3 i (by omega)
      rw [Nat.zero_add] at this
      rw [this, hc]
      rfl
  refine ⟨_, rfl, by rw [List.length_set, h2], ?_, ?_, main⟩
  · rw [main 0 (by omega)]
    simp
  · rw [List.getElem?_set_self (by omega)]

/-- With a < b the points of `linspace` increase strictly. -/
theorem c27_linspace_increasing {K : Type} [Field K] [LinearOrder K] [IsStrictOrderedRing K] (junk a b : K) (n : Nat)
    (hn : 2 ≤ n) (hab : a < b) (l : List K) (h : linspace junk a b n = .ok l) (i j : Nat) (x y : K) (hij : i < j)
    (hx : l[i]? = some x) (hy : l[j]? = some y) : x < y := by
  obtain ⟨l', h1, h2, _, _, h3⟩ := c27_linspace junk a b n hn
  rw [h1] at h
  cases h
  have hj : j < n := by rw [← h2]; exact (List.getElem?_eq_some_iff.1 hy).1
  rw [h3 i (by omega)] at hx
  rw [h3 j hj] at hy
  cases hx
  cases hy
  have hpos : 0 < (b - a) / ((n : K) - 1) := by
    refine div_pos (sub_pos.2 hab) (sub_pos.2 ?_)
    exact_mod_cast (by omega : 1 < n)
  have : (i : K) < j := by exact_mod_cast hij
  exact add_lt_add_right (mul_lt_mul_of_pos_right this hpos) a

example : linspace (0 : Rat) 1 3 5 = .ok [1, 3 / 2, 2, 5 / 2, 3] := by decide +kernel

/-- n ≥ 2 points of `logspace` between positive bounds: the logarithms are equally spaced from log a to log b, and the first
and last values are exactly a and b. Every cell has been written. -/
theorem c27_logspace (junk a b : ℝ) (n : Nat) (hn : 2 ≤ n) (ha : 0 < a) (hb : 0 < b) :
    ∃ l, logspace junk a b n = .ok l ∧ l.length = n ∧ l[0]? = some a ∧ l[n - 1]? = some b ∧
      ∀ i, i < n → ∃ x, l[i]? = some x ∧ 0 < x ∧
        Real.log x = Real.log a + i * ((Real.log b - Real.log a) / ((n : ℝ) - 1)) := by
  simp only [logspace]
  rw [if_neg (by omega), store, if_pos (by rw [List.length_replicate]; omega), Outcome.bind_ok]
  obtain ⟨l', h1, h2, h3, h4⟩ := fillLoop_spec Real.exp ((Real.log b - Real.log a) / ((n - 1 : Nat) : ℝ)) (n - 1 - 1) 1
    (Real.log a + (Real.log b - Real.log a) / ((n - 1 : Nat) : ℝ)) ((List.replicate n junk).set 0 a)
    (by rw [List.length_set, List.length_replicate]; omega)
  rw [List.length_set, List.length_replicate] at h2
  rw [h1, Outcome.bind_ok, store, if_pos (by omega)]
  have hc : ((n - 1 : Nat) : ℝ) = (n : ℝ) - 1 := by
    rw [Nat.cast_sub (by omega)]; simp
  have hne : ((n : ℝ) - 1) ≠ 0 := by
    rw [← hc]
    exact Nat.cast_ne_zero.2 (by omega)
  have hfirst : (l'.set (n - 1) b)[0]? = some a := by
    rw [List.getElem?_set_ne (by omega), h4 0 (by omega),
      List.getElem?_set_self (by rw [List.length_replicate]; omega)]
  have hlast : (l'.set (n - 1) b)[n - 1]? = some b := by rw [List.getElem?_set_self (by omega)]
  refine ⟨_, rfl, by rw [List.length_set, h2], hfirst, hlast, ?_⟩
  intro i hi
  by_cases h0 : i = 0
  · subst h0
    exact ⟨a, hfirst, ha, by simp⟩
  by_cases he : i = n - 1
  · subst he
    refine ⟨b, hlast, hb, ?_⟩
    rw [hc]
    field_simp
    ring
  · refine ⟨Real.exp (Real.log a + i * ((Real.log b - Real.log a) / ((n : ℝ) - 1))), ?_, Real.exp_pos _, Real.log_exp _⟩
    rw [List.getElem?_set_ne (by omega)]
    have := h3 (i - 1) (by omega)
    rw [show 1 + (i - 1) = i by omega] at this
    rw [this, hc, Nat.cast_sub (by omega)]
    congr 2
    push_cast
    ring

/-- With 0 < a < b the points of `logspace` increase strictly. -/
theorem c27_logspace_increasing (junk a b : ℝ) (n : Nat) (hn : 2 ≤ n) (ha : 0 < a) (hab : a < b) (l : List ℝ)
    (h : logspace junk a b n = .ok l) (i j : Nat) (x y : ℝ) (hij : i < j) (hx : l[i]? = some x) (hy : l[j]? = some y) :
    x < y := by
  obtain ⟨l', h1, h2, _, _, h3⟩ := c27_logspace junk a b n hn ha (ha.trans hab)
  rw [h1] at h
  cases h
  have hj : j < n := by rw [← h2]; exact (List.getElem?_eq_some_iff.1 hy).1
  obtain ⟨x', hx', px, ex⟩ := h3 i (by omega)
  obtain ⟨y', hy', py, ey⟩ := h3 j hj
  rw [hx] at hx'
  rw [hy] at hy'
  cases hx'
  cases hy'
  rw [← Real.log_lt_log_iff px py, ex, ey]
  have hpos : 0 < (Real.log b - Real.log a) / ((n : ℝ) - 1) := by
    refine div_pos (sub_pos.2 (Real.log_lt_log ha hab)) (sub_pos.2 ?_)
    exact_mod_cast (by omega : 1 < n)
  have : (i : ℝ) < j := by exact_mod_cast hij
  exact add_lt_add_right (mul_lt_mul_of_pos_right this hpos) _

/-- The hypotheses are met by the bounds 1 and 100 with three points; the middle one has logarithm half of log 100. -/
example : ∃ l x, logspace 0 1 100 3 = .ok l ∧ l[1]? = some x ∧ Real.log x = Real.log 100 / 2 := by
  obtain ⟨l, h1, _, _, _, h2⟩ := c27_logspace 0 1 100 3 (by omega) (by norm_num) (by norm_num)
  obtain ⟨x, hx, _, e⟩ := h2 1 (by omega)
  refine ⟨l, x, h1, hx, ?_⟩
  rw [e, Real.log_one]
  push_cast
  ring

end Verif.Tools
