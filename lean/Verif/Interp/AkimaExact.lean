import Verif.Interp.AkimaLemmas
import Mathlib.Data.Int.Cast.Lemmas

/-! Parabolas on equally spaced abscissas. -/

set_option linter.unusedSectionVars false

namespace Verif.Interp

variable {K : Type} [Field K] [LinearOrder K] [IsStrictOrderedRing K]

/-- The chords of a parabola, those beyond the ends included, are in arithmetic progression. -/
theorem mHelper_parabola {x y : Nat → K} {n : Nat} {a h p q r : K} (hn : 3 ≤ n) (hh : h ≠ 0)
    (hx : ∀ j, j < n → x j = a + j * h) (hy : ∀ j, j < n → y j = p + q * x j + r * x j ^ 2) {i : Int}
    (h1 : -2 ≤ i) (h2 : i ≤ n) : mHelper x y n i = q + r * (2 * a + (2 * i + 1) * h) := by
  have c : ∀ j, j + 1 < n → chord x y j = q + r * (2 * a + (2 * (j : K) + 1) * h) := by
    intro j hj
    simp only [chord]
    rw [hy j (by omega), hy (j + 1) hj, hx j (by omega), hx (j + 1) hj]
    have : a + ((j + 1 : Nat) : K) * h - (a + j * h) = h := by push_cast; ring
    rw [this]
    field_simp
    push_cast
    ring
  obtain ⟨m, rfl⟩ : ∃ m, n = m + 3 := ⟨n - 3, by omega⟩
  simp only [mHelper]
  rw [c 0 (by omega), c 1 (by omega), c (m + 3 - 2) (by omega), c (m + 3 - 3) (by omega)]
  rw [show m + 3 - 2 = m + 1 from rfl, show m + 3 - 3 = m from rfl]
  split
  · rename_i e; subst e; push_cast; ring
  split
  · rename_i e; subst e; push_cast; ring
  split
  · rename_i e; subst e; push_cast; ring
  split
  · rename_i e; subst e; push_cast; ring
  · obtain ⟨k, rfl⟩ : ∃ k : Nat, i = k := ⟨i.toNat, by omega⟩
    rw [Int.toNat_natCast, c k (by omega)]
    push_cast
    rfl

theorem tRight_parabola {x y : Nat → K} {n : Nat} {a h p q r : K} (hn : 3 ≤ n) (hh : h ≠ 0)
    (hx : ∀ j, j < n → x j = a + j * h) (hy : ∀ j, j < n → y j = p + q * x j + r * x j ^ 2) {i : Nat} (hi : i + 1 < n) :
    tRight x y n i = q + 2 * r * x i := by
  have m : ∀ j : Int, -2 ≤ j → j ≤ n → mHelper x y n j = q + r * (2 * a + (2 * j + 1) * h) :=
    fun j h1 h2 => mHelper_parabola hn hh hx hy h1 h2
  simp only [tRight]
  rw [m i (by omega) (by omega), m (i - 2) (by omega) (by omega), m (i - 1) (by omega) (by omega), m (i + 1) (by omega) (by omega),
    hx i (by omega)]
  have e1 : q + r * (2 * a + (2 * (((i : Int) - 2 : Int) : K) + 1) * h) - (q + r * (2 * a + (2 * (((i : Int) - 1 : Int) : K) + 1) * h))
      = -(2 * r * h) := by push_cast; ring
  have e2 : q + r * (2 * a + (2 * ((i : Int) : K) + 1) * h) - (q + r * (2 * a + (2 * (((i : Int) + 1 : Int) : K) + 1) * h))
      = -(2 * r * h) := by push_cast; ring
  rw [e1, e2]
  have a1 : |-(2 * r * h)| = 2 * |-(r * h)| := by
    rw [abs_neg, abs_neg, show 2 * r * h = 2 * (r * h) by ring, abs_mul, abs_two]
  have e3 : q + r * (2 * a + (2 * (((i : Int) - 1 : Int) : K) + 1) * h) = q + 2 * r * (a + i * h) - r * h := by push_cast; ring
  have e4 : q + r * (2 * a + (2 * ((i : Int) : K) + 1) * h) = q + 2 * r * (a + i * h) + r * h := by push_cast; ring
  rw [e3, e4, a1]
  generalize q + 2 * r * (a + i * h) = u at *
  generalize r * h = d at *
  by_cases hd : d = 0
  · subst hd; simp
  · have : 0 < |(-d)| := abs_pos.2 (neg_ne_zero.2 hd)
    rw [if_pos (by linarith)]
    field_simp
    ring

theorem tLeft_parabola {x y : Nat → K} {n : Nat} {a h p q r : K} (hn : 3 ≤ n) (hh : h ≠ 0)
    (hx : ∀ j, j < n → x j = a + j * h) (hy : ∀ j, j < n → y j = p + q * x j + r * x j ^ 2) {i : Nat} (hi : i + 1 < n) :
    tLeft x y n i = q + 2 * r * x (i + 1) := by
  have m : ∀ j : Int, -2 ≤ j → j ≤ n → mHelper x y n j = q + r * (2 * a + (2 * j + 1) * h) :=
    fun j h1 h2 => mHelper_parabola hn hh hx hy h1 h2
  simp only [tLeft]
  rw [m i (by omega) (by omega), m (i - 1) (by omega) (by omega), m (i + 1) (by omega) (by omega), m (i + 2) (by omega) (by omega),
    hx (i + 1) hi]
  have e1 : q + r * (2 * a + (2 * (((i : Int) - 1 : Int) : K) + 1) * h) - (q + r * (2 * a + (2 * ((i : Int) : K) + 1) * h))
      = -(2 * r * h) := by push_cast; ring
  have e2 : q + r * (2 * a + (2 * (((i : Int) + 1 : Int) : K) + 1) * h) - (q + r * (2 * a + (2 * (((i : Int) + 2 : Int) : K) + 1) * h))
      = -(2 * r * h) := by push_cast; ring
  rw [e1, e2]
  have a1 : |-(2 * r * h)| = 2 * |-(r * h)| := by
    rw [abs_neg, abs_neg, show 2 * r * h = 2 * (r * h) by ring, abs_mul, abs_two]
  have e3 : q + r * (2 * a + (2 * ((i : Int) : K) + 1) * h) = q + 2 * r * (a + ((i + 1 : Nat) : K) * h) - r * h := by push_cast; ring
  have e4 : q + r * (2 * a + (2 * (((i : Int) + 1 : Int) : K) + 1) * h) = q + 2 * r * (a + ((i + 1 : Nat) : K) * h) + r * h := by
    push_cast; ring
  rw [e3, e4, a1]
  generalize q + 2 * r * (a + ((i + 1 : Nat) : K) * h) = u at *
  generalize r * h = d at *
  by_cases hd : d = 0
  · subst hd; simp
  · have : 0 < |(-d)| := abs_pos.2 (neg_ne_zero.2 hd)
    rw [if_pos (by linarith)]
    field_simp
    ring

theorem segAt_parabola {x y : Nat → K} {n : Nat} {a h p q r : K} (hn : 3 ≤ n) (hh : h ≠ 0)
    (hx : ∀ j, j < n → x j = a + j * h) (hy : ∀ j, j < n → y j = p + q * x j + r * x j ^ 2) {i : Nat} (hi : i + 1 < n) :
    segAt x y n i = ⟨x i, p + q * x i + r * x i ^ 2, q + 2 * r * x i, r, 0⟩ := by
  have m := mHelper_parabola hn hh hx hy (i := i) (by omega) (by omega)
  have hs : x (i + 1) = x i + h := by rw [hx i (by omega), hx (i + 1) hi]; push_cast; ring
  have m' : mHelper x y n i = q + r * (2 * x i + h) := by rw [m, hx i (by omega)]; push_cast; ring
  simp only [segAt]
  rw [tRight_parabola hn hh hx hy hi, tLeft_parabola hn hh hx hy hi, m', hs, hy i (by omega)]
  have e0 : x i + h - x i = h := by ring
  rw [e0]
  congr 1
  · field_simp; ring
  · have : q + 2 * r * x i + (q + 2 * r * (x i + h)) - 2 * (q + r * (2 * x i + h)) = 0 := by ring
    rw [this, zero_div]

/-! ### Slopes and locality -/

theorem weighted_between (L R u w : K) (hL : 0 ≤ L) (hR : 0 ≤ R) :
    min u w ≤ (if L + R > 0 then (1 - L / (L + R)) * u + L / (L + R) * w else w) ∧
    (if L + R > 0 then (1 - L / (L + R)) * u + L / (L + R) * w else w) ≤ max u w := by
  split
  · rename_i h
    have h0 : 0 ≤ L / (L + R) := div_nonneg hL (le_of_lt h)
    have h1 : L / (L + R) ≤ 1 := (div_le_one h).2 (by linarith)
    generalize L / (L + R) = t at *
    have a1 := min_le_left u w
    have a2 := min_le_right u w
    have b1 := le_max_left u w
    have b2 := le_max_right u w
    constructor
    · have := mul_nonneg (sub_nonneg.2 h1) (sub_nonneg.2 a1)
      have := mul_nonneg h0 (sub_nonneg.2 a2)
      linarith [mul_sub (1 - t) u (min u w), mul_sub t w (min u w)]
    · have := mul_nonneg (sub_nonneg.2 h1) (sub_nonneg.2 b1)
      have := mul_nonneg h0 (sub_nonneg.2 b2)
      linarith [mul_sub (1 - t) (max u w) u, mul_sub t (max u w) w]
  · exact ⟨min_le_right u w, le_max_right u w⟩

theorem tRight_between {x y : Nat → K} {n k : Nat} (hk : k + 2 < n) :
    min (chord x y k) (chord x y (k + 1)) ≤ tRight x y n (k + 1) ∧ tRight x y n (k + 1) ≤ max (chord x y k) (chord x y (k + 1)) := by
  have e1 : mHelper x y n (((k + 1 : Nat) : Int) - 1) = chord x y k := by
    rw [show ((k + 1 : Nat) : Int) - 1 = k by omega]; exact mHelper_nat (by omega)
  have e2 : mHelper x y n ((k + 1 : Nat) : Int) = chord x y (k + 1) := mHelper_nat (by omega)
  simp only [tRight]
  rw [e1, e2]
  exact weighted_between _ _ _ _ (abs_nonneg _) (abs_nonneg _)

/-- The slopes used in interval `k` depend on the points `k-2` to `k+3` only. -/
theorem mHelper_local {x y y' : Nat → K} {n k : Nat} (hn : 3 ≤ n) (hk : k + 1 < n)
    (hy : ∀ j, j < n → k ≤ j + 2 → j ≤ k + 3 → y j = y' j) {i : Int} (h1 : (k : Int) - 2 ≤ i) (h2 : i ≤ k + 2) :
    mHelper x y n i = mHelper x y' n i := by
  have c : ∀ j, j + 1 < n → k ≤ j + 2 → j ≤ k + 2 → chord x y j = chord x y' j := by
    intro j a1 a2 a3
    simp only [chord]
    rw [hy j (by omega) (by omega) (by omega), hy (j + 1) (by omega) (by omega) (by omega)]
  simp only [mHelper]
  split
  · rw [c 0 (by omega) (by omega) (by omega), c 1 (by omega) (by omega) (by omega)]
  split
  · rw [c 0 (by omega) (by omega) (by omega), c 1 (by omega) (by omega) (by omega)]
  split
  · rw [c (n - 2) (by omega) (by omega) (by omega), c (n - 3) (by omega) (by omega) (by omega)]
  split
  · rw [c (n - 2) (by omega) (by omega) (by omega), c (n - 3) (by omega) (by omega) (by omega)]
  · exact c _ (by omega) (by omega) (by omega)

theorem segAt_local {x y y' : Nat → K} {n k : Nat} (hn : 3 ≤ n) (hk : k + 1 < n)
    (hy : ∀ j, j < n → k ≤ j + 2 → j ≤ k + 3 → y j = y' j) : segAt x y n k = segAt x y' n k := by
  have m : ∀ j : Int, (k : Int) - 2 ≤ j → j ≤ k + 2 → mHelper x y n j = mHelper x y' n j :=
    fun j h1 h2 => mHelper_local hn hk hy h1 h2
  simp only [segAt, tRight, tLeft]
  rw [hy k (by omega) (by omega) (by omega), m k (by omega) (by omega), m (k - 2) (by omega) (by omega),
    m (k - 1) (by omega) (by omega), m (k + 1) (by omega) (by omega), m (k + 2) (by omega) (by omega)]

end Verif.Interp
