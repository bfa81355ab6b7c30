import Verif.Quad.Lemmas
import Mathlib.Algebra.Order.BigOperators.Group.Finset
import Mathlib.Algebra.Order.BigOperators.Ring.Finset

/-! The 13-point rule on polynomials of degree up to 9. -/

set_option linter.unusedSectionVars false

namespace Verif.Quad

variable {K : Type} [Field K] [LinearOrder K] [IsStrictOrderedRing K]

/-- A symmetric rule with six pairs of abscissas and the centre. -/
structure Rule (K : Type) where
  t0 : K
  t1 : K
  t2 : K
  t3 : K
  t4 : K
  t5 : K
  w0 : K
  w1 : K
  w2 : K
  w3 : K
  w4 : K
  w5 : K
  w6 : K

def Rule.apply (R : Rule K) (f : K → K) (m w : K) : K :=
  w * (R.w0 * (f (m - R.t0 * w) + f (m + R.t0 * w)) + R.w1 * (f (m - R.t1 * w) + f (m + R.t1 * w)) +
    R.w2 * (f (m - R.t2 * w) + f (m + R.t2 * w)) + R.w3 * (f (m - R.t3 * w) + f (m + R.t3 * w)) +
    R.w4 * (f (m - R.t4 * w) + f (m + R.t4 * w)) + R.w5 * (f (m - R.t5 * w) + f (m + R.t5 * w)) + R.w6 * f m)

/-- Deviation of the `j`-th moment from that of the integral, `j` even. -/
def Rule.defect (R : Rule K) (j : Nat) : K :=
  2 * (R.w0 * R.t0 ^ j + R.w1 * R.t1 ^ j + R.w2 * R.t2 ^ j + R.w3 * R.t3 ^ j + R.w4 * R.t4 ^ j + R.w5 * R.t5 ^ j) +
    (if j = 0 then R.w6 else 0) - 2 / (j + 1)

theorem Rule.mono (R : Rule K) (eps m w : K) (hw : 0 ≤ w) (hd : ∀ j ∈ [0, 2, 4, 6, 8], |R.defect j| ≤ eps) (k : Nat)
    (hk : k < 10) :
    |R.apply (fun x => x ^ k) m w - ((m + w) ^ (k + 1) - (m - w) ^ (k + 1)) / (k + 1)| ≤ eps * w * (|m| + w) ^ k := by
  have bnd : ∀ (p q : Nat) (d : K), |d| ≤ eps → |m ^ p * w ^ q * d| ≤ |m| ^ p * w ^ q * eps := by
    intro p q d h
    rw [abs_mul, abs_mul, abs_pow, abs_pow, abs_of_nonneg hw]
    exact mul_le_mul_of_nonneg_left h (by positivity)
  have he : 0 ≤ eps := le_trans (abs_nonneg _) (hd 0 (by simp))
  have nn : ∀ (p q : Nat), 0 ≤ |m| ^ p * w ^ q * eps := by intro p q; positivity
  have d0 := hd 0 (by simp)
  have d2 := hd 2 (by simp)
  have d4 := hd 4 (by simp)
  have d6 := hd 6 (by simp)
  have d8 := hd 8 (by simp)
  have err : ∀ (E : K), R.apply (fun x => x ^ k) m w - ((m + w) ^ (k + 1) - (m - w) ^ (k + 1)) / (k + 1) = w * E →
      |E| ≤ eps * (|m| + w) ^ k → |R.apply (fun x => x ^ k) m w -
        ((m + w) ^ (k + 1) - (m - w) ^ (k + 1)) / (k + 1)| ≤ eps * w * (|m| + w) ^ k := by
    intro E h1 h2
    rw [h1, abs_mul, abs_of_nonneg hw]
    calc w * |E| ≤ w * (eps * (|m| + w) ^ k) := mul_le_mul_of_nonneg_left h2 hw
      _ = _ := by ring
  interval_cases k
  · refine err (m ^ 0 * w ^ 0 * R.defect 0) ?_ ?_
    · simp only [Rule.apply, Rule.defect]; push_cast; norm_num; ring
    · have := bnd 0 0 _ d0; simpa using d0
  · refine err (m ^ 1 * w ^ 0 * R.defect 0) ?_ ?_
    · simp only [Rule.apply, Rule.defect]; push_cast; norm_num; ring
    · have := abs_le.1 (bnd 1 0 _ d0)
      have := nn 0 1
      rw [abs_le]; constructor <;> linarith
  · refine err (m ^ 2 * w ^ 0 * R.defect 0 + m ^ 0 * w ^ 2 * R.defect 2) ?_ ?_
    · simp only [Rule.apply, Rule.defect]; push_cast; norm_num; ring
    · have := abs_le.1 (bnd 2 0 _ d0)
      have := abs_le.1 (bnd 0 2 _ d2)
      have := nn 1 1
      rw [abs_le]; constructor <;> linarith
  · refine err (m ^ 3 * w ^ 0 * R.defect 0 + 3 * (m ^ 1 * w ^ 2 * R.defect 2)) ?_ ?_
    · simp only [Rule.apply, Rule.defect]; push_cast; norm_num; ring
    · have := abs_le.1 (bnd 3 0 _ d0)
      have := abs_le.1 (bnd 1 2 _ d2)
      have := nn 2 1
      have := nn 0 3
      rw [abs_le]; constructor <;> linarith
  · refine err (m ^ 4 * w ^ 0 * R.defect 0 + 6 * (m ^ 2 * w ^ 2 * R.defect 2) + m ^ 0 * w ^ 4 * R.defect 4) ?_ ?_
    · simp only [Rule.apply, Rule.defect]; push_cast; norm_num; ring
    · have := abs_le.1 (bnd 4 0 _ d0)
      have := abs_le.1 (bnd 2 2 _ d2)
      have := abs_le.1 (bnd 0 4 _ d4)
      have := nn 3 1
      have := nn 1 3
      rw [abs_le]; constructor <;> linarith
  · refine err (m ^ 5 * w ^ 0 * R.defect 0 + 10 * (m ^ 3 * w ^ 2 * R.defect 2) +
      5 * (m ^ 1 * w ^ 4 * R.defect 4)) ?_ ?_
    · simp only [Rule.apply, Rule.defect]; push_cast; norm_num; ring
    · have := abs_le.1 (bnd 5 0 _ d0)
      have := abs_le.1 (bnd 3 2 _ d2)
      have := abs_le.1 (bnd 1 4 _ d4)
      have := nn 4 1
      have := nn 2 3
      have := nn 0 5
      rw [abs_le]; constructor <;> linarith
  · refine err (m ^ 6 * w ^ 0 * R.defect 0 + 15 * (m ^ 4 * w ^ 2 * R.defect 2) +
      15 * (m ^ 2 * w ^ 4 * R.defect 4) + m ^ 0 * w ^ 6 * R.defect 6) ?_ ?_
    · simp only [Rule.apply, Rule.defect]; push_cast; norm_num; ring
    · have := abs_le.1 (bnd 6 0 _ d0)
      have := abs_le.1 (bnd 4 2 _ d2)
      have := abs_le.1 (bnd 2 4 _ d4)
      have := abs_le.1 (bnd 0 6 _ d6)
      have := nn 5 1
      have := nn 3 3
      have := nn 1 5
      rw [abs_le]; constructor <;> linarith
  · refine err (m ^ 7 * w ^ 0 * R.defect 0 + 21 * (m ^ 5 * w ^ 2 * R.defect 2) +
      35 * (m ^ 3 * w ^ 4 * R.defect 4) + 7 * (m ^ 1 * w ^ 6 * R.defect 6)) ?_ ?_
    · simp only [Rule.apply, Rule.defect]; push_cast; norm_num; ring
    · have := abs_le.1 (bnd 7 0 _ d0)
      have := abs_le.1 (bnd 5 2 _ d2)
      have := abs_le.1 (bnd 3 4 _ d4)
      have := abs_le.1 (bnd 1 6 _ d6)
      have := nn 6 1
      have := nn 4 3
      have := nn 2 5
      have := nn 0 7
      rw [abs_le]; constructor <;> linarith
  · refine err (m ^ 8 * w ^ 0 * R.defect 0 + 28 * (m ^ 6 * w ^ 2 * R.defect 2) +
      70 * (m ^ 4 * w ^ 4 * R.defect 4) + 28 * (m ^ 2 * w ^ 6 * R.defect 6) + m ^ 0 * w ^ 8 * R.defect 8) ?_ ?_
    · simp only [Rule.apply, Rule.defect]; push_cast; norm_num; ring
    · have := abs_le.1 (bnd 8 0 _ d0)
      have := abs_le.1 (bnd 6 2 _ d2)
      have := abs_le.1 (bnd 4 4 _ d4)
      have := abs_le.1 (bnd 2 6 _ d6)
      have := abs_le.1 (bnd 0 8 _ d8)
      have := nn 7 1
      have := nn 5 3
      have := nn 3 5
      have := nn 1 7
      rw [abs_le]; constructor <;> linarith
  · refine err (m ^ 9 * w ^ 0 * R.defect 0 + 36 * (m ^ 7 * w ^ 2 * R.defect 2) +
      126 * (m ^ 5 * w ^ 4 * R.defect 4) + 84 * (m ^ 3 * w ^ 6 * R.defect 6) + 9 * (m ^ 1 * w ^ 8 * R.defect 8)) ?_ ?_
    · simp only [Rule.apply, Rule.defect]; push_cast; norm_num; ring
    · have := abs_le.1 (bnd 9 0 _ d0)
      have := abs_le.1 (bnd 7 2 _ d2)
      have := abs_le.1 (bnd 5 4 _ d4)
      have := abs_le.1 (bnd 3 6 _ d6)
      have := abs_le.1 (bnd 1 8 _ d8)
      have := nn 8 1
      have := nn 6 3
      have := nn 4 5
      have := nn 2 7
      have := nn 0 9
      rw [abs_le]; constructor <;> linarith

/-- The rule of `k13`. -/
def rule13 (N : Nodes K) : Rule K where
  t0 := 1
  t1 := N.x1
  t2 := N.alpha
  t3 := N.x2
  t4 := N.beta
  t5 := N.x3
  w0 := 158271919734802 / 10 ^ 16
  w1 := 9427384021885 / 10 ^ 14
  w2 := 155071987336585 / 10 ^ 15
  w3 := 188821573960182 / 10 ^ 15
  w4 := 199773405226859 / 10 ^ 15
  w5 := 22492646533334 / 10 ^ 14
  w6 := 242611071901408 / 10 ^ 15

theorem k13_eq (N : Nodes K) (f : K → K) (a b : K) :
    k13 N f a b (f a) (f b) = (rule13 N).apply f ((a + b) / 2) ((b - a) / 2) := by
  have e1 : (a + b) / 2 - 1 * ((b - a) / 2) = a := by ring
  have e2 : (a + b) / 2 + 1 * ((b - a) / 2) = b := by ring
  simp only [k13, yval, absX, absc, midpoint_eq, Rule.apply, rule13, e1, e2, neg_mul, zero_mul, add_zero,
    ← sub_eq_add_neg]
  norm_num

theorem rule13_defect {N : Nodes K} (hN : N.Exact) : ∀ j ∈ [0, 2, 4, 6, 8], |(rule13 N).defect j| ≤ 1 / 10 ^ 15 := by
  obtain ⟨ha, hb, h1, h2, h3⟩ := hN
  have a4 : N.alpha ^ 4 = 4 / 9 := by
    have : N.alpha ^ 4 = (N.alpha ^ 2) ^ 2 := by ring
    rw [this, ha]; norm_num
  have a6 : N.alpha ^ 6 = 8 / 27 := by
    have : N.alpha ^ 6 = (N.alpha ^ 2) ^ 3 := by ring
    rw [this, ha]; norm_num
  have a8 : N.alpha ^ 8 = 16 / 81 := by
    have : N.alpha ^ 8 = (N.alpha ^ 2) ^ 4 := by ring
    rw [this, ha]; norm_num
  have b4 : N.beta ^ 4 = 1 / 25 := by
    have : N.beta ^ 4 = (N.beta ^ 2) ^ 2 := by ring
    rw [this, hb]; norm_num
  have b6 : N.beta ^ 6 = 1 / 125 := by
    have : N.beta ^ 6 = (N.beta ^ 2) ^ 3 := by ring
    rw [this, hb]; norm_num
  have b8 : N.beta ^ 8 = 1 / 625 := by
    have : N.beta ^ 8 = (N.beta ^ 2) ^ 4 := by ring
    rw [this, hb]; norm_num
  intro j hj
  simp only [List.mem_cons, List.not_mem_nil, or_false] at hj
  rcases hj with rfl | rfl | rfl | rfl | rfl <;>
  · simp only [Rule.defect, rule13, h1, h2, h3, ha, hb, a4, a6, a8, b4, b6, b8]
    rw [abs_le]
    constructor <;> norm_num

theorem abs_mid_add {a b : K} (h : a ≤ b) : |(a + b) / 2| + (b - a) / 2 = max |a| |b| := by
  rcases le_total 0 (a + b) with h1 | h1
  · rw [abs_of_nonneg (by linarith : (0 : K) ≤ (a + b) / 2)]
    have hb : 0 ≤ b := by linarith
    have : |a| ≤ b := abs_le.2 ⟨by linarith, h⟩
    rw [abs_of_nonneg hb, max_eq_right this]; ring
  · rw [abs_of_nonpos (by linarith : (a + b) / 2 ≤ 0)]
    have ha : a ≤ 0 := by linarith
    have : |b| ≤ -a := abs_le.2 ⟨by linarith, by linarith⟩
    rw [abs_of_nonpos ha, max_eq_left this]; ring

theorem Rule.apply_poly (R : Rule K) (d : Nat) (c : Nat → K) (m w : K) :
    R.apply (poly d c) m w = ∑ k ∈ Finset.range (d + 1), c k * R.apply (fun x => x ^ k) m w := by
  simp only [Rule.apply, poly, ← Finset.sum_add_distrib, Finset.mul_sum]
  exact Finset.sum_congr rfl fun k _ => by ring

/-- The 13-point rule integrates polynomials of degree up to 9 up to the rounding of its decimal constants. -/
theorem k13_poly {N : Nodes K} (hN : N.Exact) (c : Nat → K) {a b : K} (h : a ≤ b) :
    |k13 N (poly 9 c) a b (poly 9 c a) (poly 9 c b) - polyInt 9 c a b| ≤
      1 / 10 ^ 15 * ((b - a) / 2) * polyBound 9 c (max |a| |b|) := by
  rw [k13_eq, Rule.apply_poly, polyInt, ← Finset.sum_sub_distrib, polyBound, Finset.mul_sum]
  refine le_trans (Finset.abs_sum_le_sum_abs _ _) (Finset.sum_le_sum fun k hk => ?_)
  have hk' : k < 10 := by simpa using hk
  have hm := (rule13 N).mono (1 / 10 ^ 15) ((a + b) / 2) ((b - a) / 2) (by linarith) (rule13_defect hN) k hk'
  have e1 : (a + b) / 2 - (b - a) / 2 = a := by ring
  have e2 : (a + b) / 2 + (b - a) / 2 = b := by ring
  rw [e1, e2, abs_mid_add h] at hm
  rw [← mul_sub, abs_mul]
  calc _ ≤ |c k| * (1 / 10 ^ 15 * ((b - a) / 2) * max |a| |b| ^ k) := mul_le_mul_of_nonneg_left hm (abs_nonneg _)
    _ = _ := by ring

end Verif.Quad
