import Verif.Quad.Lemmas13
import Mathlib.Analysis.Real.Sqrt
import Mathlib.Data.Rat.Defs
import Mathlib.Algebra.Order.Ring.Rat

/-! # Properties C18-C20: adaptive quadrature and the averaging built on it -/

set_option linter.unusedSectionVars false

namespace Verif.Quad

variable {K : Type} [Field K] [LinearOrder K] [IsStrictOrderedRing K]

/-- The constants of the code (AdaptiveQuad.h:75-79) as real numbers. -/
noncomputable def realNodes : Nodes ℝ where
  alpha := Real.sqrt (2 / 3)
  beta := 1 / Real.sqrt 5
  x1 := 94288241569548 / 10 ^ 14
  x2 := 641853342345781 / 10 ^ 15
  x3 := 23638319966215 / 10 ^ 14

/-- The code's constants have the order and the exact values that the theorems below assume. -/
theorem realNodes_ok : realNodes.Valid ∧ realNodes.Exact := by
  have h5 : (0 : ℝ) < Real.sqrt 5 := Real.sqrt_pos.2 (by norm_num)
  have h1 : (1 : ℝ) < Real.sqrt 5 := by rw [Real.lt_sqrt (by norm_num)]; norm_num
  constructor
  · constructor
    · simp only [realNodes]; positivity
    · simp only [realNodes]; rw [div_lt_one h5]; exact h1
    · simp only [realNodes]; rw [abs_of_nonneg (Real.sqrt_nonneg _), Real.sqrt_le_left (by norm_num)]; norm_num
    all_goals simp only [realNodes]; rw [abs_le]; constructor <;> norm_num
  · constructor
    · simp only [realNodes]; rw [Real.sq_sqrt (by norm_num)]
    · simp only [realNodes]; rw [div_pow, Real.sq_sqrt (by norm_num)]; norm_num
    all_goals rfl

/-- Rational approximations, for executable examples. -/
def ratNodes : Nodes Rat := ⟨4 / 5, 9 / 20, 94 / 100, 64 / 100, 24 / 100⟩

theorem ratNodes_valid : ratNodes.Valid := by
  constructor <;> simp only [ratNodes] <;> first | (rw [abs_le]; constructor <;> norm_num) | norm_num

/-! ## C18 -/

/-- Whatever the integrand, tolerance, limits and refinement history: the sub-intervals whose contributions make up the
result tile the range exactly once, in some order, and the integrand is only called inside the range. -/
theorem c18_partition (N : Nodes K) (hN : N.Valid) (eps : K) (he : 0 ≤ eps) (f : K → K) (a b tol : K)
    (ofa ofb : Option K) (fuel : Nat) (r : Result K) (h : integrate N eps f a b tol ofa ofb fuel = some (.ok r)) :
    (∃ l, l.Perm r.committed ∧ Tiles (min a b) (max a b) l) ∧ ∀ x ∈ r.evals, min a b ≤ x ∧ x ≤ max a b := by
  simp only [integrate] at h
  split at h
  · cases h
  split at h
  · rename_i hgt
    simp only [Option.map_eq_some_iff] at h
    obtain ⟨o, ho, hr⟩ := h
    cases o with
    | ok r' =>
      obtain ⟨_, ht, hx, _⟩ := ordered_spec hN he f ofa ofb fuel ho
      cases hr
      rw [min_eq_right (le_of_lt hgt), max_eq_left (le_of_lt hgt)]
      exact ⟨ht, hx⟩
    | throws => cases hr
    | ub => cases hr
  · rename_i hgt
    have hle : a ≤ b := not_lt.1 hgt
    obtain ⟨_, ht, hx, _⟩ := ordered_spec hN he f ofa ofb fuel h
    rw [min_eq_left hle, max_eq_right hle]
    exact ⟨ht, hx⟩

/-- The integrand is only called inside the range, stated without the record of calls: two integrands that agree between
the limits give the same run, whatever they are outside. -/
theorem c18_inside_only (N : Nodes K) (hN : N.Valid) (eps : K) (he : 0 ≤ eps) (f g : K → K) (a b tol : K)
    (hfg : ∀ x, min a b ≤ x → x ≤ max a b → f x = g x) (ofa ofb : Option K) (fuel : Nat) :
    integrate N eps f a b tol ofa ofb fuel = integrate N eps g a b tol ofa ofb fuel := by
  unfold integrate
  split
  · rfl
  split
  · rename_i hgt
    rw [min_eq_right (le_of_lt hgt), max_eq_left (le_of_lt hgt)] at hfg
    rw [ordered_congr hN he tol (le_of_lt hgt) hfg]
  · rename_i hgt
    have hle : a ≤ b := not_lt.1 hgt
    rw [min_eq_left hle, max_eq_right hle] at hfg
    exact ordered_congr hN he tol hle hfg ofa ofb fuel

/-- x^2 and |x|·x agree on [0,3]. -/
example : ∀ x : Rat, min 0 3 ≤ x → x ≤ max 0 3 → x ^ 2 = |x| * x := by
  intro x hx _
  rw [abs_of_nonneg (by simpa using hx), sq]

/-- The result is the sum of the 7-point rule over the committed sub-intervals, or the 13-point rule on the whole range
(with the sign of the requested direction), when no endpoint value is supplied. -/
theorem c18_value_of_partition (N : Nodes K) (hN : N.Valid) (eps : K) (he : 0 ≤ eps) (f : K → K) (a b tol : K)
    (fuel : Nat) (r : Result K) (h : integrate N eps f a b tol none none fuel = some (.ok r)) :
    ∃ v, r.value = (if a > b then -v else v) ∧
      (v = (r.committed.map fun i => kronrod7 N f i.a i.b).sum ∨
       v = k13 N f (min a b) (max a b) (f (min a b)) (f (max a b))) := by
  have key : ∀ {lo hi : K} {r : Result K}, integrateOrdered N eps f lo hi tol none none fuel = some (.ok r) →
      (r.value = (r.committed.map fun i => kronrod7 N f i.a i.b).sum ∨ r.value = k13 N f lo hi (f lo) (f hi)) := by
    intro lo hi r hr
    obtain ⟨_, _, _, h1, h2, h3, h4, h5⟩ := ordered_spec hN he f none none fuel hr
    simp only [Option.getD_none] at h1 h2
    rw [h1, h2] at h5
    rcases h5 with h5 | h5
    · left
      rw [h5]
      congr 1
      apply List.map_congr_left
      intro i hi
      have := h4 h1 h2 i hi
      rw [h3 i hi, this.1, this.2]
      exact evaluate_value f i.a i.b
    · exact Or.inr h5
  simp only [integrate] at h
  split at h
  · cases h
  split at h
  · rename_i hgt
    simp only [Option.map_eq_some_iff] at h
    obtain ⟨o, ho, hr⟩ := h
    cases o with
    | ok r' =>
      cases hr
      refine ⟨r'.value, by rw [if_pos hgt], ?_⟩
      rw [min_eq_right (le_of_lt hgt), max_eq_left (le_of_lt hgt)]
      exact key ho
    | throws => cases hr
    | ub => cases hr
  · rename_i hgt
    have hle : a ≤ b := not_lt.1 hgt
    refine ⟨r.value, by rw [if_neg hgt], ?_⟩
    rw [min_eq_left hle, max_eq_right hle]
    exact key h

/-- x^6 on [-1,1] is refined once. -/
example : ((integrate ratNodes (1 / 2 ^ 52) (fun x : Rat => x ^ 6) (-1) 1 (1 / 100) none none 10).map fun o =>
    o.map fun r => r.committed.length) = some (.ok 3) := by decide +kernel

/-! ## C19 -/

/-- Degrees of exactness of the two rules used on sub-intervals: 5 for the 4-point rule, 9 for the 7-point rule. -/
theorem c19_kronrod7_exact (N : Nodes K) (hN : N.Exact) (c : Nat → K) (a b : K) :
    (evaluate N (poly 9 c) a b (poly 9 c a) (poly 9 c b)).value = polyInt 9 c a b := by
  rw [evaluate_value, kronrod7_exact hN]

theorem c19_lobatto4_exact (N : Nodes K) (hN : N.Exact) (c : Nat → K) (a b : K) :
    (evaluate N (poly 5 c) a b (poly 5 c a) (poly 5 c b)).i2 = polyInt 5 c a b := by
  obtain ⟨_, hb, _, _, _⟩ := hN
  have b4 : N.beta ^ 4 = 1 / 25 := by
    have : N.beta ^ 4 = (N.beta ^ 2) ^ 2 := by ring
    rw [this, hb]; norm_num
  rw [evaluate_i2]
  obtain ⟨m, hm⟩ : ∃ m, m = (a + b) / 2 := ⟨_, rfl⟩
  obtain ⟨w, hw⟩ : ∃ w, w = (b - a) / 2 := ⟨_, rfl⟩
  have ea : a = m - w := by rw [hm, hw]; ring
  have eb : b = m + w := by rw [hm, hw]; ring
  unfold lobatto4
  rw [← hm, ← hw, ea, eb]
  simp only [poly, polyInt, Finset.sum_range_succ, Finset.sum_range_zero]
  push_cast
  ring_nf
  simp only [hb, b4]
  ring

example : realNodes.Exact ∧ poly 9 (fun k => (k : ℝ)) 1 = 45 := ⟨realNodes_ok.2, by
  simp only [poly, Finset.sum_range_succ, Finset.sum_range_zero]; norm_num⟩

private theorem tiles_polyInt (d : Nat) (c : Nat → K) {lo hi : K} {l : List (Ivl K)} (h : Tiles lo hi l) :
    (l.map fun i => polyInt d c i.a i.b).sum = polyInt d c lo hi := by
  induction l generalizing lo with
  | nil => cases h; simp [polyInt]
  | cons i l ih =>
    obtain ⟨h1, _, h3⟩ := h
    subst h1
    rw [List.map_cons, List.sum_cons, ih h3]
    simp only [polyInt, ← Finset.sum_add_distrib]
    exact Finset.sum_congr rfl fun k _ => by ring

private theorem polyInt_swap (d : Nat) (c : Nat → K) (a b : K) : polyInt d c b a = -polyInt d c a b := by
  simp only [polyInt, ← Finset.sum_neg_distrib]
  exact Finset.sum_congr rfl fun k _ => by ring

/-- `integrate` on polynomials of degree up to 9: whatever the limits, the tolerance and the refinement, the result is
the exact integral up to the rounding of the decimal constants of the 13-point rule (relative 10^-15). Missing from the
full claim: exactness without that rounding term, which the code's constants do not have
(`c19_thirteen_point_violated`). -/
theorem c19_integrate_partial (N : Nodes K) (hv : N.Valid) (hN : N.Exact) (eps : K) (he : 0 ≤ eps) (c : Nat → K)
    (a b tol : K) (fuel : Nat) (r : Result K)
    (h : integrate N eps (poly 9 c) a b tol none none fuel = some (.ok r)) :
    |r.value - polyInt 9 c a b| ≤ 1 / 10 ^ 15 * (|b - a| / 2) * polyBound 9 c (max |a| |b|) := by
  obtain ⟨v, hv1, hv2⟩ := c18_value_of_partition N hv eps he _ a b tol fuel r h
  obtain ⟨⟨l, hl, ht⟩, _⟩ := c18_partition N hv eps he _ a b tol none none fuel r h
  have hpb : 0 ≤ polyBound 9 c (max |a| |b|) := Finset.sum_nonneg fun k _ => by positivity
  have hw : max a b - min a b = |b - a| := by rw [max_sub_min_eq_abs']; rw [abs_sub_comm]
  have hm : max |min a b| |max a b| = max |a| |b| := by
    rcases le_total a b with h | h
    · rw [min_eq_left h, max_eq_right h]
    · rw [min_eq_right h, max_eq_left h, max_comm]
  have main : |v - polyInt 9 c (min a b) (max a b)| ≤
      1 / 10 ^ 15 * (|b - a| / 2) * polyBound 9 c (max |a| |b|) := by
    rcases hv2 with h1 | h1
    · have e : v = polyInt 9 c (min a b) (max a b) := by
        rw [h1, ← tiles_polyInt 9 c ht, ← (hl.map _).sum_eq]
        congr 1
        exact List.map_congr_left fun i _ => kronrod7_exact hN c i.a i.b
      rw [e, sub_self, abs_zero]
      positivity
    · have := k13_poly hN c (min_le_max : min a b ≤ max a b)
      rw [h1, ← hw, ← hm]
      exact this
  rw [hv1]
  split
  · rename_i hgt
    rw [min_eq_right (le_of_lt hgt), max_eq_left (le_of_lt hgt), polyInt_swap] at main
    rw [← abs_neg]
    convert main using 2
    ring
  · rename_i hgt
    rw [min_eq_left (not_lt.1 hgt), max_eq_right (not_lt.1 hgt)] at main
    exact main

/-- A tolerance loose enough for the first estimate, so that the hypothesis is met. -/
example : ((integrate ratNodes (1 / 2 ^ 52) (fun x : Rat => x ^ 2) 0 3 (1 / 2) none none 0).map fun o =>
    o.map fun _ => ()) = some (.ok ()) := by decide +kernel

/-- The decimal weights of the 13-point rule do not sum to exactly 2: the integral of 1 over [-1,1] is off by 4·10^-16. -/
theorem c19_thirteen_point_violated (N : Nodes K) : k13 N (fun _ => 1) (-1) 1 1 1 = 2 + 4 / 10 ^ 16 := by
  simp only [k13, yval]; norm_num

/-- `fastInt` is exact for linear integrands, for every interval and tolerance. -/
theorem c19_fastInt_linear (N : Nodes K) (eps s : K) (c0 c1 a b tol : K) (fuel : Nat) :
    fastInt N eps s (fun x => c0 + c1 * x) a b tol fuel = some (.ok (c0 * (b - a) + c1 * ((b ^ 2 - a ^ 2) / 2))) := by
  have e : (c0 + c1 * fx s a b 1) + (c0 + c1 * fx s a b 3) = (c0 + c1 * fx s a b 0) + (c0 + c1 * fx s a b 4) := by
    simp only [fx]; ring
  have hag : ∀ x : K, agree x x tol = true := by intro x; simp [agree]
  simp only [fastInt]
  split
  · congr 2; simp only [fx, midpoint_eq]; ring
  · rw [e, hag, if_pos rfl]
    congr 2; simp only [fx, midpoint_eq]; ring

/-- For cubic integrands `fastInt` is exact unless its first test takes the integrand for constant, that is unless the
two endpoint values agree in magnitude within the tolerance. Missing from the full claim: those integrands (see
`c19_fastInt_violated`). -/
theorem c19_fastInt_cubic_partial (N : Nodes K) (eps s : K) (hs : s ^ 2 = 1 / 3) (c : Nat → K) (a b tol : K) (fuel : Nat)
    (hne : agree (poly 3 c a) (poly 3 c b) tol = false) :
    fastInt N eps s (poly 3 c) a b tol fuel = some (.ok (polyInt 3 c a b)) := by
  have x0 : fx s a b 0 = a := by simp only [fx, midpoint_eq]; ring
  have x4 : fx s a b 4 = b := by simp only [fx, midpoint_eq]; ring
  have hag : ∀ x : K, agree x x tol = true := by intro x; simp [agree]
  have e1 : (b - a) / 2 * (poly 3 c (fx s a b 1) + poly 3 c (fx s a b 3)) = polyInt 3 c a b := by
    simp only [fx, midpoint_eq, poly, polyInt, Finset.sum_range_succ, Finset.sum_range_zero]
    push_cast
    ring_nf
    simp only [hs]
    ring
  have e2 : poly 3 c (fx s a b 1) + poly 3 c (fx s a b 3) =
      (poly 3 c (fx s a b 0) + 4 * poly 3 c (fx s a b 2) + poly 3 c (fx s a b 4)) / 3 := by
    simp only [fx, midpoint_eq, poly, Finset.sum_range_succ, Finset.sum_range_zero]
    ring_nf
    simp only [hs]
    ring
  simp only [fastInt]
  rw [x0, x4] at e2 ⊢
  rw [hne]
  simp only [Bool.false_eq_true, if_false]
  split
  · rw [e1]
  · rw [← e2, hag, if_pos rfl, e1]

example : agree (poly 3 (fun k => (k : Rat)) 0) (poly 3 (fun k => (k : Rat)) 2) (1 / 1000) = false := by
  simp only [agree, poly, Finset.sum_range_succ, Finset.sum_range_zero]; norm_num

/-- The integral of x^2 over [-1,1] comes out as 2 instead of 2/3 at every tolerance. -/
theorem c19_fastInt_violated (N : Nodes K) (eps s tol : K) (fuel : Nat) :
    fastInt N eps s (fun x => x ^ 2) (-1) 1 tol fuel = some (.ok 2) ∧
      polyInt 2 (fun k => if k = 2 then 1 else 0) (-1 : K) 1 = 2 / 3 := by
  constructor
  · simp only [fastInt, fx, midpoint, agree]; norm_num
  · simp only [polyInt, Finset.sum_range_succ, Finset.sum_range_zero]; norm_num

/-- The average of a constant cross section over a bin of non-zero width is that constant. Missing from the full claim:
the base class on a bin of zero width (see `c19_average_violated`). -/
theorem c19_average_constant_partial (N : Nodes K) (eps s sigma eMin eMax : K) (h : eMin ≠ eMax) (fuel : Nat) :
    average N eps s (fun _ => sigma) eMin eMax fuel = some (.ok sigma) := by
  have h1 := c19_fastInt_linear N eps s sigma 0 eMin eMax (1 / 1000) fuel
  simp only [zero_mul, add_zero] at h1
  have hne : eMax - eMin ≠ 0 := sub_ne_zero.2 (Ne.symm h)
  simp only [average, h1, Option.map_some, Outcome.bind_ok, fdiv, if_neg hne]
  rw [mul_div_assoc, div_self hne, mul_one]

/-- The table class averages a constant to that constant on every bin, in whichever order the edges are given. -/
theorem c19_average_tables_constant (N : Nodes K) (eps s sigma eMin eMax : K) (fuel : Nat) :
    averageTables N eps s (fun _ => sigma) eMin eMax fuel = some (.ok sigma) := by
  simp only [averageTables]
  generalize (if eMin > eMax then eMax else eMin) = lo
  generalize (if eMin > eMax then eMin else eMax) = hi
  split
  · rfl
  · rename_i hne
    have := c19_average_constant_partial N eps s sigma lo hi hne fuel
    exact this

example : average ratNodes (1 / 2 ^ 52) (577 / 1000) (fun _ => (7 : Rat)) 3 3 0 = some .ub ∧
    averageTables ratNodes (1 / 2 ^ 52) (577 / 1000) (fun _ => (7 : Rat)) 3 3 0 = some (.ok 7) := by decide +kernel

/-- On a bin of zero width the base-class average divides zero by zero. -/
theorem c19_average_violated (N : Nodes K) (eps s sigma e : K) (fuel : Nat) :
    average N eps s (fun _ => sigma) e e fuel = some .ub := by
  have h1 := c19_fastInt_linear N eps s sigma 0 e e (1 / 1000) fuel
  simp only [zero_mul, add_zero] at h1
  simp only [average, h1, Option.map_some, Outcome.bind_ok, fdiv, sub_self, if_true]

/-! ## C20 -/

/-- Swapping the limits negates the result and changes nothing else about whether and how the call ends, without endpoint values and with ones that
the caller gives for the smaller and the larger limit. Missing from the full claim: endpoint values given for the caller's own limits and the values
handed back (`c20_supplied_violated`, `c20_handed_back_violated`). -/
theorem c20_reverse_partial (N : Nodes K) (eps : K) (he : 0 ≤ eps) (f : K → K) (a b tol : K) (flo fhi : Option K) (fuel : Nat) :
    (integrate N eps f b a tol flo fhi fuel).map (Outcome.map Result.value) =
      (integrate N eps f a b tol flo fhi fuel).map (Outcome.map fun r => -r.value) := by
  have hcomp : ∀ o : Outcome (Result K), (o.map fun r => { r with value := -r.value }).map Result.value =
      o.map fun r => -r.value := by intro o; cases o <;> rfl
  have hcomp' : ∀ o : Outcome (Result K), (o.map fun r => { r with value := -r.value }).map (fun r => -r.value) =
      o.map Result.value := by intro o; cases o <;> simp [Outcome.map]
  simp only [integrate]
  split
  · rfl
  · rcases lt_trichotomy a b with h | rfl | h
    · rw [if_pos h, if_neg (not_lt.2 h.le), Option.map_map]
      congr 1; funext o; exact hcomp o
    · have : ¬ canSubdivide eps a a := fun h => lt_irrefl _ (canSubdivide_lt he h)
      simp [integrateOrdered, this, Outcome.map]
    · rw [if_neg (not_lt.2 (le_of_lt h)), if_pos h, Option.map_map]
      congr 1; funext o; exact (hcomp' o).symm

example : ((integrate ratNodes (1 / 2 ^ 52) (fun x : Rat => x ^ 2) 3 0 (1 / 2) none none 0).map fun o =>
    o.map fun r => decide (r.value < 0)) = some (.ok true) := by decide +kernel

private theorem id_estimates (N : Nodes K) (fa fb : K) :
    (evaluate N id 0 1 fa fb).value = (77 * (fa + fb) + 1393) / 2940 ∧
    (evaluate N id 0 1 fa fb).i2 = (fa + fb + 5) / 12 ∧
    k13 N id 0 1 fa fb = 158271919734802 / (2 * 10 ^ 16) * (fa + fb) + (5 / 10 + 1 / 10 ^ 16) -
      158271919734802 / (2 * 10 ^ 16) := by
  refine ⟨?_, ?_, ?_⟩
  · simp only [evaluate, yval, absX, absc, midpoint, id]; norm_num; ring
  · simp only [evaluate, yval, absX, absc, midpoint, id]; norm_num; ring
  · simp only [k13, yval, absX, absc, midpoint, id]; norm_num; ring

private theorem id_run (N : Nodes K) (ofa ofb : Option K) (fuel : Nat)
    (hb : badness (evaluate N id 0 1 (ofa.getD 0) (ofb.getD 1))
      (absTol (evaluate N id 0 1 (ofa.getD 0) (ofb.getD 1)) (k13 N id 0 1 (ofa.getD 0) (ofb.getD 1)) 1) ≤ 0) :
    (integrate N (1 / 2 ^ 52) id 1 0 1 ofa ofb fuel).map (Outcome.map Result.value) =
      some (.ok (-k13 N id 0 1 (ofa.getD 0) (ofb.getD 1))) := by
  have h1 : ¬ ((1 : K) < 1 / 2 ^ 52) := by norm_num
  have h2 : (1 : K) > 0 := by norm_num
  have h3 : ¬ ¬ canSubdivide (1 / 2 ^ 52 : K) 0 1 := by simp only [canSubdivide]; norm_num
  simp only [integrate, integrateOrdered]
  rw [if_neg h1, if_pos h2, if_neg h3]
  simp only [id] at hb ⊢
  rw [if_pos hb]
  rfl

/-- A caller integrating the identity from 1 down to 0 who supplies the value at its starting point 1 gets a different
result from one who supplies nothing: the value is used at 0. -/
theorem c20_supplied_violated (N : Nodes K) (fuel : Nat) : ∃ v w : K,
    (integrate N (1 / 2 ^ 52) id 1 0 1 (some (id 1)) none fuel).map (Outcome.map Result.value) = some (.ok v) ∧
    (integrate N (1 / 2 ^ 52) id 1 0 1 none none fuel).map (Outcome.map Result.value) = some (.ok w) ∧ v ≠ w := by
  obtain ⟨a1, a2, a3⟩ := id_estimates N (1 : K) 1
  obtain ⟨b1, b2, b3⟩ := id_estimates N (0 : K) 1
  refine ⟨_, _, id_run N (some (id 1)) none fuel ?_, id_run N none none fuel ?_, ?_⟩
  · have e : (evaluate N id 0 1 (1 : K) 1).b - (evaluate N id 0 1 (1 : K) 1).a = 1 := by simp [evaluate]
    simp only [Option.getD_some, Option.getD_none, id_eq, badness, absTol, a1, a2, a3, e]
    norm_num [abs_of_pos, abs_of_neg]
  · have e : (evaluate N id 0 1 (0 : K) 1).b - (evaluate N id 0 1 (0 : K) 1).a = 1 := by simp [evaluate]
    simp only [Option.getD_none, badness, absTol, b1, b2, b3, e]
    norm_num [abs_of_pos, abs_of_neg]
  · simp only [Option.getD_some, Option.getD_none, id_eq, a3, b3]
    norm_num

/-- The endpoint values handed back after a reversed call are those of the smaller limit for `fa` and of the larger for
`fb`: each is the value at the caller's other limit. -/
theorem c20_handed_back_violated (N : Nodes K) (eps tol : K) (f : K → K) (a b : K) (hba : b < a) (fuel : Nat)
    (r : Result K) (h : integrate N eps f a b tol none none fuel = some (.ok r)) : r.fa = f b ∧ r.fb = f a := by
  simp only [integrate] at h
  split at h
  · cases h
  simp only [Option.map_eq_some_iff] at h
  obtain ⟨o, ho, hr⟩ := h
  simp only [integrateOrdered] at ho
  split at ho
  · cases ho; cases hr
  split at ho
  · cases ho; cases hr; exact ⟨rfl, rfl⟩
  · simp only [Option.map_eq_some_iff] at ho
    obtain ⟨s, _, hr'⟩ := ho
    cases hr'; cases hr; exact ⟨rfl, rfl⟩

example : ((integrate ratNodes (1 / 2 ^ 52) (fun x : Rat => x ^ 2) 3 0 (1 / 2) none none 0).map fun o =>
    o.map fun r => (r.fa, r.fb)) = some (.ok (0, 9)) := by decide +kernel

end Verif.Quad
