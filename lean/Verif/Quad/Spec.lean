import Verif.Quad.Model
import Mathlib.Algebra.BigOperators.Group.Finset.Basic
import Mathlib.Algebra.BigOperators.Intervals

/-! Vocabulary of the quadrature properties. -/

namespace Verif.Quad

variable {K : Type} [Field K] [LinearOrder K]

/-- The intervals follow one another from `lo` to `hi` without gap or overlap, each with its ends in order. -/
def Tiles (lo hi : K) : List (Ivl K) → Prop
  | [] => lo = hi
  | i :: rest => i.a = lo ∧ i.a < i.b ∧ Tiles i.b hi rest

/-- Order of the abscissas; satisfied by the code's constants. -/
structure Nodes.Valid (N : Nodes K) : Prop where
  beta_pos : 0 < N.beta
  beta_lt : N.beta < 1
  alpha_abs : |N.alpha| ≤ 1
  x1_abs : |N.x1| ≤ 1
  x2_abs : |N.x2| ≤ 1
  x3_abs : |N.x3| ≤ 1

/-- The values of the constants that the rules rely on, with the decimal constants of AdaptiveQuad.h:77-79. -/
structure Nodes.Exact (N : Nodes K) : Prop where
  alpha_sq : N.alpha ^ 2 = 2 / 3
  beta_sq : N.beta ^ 2 = 1 / 5
  x1_eq : N.x1 = 94288241569548 / 10 ^ 14
  x2_eq : N.x2 = 641853342345781 / 10 ^ 15
  x3_eq : N.x3 = 23638319966215 / 10 ^ 14

/-- A polynomial of degree at most `d` with coefficients `c`. -/
def poly (d : Nat) (c : Nat → K) (x : K) : K := ∑ k ∈ Finset.range (d + 1), c k * x ^ k

/-- Its integral from `a` to `b`. -/
def polyInt (d : Nat) (c : Nat → K) (a b : K) : K :=
  ∑ k ∈ Finset.range (d + 1), c k * ((b ^ (k + 1) - a ^ (k + 1)) / (k + 1))

/-- A bound for the polynomial on an interval around zero of half-width `m`. -/
def polyBound (d : Nat) (c : Nat → K) (m : K) : K := ∑ k ∈ Finset.range (d + 1), |c k| * m ^ k

/-- The 7-point rule written out for the function `f` on [a,b]. -/
def kronrod7 (N : Nodes K) (f : K → K) (a b : K) : K :=
  (b - a) / 2 * (77 / 1470 * (f a + f b) +
    432 / 1470 * (f ((a + b) / 2 - N.alpha * ((b - a) / 2)) + f ((a + b) / 2 + N.alpha * ((b - a) / 2))) +
    625 / 1470 * (f ((a + b) / 2 - N.beta * ((b - a) / 2)) + f ((a + b) / 2 + N.beta * ((b - a) / 2))) +
    672 / 1470 * f ((a + b) / 2))

/-- The 4-point rule written out for the function `f` on [a,b]. -/
def lobatto4 (N : Nodes K) (f : K → K) (a b : K) : K :=
  (b - a) / 2 * (1 / 6 * (f a + f b) +
    5 / 6 * (f ((a + b) / 2 - N.beta * ((b - a) / 2)) + f ((a + b) / 2 + N.beta * ((b - a) / 2))))

end Verif.Quad
