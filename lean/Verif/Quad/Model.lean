import Verif.Base
import Mathlib.Algebra.Order.Field.Basic
import Mathlib.Algebra.Order.Group.Unbundled.Abs

/-!
# Adaptive quadrature (include/nuSQuIDS/AdaptiveQuad.h) and `fastInt` (src/xsections.cpp:32-92)

`double` is an arbitrary linearly ordered field `K`; rounding, NaN and overflow are not modelled. The irrational
abscissas `sqrt(2./3)`, `1/sqrt(5)` and `1/sqrt(3)` are parameters, so that the model can be executed at `Rat` and
reasoned about at the true values. An endpoint value "not supplied" (NaN in the C++ `Options`) is `none`.
The refinement loop has no bound in exact arithmetic, so it takes a number of iterations `fuel`; `none` means that it
has not finished yet.
-/

namespace Verif.Quad

variable {K : Type} [Field K] [LinearOrder K]

/-- The constants of AdaptiveQuad.h:75-79. -/
structure Nodes (K : Type) where
  alpha : K
  beta : K
  x1 : K
  x2 : K
  x3 : K

/-- `GanderGautschiAbscissas` (AdaptiveQuad.h:80-82). -/
def absc (N : Nodes K) : Nat → K
  | 0 => -1 | 1 => -N.x1 | 2 => -N.alpha | 3 => -N.x2 | 4 => -N.beta | 5 => -N.x3 | 6 => 0
  | 7 => N.x3 | 8 => N.beta | 9 => N.x2 | 10 => N.alpha | 11 => N.x1 | _ => 1

/-- AdaptiveQuad.h:33-46. -/
def midpoint (a b : K) : K := (a - a / 2) + b / 2

/-- The `i`-th abscissa scaled to [a,b] (AdaptiveQuad.h:84-89). -/
def absX (N : Nodes K) (a b : K) (i : Nat) : K := midpoint a b + absc N i * ((b - a) / 2)

/-- `Interval` after `evaluate` (AdaptiveQuad.h:48-68). -/
structure Ivl (K : Type) where
  a : K
  b : K
  fa : K
  fb : K
  spa : K
  spb : K
  fspa : K
  fspb : K
  value : K
  i2 : K

/-- The array `y` of `evaluate` (AdaptiveQuad.h:91-98). -/
def yval (N : Nodes K) (f : K → K) (a b fa fb : K) (i : Nat) : K :=
  if i = 0 then fa else if i = 12 then fb else f (absX N a b i)

/-- `evaluate` (AdaptiveQuad.h:73-111): split points and the two lower estimates. -/
def evaluate (N : Nodes K) (f : K → K) (a b fa fb : K) : Ivl K :=
  let y := yval N f a b fa fb
  let halfWidth := (b - a) / 2
  { a := a, b := b, fa := fa, fb := fb
    spa := absX N a b 4, fspa := y 4, spb := absX N a b 8, fspb := y 8
    i2 := (halfWidth / 6) * (y 0 + y 12 + 5 * (y 4 + y 8))
    value := (halfWidth / 1470) * (77 * (y 0 + y 12) + 432 * (y 2 + y 10) + 625 * (y 4 + y 8) + 672 * y 6) }

/-- The 13-point estimate returned by `evaluate` when `full` (AdaptiveQuad.h:114-120). -/
def k13 (N : Nodes K) (f : K → K) (a b fa fb : K) : K :=
  let y := yval N f a b fa fb
  ((b - a) / 2) * (158271919734802 / 10 ^ 16 * (y 0 + y 12) + 9427384021885 / 10 ^ 14 * (y 1 + y 11) +
    155071987336585 / 10 ^ 15 * (y 2 + y 10) + 188821573960182 / 10 ^ 15 * (y 3 + y 9) +
    199773405226859 / 10 ^ 15 * (y 4 + y 8) + 22492646533334 / 10 ^ 14 * (y 5 + y 7) +
    242611071901408 / 10 ^ 15 * y 6)

/-- The points at which `evaluate` calls the integrand (AdaptiveQuad.h:97-98). -/
def callPoints (N : Nodes K) (full : Bool) (a b : K) : List K :=
  (if full then [1, 2, 3, 4, 5, 6, 7, 8, 9, 10, 11] else [2, 4, 6, 8, 10]).map (absX N a b)

/-- AdaptiveQuad.h:123-135; `eps` is `numeric_limits<double>::epsilon()`. -/
def canSubdivide (eps a b : K) : Prop := b - a > 32 * eps * max |a| |b|

instance (eps a b : K) : Decidable (canSubdivide eps a b) := by unfold canSubdivide; infer_instance

/-- AdaptiveQuad.h:137-140. -/
def badness (i : Ivl K) (tol : K) : K := |i.value - i.i2| - tol

/-- State of the refinement loop. The head of `stack` is `intervals.back()`. `committed` (the intervals passed to
`accumulate`) and `evals` (the points at which the integrand was called) are records that do not influence the run. -/
structure St (K : Type) where
  stack : List (Ivl K)
  committed : List (Ivl K)
  total : K
  comp : K
  unc2 : K
  evals : List K
  outOfTolerance : Bool

/-- `accumulate` (AdaptiveQuad.h:237-246). -/
def accumulate (s : St K) (i : Ivl K) : St K :=
  let y := i.value - s.comp
  let t := s.total + y
  let uncc := i.value - i.i2
  { s with total := t, comp := (t - s.total) - y, unc2 := s.unc2 + uncc * uncc, committed := i :: s.committed }

/-- `processSubinterval` (AdaptiveQuad.h:259-267). -/
def process (eps tol : K) (s : St K) (i : Ivl K) : St K :=
  if badness i tol ≤ 0 ∨ ¬ canSubdivide eps i.a i.b then
    accumulate (if canSubdivide eps i.a i.b then s else { s with outOfTolerance := true }) i
  else { s with stack := i :: s.stack }

/-- The `while` loop (AdaptiveQuad.h:247-271). -/
def loop (N : Nodes K) (eps : K) (f : K → K) (tol : K) : (fuel : Nat) → St K → Option (St K)
  | 0, s => if s.stack.isEmpty then some s else none
  | fuel + 1, s => match s.stack with
    | [] => some s
    | i :: rest =>
      let i1 := evaluate N f i.a i.spa i.fa i.fspa
      let i2 := evaluate N f i.spa i.spb i.fspa i.fspb
      let i3 := evaluate N f i.spb i.b i.fspb i.fb
      let calls := callPoints N false i.a i.spa ++ callPoints N false i.spa i.spb ++ callPoints N false i.spb i.b
      let s0 := { s with stack := rest, evals := s.evals ++ calls }
      loop N eps f tol fuel (process eps tol (process eps tol (process eps tol s0 i1) i2) i3)

/-- What `integrate` returns and leaves in `*options`. -/
structure Result (K : Type) where
  value : K
  /-- `options->fa`, `options->fb` -/
  fa : K
  fb : K
  outOfTolerance : Bool
  /-- committed intervals; a single one when the first estimate was good enough -/
  committed : List (Ivl K)
  /-- points at which the integrand was called -/
  evals : List K
  /-- the square of `options->uncertainty` -/
  unc2 : K

/-- The state at the start of the `while` loop (AdaptiveQuad.h:231-236). -/
def startState (i : Ivl K) (ev : List K) : St K := ⟨[i], [], 0, 0, 0, ev, false⟩

/-- The absolute tolerance (AdaptiveQuad.h:211-220): the relative one, loosened by the ratio of the errors of the two
lower estimates, times the 13-point estimate. -/
def absTol (i : Ivl K) (is1 tol : K) : K :=
  let erri1 := |i.value - is1|
  let erri2 := |i.i2 - is1|
  let R := if erri2 ≠ 0 then erri1 / erri2 else 1
  let tol := if 0 < R ∧ R < 1 then tol / R else tol
  let is := if is1 = 0 then i.b - i.a else is1
  tol * |is|

/-- The factor of the reported uncertainty (AdaptiveQuad.h:209-211 and 274). -/
def uncFactor (i : Ivl K) (is1 : K) : K :=
  let erri1 := |i.value - is1|
  let erri2 := |i.i2 - is1|
  let R := if erri2 ≠ 0 then erri1 / erri2 else 1
  if 0 < R ∧ R < 1 then R else 1

/-- `integrate` on an ordered interval (AdaptiveQuad.h:187-276 without the reversal); `ofa`, `ofb` are the supplied
endpoint values. -/
def integrateOrdered (N : Nodes K) (eps : K) (f : K → K) (a b tol : K) (ofa ofb : Option K) (fuel : Nat) :
    Option (Outcome (Result K)) :=
  let fa := ofa.getD (f a)
  let fb := ofb.getD (f b)
  let ev := (if ofa.isSome then [] else [a]) ++ (if ofb.isSome then [] else [b])
  if ¬ canSubdivide eps a b then some .throws
  else
    let i := evaluate N f a b fa fb
    let is1 := k13 N f a b fa fb
    let ev := ev ++ callPoints N true a b
    let tol' := absTol i is1 tol
    if badness i tol' ≤ 0 then some (.ok ⟨is1, fa, fb, false, [i], ev, |i.value - is1| ^ 2⟩)
    else
      (loop N eps f tol' fuel (startState i ev)).map fun s =>
        .ok ⟨s.total, fa, fb, s.outOfTolerance, s.committed, s.evals, s.unc2 * uncFactor i is1 ^ 2⟩

/-- `integrate` (AdaptiveQuad.h:179-280). -/
def integrate (N : Nodes K) (eps : K) (f : K → K) (a b tol : K) (ofa ofb : Option K) (fuel : Nat) :
    Option (Outcome (Result K)) :=
  if tol < eps then some .throws
  else if a > b then
    (integrateOrdered N eps f b a tol ofa ofb fuel).map (Outcome.map fun r => { r with value := -r.value })
  else integrateOrdered N eps f a b tol ofa ofb fuel

/-! ## `fastInt` -/

/-- `checkAgreement` (xsections.cpp:54-59). -/
def agree (est1 est2 tol : K) : Bool :=
  let a1 := max |est1| |est2|
  let a2 := min |est1| |est2|
  (a2 ≠ 0 ∧ tol > a1 / a2 - 1) ∨ a1 = a2

/-- Abscissas of `fastInt` (xsections.cpp:51-60); `s` is `1/sqrt(3)`. -/
def fx (s a b : K) : Nat → K
  | 0 => midpoint a b + -1 * ((b - a) / 2)
  | 1 => midpoint a b + -s * ((b - a) / 2)
  | 2 => midpoint a b + 0 * ((b - a) / 2)
  | 3 => midpoint a b + s * ((b - a) / 2)
  | _ => midpoint a b + 1 * ((b - a) / 2)

/-- `fastInt` (xsections.cpp:50-91). -/
def fastInt (N : Nodes K) (eps s : K) (f : K → K) (a b tol : K) (fuel : Nat) : Option (Outcome K) :=
  let halfWidth := (b - a) / 2
  let y := fun i => f (fx s a b i)
  if agree (y 0) (y 4) tol then some (.ok (halfWidth * (y 0 + y 4)))
  else
    let legendre2 := y 1 + y 3
    let lobatto2 := y 0 + y 4
    if agree legendre2 lobatto2 tol then some (.ok (halfWidth * legendre2))
    else
      let lobatto3 := (y 0 + 4 * y 2 + y 4) / 3
      if agree legendre2 lobatto3 tol then some (.ok (halfWidth * lobatto3))
      else (integrate N eps f a b tol (some (y 0)) (some (y 4)) fuel).map (Outcome.map Result.value)

/-- A floating-point quotient: dividing by zero gives no number. -/
def fdiv (x y : K) : Outcome K := if y = 0 then .ub else .ok (x / y)

/-- `AverageTotalCrossSection` (xsections.cpp:96-101) of a cross section `sigma`; `.ub` stands for the NaN or infinity
that a zero bin width gives. The base-class `AverageSingleDifferentialCrossSection` (103-108) is the same with the
differential cross section at fixed incoming energy. -/
def average (N : Nodes K) (eps s : K) (sigma : K → K) (eMin eMax : K) (fuel : Nat) : Option (Outcome K) :=
  (fastInt N eps s sigma eMin eMax (1 / 1000) fuel).map fun o => o.bind fun v => fdiv v (eMax - eMin)

/-- `NeutrinoDISCrossSectionsFromTables::AverageSingleDifferentialCrossSection` after the guards
(xsections.cpp:257-266). -/
def averageTables (N : Nodes K) (eps s : K) (sigma : K → K) (e2Min e2Max : K) (fuel : Nat) : Option (Outcome K) :=
  let lo := if e2Min > e2Max then e2Max else e2Min
  let hi := if e2Min > e2Max then e2Min else e2Max
  if lo = hi then some (.ok (sigma hi))
  else (fastInt N eps s sigma lo hi (1 / 1000) fuel).map fun o => o.bind fun v => fdiv v (hi - lo)

end Verif.Quad
