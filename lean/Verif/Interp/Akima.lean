import Verif.Base
import Mathlib.Algebra.Order.Field.Basic
import Mathlib.Algebra.Order.Group.Unbundled.Abs

/-!
# `AkimaSpline` (include/nuSQuIDS/tools.h:142-186, src/tools.cpp:209-340)

`double` is an arbitrary linearly ordered field `K`: rounding, NaN and infinities are not modelled (a division by zero
gives 0 here; it can only happen on tables that `initialize` goes on to reject). A `const double*` is a function
`Nat → K`; that `initialize` reads only the first `n` cells is a theorem (`akimaInit_congr`), not an assumption.
-/

namespace Verif.Interp

variable {K : Type} [Field K] [LinearOrder K]

/-- `AkimaSpline::segment` (tools.h:146-160). -/
structure Seg (K : Type) where
  x : K
  a0 : K
  a1 : K
  a2 : K
  a3 : K
  deriving DecidableEq

/-- `segment::operator()` (tools.h:150-153). -/
def Seg.eval (s : Seg K) (x : K) : K :=
  let x := x - s.x
  ((s.a3 * x + s.a2) * x + s.a1) * x + s.a0

/-- `segment::derivative` (tools.h:154-157). -/
def Seg.derivative (s : Seg K) (x : K) : K :=
  let x := x - s.x
  (3 * s.a3 * x + 2 * s.a2) * x + s.a1

/-- The last line of `mHelper::operator()`: the slope of the chord from point `i` to point `i+1` (tools.cpp:235). -/
def chord (x y : Nat → K) (i : Nat) : K := (y (i + 1) - y i) / (x (i + 1) - x i)

/-- `mHelper::operator()` (tools.cpp:220-237). The recursive calls of the C++ are on indices for which the last line
applies when `n ≥ 3`, which is checked before. -/
def mHelper (x y : Nat → K) (n : Nat) (i : Int) : K :=
  if i = -2 then 3 * chord x y 0 - 2 * chord x y 1
  else if i = -1 then 2 * chord x y 0 - chord x y 1
  else if i = n - 1 then 2 * chord x y (n - 2) - chord x y (n - 3)
  else if i = n then 3 * chord x y (n - 2) - 2 * chord x y (n - 3)
  else chord x y i.toNat

/-- The variables carried from one iteration to the next (tools.cpp:239-240). -/
structure Carry (K : Type) where
  L : K
  NE : K
  mim2 : K
  mim1 : K
  mi : K
  mip1 : K

/-- One iteration of the loop of `initialize` (tools.cpp:241-299). -/
def body (x y : Nat → K) (n : Nat) (i : Nat) (c : Carry K) : Outcome (Seg K × Carry K) :=
  let h := x (i + 1) - x i
  if h < 0 then .throws
  else if h = 0 then .throws
  else
    let m := mHelper x y n
    let mim2 := if i = 0 then m (i - 2) else c.mim2
    let mim1 := if i = 0 then m (i - 1) else c.mim1
    let mi := if i = 0 then m i else c.mi
    let mip1 := if i = 0 then m (i + 1) else c.mip1
    let mip2 := m (i + 2)
    let Li := if c.L ≥ 0 then c.L else |mim2 - mim1|
    let NEi := if c.L ≥ 0 then c.NE else |mim2 - mim1| + |mi - mip1|
    let tR := if NEi > 0 then (1 - Li / NEi) * mim1 + Li / NEi * mi else mi
    let L := |mim1 - mi|
    let NE := L + |mip1 - mip2|
    let tL := if NE > 0 then (1 - L / NE) * mi + L / NE * mip1 else m i
    .ok ({ x := x i, a0 := y i, a1 := tR, a2 := (3 * mi - 2 * tR - tL) / h, a3 := (tR + tL - 2 * mi) / (h * h) },
         { L := L, NE := NE, mim2 := mim1, mim1 := mi, mi := mip1, mip1 := mip2 })

/-- The loop of `initialize`: `k` iterations starting with index `i` (tools.cpp:241-299). -/
def loop (x y : Nat → K) (n : Nat) : Nat → Nat → Carry K → Outcome (List (Seg K))
  | 0, _, _ => .ok []
  | k + 1, i, c => (body x y n i c).bind fun p => (loop x y n k (i + 1) p.2).map (p.1 :: ·)

/-- The members of `AkimaSpline` (tools.h:161-162). -/
structure Spline (K : Type) where
  segs : List (Seg K)
  xLast : K
  yLast : K
  deriving DecidableEq

/-- `AkimaSpline::initialize` (tools.cpp:212-303). The initial values of `m_im2..m_ip1` are indeterminate in the C++;
they are never read, and are 0 here. -/
def akimaInit (x y : Nat → K) (n : Nat) : Outcome (Spline K) :=
  if n < 3 then .throws
  else (loop x y n (n - 1) 0 ⟨-1, -1, 0, 0, 0, 0⟩).bind fun segs => .ok ⟨segs, x (n - 1), y (n - 1)⟩

/-- The constructor from two vectors (tools.h:171-173). -/
def ofVectors (x y : List K) : Outcome (Spline K) :=
  if x.length = y.length then akimaInit (x.getD · 0) (y.getD · 0) x.length else .throws

/-- `std::upper_bound(first, last, v)` on a sorted range: the number of leading elements not greater than `v`. -/
def upperBound (l : List K) (v : K) : Nat := (l.takeWhile fun a => decide (a ≤ v)).length

/-- `AkimaSpline::operator()` (tools.h:175-181); `front()` of an empty vector is undefined. -/
def Spline.eval (s : Spline K) (v : K) : Outcome K :=
  match s.segs with
  | [] => .ub
  | f :: _ =>
    if v < f.x then .ok (f.eval v)
    else (Outcome.ofOption (s.segs[upperBound (s.segs.map Seg.x) v - 1]?)).map (Seg.eval · v)

/-- `getAbscissas` (tools.cpp:305-312). -/
def Spline.abscissas (s : Spline K) : List K := s.segs.map Seg.x ++ [s.xLast]

/-- `getOrdinates` (tools.cpp:314-321). -/
def Spline.ordinates (s : Spline K) : List K := s.segs.map Seg.a0 ++ [s.yLast]

/-- `getAbscissaDerivatives`, both overloads (tools.cpp:323-340); `back()` of an empty vector is undefined. -/
def Spline.derivs (s : Spline K) : Outcome (List K) :=
  match s.segs.getLast? with
  | none => .ub
  | some l => .ok (s.segs.map Seg.a1 ++ [l.derivative s.xLast])

end Verif.Interp
