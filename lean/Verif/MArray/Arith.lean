import Verif.MArray.Model

/-!
# Model of sums, broadcasting and scalar arithmetic (marray.h:1185-1272, 1392-1860)

Element arithmetic is an arbitrary operation: nothing about rounding is assumed for sums and broadcasting.
-/

namespace Verif.Marr

/-- `extents[i]-1` in `size_t`. -/
def dec64 (e : Nat) : Nat := if e = 0 then 2 ^ 64 - 1 else e - 1

/-! ## Sums -/

/-- marray.h:1184-1186: sum of all entries, left to right from `value_type(0)`. -/
def MArray.sumAll (add : α → α → α) (zero : α) (a : MArray α) : α := a.data.foldl add zero

/-- marray.h:1207-1223, the update of the indices after each element. The C++ loop runs over the dimensions from the
last to the first and leaves at the first one that can be incremented; here the recursion treats the later dimensions
first and the flag says that all of them were reset. `dim` counts down to the summed dimension (`none` beyond it);
`indices` has no entry for that dimension, `dummy` is `dummy_index`. -/
def bumpSum : (dim : Option Nat) → (exts indices : List Nat) → (dummy : Nat) → List Nat × Nat × Bool
  | _, [], indices, dummy => (indices, dummy, true)
  | some 0, e :: es, indices, dummy =>
    match bumpSum none es indices dummy with
    | (ind, dm, false) => (ind, dm, false)
    | (ind, dm, true) => if dm < dec64 e then (ind, dm + 1, false) else (ind, 0, true)
  | some (d + 1), e :: es, i :: is, dummy =>
    match bumpSum (some d) es is dummy with
    | (ind, dm, false) => (i :: ind, dm, false)
    | (ind, dm, true) => if i < dec64 e then ((i + 1) :: ind, dm, false) else (0 :: ind, dm, true)
  | none, e :: es, i :: is, dummy =>
    match bumpSum none es is dummy with
    | (ind, dm, false) => (i :: ind, dm, false)
    | (ind, dm, true) => if i < dec64 e then ((i + 1) :: ind, dm, false) else (0 :: ind, dm, true)
  | some (_ + 1), _ :: _, [], dummy => ([], dummy, true)
  | none, _ :: _, [], dummy => ([], dummy, true)

/-- marray.h:1252-1268: the same update for `sum_same_rank`, where `indices` has an entry for every dimension. -/
def bumpSame : (dim : Option Nat) → (exts indices : List Nat) → (dummy : Nat) → List Nat × Nat × Bool
  | _, [], indices, dummy => (indices, dummy, true)
  | _, _ :: _, [], dummy => ([], dummy, true)
  | some 0, e :: es, i :: is, dummy =>
    match bumpSame none es is dummy with
    | (ind, dm, false) => (i :: ind, dm, false)
    | (ind, dm, true) => if dm < dec64 e then (i :: ind, dm + 1, false) else (i :: ind, 0, true)
  | some (d + 1), e :: es, i :: is, dummy =>
    match bumpSame (some d) es is dummy with
    | (ind, dm, false) => (i :: ind, dm, false)
    | (ind, dm, true) => if i < dec64 e then ((i + 1) :: ind, dm, false) else (0 :: ind, dm, true)
  | none, e :: es, i :: is, dummy =>
    match bumpSame none es is dummy with
    | (ind, dm, false) => (i :: ind, dm, false)
    | (ind, dm, true) => if i < dec64 e then ((i + 1) :: ind, dm, false) else (0 :: ind, dm, true)

/-- marray.h:1205-1224 and 1249-1269: `s[indices]+=*it` for each element, then the update. `none`: the subscript divides
by zero or leaves the buffer. -/
def sumLoop (add : α → α → α) (sExts : List Nat) (bump : List Nat → Nat → List Nat × Nat × Bool) :
    (src : List α) → (indices : List Nat) → (dummy : Nat) → (s : List α) → Option (List α)
  | [], _, _, s => some s
  | x :: xs, indices, dummy, s => do
    let off ← listOffset sExts indices
    let old ← s[off]?
    let next := bump indices dummy
    sumLoop add sExts bump xs next.1 next.2.1 (s.set off (add old x))

/-- marray.h:1192-1227 `sum(dim)`; `dim` at least the rank writes past `sExtents` (`ub`). -/
def MArray.sum (add : α → α → α) (zero : α) (a : MArray α) (dim : Nat) : Outcome (MArray α) :=
  if dim < a.extents.length then
    let sExts := a.extents.eraseIdx dim
    match sumLoop add sExts (bumpSum (some dim) a.extents) a.data (List.replicate sExts.length 0) 0
        (List.replicate (accU64 sExts) zero) with
    | some s => .ok ⟨sExts, accU64 sExts, s⟩
    | none => .ub
  else .ub

/-- marray.h:1235-1272 `sum_same_rank(dim)`. -/
def MArray.sumSameRank (add : α → α → α) (zero : α) (a : MArray α) (dim : Nat) : Outcome (MArray α) :=
  let sExts := a.extents.set dim 1
  match sumLoop add sExts (bumpSame (some dim) a.extents) a.data (List.replicate sExts.length 0) 0
      (List.replicate (accU64 sExts) zero) with
  | some s => .ok ⟨sExts, accU64 sExts, s⟩
  | none => .ub

/-! ## Broadcasting -/

/-- marray.h:1613-1644: result extents, last dimension first (`i1`, `i2` count from the last dimension). `none`:
incompatible shapes, `logic_error`. -/
def resultExtents : (e1 e2 : List Nat) → Option (List Nat)
  | [], e2 => some e2
  | e1, [] => some e1
  | x :: t1, y :: t2 =>
    (if x = y then some x else if x = 1 then some y else if y = 1 then some x else none).bind
      (fun e => (resultExtents t1 t2).map (fun r => e :: r))

/-- marray.h:1692-1705: the branches `i>=R1` and `i>=R2`, which are entered for all remaining dimensions once the other
operand has none left: update of one operand's indices, last dimension first. -/
def bump1 : (x idx : List Nat) → List Nat
  | y :: x, j :: idx => if j < dec64 y then (j + 1) :: idx else 0 :: bump1 x idx
  | _, idx => idx

/-- marray.h:1686-1724: update of `in1`, `in2`, last dimension first. `x1`, `x2` are the extents (the code stores
extent-1 in `ex1`, `ex2`). -/
def bump2 : (x1 x2 in1 in2 : List Nat) → List Nat × List Nat
  | [], x2, in1, in2 => (in1, bump1 x2 in2)
  | x :: x1, [], in1, in2 => (bump1 (x :: x1) in1, in2)
  | x :: x1, y :: x2, i :: in1, j :: in2 =>
    let inc1 := decide (dec64 x > 0 ∧ i < dec64 x)
    let inc2 := decide (dec64 y > 0 ∧ j < dec64 y)
    let i' := if inc1 then i + 1 else 0
    let j' := if inc2 then j + 1 else 0
    if inc1 || inc2 then (i' :: in1, j' :: in2) else
      let r := bump2 x1 x2 in1 in2
      (i' :: r.1, j' :: r.2)
  | _ :: _, _ :: _, in1, in2 => (in1, in2)

/-- marray.h:1666-1679 and 1725-1731: position reached from `begin()` by adding `stride*index` for each dimension, last
dimension first; `stride` is the product of the extents already passed. -/
def strideOffset : (exts idx : List Nat) → (stride : Nat) → Nat
  | e :: es, i :: is, stride => stride * i + strideOffset es is (stride * e)
  | _, _, _ => 0

/-- marray.h:1682-1732: `n` more results to compute; reading outside a buffer is undefined (`none`). The operands'
extents and indices are given last dimension first. -/
def applyLoop (op : α → β → γ) (r1 r2 : List Nat) (d1 : List α) (d2 : List β) :
    (n : Nat) → (in1 in2 : List Nat) → Option (List γ)
  | 0, _, _ => some []
  | n + 1, in1, in2 => do
    let x ← d1[strideOffset r1 in1 1]?
    let y ← d2[strideOffset r2 in2 1]?
    let next := bump2 r1 r2 in1 in2
    let rest ← applyLoop op r1 r2 d1 d2 n next.1 next.2
    return op x y :: rest

/-- marray.h:1607-1736 `applyOp`. -/
def MArray.applyOp (op : α → β → γ) (a : MArray α) (b : MArray β) : Outcome (MArray γ) :=
  match resultExtents a.extents.reverse b.extents.reverse with
  | none => .throws
  | some r =>
    match applyLoop op a.extents.reverse b.extents.reverse a.data b.data (accU64 r.reverse)
        (List.replicate a.extents.length 0) (List.replicate b.extents.length 0) with
    | some d => .ok ⟨r.reverse, accU64 r.reverse, d⟩
    | none => .ub

/-- marray.h:1738-1859: the operators between arrays of the same element type and rank; equal extents use the
element-by-element path (1739-1756), everything else `applyOp`. -/
def MArray.binOp (op : α → α → α) (a b : MArray α) : Outcome (MArray α) :=
  if a.extents = b.extents then
    if a.data.length = b.data.length then .ok ⟨a.extents, a.total, List.zipWith op a.data b.data⟩ else .ub
  else a.applyOp op b

/-! ## Scalars -/

section Scalar
variable [Add K] [Sub K] [Mul K] [Div K] [Neg K]

/-- Element by element update of a copy. -/
def MArray.mapData (f : α → α) (a : MArray α) : MArray α := { a with data := a.data.map f }

/-- marray.h:1392-1401. -/
def MArray.neg (a : MArray K) : MArray K := a.mapData (fun x => -x)
/-- marray.h:1486-1490. -/
def MArray.addScalar (a : MArray K) (f : K) : MArray K := a.mapData (fun x => x + f)
/-- marray.h:1491-1495. -/
def MArray.scalarAdd (f : K) (a : MArray K) : MArray K := a.mapData (fun x => x + f)
/-- marray.h:1509-1513. -/
def MArray.subScalar (a : MArray K) (f : K) : MArray K := a.mapData (fun x => x - f)
/-- marray.h:1514-1518: `marray(-a)+=f`. -/
def MArray.scalarSub (f : K) (a : MArray K) : MArray K := a.neg.mapData (fun x => x + f)
/-- marray.h:1532-1536. -/
def MArray.mulScalar (a : MArray K) (f : K) : MArray K := a.mapData (fun x => x * f)
/-- marray.h:1537-1541. -/
def MArray.scalarMul (f : K) (a : MArray K) : MArray K := a.mapData (fun x => x * f)
/-- marray.h:1585-1589. -/
def MArray.divScalar (a : MArray K) (f : K) : MArray K := a.mapData (fun x => x / f)
/-- marray.h:1590-1593: `operator/(const U& f, marray& a)` is `marray(a)/=f`. -/
def MArray.scalarDiv (f : K) (a : MArray K) : MArray K := a.mapData (fun x => x / f)

end Scalar

end Verif.Marr
