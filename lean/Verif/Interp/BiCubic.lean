import Verif.Interp.Akima

/-!
# `BiCubicInterpolator` (src/tools.cpp:342-477, include/nuSQuIDS/tools.h:188-213)

A two-dimensional table is a function of two indices with its two extents; `data[j][i]` of the C++ is `data j i` (`j` runs
along y). Reads of table cells are not bounds-checked in the C++; that they stay in range is a theorem.
-/

namespace Verif.Interp

variable {K : Type} [Field K] [LinearOrder K]

/-- A row-major `marray<double,2>`: extents and contents. -/
structure Grid2 (K : Type) where
  n0 : Nat
  n1 : Nat
  at_ : Nat → Nat → K

/-- Fill an array of `m` entries by running `f` for 0, 1, …, m-1; an exception ends it. Cells never written keep `d`. -/
def tabulate {β : Type} (d : β) : Nat → (Nat → Outcome β) → Outcome (Nat → β)
  | 0, _ => .ok fun _ => d
  | m + 1, f => (tabulate d m f).bind fun t => (f m).bind fun b => .ok fun i => if i = m then b else t i

/-- `spline.initialize(x,v,n); spline.getAbscissaDerivatives(slice)` (e.g. tools.cpp:369-370). -/
def sliceDerivs (x v : Nat → K) (n : Nat) : Outcome (Nat → K) :=
  (akimaInit x v n).bind fun s => s.derivs.bind fun d => .ok (d.getD · 0)

/-- The members of `BiCubicInterpolator` (tools.h:207-212). -/
structure BiCubic (K : Type) where
  data : Grid2 K
  xs : List K
  ys : List K
  dzdx : Nat → Nat → K
  dzdy : Nat → Nat → K
  dzdxdy : Nat → Nat → K

/-- The constructor (tools.cpp:342-391). `dzdy` is filled column by column. -/
def BiCubic.make (data : Grid2 K) (xs ys : List K) : Outcome (BiCubic K) :=
  if xs.length ≠ data.n1 then .throws
  else if ys.length ≠ data.n0 then .throws
  else
    (tabulate (fun _ => 0) data.n1 fun i => sliceDerivs (ys.getD · 0) (fun j => data.at_ j i) data.n0).bind fun cy =>
    (tabulate (fun _ => 0) data.n0 fun j => sliceDerivs (xs.getD · 0) (fun i => data.at_ j i) data.n1).bind fun cx =>
    (tabulate (fun _ => 0) data.n0 fun j => sliceDerivs (xs.getD · 0) (fun i => cy i j) data.n1).bind fun cxy =>
    .ok ⟨data, xs, ys, cx, fun j i => cy i j, cxy⟩

/-- The cell search for one axis (tools.cpp:398-405): `none` would be an index outside the unsigned range. -/
def cell (xs : List K) (x : K) : Option Nat :=
  let i := if x < xs.getD 0 0 then some 0 else if upperBound xs x = 0 then none else some (upperBound xs x - 1)
  i.bind fun i => if i = xs.length - 1 then (if i = 0 then none else some (i - 1)) else some i

/-- The corner data of one cell, in the numbering of tools.cpp:414-447. -/
structure Cell4 (K : Type) where
  z : Nat → K
  dt : Nat → K
  du : Nat → K
  dtdu : Nat → K

/-- tools.cpp:423-447. -/
def BiCubic.corners (b : BiCubic K) (i j : Nat) (dx dy : K) : Cell4 K :=
  let pick (f : Nat → Nat → K) : Nat → K
    | 0 => f j i | 1 => f j (i + 1) | 2 => f (j + 1) (i + 1) | _ => f (j + 1) i
  { z := pick b.data.at_
    dt := fun n => pick b.dzdx n * dx
    du := fun n => pick b.dzdy n * dy
    dtdu := fun n => pick b.dzdxdy n * dx * dy }

/-- The coefficients `c0..c3` and the Horner evaluation (tools.cpp:449-476). -/
def cellPoly (c : Cell4 K) (t u : K) : K :=
  let z := c.z
  let dzdt := c.dt
  let dzdu := c.du
  let dzdtdu := c.dtdu
  let c00 := z 0
  let c01 := dzdu 0
  let c02 := -3*z 0 + 3*z 3 - 2*dzdu 0 - dzdu 3
  let c03 := 2*z 0 - 2*z 3 + dzdu 0 + dzdu 3
  let c10 := dzdt 0
  let c11 := dzdtdu 0
  let c12 := -3*dzdt 0 + 3*dzdt 3 - 2*dzdtdu 0 - dzdtdu 3
  let c13 := 2*dzdt 0 - 2*dzdt 3 + dzdtdu 0 + dzdtdu 3
  let c20 := -3*z 0 + 3*z 1 - 2*dzdt 0 - dzdt 1
  let c21 := -3*dzdu 0 + 3*dzdu 1 - 2*dzdtdu 0 - dzdtdu 1
  let c22 := 9*z 0 - 9*z 1 + 9*z 2 - 9*z 3 + 6*dzdt 0 + 3*dzdt 1 - 3*dzdt 2 - 6*dzdt 3 + 6*dzdu 0 - 6*dzdu 1
    - 3*dzdu 2 + 3*dzdu 3 + 4*dzdtdu 0 + 2*dzdtdu 1 + dzdtdu 2 + 2*dzdtdu 3
  let c23 := -6*z 0 + 6*z 1 - 6*z 2 + 6*z 3 - 4*dzdt 0 - 2*dzdt 1 + 2*dzdt 2 + 4*dzdt 3 - 3*dzdu 0 + 3*dzdu 1
    + 3*dzdu 2 - 3*dzdu 3 - 2*dzdtdu 0 - dzdtdu 1 - dzdtdu 2 - 2*dzdtdu 3
  let c30 := 2*z 0 - 2*z 1 + dzdt 0 + dzdt 1
  let c31 := 2*dzdu 0 - 2*dzdu 1 + dzdtdu 0 + dzdtdu 1
  let c32 := -6*z 0 + 6*z 1 - 6*z 2 + 6*z 3 - 3*dzdt 0 - 3*dzdt 1 + 3*dzdt 2 + 3*dzdt 3 - 4*dzdu 0 + 4*dzdu 1
    + 2*dzdu 2 - 2*dzdu 3 - 2*dzdtdu 0 - 2*dzdtdu 1 - dzdtdu 2 - dzdtdu 3
  let c33 := 4*z 0 - 4*z 1 + 4*z 2 - 4*z 3 + 2*dzdt 0 + 2*dzdt 1 - 2*dzdt 2 - 2*dzdt 3 + 2*dzdu 0 - 2*dzdu 1
    - 2*dzdu 2 + 2*dzdu 3 + dzdtdu 0 + dzdtdu 1 + dzdtdu 2 + dzdtdu 3
  let r := ((c33*u+c32)*u+c31)*u+c30
  let r := r*t + ((c23*u+c22)*u+c21)*u+c20
  let r := r*t + ((c13*u+c12)*u+c11)*u+c10
  r*t + ((c03*u+c02)*u+c01)*u+c00

/-- The polynomial of cell (i,j) at (x,y) (tools.cpp:407-476). -/
def BiCubic.inCell (b : BiCubic K) (i j : Nat) (x y : K) : K :=
  let dx := b.xs.getD (i + 1) 0 - b.xs.getD i 0
  let dy := b.ys.getD (j + 1) 0 - b.ys.getD j 0
  cellPoly (b.corners i j dx dy) ((x - b.xs.getD i 0) / dx) ((y - b.ys.getD j 0) / dy)

/-- `BiCubicInterpolator::operator()` (tools.cpp:393-477). An access beyond the table is undefined. -/
def BiCubic.eval (b : BiCubic K) (x y : K) : Outcome K :=
  if b.data.n0 * b.data.n1 = 0 then .ok 0
  else
    match cell b.xs x, cell b.ys y with
    | some i, some j =>
      if i + 1 < b.data.n1 ∧ j + 1 < b.data.n0 then .ok (b.inCell i j x y) else .ub
    | _, _ => .ub

/-- The default-constructed interpolator (tools.h:193): no data. -/
def BiCubic.empty : BiCubic K := ⟨⟨0, 0, fun _ _ => 0⟩, [], [], fun _ _ => 0, fun _ _ => 0, fun _ _ => 0⟩

end Verif.Interp
