import Verif.Interp.BiCubic

/-!
# `TriCubicInterpolator` (src/tools.cpp:479-802, include/nuSQuIDS/tools.h:217-255)

A three-dimensional table is a function of three indices with its extents; `data[k][j][i]` of the C++ is `data k j i`
(`k` along z, `j` along y, `i` along x).
-/

namespace Verif.Interp

variable {K : Type} [Field K] [LinearOrder K]

/-- A row-major `marray<double,3>`: extents and contents. -/
structure Grid3 (K : Type) where
  n0 : Nat
  n1 : Nat
  n2 : Nat
  at_ : Nat → Nat → Nat → K

/-- The members of `TriCubicInterpolator` (tools.h:238-248). -/
structure TriCubic (K : Type) where
  data : Grid3 K
  xs : List K
  ys : List K
  zs : List K
  dfdx : Nat → Nat → Nat → K
  dfdy : Nat → Nat → Nat → K
  dfdz : Nat → Nat → Nat → K
  d2fdxdy : Nat → Nat → Nat → K
  d2fdxdz : Nat → Nat → Nat → K
  d2fdydz : Nat → Nat → Nat → K
  d3fdxdydz : Nat → Nat → Nat → K

/-- Two nested loops, each pass of the inner one computing the spline derivatives of one slice. -/
def table3 (m1 m2 : Nat) (x : Nat → K) (slice : Nat → Nat → Nat → K) (n : Nat) : Outcome (Nat → Nat → Nat → K) :=
  tabulate (fun _ _ => 0) m1 fun a => tabulate (fun _ => 0) m2 fun b => sliceDerivs x (slice a b) n

/-- The constructor (tools.cpp:479-586). The loop for `d2fdydz` (565-574) runs the splines along y into `yslice` but copies
from `xslice`, which still holds the slice left by the last pass of the previous loop; when there are more y than x
coordinates this also reads beyond the end of `xslice`. -/
def TriCubic.make (data : Grid3 K) (xs ys zs : List K) : Outcome (TriCubic K) :=
  if xs.length ≠ data.n2 then .throws
  else if ys.length ≠ data.n1 then .throws
  else if zs.length ≠ data.n0 then .throws
  else
    let x := (xs.getD · 0)
    let y := (ys.getD · 0)
    let z := (zs.getD · 0)
    (table3 data.n0 data.n1 x (fun k j i => data.at_ k j i) data.n2).bind fun fx =>
    (table3 data.n0 data.n2 y (fun k i j => data.at_ k j i) data.n1).bind fun fy =>
    (table3 data.n1 data.n2 z (fun j i k => data.at_ k j i) data.n0).bind fun fz =>
    (table3 data.n0 data.n1 x (fun k j i => fy k i j) data.n2).bind fun fxy =>
    (table3 data.n0 data.n1 x (fun k j i => fz j i k) data.n2).bind fun fxz =>
    (table3 data.n0 data.n2 y (fun k i j => fz j i k) data.n1).bind fun _ =>
    if 0 < data.n0 ∧ 0 < data.n2 ∧ data.n2 < data.n1 then .ub
    else
      let xslice := fxz (data.n0 - 1) (data.n1 - 1)
      let fyz : Nat → Nat → Nat → K := fun _ j _ => xslice j
      (table3 data.n0 data.n1 x (fun k j i => fyz k j i) data.n2).bind fun fxyz =>
      .ok { data := data, xs := xs, ys := ys, zs := zs, dfdx := fx, dfdy := fun k j i => fy k i j
            dfdz := fun k j i => fz j i k, d2fdxdy := fxy, d2fdxdz := fxz, d2fdydz := fyz, d3fdxdydz := fxyz }

/-- `collect_data` (tools.cpp:588-669). -/
def TriCubic.collect (T : TriCubic K) (i j k : Nat) (dx dy dz : K) : Nat → K
  | 0 => T.data.at_ k j i
  | 1 => T.data.at_ k j (i + 1)
  | 2 => T.data.at_ k (j + 1) i
  | 3 => T.data.at_ k (j + 1) (i + 1)
  | 4 => T.data.at_ (k + 1) j i
  | 5 => T.data.at_ (k + 1) j (i + 1)
  | 6 => T.data.at_ (k + 1) (j + 1) i
  | 7 => T.data.at_ (k + 1) (j + 1) (i + 1)
  | 8 => T.dfdx k j i * dx
  | 9 => T.dfdx k j (i + 1) * dx
  | 10 => T.dfdx k (j + 1) i * dx
  | 11 => T.dfdx k (j + 1) (i + 1) * dx
  | 12 => T.dfdx (k + 1) j i * dx
  | 13 => T.dfdx (k + 1) j (i + 1) * dx
  | 14 => T.dfdx (k + 1) (j + 1) i * dx
  | 15 => T.dfdx (k + 1) (j + 1) (i + 1) * dx
  | 16 => T.dfdy k j i * dy
  | 17 => T.dfdy k j (i + 1) * dy
  | 18 => T.dfdy k (j + 1) i * dy
  | 19 => T.dfdy k (j + 1) (i + 1) * dy
  | 20 => T.dfdy (k + 1) j i * dy
  | 21 => T.dfdy (k + 1) j (i + 1) * dy
  | 22 => T.dfdy (k + 1) (j + 1) i * dy
  | 23 => T.dfdy (k + 1) (j + 1) (i + 1) * dy
  | 24 => T.dfdz k j i * dz
  | 25 => T.dfdz k j (i + 1) * dz
  | 26 => T.dfdz k (j + 1) i * dz
  | 27 => T.dfdz k (j + 1) (i + 1) * dz
  | 28 => T.dfdz (k + 1) j i * dz
  | 29 => T.dfdz (k + 1) j (i + 1) * dz
  | 30 => T.dfdz (k + 1) (j + 1) i * dz
  | 31 => T.dfdz (k + 1) (j + 1) (i + 1) * dz
  | 32 => T.d2fdxdy k j i * dx * dy
  | 33 => T.d2fdxdy k j (i + 1) * dx * dy
  | 34 => T.d2fdxdy k (j + 1) i * dx * dy
  | 35 => T.d2fdxdy k (j + 1) (i + 1) * dx * dy
  | 36 => T.d2fdxdy (k + 1) j i * dx * dy
  | 37 => T.d2fdxdy (k + 1) j (i + 1) * dx * dy
  | 38 => T.d2fdxdy (k + 1) (j + 1) i * dx * dy
  | 39 => T.d2fdxdy (k + 1) (j + 1) (i + 1) * dx * dy
  | 40 => T.d2fdxdz k j i * dx * dz
  | 41 => T.d2fdxdz k j (i + 1) * dx * dz
  | 42 => T.d2fdxdz k (j + 1) i * dx * dz
  | 43 => T.d2fdxdz k (j + 1) (i + 1) * dx * dz
  | 44 => T.d2fdxdz (k + 1) j i * dx * dz
  | 45 => T.d2fdxdz (k + 1) j (i + 1) * dx * dz
  | 46 => T.d2fdxdz (k + 1) (j + 1) i * dx * dz
  | 47 => T.d2fdxdz (k + 1) (j + 1) (i + 1) * dx * dz
  | 48 => T.d2fdydz k j i * dy * dz
  | 49 => T.d2fdydz k j (i + 1) * dy * dz
  | 50 => T.d2fdydz k (j + 1) i * dy * dz
  | 51 => T.d2fdydz k (j + 1) (i + 1) * dy * dz
  | 52 => T.d2fdydz (k + 1) j i * dy * dz
  | 53 => T.d2fdydz (k + 1) j (i + 1) * dy * dz
  | 54 => T.d2fdydz (k + 1) (j + 1) i * dy * dz
  | 55 => T.d2fdydz (k + 1) (j + 1) (i + 1) * dy * dz
  | 56 => T.d3fdxdydz k j i * dx * dy * dz
  | 57 => T.d3fdxdydz k j (i + 1) * dx * dy * dz
  | 58 => T.d3fdxdydz k (j + 1) i * dx * dy * dz
  | 59 => T.d3fdxdydz k (j + 1) (i + 1) * dx * dy * dz
  | 60 => T.d3fdxdydz (k + 1) j i * dx * dy * dz
  | 61 => T.d3fdxdydz (k + 1) j (i + 1) * dx * dy * dz
  | 62 => T.d3fdxdydz (k + 1) (j + 1) i * dx * dy * dz
  | _ => T.d3fdxdydz (k + 1) (j + 1) (i + 1) * dx * dy * dz

/-- `get_coeffs` (tools.cpp:671-736). -/
def coeffs (d : Nat → K) : Nat → K
  | 0 => d 0
  | 1 => d 8
  | 2 => 3*(-d 0 + d 1) - 2*d 8 - d 9
  | 3 => 2*(d 0 - d 1) + d 8 + d 9
  | 4 => d 16
  | 5 => d 32
  | 6 => 3*(-d 16 + d 17) - 2*d 32 - d 33
  | 7 => 2*(d 16 - d 17) + d 32 + d 33
  | 8 => 3*(-d 0 + d 2) - 2*d 16 - d 18
  | 9 => 3*(-d 8 + d 10) - 2*d 32 - d 34
  | 10 => 9*(d 0 - d 1 - d 2 + d 3) + 6*(d 8 - d 10 + d 16 - d 17) + 4*d 32 + 3*(d 9 - d 11 + d 18 - d 19) + 2*(d 33 + d
      34) + d 35
  | 11 => 6*(-d 0 + d 1 + d 2 - d 3) + 4*(-d 16 + d 17) + 3*(-d 8 - d 9 + d 10 + d 11) + 2*(-d 18 + d 19 - d 32 - d 33) -
      d 34 - d 35
  | 12 => 2*(d 0 - d 2) + d 16 + d 18
  | 13 => 2*(d 8 - d 10) + d 32 + d 34
  | 14 => 6*(-d 0 + d 1 + d 2 - d 3) + 4*(-d 8 + d 10) + 3*(-d 16 + d 17 - d 18 + d 19) + 2*(-d 9 + d 11 - d 32 - d 34) -
      d 33 - d 35
  | 15 => 4*(d 0 - d 1 - d 2 + d 3) + 2*(d 8 + d 9 - d 10 - d 11 + d 16 - d 17 + d 18 - d 19) + d 32 + d 33 + d 34 + d 35
  | 16 => d 24
  | 17 => d 40
  | 18 => 3*(-d 24 + d 25) - 2*d 40 - d 41
  | 19 => 2*(d 24 - d 25) + d 40 + d 41
  | 20 => d 48
  | 21 => d 56
  | 22 => 3*(-d 48 + d 49) - 2*d 56 - d 57
  | 23 => 2*(d 48 - d 49) + d 56 + d 57
  | 24 => 3*(-d 24 + d 26) - 2*d 48 - d 50
  | 25 => 3*(-d 40 + d 42) - 2*d 56 - d 58
  | 26 => 9*(d 24 - d 25 - d 26 + d 27) + 6*(d 40 - d 42 + d 48 - d 49) + 4*d 56 + 3*(d 41 - d 43 + d 50 - d 51) + 2*(d 57
      + d 58) + d 59
  | 27 => 6*(-d 24 + d 25 + d 26 - d 27) + 4*(-d 48 + d 49) + 3*(-d 40 - d 41 + d 42 + d 43) + 2*(-d 50 + d 51 - d 56 - d
      57) - d 58 - d 59
  | 28 => 2*(d 24 - d 26) + d 48 + d 50
  | 29 => 2*(d 40 - d 42) + d 56 + d 58
  | 30 => 6*(-d 24 + d 25 + d 26 - d 27) + 4*(-d 40 + d 42) + 3*(-d 48 + d 49 - d 50 + d 51) + 2*(-d 41 + d 43 - d 56 - d
      58) - d 57 - d 59
  | 31 => 4*(d 24 - d 25 - d 26 + d 27) + 2*(d 40 + d 41 - d 42 - d 43 + d 48 - d 49 + d 50 - d 51) + d 56 + d 57 + d 58 +
      d 59
  | 32 => 3*(-d 0 + d 4) - 2*d 24 - d 28
  | 33 => 3*(-d 8 + d 12) - 2*d 40 - d 44
  | 34 => 9*(d 0 - d 1 - d 4 + d 5) + 6*(d 8 - d 12 + d 24 - d 25) + 4*d 40 + 3*(d 9 - d 13 + d 28 - d 29) + 2*(d 41 + d
      44) + d 45
  | 35 => 6*(-d 0 + d 1 + d 4 - d 5) + 4*(-d 24 + d 25) + 3*(-d 8 - d 9 + d 12 + d 13) + 2*(-d 28 + d 29 - d 40 - d 41) -
      d 44 - d 45
  | 36 => 3*(-d 16 + d 20) - 2*d 48 - d 52
  | 37 => 3*(-d 32 + d 36) - 2*d 56 - d 60
  | 38 => 9*(d 16 - d 17 - d 20 + d 21) + 6*(d 32 - d 36 + d 48 - d 49) + 4*d 56 + 3*(d 33 - d 37 + d 52 - d 53) + 2*(d 57
      + d 60) + d 61
  | 39 => 6*(-d 16 + d 17 + d 20 - d 21) + 4*(-d 48 + d 49) + 3*(-d 32 - d 33 + d 36 + d 37) + 2*(-d 52 + d 53 - d 56 - d
      57) - d 60 - d 61
  | 40 => 9*(d 0 - d 2 - d 4 + d 6) + 6*(d 16 - d 20 + d 24 - d 26) + 4*d 48 + 3*(d 18 - d 22 + d 28 - d 30) + 2*(d 50 + d
      52) + d 54
  | 41 => 9*(d 8 - d 10 - d 12 + d 14) + 6*(d 32 - d 36 + d 40 - d 42) + 4*d 56 + 3*(d 34 - d 38 + d 44 - d 46) + 2*(d 58
      + d 60) + d 62
  | 42 => 27*(-d 0 + d 1 + d 2 - d 3 + d 4 - d 5 - d 6 + d 7) + 18*(-d 8 + d 10 + d 12 - d 14 - d 16 + d 17 + d 20 - d 21
      - d 24 + d 25 + d 26 - d 27) + 12*(-d 32 + d 36 - d 40 + d 42 - d 48 + d 49) + 9*(-d 9 + d 11 + d 13 - d 15 - d
      18 + d 19 + d 22 - d 23 - d 28 + d 29 + d 30 - d 31) - 8*d 56 + 6*(-d 33 - d 34 + d 37 + d 38 - d 41 + d 43 - d
      44 + d 46 - d 50 + d 51 - d 52 + d 53) + 4*(-d 57 - d 58 - d 60) + 3*(-d 35 + d 39 - d 45 + d 47 - d 54 + d 55)
      + 2*(-d 59 - d 61 - d 62) - d 63
  | 43 => 18*(d 0 - d 1 - d 2 + d 3 - d 4 + d 5 + d 6 - d 7) + 12*(d 16 - d 17 - d 20 + d 21 + d 24 - d 25 - d 26 + d 27)
      + 9*(d 8 + d 9 - d 10 - d 11 - d 12 - d 13 + d 14 + d 15) + 8*(d 48 - d 49) + 6*(d 18 - d 19 - d 22 + d 23 + d
      28 - d 29 - d 30 + d 31 + d 32 + d 33 - d 36 - d 37 + d 40 + d 41 - d 42 - d 43) + 4*(d 50 - d 51 + d 52 - d 53
      + d 56 + d 57) + 3*(d 34 + d 35 - d 38 - d 39 + d 44 + d 45 - d 46 - d 47) + 2*(d 54 - d 55 + d 58 + d 59 + d 60
      + d 61) + d 62 + d 63
  | 44 => 6*(-d 0 + d 2 + d 4 - d 6) + 4*(-d 24 + d 26) + 3*(-d 16 - d 18 + d 20 + d 22) + 2*(-d 28 + d 30 - d 48 - d 50)
      - d 52 - d 54
  | 45 => 6*(-d 8 + d 10 + d 12 - d 14) + 4*(-d 40 + d 42) + 3*(-d 32 - d 34 + d 36 + d 38) + 2*(-d 44 + d 46 - d 56 - d
      58) - d 60 - d 62
  | 46 => 18*(d 0 - d 1 - d 2 + d 3 - d 4 + d 5 + d 6 - d 7) + 12*(d 8 - d 10 - d 12 + d 14 + d 24 - d 25 - d 26 + d 27) +
      9*(d 16 - d 17 + d 18 - d 19 - d 20 + d 21 - d 22 + d 23) + 8*(d 40 - d 42) + 6*(d 9 - d 11 - d 13 + d 15 + d 28
      - d 29 - d 30 + d 31 + d 32 + d 34 - d 36 - d 38 + d 48 - d 49 + d 50 - d 51) + 4*(d 41 - d 43 + d 44 - d 46 + d
      56 + d 58) + 3*(d 33 + d 35 - d 37 - d 39 + d 52 - d 53 + d 54 - d 55) + 2*(d 45 - d 47 + d 57 + d 59 + d 60 + d
      62) + d 61 + d 63
  | 47 => 12*(-d 0 + d 1 + d 2 - d 3 + d 4 - d 5 - d 6 + d 7) + 8*(-d 24 + d 25 + d 26 - d 27) + 6*(-d 8 - d 9 + d 10 + d
      11 + d 12 + d 13 - d 14 - d 15 - d 16 + d 17 - d 18 + d 19 + d 20 - d 21 + d 22 - d 23) + 4*(-d 28 + d 29 + d 30
      - d 31 - d 40 - d 41 + d 42 + d 43 - d 48 + d 49 - d 50 + d 51) + 3*(-d 32 - d 33 - d 34 - d 35 + d 36 + d 37 +
      d 38 + d 39) + 2*(-d 44 - d 45 + d 46 + d 47 - d 52 + d 53 - d 54 + d 55 - d 56 - d 57 - d 58 - d 59) - d 60 - d
      61 - d 62 - d 63
  | 48 => 2*(d 0 - d 4) + d 24 + d 28
  | 49 => 2*(d 8 - d 12) + d 40 + d 44
  | 50 => 6*(-d 0 + d 1 + d 4 - d 5) + 4*(-d 8 + d 12) + 3*(-d 24 + d 25 - d 28 + d 29) + 2*(-d 9 + d 13 - d 40 - d 44) -
      d 41 - d 45
  | 51 => 4*(d 0 - d 1 - d 4 + d 5) + 2*(d 8 + d 9 - d 12 - d 13 + d 24 - d 25 + d 28 - d 29) + d 40 + d 41 + d 44 + d 45
  | 52 => 2*(d 16 - d 20) + d 48 + d 52
  | 53 => 2*(d 32 - d 36) + d 56 + d 60
  | 54 => 6*(-d 16 + d 17 + d 20 - d 21) + 4*(-d 32 + d 36) + 3*(-d 48 + d 49 - d 52 + d 53) + 2*(-d 33 + d 37 - d 56 - d
      60) - d 57 - d 61
  | 55 => 4*(d 16 - d 17 - d 20 + d 21) + 2*(d 32 + d 33 - d 36 - d 37 + d 48 - d 49 + d 52 - d 53) + d 56 + d 57 + d 60 +
      d 61
  | 56 => 6*(-d 0 + d 2 + d 4 - d 6) + 4*(-d 16 + d 20) + 3*(-d 24 + d 26 - d 28 + d 30) + 2*(-d 18 + d 22 - d 48 - d 52)
      - d 50 - d 54
  | 57 => 6*(-d 8 + d 10 + d 12 - d 14) + 4*(-d 32 + d 36) + 3*(-d 40 + d 42 - d 44 + d 46) + 2*(-d 34 + d 38 - d 56 - d
      60) - d 58 - d 62
  | 58 => 18*(d 0 - d 1 - d 2 + d 3 - d 4 + d 5 + d 6 - d 7) + 12*(d 8 - d 10 - d 12 + d 14 + d 16 - d 17 - d 20 + d 21) +
      9*(d 24 - d 25 - d 26 + d 27 + d 28 - d 29 - d 30 + d 31) + 8*(d 32 - d 36) + 6*(d 9 - d 11 - d 13 + d 15 + d 18
      - d 19 - d 22 + d 23 + d 40 - d 42 + d 44 - d 46 + d 48 - d 49 + d 52 - d 53) + 4*(d 33 + d 34 - d 37 - d 38 + d
      56 + d 60) + 3*(d 41 - d 43 + d 45 - d 47 + d 50 - d 51 + d 54 - d 55) + 2*(d 35 - d 39 + d 57 + d 58 + d 61 + d
      62) + d 59 + d 63
  | 59 => 12*(-d 0 + d 1 + d 2 - d 3 + d 4 - d 5 - d 6 + d 7) + 8*(-d 16 + d 17 + d 20 - d 21) + 6*(-d 8 - d 9 + d 10 + d
      11 + d 12 + d 13 - d 14 - d 15 - d 24 + d 25 + d 26 - d 27 - d 28 + d 29 + d 30 - d 31) + 4*(-d 18 + d 19 + d 22
      - d 23 - d 32 - d 33 + d 36 + d 37 - d 48 + d 49 - d 52 + d 53) + 3*(-d 40 - d 41 + d 42 + d 43 - d 44 - d 45 +
      d 46 + d 47) + 2*(-d 34 - d 35 + d 38 + d 39 - d 50 + d 51 - d 54 + d 55 - d 56 - d 57 - d 60 - d 61) - d 58 - d
      59 - d 62 - d 63
  | 60 => 4*(d 0 - d 2 - d 4 + d 6) + 2*(d 16 + d 18 - d 20 - d 22 + d 24 - d 26 + d 28 - d 30) + d 48 + d 50 + d 52 + d
      54
  | 61 => 4*(d 8 - d 10 - d 12 + d 14) + 2*(d 32 + d 34 - d 36 - d 38 + d 40 - d 42 + d 44 - d 46) + d 56 + d 58 + d 60 +
      d 62
  | 62 => 12*(-d 0 + d 1 + d 2 - d 3 + d 4 - d 5 - d 6 + d 7) + 8*(-d 8 + d 10 + d 12 - d 14) + 6*(-d 16 + d 17 - d 18 + d
      19 + d 20 - d 21 + d 22 - d 23 - d 24 + d 25 + d 26 - d 27 - d 28 + d 29 + d 30 - d 31) + 4*(-d 9 + d 11 + d 13
      - d 15 - d 32 - d 34 + d 36 + d 38 - d 40 + d 42 - d 44 + d 46) + 3*(-d 48 + d 49 - d 50 + d 51 - d 52 + d 53 -
      d 54 + d 55) + 2*(-d 33 - d 35 + d 37 + d 39 - d 41 + d 43 - d 45 + d 47 - d 56 - d 58 - d 60 - d 62) - d 57 - d
      59 - d 61 - d 63
  | _ => 8*(d 0 - d 1 - d 2 + d 3 - d 4 + d 5 + d 6 - d 7) + 4*(d 8 + d 9 - d 10 - d 11 - d 12 - d 13 + d 14 + d 15 + d
      16 - d 17 + d 18 - d 19 - d 20 + d 21 - d 22 + d 23 + d 24 - d 25 - d 26 + d 27 + d 28 - d 29 - d 30 + d 31) +
      2*(d 32 + d 33 + d 34 + d 35 - d 36 - d 37 - d 38 - d 39 + d 40 + d 41 - d 42 - d 43 + d 44 + d 45 - d 46 - d 47
      + d 48 - d 49 + d 50 - d 51 + d 52 - d 53 + d 54 - d 55) + d 56 + d 57 + d 58 + d 59 + d 60 + d 61 + d 62 + d 63

/-- A cubic in Horner form, the building block of `evaluate_polynomial`. -/
def horner (a b c d t : K) : K := ((d * t + c) * t + b) * t + a

/-- `evaluate_polynomial` (tools.cpp:738-772). -/
def evalPoly (c : Nat → K) (t u v : K) : K :=
  let p (n : Nat) := horner (c (4 * n)) (c (4 * n + 1)) (c (4 * n + 2)) (c (4 * n + 3)) t
  let q (n : Nat) := horner (p (4 * n)) (p (4 * n + 1)) (p (4 * n + 2)) (p (4 * n + 3)) u
  horner (q 0) (q 1) (q 2) (q 3) v

/-- The polynomial of cell (i,j,k) at a point (tools.cpp:788-801). -/
def TriCubic.inCell (T : TriCubic K) (i j k : Nat) (x y z : K) : K :=
  let dx := T.xs.getD (i + 1) 0 - T.xs.getD i 0
  let dy := T.ys.getD (j + 1) 0 - T.ys.getD j 0
  let dz := T.zs.getD (k + 1) 0 - T.zs.getD k 0
  evalPoly (coeffs (T.collect i j k dx dy dz)) ((x - T.xs.getD i 0) / dx) ((y - T.ys.getD j 0) / dy)
    ((z - T.zs.getD k 0) / dz)

/-- `TriCubicInterpolator::operator()` (tools.cpp:774-802); there is no test for an empty table. -/
def TriCubic.eval (T : TriCubic K) (x y z : K) : Outcome K :=
  match cell T.xs x, cell T.ys y, cell T.zs z with
  | some i, some j, some k =>
    if i + 1 < T.data.n2 ∧ j + 1 < T.data.n1 ∧ k + 1 < T.data.n0 then .ok (T.inCell i j k x y z) else .ub
  | _, _, _ => .ub

end Verif.Interp
