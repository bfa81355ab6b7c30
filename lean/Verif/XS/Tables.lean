import Verif.Base
import Verif.Interp.Akima
import Verif.Interp.BiCubic
import Mathlib.Analysis.SpecialFunctions.Log.Base

/-!
# `NeutrinoDISCrossSectionsFromTables` (include/nuSQuIDS/xsections.h 296-412, src/xsections.cpp 110-583)

Doubles are real numbers; rounding is not modelled in this file. The logarithm of a number that is not positive is not a real number: where
the C++ goes on with an infinity or a NaN, the model ends with `ub`, so that no theorem rests on an invented value.
-/

namespace Verif.XS

open Verif.Interp

/-- `GeV` in eV (xsections.h 303). -/
def GeV : ℝ := 10 ^ 9

/-- `std::numeric_limits<double>::min()`. -/
noncomputable def dblMin : ℝ := 1 / 2 ^ 1022

/-- `log10`. -/
noncomputable def log10 (x : ℝ) : Outcome ℝ := if 0 < x then .ok (Real.logb 10 x) else .ub

/-- `pow(10.,x)`. -/
noncomputable def pow10 (x : ℝ) : ℝ := (10 : ℝ) ^ x

/-- `NeutrinoType`. -/
inductive NType where
  | neutrino
  | antineutrino
  deriving DecidableEq, Repr

/-- `Current`. -/
inductive Cur where
  | CC
  | NC
  | GR
  deriving DecidableEq, Repr

/-- `perFlavorData` (xsections.h 308-326): four splines `s` and four interpolators `d`, in the order CC nu, NC nu, CC nubar, NC nubar. -/
structure PerFlavor where
  s : Fin 4 → Spline ℝ
  d : Fin 4 → BiCubic ℝ

/-- The members. A flavour is the value of the enumeration (electron 0, muon 1, tau 2, sterile 3); `data` is the map `xsData`, where an absent
key and a null pointer are both `none`. -/
structure Tables where
  Emin : ℝ
  Emax : ℝ
  data : Nat → Option PerFlavor

/-- The choice of a table (xsections.cpp 216-218, 235-237): everything that is not CC is NC. -/
def which : NType → Cur → Fin 4
  | .neutrino, .CC => 0
  | .neutrino, _ => 1
  | .antineutrino, .CC => 2
  | .antineutrino, _ => 3

/-- `getFlavor` (xsections.cpp 180-186). -/
def getFlavor (t : Tables) (f : Nat) : Outcome PerFlavor :=
  match t.data f with
  | none => .throws
  | some p => .ok p

/-- The body of `TotalCrossSection` (xsections.cpp 199-220); `again` is the recursive call of line 212. -/
noncomputable def totalWith (again : ℝ → Outcome ℝ) (t : Tables) (f : Nat) (nt : NType) (c : Cur) (E : ℝ) : Outcome ℝ :=
  if ¬(f = 0 ∨ f = 1 ∨ f = 2) then .ok 0
  else if E > t.Emax then .throws
  else if E < 10 * GeV ∧ t.Emin > 10 * GeV then .ok dblMin
  else if E < t.Emin then (again t.Emin).bind fun v => .ok (v * (E / t.Emin))
  else (getFlavor t f).bind fun p => (log10 E).bind fun l => ((p.s (which nt c)).eval l).map pow10

/-- `TotalCrossSection`. The recursive call is made for the energy `Emin`, for which no further one is made: see `c65_recursion`. -/
noncomputable def total (t : Tables) (f : Nat) (nt : NType) (c : Cur) (E : ℝ) : Outcome ℝ :=
  totalWith (totalWith (fun _ => .ub) t f nt c) t f nt c E

/-- `SingleDifferentialCrossSection` (xsections.cpp 222-245). -/
noncomputable def single (t : Tables) (f : Nat) (nt : NType) (c : Cur) (E1 E2 : ℝ) : Outcome ℝ :=
  if ¬(f = 0 ∨ f = 1 ∨ f = 2) then .ok 0
  else if E1 > t.Emax then .throws
  else if E1 ≤ t.Emin then .ok dblMin
  else
    (getFlavor t f).bind fun p =>
      let d := p.d (which nt c)
      let z := (E2 - t.Emin) / (E1 - t.Emin)
      (log10 E1).bind fun l =>
      (d.eval l z).bind fun val =>
      (if E2 ≤ t.Emin then (d.eval l 0).map fun alt => if val > alt then alt else val else .ok val).bind fun val =>
      .ok (pow10 val / (E1 / GeV))

end Verif.XS
