import Verif.Base
import Mathlib.Data.Real.Basic

/-!
# The cross section of examples/Xsections (exCross.h, exCross.cpp)
-/

namespace Verif.Example

/-- `NeutrinoCrossSections::Current`. -/
inductive Current where
  | CC | NC | GR
  deriving DecidableEq, Repr

/-- The members (exCross.h 27-30). -/
structure Linear where
  GeV : ℝ
  GF : ℝ
  mp : ℝ
  ratio : ℝ

/-- The constructor (exCross.h 32-33): the `assert` on the ratio. -/
noncomputable def Linear.make (GeV ratio : ℝ) : Outcome Linear :=
  if ratio ≤ 1 ∧ ratio ≥ 0 then .ok ⟨GeV, 1.16639e-23, 938.272e6, ratio⟩ else .ub

/-- `TotalCrossSection` (exCross.cpp 4-12). -/
noncomputable def Linear.total (c : Linear) (E : ℝ) (cur : Current) : Outcome ℝ :=
  if cur = .CC then .ok (1e-7 * 2.0 * (1 - c.ratio) * c.GF * c.GF * E * c.mp)
  else if cur = .NC then .ok (1e-7 * 2.0 * c.ratio * c.GF * c.GF * E * c.mp)
  else .throws

/-- `SingleDifferentialCrossSection` (exCross.cpp 14-21); division by an energy of zero is not a number. -/
noncomputable def Linear.single (c : Linear) (E1 E2 : ℝ) (cur : Current) : Outcome ℝ :=
  if E2 > E1 then .ok 0
  else if E2 < 0 then .ok 0
  else if E1 = 0 then .ub
  else (c.total E1 cur).bind fun t => .ok (t / (E1 / c.GeV) * (2 * E2 / E1))

end Verif.Example
