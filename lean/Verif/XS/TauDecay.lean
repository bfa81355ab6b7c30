import Verif.Base
import Mathlib.Data.Real.Basic

/-!
# `TauDecaySpectra` (include/nuSQuIDS/taudecay.h, src/taudecay.cpp)

Doubles are real numbers, decimal constants are the decimal numbers written; rounding is not modelled. For a tau energy of zero the C++ divides by
zero: all theorems ask for positive energies.
-/

namespace Verif.Tau

/-- The parameters (taudecay.h 60-86). -/
structure Params where
  polarization : ℝ
  RPion : ℝ
  RRho : ℝ
  RA1 : ℝ
  BrLepton : ℝ
  BrPion : ℝ
  BrRho : ℝ
  BrRA1 : ℝ
  BrHadron : ℝ

/-- `SetParameters` (taudecay.cpp 122-126); the argument is not used. -/
noncomputable def params : Params where
  polarization := -1
  RPion := 0.07856 * 0.07856
  RRho := 0.43335 * 0.43335
  RA1 := 0.70913 * 0.70913
  BrLepton := 0.18
  BrPion := 0.12
  BrRho := 0.26
  BrRA1 := 0.13
  BrHadron := 0.13

/-- `TauDecayToLepton` (39-45). -/
noncomputable def toLepton (p : Params) (Et En : ℝ) : ℝ :=
  let z := En / Et
  let g0 := 5.0 / 3.0 - 3.0 * z ^ 2 + 4.0 / 3.0 * z ^ 3
  let g1 := 1.0 / 3.0 - 3.0 * z ^ 2 + 8.0 / 3.0 * z ^ 3
  g0 + p.polarization * g1

/-- `TauDecayToPion` (47-61). -/
noncomputable def toPion (p : Params) (Et En : ℝ) : ℝ :=
  let z := En / Et
  let g0 := if 1.0 - p.RPion - z > 0 then 1.0 / (1.0 - p.RPion) else 0
  let g1 := if 1.0 - p.RPion - z > 0 then -(2.0 * z - 1.0 + p.RPion) / (1.0 - p.RPion) ^ 2 else 0
  g0 + p.polarization * g1

/-- The common form of `TauDecayToRho` (63-77) and `TauDecayToA1` (79-93), which differ in the mass ratio only. -/
noncomputable def toMeson (P R Et En : ℝ) : ℝ :=
  let z := En / Et
  let g0 := if 1.0 - R - z > 0 then 1.0 / (1.0 - R) else 0
  let g1 := if 1.0 - R - z > 0 then -((2.0 * z - 1.0 + R) / (1.0 - R)) * ((1.0 - 2.0 * R) / (1.0 + 2.0 * R)) else 0
  g0 + P * g1

/-- `TauDecayToRho` (63-77). -/
noncomputable def toRho (p : Params) : ℝ → ℝ → ℝ := toMeson p.polarization p.RRho

/-- `TauDecayToA1` (79-93). -/
noncomputable def toA1 (p : Params) : ℝ → ℝ → ℝ := toMeson p.polarization p.RA1

/-- `TauDecayToHadron` (95-106). -/
noncomputable def toHadron (p : Params) (Et En : ℝ) : ℝ :=
  let z := En / Et
  let g0 := if 0.3 - z > 0 then 1.0 / 0.3 else 0
  let g1 := 0
  g0 + p.polarization * g1

/-- `TauDecayToAll` (108-118). -/
noncomputable def toAll (p : Params) (Et En : ℝ) : ℝ :=
  0 + 2.0 * p.BrLepton * toLepton p Et En + p.BrPion * toPion p Et En + p.BrRho * toRho p Et En + p.BrRA1 * toA1 p Et En +
    p.BrHadron * toHadron p Et En

/-- The four tables (taudecay.h 112-125) as functions of their indices, with their last extents. The first extent is 2. -/
structure Tables where
  ne : Nat
  enuAll : Nat → Nat → ℝ
  enuLep : Nat → Nat → ℝ
  eleAll : Nat → Nat → ℝ
  eleLep : Nat → Nat → ℝ

/-- `Init` (132-158) for the energies `E` in eV; the entries do not depend on the type. -/
noncomputable def init (E : List ℝ) : Tables :=
  let e := fun i => E.getD i 0 / 10 ^ 9
  { ne := E.length
    eleAll := fun i j => toAll params (e i) (e j) * e j / (e i * e i)
    eleLep := fun i j => params.BrLepton * toLepton params (e i) (e j) * e j / (e i * e i)
    enuAll := fun i j => toAll params (e i) (e j) / e i
    enuLep := fun i j => params.BrLepton * toLepton params (e i) (e j) / e i }

/-- The accessors (162-184): the energy indices are tested, the type is not. -/
noncomputable def access (ne : Nat) (table : Nat → Nat → ℝ) (i j nt : Nat) : Outcome ℝ :=
  if i ≥ ne ∨ j ≥ ne then .throws else if nt < 2 then .ok (table i j) else .ub

/-- `dNdEnu_All`. -/
noncomputable def Tables.dNdEnuAll (t : Tables) : Nat → Nat → Nat → Outcome ℝ := access t.ne t.enuAll
/-- `dNdEnu_Lep`. -/
noncomputable def Tables.dNdEnuLep (t : Tables) : Nat → Nat → Nat → Outcome ℝ := access t.ne t.enuLep
/-- `dNdEle_All`. -/
noncomputable def Tables.dNdEleAll (t : Tables) : Nat → Nat → Nat → Outcome ℝ := access t.ne t.eleAll
/-- `dNdEle_Lep`. -/
noncomputable def Tables.dNdEleLep (t : Tables) : Nat → Nat → Nat → Outcome ℝ := access t.ne t.eleLep

end Verif.Tau
