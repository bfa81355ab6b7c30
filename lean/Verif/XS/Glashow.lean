import Verif.XS.Tables
import Mathlib.Analysis.Real.Pi.Bounds

/-!
# `GlashowResonanceCrossSection` (include/nuSQuIDS/xsections.h 515-567, src/xsections.cpp 849-899)

Doubles are real numbers; rounding is not modelled. The physical constants come from `squids::Const`, which is not in the repository; they are
parameters here.
-/

namespace Verif.XS

/-- The constants used (`squids::Const`). -/
structure Consts where
  GF : ℝ
  cm : ℝ
  me : ℝ
  mmu : ℝ
  GeV : ℝ

/-- All constants are positive. -/
structure Consts.Positive (k : Consts) : Prop where
  GF : 0 < k.GF
  cm : 0 < k.cm
  me : 0 < k.me
  mmu : 0 < k.mmu
  GeV : 0 < k.GeV

/-- `fermi_scale` (850). -/
noncomputable def Consts.fermiScale (k : Consts) : ℝ := (k.GF / k.cm) ^ 2 * k.me / Real.pi

/-- `M_W` (851). -/
noncomputable def Consts.MW (k : Consts) : ℝ := 80.385 * k.GeV

/-- `W_total` (852). -/
noncomputable def Consts.WTotal (k : Consts) : ℝ := 2.085 * k.GeV

/-- `B_Electron`, `B_Muon`, `B_Tau`, `B_Hadronic` (896-899). -/
noncomputable def bElectron : ℝ := 0.1071
noncomputable def bMuon : ℝ := 0.1063
noncomputable def bTau : ℝ := 0.1138
noncomputable def bHadronic : ℝ := 0.6741

/-- `WDecayBranchingFraction` (xsections.h 540-547). -/
noncomputable def branching (f : Nat) : ℝ :=
  match f with
  | 0 => bElectron
  | 1 => bMuon
  | 2 => bTau
  | _ => 0

/-- The only combination treated (867, 881). -/
def resonant (f : Nat) (nt : NType) (c : Cur) : Prop := f = 0 ∧ nt = .antineutrino ∧ c = .GR

/-- `TotalCrossSection` (864-877). A zero energy is divided by. -/
noncomputable def glashowTotal (k : Consts) (f : Nat) (nt : NType) (c : Cur) (E : ℝ) : Outcome ℝ :=
  open Classical in
  if ¬resonant f nt c then .ok 0
  else if E = 0 then .ub
  else .ok (2 * k.fermiScale * E * (1 - (k.mmu * k.mmu - k.me * k.me) / (2 * k.me * E)) ^ 2 /
    ((1 - 2 * k.me * E / (k.MW * k.MW)) ^ 2 + (k.WTotal / k.MW) ^ 2) / bMuon / 3)

/-- `SingleDifferentialCrossSection` (879-889). -/
noncomputable def glashowSingle (k : Consts) (f : Nat) (nt : NType) (c : Cur) (E1 E2 : ℝ) : Outcome ℝ :=
  open Classical in
  if ¬resonant f nt c then .ok 0
  else if E2 > E1 then .ok 0
  else (glashowTotal k f nt c E1).bind fun s =>
    let xl := E2 / E1
    .ok (bMuon * 3 * s * (xl * xl) / E1 * k.GeV)

/-- `DoubleDifferentialCrossSection` (891-893). -/
def glashowDouble (_E _x _y : ℝ) (_f : Nat) (_nt : NType) (_c : Cur) : ℝ := 0

end Verif.XS
