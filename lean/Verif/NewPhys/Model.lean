import Verif.Base
import Mathlib.LinearAlgebra.Matrix.ConjTranspose
import Mathlib.LinearAlgebra.Matrix.Notation
import Mathlib.Data.Complex.Basic

/-!
# New physics in the Hamiltonian (examples/NSI/NSI.h, examples/LV/LV.h)

Both classes keep an operator given in the flavour basis, rotated to the mass basis with the mixing matrix `U` of the moment it was set, and add it to the
interaction term. Operators are 3 by 3 matrices; `RotateToB1` is `A ↦ U A U†` and `Evolve` is `A ↦ W A W†` with `W = exp(i H0 t)` (DESIGN.md, assumed of
SQuIDS). `W ei x` is the matrix for energy node `ei` at position `x`.
-/

namespace Verif.NewPhys

open Matrix

abbrev Op := Matrix (Fin 3) (Fin 3) ℂ

/-- `gsl_matrix_complex_set`. -/
def put (M : Op) (i j : Fin 3) (c : ℂ) : Op := fun a b => if a = i ∧ b = j then c else M a b

/-- `RotateToB1`. -/
def rotate (U A : Op) : Op := U * A * Uᴴ

/-- `Evolve`. -/
def evolve (W A : Op) : Op := W * A * Wᴴ

/-- Which neutrinos an object has. -/
inductive NT where
  | neutrino | antineutrino | both
  deriving DecidableEq, Repr

/-! ## NSI.h -/

structure Nsi where
  eps : ℝ
  mix : Op
  op : Op

/-- The matrix of NSI.h 61-64 and 85-88. -/
def nsiMatrix (eps : ℝ) : Op :=
  let M : Op := 0
  let M := put M 2 1 eps
  put M 1 2 (star (eps : ℂ))

/-- `Set_mutau` (NSI.h 83-92). -/
def Nsi.setMutau (s : Nsi) (eps : ℝ) : Nsi := { s with eps := eps, op := rotate s.mix (nsiMatrix eps) }

/-- The setters of mixing angles and phases, which this class does not override. -/
def Nsi.setMixing (s : Nsi) (U : Op) : Nsi := { s with mix := U }

/-- The constructor (NSI.h 53-81): `U` is the mixing matrix of the angles given to it. -/
def Nsi.make (eps : ℝ) (U : Op) : Nsi :=
  let s : Nsi := ⟨eps, U, nsiMatrix eps⟩
  { s with op := rotate s.mix s.op }

/-- What `ReadStateHDF5` of the base class and `AddToReadHDF5` (NSI.h 23-28) take from a file. -/
def Nsi.read (s : Nsi) (eps : ℝ) (U : Op) : Nsi := { s with mix := U, eps := eps }

inductive NsiCall where
  | setMutau (eps : ℝ)
  | setMixing (U : Op)
  | read (eps : ℝ) (U : Op)

def Nsi.step (s : Nsi) : NsiCall → Nsi
  | .setMutau e => s.setMutau e
  | .setMixing U => s.setMixing U
  | .read e U => s.read e U

def Nsi.run (s : Nsi) (h : List NsiCall) : Nsi := h.foldl Nsi.step s

/-- `AddToPreDerive` (NSI.h 14-21). -/
def Nsi.preDerive (s : Nsi) (W : Nat → ℝ → Op) (x : ℝ) (ei : Nat) : Op := evolve (W ei x) s.op

/-- `HI` (NSI.h 36-51): `base` is what the base class gives, `CC` the charged current potential, `ev` the operator at this node. -/
def nsiHI (nt : NT) (rho : Nat) (CC : ℝ) (base ev : Op) : Outcome Op :=
  let potential : Op := ((3 * CC : ℝ) : ℂ) • ev
  if (rho = 0 ∧ nt = .both) ∨ nt = .neutrino then .ok (base + potential)
  else if (rho = 1 ∧ nt = .both) ∨ nt = .antineutrino then .ok (base + (-1 : ℂ) • potential)
  else .throws

/-! ## LV.h -/

structure Lv where
  isSet : Bool
  power : Int
  emu : ℂ
  mutau : ℂ
  op : Op
  mix : Op

/-- The matrix of LV.h 90-94. -/
def lvMatrix (emu mutau : ℂ) : Op :=
  let M : Op := 0
  let M := put M 1 0 emu
  let M := put M 0 1 (star emu)
  let M := put M 2 1 mutau
  put M 1 2 (star mutau)

/-- The constructor (LV.h 76-85) with the members as initialised in 17-21; `emu`, `mutau` and the operator are not. -/
def Lv.make (U : Op) (emu mutau : ℂ) (op : Op) : Lv := ⟨false, 1, emu, mutau, op, U⟩

/-- `Set_LV_OpMatrix` for parameters (LV.h 87-102). -/
def Lv.setParams (s : Lv) (emu mutau : ℂ) : Lv :=
  { s with op := rotate s.mix (lvMatrix emu mutau), emu := emu, mutau := mutau, isSet := true }

/-- `Set_LV_OpMatrix` for a matrix (LV.h 104-113). -/
def Lv.setMatrix (s : Lv) (M : Op) : Lv := { s with emu := M 1 0, mutau := M 2 1, op := rotate s.mix M, isSet := true }

/-- `Set_LV_Operator` (LV.h 115-121). -/
def Lv.setOperator (s : Lv) (A : Op) : Lv := { s with op := rotate s.mix A, isSet := true }

/-- `Set_LV_EnergyPower` (LV.h 123-125). -/
def Lv.setPower (s : Lv) (n : Int) : Lv := { s with power := n }

/-- `Set_MixingAngle` and `Set_CPPhase` (LV.h 127-135): also called by the base class, for the default parameters and around the projectors of
antineutrinos. -/
def Lv.setMixing (s : Lv) (U : Op) : Lv := { s with mix := U, isSet := false }

/-- `Set_initial_state` (LV.h 159-175): the base class flips the phases an even number of times, each time through the virtual setter. -/
def Lv.setInitial (s : Lv) (flipped : List Op) : Lv :=
  let lvps := s.isSet
  let U := s.mix
  let s := (flipped ++ [U]).foldl Lv.setMixing s
  { s with isSet := lvps }

inductive LvCall where
  | setParams (emu mutau : ℂ)
  | setMatrix (M : Op)
  | setOperator (A : Op)
  | setPower (n : Int)
  | setMixing (U : Op)
  | setInitial (flipped : List Op)

def Lv.step (s : Lv) : LvCall → Lv
  | .setParams a b => s.setParams a b
  | .setMatrix M => s.setMatrix M
  | .setOperator A => s.setOperator A
  | .setPower n => s.setPower n
  | .setMixing U => s.setMixing U
  | .setInitial f => s.setInitial f

def Lv.run (s : Lv) (h : List LvCall) : Lv := h.foldl Lv.step s

/-- `AddToPreDerive` (LV.h 23-31). -/
def Lv.preDerive (s : Lv) (W : Nat → ℝ → Op) (x : ℝ) : Outcome (Nat → Op) :=
  if !s.isSet then .throws else .ok fun ei => evolve (W ei x) s.op

/-- `HI` (LV.h 63-74). -/
noncomputable def Lv.HI (s : Lv) (nt : NT) (rho : Nat) (E : ℝ) (base ev : Op) : Op :=
  let sign : ℝ := if (rho = 1 ∧ nt = .both) ∨ nt = .antineutrino then 1 * (-1) else 1
  base + ((sign * E ^ s.power : ℝ) : ℂ) • ev

/-- The attributes of the object `c_values`, if the file has such an object. -/
abbrev Values := Option (List (String × ℝ))

/-- `H5LTset_attribute_double`: fails without effect if there is no object. The result is not looked at. -/
def setAttr (v : Values) (name : String) (x : ℝ) : Values := v.map fun l => (name, x) :: l

/-- `H5LTget_attribute_double` into a variable that was not initialised. -/
def getAttr (v : Values) (name : String) : Outcome ℝ :=
  match v with
  | none => .ub
  | some l => match l.lookup name with
    | some x => .ok x
    | none => .ub

/-- `AddToWriteHDF5` (LV.h 33-47). -/
def Lv.write (s : Lv) (v : Values) : Values :=
  let v := setAttr v "c_mu_tau_real" s.mutau.re
  let v := setAttr v "c_mu_tau_imag" s.mutau.im
  let v := setAttr v "c_e_mu_real" s.emu.re
  setAttr v "c_e_mu_imag" s.emu.im

/-- `AddToReadHDF5` (LV.h 49-60). -/
def Lv.read (s : Lv) (v : Values) : Outcome Lv :=
  (getAttr v "c_mu_tau_real").bind fun mtr =>
  (getAttr v "c_mu_tau_imag").bind fun mti =>
  (getAttr v "c_e_mu_real").bind fun emr =>
  (getAttr v "c_e_mu_imag").bind fun emi =>
  .ok ({ s with emu := ⟨emr, emi⟩, mutau := ⟨mtr, mti⟩ }.setParams ⟨emr, emi⟩ ⟨mtr, mti⟩)

/-- One line of `dump_probabilities` (LV.h 137-157) after the energy: `eval flv rho` is the probability at the node. -/
def dumpLine (nt : NT) (numneu : Nat) (eval : Nat → Nat → ℝ) : List ℝ :=
  (List.range numneu).flatMap fun flv =>
    if nt = .both then [eval flv 0, eval flv 1]
    else if nt = .neutrino then [eval flv 0, 0]
    else if nt = .neutrino then [0, eval flv 1]
    else []

end Verif.NewPhys
