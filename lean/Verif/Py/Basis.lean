import Verif.Base
import Mathlib.Analysis.SpecialFunctions.Pow.Real
import Mathlib.Data.Complex.Basic

/-!
# The basis of SU(N) in Python (resources/python/bindings/nuSQUIDSTools.py 19-73, 122-128, 163-206)

NumPy arrays are their shape as given by `__ExtShape`, whether their type is complex, and their entries. Python exceptions are `throws`.
-/

namespace Verif.Py.Su

/-- An array; a one-dimensional one of length `r` is `r` by one (`__ExtShape`, 21-27). -/
structure Arr where
  rows : Nat
  cols : Nat
  cplx : Bool
  entry : Nat → Nat → ℂ

/-- `np.array([x])`. -/
def one (x : ℝ) : Arr := ⟨1, 1, false, fun _ _ => (x : ℂ)⟩

/-- `__DirectSum` (29-52). The result is an array of floating point numbers: imaginary parts written to it are lost (NumPy warns). The test of
line 45 compares the column with the number of rows. -/
def directSum (A B : Arr) : Arr where
  rows := A.rows + B.rows
  cols := A.cols + B.cols
  cplx := false
  entry i j :=
    if i < A.rows ∧ j < A.cols then
      if A.cols = 1 ∧ j = 0 then ((A.entry i 0).re : ℂ)
      else if A.cols = 1 ∧ j ≠ 0 then 0
      else ((A.entry i j).re : ℂ)
    else if i ≥ A.rows ∧ j ≥ A.rows then
      if B.cols = 1 ∧ j = A.cols then ((B.entry (i - A.rows) 0).re : ℂ)
      else if B.cols = 1 ∧ j ≠ A.cols then 0
      else ((B.entry (i - A.rows) (j - A.cols)).re : ℂ)
    else 0

/-- `__EArray` (54-58): `IndexError` outside. -/
def eArray (j k d : Nat) : Outcome Arr :=
  if j < d ∧ k < d then .ok ⟨d, d, false, fun a b => if a = j ∧ b = k then 1 else 0⟩ else .throws

/-- Sum, difference, multiples and the identity, of NumPy. -/
def Arr.add (A B : Arr) : Arr := { A with cplx := A.cplx || B.cplx, entry := fun i j => A.entry i j + B.entry i j }
def Arr.sub (A B : Arr) : Arr := { A with cplx := A.cplx || B.cplx, entry := fun i j => A.entry i j - B.entry i j }
def Arr.scale (x : ℝ) (A : Arr) : Arr := { A with entry := fun i j => (x : ℂ) * A.entry i j }
def Arr.cscale (z : ℂ) (A : Arr) : Arr := { A with cplx := true, entry := fun i j => z * A.entry i j }
def identity (d : Nat) : Arr := ⟨d, d, false, fun a b => if a = b then 1 else 0⟩

/-- `_FArray` (60-73); never called with `d = 0`, for which the recursion does not end. -/
noncomputable def fArray : Nat → Nat → Nat → Outcome Arr
  | _, _, 0 => .throws
  | _, _, 1 => .ok (one 1)
  | j, k, d + 2 =>
    if j = k ∧ j ≠ d + 1 ∧ j ≠ 0 then (fArray j j (d + 1)).map fun A => directSum A (one 0)
    else if j = k ∧ k = d + 1 then
      (fArray 0 0 (d + 1)).map fun A =>
        (directSum A (one (1 - (d + 2 : ℝ)))).scale (Real.sqrt (2 / ((d + 2 : ℝ) * ((d + 2 : ℝ) - 1))))
    else if j = k ∧ k = 0 then .ok (identity (d + 2))
    else if k < j then (eArray j k (d + 2)).bind fun A => (eArray k j (d + 2)).map fun B => A.add B
    else (eArray j k (d + 2)).bind fun A => (eArray k j (d + 2)).map fun B => (A.sub B).cscale (-Complex.I)

/-- Collect results; the first exception ends it. -/
def collect : List (Outcome Arr) → Outcome (List Arr)
  | [] => .ok []
  | x :: xs => x.bind fun a => (collect xs).map fun l => a :: l

/-- The type of `np.array(basis)` is complex if that of one of the elements is. -/
def stack (l : List Arr) : List Arr := l.map fun A => { A with cplx := l.any (·.cplx) }

/-- `SUBasis` (122-128). -/
noncomputable def suBasis (n : Nat) : Outcome (List Arr) :=
  (collect ((List.range n).flatMap fun i => (List.range n).map fun j => fArray j i n)).map stack

/-- `suv_array += x` (167): a complex array cannot be added in place to a real one. -/
def Arr.addInPlace (A B : Arr) : Outcome Arr :=
  if B.cplx = true ∧ A.cplx = false then .throws else .ok { A with entry := fun i j => A.entry i j + B.entry i j }

/-- `_PrintSUVector` (163-168), for the components of a vector: `IndexError` beyond the basis. -/
noncomputable def printSUVector (n : Nat) (components : List ℝ) : Outcome Arr :=
  (suBasis n).bind fun basis =>
    components.zipIdx.foldl (fun acc c => acc.bind fun A => match basis[c.2]? with
      | some B => A.addInPlace (B.scale c.1)
      | none => .throws) (.ok ⟨n, n, false, fun _ _ => 0⟩)

/-- `GetState(ei, rho)` (nuSQuIDS.h 891-893): `state[ei].rho[rho]`, unchecked. -/
def getState {α : Type} (states : List (List α)) (ie rho : Nat) : Outcome α :=
  match states[ie]? with
  | some s => match s[rho]? with
    | some v => .ok v
    | none => .ub
  | none => .ub

/-- The types of the parameters of a member function. -/
inductive Param where
  | unsigned
  | real
  deriving DecidableEq

/-- Calling a member function through a pointer to members of another type (a C-style cast of a name with one meaning does not look for
an overload). That a cast only drops `const` is taken to be harmless. -/
def through {α : Type} (declared cast : List Param) (call : Outcome α) : Outcome α := if declared = cast then call else .ub

/-- `GetState(ie)` of Python (nuSQUIDSpy.h 313): the function has two parameters, its default is not part of its type. -/
def pyGetState1 {α : Type} (states : List (List α)) (ie : Nat) : Outcome α :=
  through [.unsigned, .unsigned] [.unsigned] (getState states ie 0)

/-- `GetState(ie, rho)` of Python (nuSQUIDSpy.h 314). -/
def pyGetState2 {α : Type} (states : List (List α)) (ie rho : Nat) : Outcome α :=
  through [.unsigned, .unsigned] [.unsigned, .unsigned] (getState states ie rho)

/-- `PrintState` (198-206): whether it complains, and the components it goes on to print. A negative number is refused by the conversion to
unsigned. -/
def readState {α : Type} (states : List (List α)) (ie : Int) (rho : Nat) : Bool × Outcome α :=
  (decide (ie < 0 ∨ ie > states.length), if ie < 0 then .throws else pyGetState2 states ie.toNat rho)

/-- `PrintState` (198-206). -/
noncomputable def printState (n : Nat) (states : List (List (List ℝ))) (ie : Int) (rho : Nat) : Outcome Arr :=
  (readState states ie rho).2.bind fun components => printSUVector n components

end Verif.Py.Su
