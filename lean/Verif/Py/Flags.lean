import Verif.Base

/-!
# Flags from Python (resources/python/src/nuSQUIDSpy.cpp 26-64, 76-79, 478-493)

`ListToVectorBool` turns a Python sequence into a `std::vector<bool>` for the averaged evaluations, which Python reaches through three functions
that take the vector by value.

What is used of Python: `PySequence_Check` is a property of the object; `PySequence_Size` gives the length or -1; `PySequence_GetItem` gives the item
with this index or a null pointer, and `PyObject_IsTrue` its truth or -1. A null pointer given to `PyObject_IsTrue` or `Py_DECREF` is undefined
behaviour.
-/

namespace Verif.Py.Flags

/-- What the conversion looks at. -/
structure Obj where
  isSequence : Bool
  /-- `PySequence_Size`; `none` is an error -/
  size : Option Nat
  /-- `PySequence_GetItem` with `PyObject_IsTrue`: `none` is a null pointer, `some none` an item whose truth raises -/
  item : Nat → Option (Option Bool)

/-- A vector made by the conversion; `pending` if a Python exception is set but not raised. -/
structure Made where
  flags : List Bool
  pending : Bool
  deriving DecidableEq, Repr

/-- `convertible` (35-38). -/
def convertible (o : Obj) : Bool := o.isSequence

/-- `int len = PySequence_Size(obj_ptr)` (44). -/
def intLen (o : Obj) : Int :=
  match o.size with
  | none => -1
  | some n => (n : Int).bmod (2 ^ 32)

/-- The loop (46-50) from index `i`, `left` items before its end. The result of `PyObject_IsTrue` is an `int`, and -1 is true. -/
def loop (o : Obj) : (left i : Nat) → Made → Outcome Made
  | 0, _, m => .ok m
  | left + 1, i, m =>
    match o.item i with
    | none => .ub
    | some t => loop o left (i + 1) ⟨m.flags ++ [t.getD true], m.pending || t.isNone⟩

/-- `construct` (40-52): `reserve` of a negative number asks for more than `max_size` and throws. -/
def construct (o : Obj) : Outcome Made :=
  let len := intLen o
  if len < 0 then .throws else loop o len.toNat 0 ⟨[], false⟩

/-- An object given for a parameter of type `std::vector<bool>`; `none` is a refusal. -/
def toFlags (o : Obj) : Outcome (Option Made) := if convertible o then (construct o).map some else .ok none

/-- An averaged evaluation of the library with all parameters but the flags given: the value, and what the flags are afterwards. -/
abbrev Evaluation (K : Type) := List Bool → Outcome (K × List Bool)

/-- `nuSQUIDSAtm::EvalFlavor` (nuSQuIDS.h 1425-1509) has its own copy `avr`, in C++ already: `f` is what its body computes and leaves there. -/
def atmospheric {K : Type} (f : Evaluation K) : Evaluation K := fun avr => (f avr).map fun r => (r.1, avr)

/-- What Python sees of a call: the value, or an exception, and the sequence it gave afterwards. -/
structure Seen (K : Type) where
  value : Outcome K
  given : Obj

/-- `EvalFlavorWrapperEnergy`, `EvalFlavorWrapper`, `EvalFlavorWrapperAtm` (56-64): `mask` is a copy, destroyed on return. A call that returns
while an exception is set fails. -/
def wrapper {K : Type} (f : Evaluation K) (o : Obj) : Seen K :=
  ⟨(toFlags o).bind fun r =>
    match r with
    | none => .throws
    | some m => (f m.flags).bind fun v => if m.pending then .throws else .ok v.1, o⟩

end Verif.Py.Flags
