import Verif.MArray.Spec
import Verif.MArray.Lemmas

/-!
# Arrays between Python and `marray` (resources/python/src/nuSQUIDSpy.h 66-198)

A NumPy array has an element type, a byte order, a shape, strides in bytes and a position in a block of memory. What is used of NumPy:
`PyArray_GETCONTIGUOUS` gives the array itself with one reference more if its elements are in row-major order without gaps, and else a new array
with a copy of them, of the same type and byte order; `NpyIter_New` fails for an array without elements, because `NPY_ITER_ZEROSIZE_OK` is not
given, and else walks over the elements of such an array in row-major order, `inner` of them at a time. That memory may run out is not modelled.

`dec t b` is what the code obtains from reading an object of type `t` from the bytes `b` and converting it to `double`.
-/

namespace Verif.Py

open Verif.Marr

/-- The types `convertible` (111-126) and the switch of `construct` (176-190) know; `other` are all the rest, with their size. -/
inductive NpType where
  | bool | int8 | int16 | int32 | int64 | uint8 | uint16 | uint32 | uint64 | float32 | float64
  | other (size : Nat)
  deriving DecidableEq, Repr

/-- `sizeof` of the elements. -/
def NpType.size : NpType → Nat
  | bool => 1 | int8 => 1 | int16 => 2 | int32 => 4 | int64 => 8 | uint8 => 1 | uint16 => 2 | uint32 => 4 | uint64 => 8
  | float32 => 4 | float64 => 8 | other n => n

/-- A NumPy array. `base` is the address of the block `mem`, `offset` the place of the first element in it; `swapped` if the bytes of an element
are not in the order of the machine. -/
structure NpArray where
  typ : NpType
  swapped : Bool
  shape : List Nat
  strides : List Int
  base : Nat
  offset : Int
  mem : List UInt8

/-- The distance of an element from the first one, in bytes. -/
def dot : List Nat → List Int → Int
  | i :: is, s :: ss => i * s + dot is ss
  | _, _ => 0

def NpArray.addr (a : NpArray) (idx : List Nat) : Int := a.offset + dot idx a.strides

/-- The bytes of the element at a place of the block. -/
def NpArray.bytes (a : NpArray) (p : Int) : Option (List UInt8) :=
  if 0 ≤ p ∧ p + a.typ.size ≤ a.mem.length then some ((a.mem.drop p.toNat).take a.typ.size) else none

/-- Row-major without gaps; the stride of an axis with one entry does not matter. -/
def contigFrom (size : Nat) : List Nat → List Int → Bool
  | [], [] => true
  | n :: ns, s :: ss => (n = 1 || s = ((ns.prod * size : Nat) : Int)) && contigFrom size ns ss
  | _, _ => false

def NpArray.contiguous (a : NpArray) : Bool := a.shape.prod = 0 || contigFrom a.typ.size a.shape a.strides

/-- Strides of a new array. -/
def cStrides (size : Nat) : List Nat → List Int
  | [] => []
  | _ :: ns => ((ns.prod * size : Nat) : Int) :: cStrides size ns

/-- `PyArray_Copy`: a new block, at an address suitable for every type. -/
def NpArray.copy (a : NpArray) (base : Nat) : NpArray :=
  ⟨a.typ, a.swapped, a.shape, cStrides a.typ.size a.shape, base, 0,
    (List.range a.shape.prod).flatMap fun p => (a.bytes (a.addr (unflat a.shape p))).getD []⟩

/-- `PyArray_GETCONTIGUOUS` (101, 131). -/
def NpArray.getContiguous (a : NpArray) (base : Nat) : NpArray := if a.contiguous then a else a.copy base

/-- The switch of `convertible` (111-126). -/
def accepted : NpType → Bool
  | .other _ => false
  | _ => true

/-- `convertible` (92-128): whether the object is taken, and how many references to the array are kept. -/
def convertible (dim : Nat) (obj : Option NpArray) (base : Nat) : Bool × Int :=
  match obj with
  | none => (false, 0)
  | some a =>
    let c := a.getContiguous base
    let refs : Int := 1
    if c.shape.length ≠ dim then (false, refs - 1)
    else
      let refs := refs - 1
      (accepted c.typ, refs)

section
variable {K : Type u}

/-- `*(T*)data` (177-187), converted to `double`: a read outside the block or at an address that is not a multiple of the size is undefined, a
type that is not known is refused. -/
def readAs (dec : NpType → List UInt8 → K) (c : NpArray) (data : Int) : Outcome K :=
  if !accepted c.typ then .throws
  else if ((c.base : Int) + data) % c.typ.size ≠ 0 then .ub
  else match c.bytes data with
    | none => .ub
    | some b => .ok (dec c.typ b)

/-- `*it++ = v` (177-187) on the elements of the result. -/
def store (xs : List K) (it : Nat) (v : K) : Outcome (List K × Nat) := if it < xs.length then .ok (xs.set it v, it + 1) else .ub

/-- The inner loop (174-192); there is one operand. -/
def innerLoop (dec : NpType → List UInt8 → K) (c : NpArray) (stride : Int) : (count : Nat) → (data : Int) → (xs : List K) → (it : Nat) →
    Outcome (List K × Nat)
  | 0, _, xs, it => .ok (xs, it)
  | count + 1, data, xs, it =>
    (readAs dec c data).bind fun v => (store xs it v).bind fun r => innerLoop dec c stride count (data + stride) r.1 r.2

/-- The outer loop (169-193): the places the iterator stops at. -/
def outerLoop (dec : NpType → List UInt8 → K) (c : NpArray) (stride : Int) (count : Nat) : (starts : List Int) → (xs : List K) → (it : Nat) →
    Outcome (List K × Nat)
  | [], xs, it => .ok (xs, it)
  | data :: rest, xs, it => (innerLoop dec c stride count data xs it).bind fun r => outerLoop dec c stride count rest r.1 r.2

/-- Where the iterator stops in a row-major array: every `inner` elements. -/
def starts (c : NpArray) (inner : Nat) : List Int :=
  (List.range (c.shape.prod / inner)).map fun j => c.offset + ((j * inner * c.typ.size : Nat) : Int)

/-- `construct` (130-197): the array and how many references are kept. `NpyIter_New` gives a null pointer for an array without elements, which is
used in 161. -/
def construct [Inhabited K] (dec : NpType → List UInt8 → K) (dim : Nat) (a : NpArray) (base inner : Nat) : Outcome (MArray K × Int) :=
  let c := a.getContiguous base
  let refs : Int := 1
  ((MArray.empty dim : MArray K).resize (c.shape.take dim)).bind fun m =>
  if c.shape.prod = 0 then .ub
  else (outerLoop dec c c.typ.size inner (starts c inner) m.data 0).bind fun r => .ok ({ m with data := r.1 }, refs - 1)

/-- What Boost.Python makes of an argument: `none` is the `TypeError` of a call no signature fits. -/
def fromPython [Inhabited K] (dec : NpType → List UInt8 → K) (dim : Nat) (obj : Option NpArray) (base inner : Nat) :
    Outcome (Option (MArray K) × Int) :=
  match convertible dim obj base, obj with
  | (true, r), some a => (construct dec dim a base inner).bind fun x => .ok (some x.1, r + x.2)
  | (_, r), _ => .ok (none, r)

/-- `marray_to_numpyarray::convert` (69-81): `enc` are the bytes of a `double`. -/
def toNumpy (enc : K → List UInt8) (m : MArray K) (base : Nat) : NpArray :=
  ⟨.float64, false, m.extents, cStrides 8 m.extents, base, 0, (m.data.take m.total).flatMap enc⟩

end

end Verif.Py
