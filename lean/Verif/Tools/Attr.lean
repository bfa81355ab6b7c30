import Verif.Base

/-!
# Attributes and arrays in HDF5 files

Model of the functions that put attributes and arrays into HDF5 files and take them out: `tools.h` 308-421, `tools.cpp` 804-842, `body.cpp` 53-116,
`nuSQuIDS.cpp` 52-72 and 2097-2107. Modelled is one object of one file, which holds attributes and data sets, and the identifiers the library has
handed out.

Assumed of HDF5: creating an attribute or a data set fails exactly if the name is taken or the file cannot be written; `H5Tset_size` refuses the
size 0 and leaves the size of `H5T_C_S1`, which is 1; writing and reading with the type of the attribute copies its bytes; a number is converted to
the type asked for, and there is no conversion between numbers and strings; a call with an invalid identifier fails and does nothing; every other
call succeeds. The functions of the high-level library (`H5LT`) close what they open, and `H5LTset_attribute_string` replaces an attribute.
`H5T_IEEE_F64LE` is `H5T_NATIVE_DOUBLE` (true on little-endian machines). Simplified: attributes have one element, strings have a fixed length; the contents of
data sets are the subject of C67 and C94, only their rank is modelled.
-/

namespace Verif.H5A

abbrev Bytes := List UInt8

/-- The numeric types of `h5Datatype` (311-314). -/
inductive Kind where
  | int | uint | float | double
  deriving DecidableEq

inductive Ty where
  | str (size : Nat)
  | num (k : Kind)
  deriving DecidableEq

/-- What an attribute holds; `V` are the numbers. -/
inductive Data (V : Type) where
  | chars (b : Bytes)
  | value (v : V)

structure Attr (V : Type) where
  ty : Ty
  rank : Nat
  data : Data V

/-- What an identifier stands for. -/
inductive Held where
  | type | space | attr | dset | plist
  deriving DecidableEq

structure Lib (V : Type) where
  writable : Bool
  attrs : String → Option (Attr V)
  /-- the ranks of the data sets -/
  dsets : String → Option Nat
  /-- the identifiers that are open -/
  opened : List (Nat × Held) := []
  /-- the next identifier -/
  next : Nat := 0

/-- How numbers are converted, and their bytes. -/
structure Machine (V : Type) where
  conv : Kind → Kind → V → V
  raw : Kind → V → Bytes

variable {V : Type}

/-! ## The library -/

/-- A call that returns a new identifier. -/
def Lib.acquire (l : Lib V) (k : Held) : Lib V × Nat := ({ l with opened := (l.next, k) :: l.opened, next := l.next + 1 }, l.next)

/-- `H5Aclose`, `H5Sclose`, `H5Tclose`, `H5Pclose`, `H5Dclose`; `none` is an invalid identifier. -/
def Lib.close (l : Lib V) (i : Option Nat) : Lib V :=
  match i with
  | none => l
  | some i => { l with opened := l.opened.filter fun p => p.1 != i }

/-- `H5Acreate` with the data an attribute has before it is written. -/
def Lib.create (l : Lib V) (name : String) (a : Attr V) : Lib V × Option Nat :=
  if l.writable && (l.attrs name).isNone then
    let r := Lib.acquire { l with attrs := fun m => if m = name then some a else l.attrs m } .attr
    (r.1, some r.2)
  else (l, none)

/-- `H5Awrite` through the identifier `i` of the attribute `name`. -/
def Lib.write (l : Lib V) (name : String) (i : Option Nat) (d : Data V) : Lib V :=
  match i with
  | none => l
  | some _ => { l with attrs := fun m => if m = name then (l.attrs name).map fun a => { a with data := d } else l.attrs m }

/-- `H5Aopen`. -/
def Lib.openAttr (l : Lib V) (name : String) : Lib V × Option (Nat × Attr V) :=
  match l.attrs name with
  | none => (l, none)
  | some a => let r := l.acquire .attr; (r.1, some (r.2, a))

/-! ## Writing attributes -/

/-- `H5Tset_size(H5Tcopy(H5T_C_S1), n)`: the size of the type. -/
def strSize (n : Nat) : Nat := if n = 0 then 1 else n

/-- `addH5Attribute<std::string>` (tools.cpp 808-818) and `addStringAttribute` (body.cpp 53-62). The type is not closed. `&contents[0]` is followed by a
null byte. -/
def addString (l : Lib V) (name : String) (contents : Bytes) : Lib V :=
  let strtype := l.acquire .type
  let dataspace := strtype.1.acquire .space
  let size := strSize contents.length
  let attr := dataspace.1.create name ⟨.str size, 1, .chars (List.replicate size 0)⟩
  let l := attr.1.write name attr.2 (.chars ((contents ++ [0]).take size))
  (l.close attr.2).close (some dataspace.2)

/-- `addH5Attribute<T>` (tools.h 383-392), `addDoubleAttribute` and `addUIntAttribute` (body.cpp 82-89, 101-108); `zero` is what a new attribute holds. -/
def addNum (l : Lib V) (zero : V) (name : String) (k : Kind) (v : V) : Lib V :=
  let dataspace := l.acquire .space
  let attr := dataspace.1.create name ⟨.num k, 1, .value zero⟩
  let l := attr.1.write name attr.2 (.value v)
  (l.close attr.2).close (some dataspace.2)

/-- `H5LTset_attribute_string` (nuSQuIDS.cpp 1748): a C string with its null byte, in a scalar. -/
def setString (l : Lib V) (name : String) (contents : Bytes) : Lib V :=
  if l.writable then
    { l with attrs := fun m => if m = name then some ⟨.str (contents.length + 1), 0, .chars (contents ++ [0])⟩ else l.attrs m }
  else l

/-! ## Reading attributes -/

/-- `readH5Attribute<T>` (tools.h 397-418). Without the attribute `H5Aget_type` and `H5Tequal` fail too. -/
def readNum (l : Lib V) (name : String) (k : Kind) : Lib V × Outcome V :=
  match l.openAttr name with
  | (l, none) => (l, .throws)
  | (l, some (i, a)) =>
    let actual := l.acquire .type
    let l := (actual.1.close (some i)).close (some actual.2)
    if a.ty = .num k then
      match a.data with
      | .value v => (l, .ok v)
      | .chars _ => (l, .throws)
    else (l, .throws)

/-- `readH5Attribute<std::string>` (tools.cpp 820-842). -/
def readString (l : Lib V) (name : String) : Lib V × Outcome Bytes :=
  match l.openAttr name with
  | (l, none) => (l, .throws)
  | (l, some (i, a)) =>
    let actual := l.acquire .type
    let l := (actual.1.close (some i)).close (some actual.2)
    match a.ty, a.data with
    | .str size, .chars b => (l, .ok (b.take size))
    | _, _ => (l, .throws)

/-- `readDoubleAttribute` and `readUIntAttribute` (body.cpp 91-100, 110-118): `H5Aread` converts, and the attribute is not closed if it fails. -/
def readLoose (M : Machine V) (l : Lib V) (name : String) (k : Kind) : Lib V × Outcome V :=
  match l.openAttr name with
  | (l, none) => (l, .throws)
  | (l, some (i, a)) =>
    match a.ty, a.data with
    | .num k', .value v => (l.close (some i), .ok (M.conv k' k v))
    | _, _ => (l, .throws)

/-- The bytes of an attribute, as `H5LTget_attribute_string` delivers them, whatever the type. -/
def Attr.bytes (M : Machine V) (a : Attr V) : Bytes :=
  match a.ty, a.data with
  | .num k, .value v => M.raw k v
  | _, .chars b => b
  | .str _, .value _ => []

/-- `getStringAttribute` (nuSQuIDS.cpp 52-72). -/
def getString (M : Machine V) (l : Lib V) (name : String) : Outcome Bytes :=
  match l.attrs name with
  | none => .throws
  | some a => if a.rank ≠ 1 then .throws else .ok (a.bytes M)

/-- "True" and "False" -/
def trueText : Bytes := [84, 114, 117, 101]
def falseText : Bytes := [70, 97, 108, 115, 101]

/-- The switch of the interactions as it is read (2097-2107): `H5LTget_attribute_string` into `char auxchar[20]`, no error looked at. Bytes beyond
the buffer, no null byte in what was read, and a buffer never written are undefined behaviour. -/
def readSwitch (M : Machine V) (l : Lib V) (name : String) : Outcome Bool :=
  match l.attrs name with
  | none => .ub
  | some a =>
    let b := a.bytes M
    if 20 < b.length then .ub
    else if 0 ∈ b then .ok (b.takeWhile (· != 0) == trueText)
    else .ub

/-! ## Arrays -/

/-- `writeArrayH5` (tools.h 318-358). -/
def writeArray (l : Lib V) (name : String) (rank : Nat) (compress : Bool) : Lib V × Outcome Unit :=
  let dSpace := l.acquire .space
  let plist := if compress then ((dSpace.1.acquire .plist).1, some (dSpace.1.acquire .plist).2) else (dSpace.1, none)
  let l := plist.1
  if l.writable && (l.dsets name).isNone then
    let dSet := Lib.acquire { l with dsets := fun m => if m = name then some rank else l.dsets m } .dset
    (((dSet.1.close plist.2).close (some dSet.2)).close (some dSpace.2), .ok ())
  else ((l.close plist.2).close (some dSpace.2), .throws)

/-- `readArrayH5` (tools.h 360-381). -/
def readArray (l : Lib V) (name : String) (rank : Nat) : Lib V × Outcome Unit :=
  match l.dsets name with
  | none => (l, .throws)
  | some r =>
    let array := l.acquire .dset
    let dSpace := array.1.acquire .space
    if r ≠ rank then (dSpace.1, .throws)
    else ((dSpace.1.close (some dSpace.2)).close (some array.2), .ok ())

/-! ## Histories -/

inductive Op (V : Type) where
  | addString (name : String) (contents : Bytes)
  | addNum (name : String) (k : Kind) (v : V)
  | setString (name : String) (contents : Bytes)
  | readNum (name : String) (k : Kind)
  | readString (name : String)
  | readLoose (name : String) (k : Kind)
  | writeArray (name : String) (rank : Nat) (compress : Bool)
  | readArray (name : String) (rank : Nat)

/-- What a call leaves behind, whether it returns or throws. -/
def step (M : Machine V) (zero : V) (l : Lib V) : Op V → Lib V
  | .addString n b => H5A.addString l n b
  | .addNum n k v => H5A.addNum l zero n k v
  | .setString n b => H5A.setString l n b
  | .readNum n k => (H5A.readNum l n k).1
  | .readString n => (H5A.readString l n).1
  | .readLoose n k => (H5A.readLoose M l n k).1
  | .writeArray n r c => (H5A.writeArray l n r c).1
  | .readArray n r => (H5A.readArray l n r).1

def run (M : Machine V) (zero : V) : Lib V → List (Op V) → Lib V := List.foldl (step M zero)

end Verif.H5A
