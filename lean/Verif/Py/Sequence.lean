import Verif.Base

/-!
# Vectors from Python (resources/python/inc/container_conversions.h 84-110, 141-254) and back (nuSQUIDSpy.h 54-64)

`from_python_sequence< std::vector<double>, variable_capacity_policy >` (registered at nuSQUIDSpy.cpp 465): Boost.Python asks `convertible` whether
an object can become a vector and, if so, calls `construct` to make it.

What is used of Python: `PyObject_GetIter` gives either a new iterator over the elements, or the object itself if it is its own iterator;
`PyObject_Length` gives the length the object claims to have, or an error. What is used of Boost.Python: `extract<double>::check` accepts exactly the
integers and the floating-point numbers, and the conversion itself raises for an integer too large for a `double`.

Simplified: iterations are finite, the elements do not change between the two calls, `convertible` is called once per call of a function, memory
does not run out.
-/

namespace Verif.Py.Seq

variable {K : Type}

/-- An element of an iteration. -/
inductive Elem (K : Type) where
  /-- an integer or floating-point number, and the `double` it becomes -/
  | number (v : K)
  /-- an integer beyond the range of `double`: `check` accepts it, the conversion raises `OverflowError` -/
  | tooLarge
  /-- any other object -/
  | other

/-- `elem_proxy.check()` (225). -/
def Elem.check : Elem K → Bool
  | number _ => true
  | tooLarge => true
  | other => false

/-- `elem_proxy()` (250); `none` if it raises. -/
def Elem.value : Elem K → Option K
  | number v => some v
  | _ => none

/-- What one `PyIter_Next` gives before the end of the iteration. -/
inductive Event (K : Type) where
  | elem (e : Elem K)
  | raises

/-- How an object is iterated over. -/
inductive Iteration (K : Type) where
  /-- `PyObject_GetIter` fails -/
  | none
  /-- every call of `PyObject_GetIter` begins anew -/
  | fresh (es : List (Event K))
  /-- the object is its own iterator; what has been taken from it is gone -/
  | itself (es : List (Event K))

/-- A Python object, as far as the conversion looks at it. -/
structure Obj (K : Type) where
  isList : Bool := false
  isTuple : Bool := false
  isIter : Bool := false
  isRange : Bool := false
  isBytes : Bool := false
  isUnicode : Bool := false
  /-- the name of its type is "Boost.Python.class" -/
  isBoostClass : Bool := false
  hasLen : Bool := false
  hasGetitem : Bool := false
  /-- `PyObject_Length`; `none` is an error -/
  len : Option Nat := none
  iter : Iteration K := .none

/-- The first test of `convertible` (156-182). -/
def Obj.admitted (o : Obj K) : Bool :=
  o.isList || o.isTuple || o.isIter || o.isRange || (!o.isBytes && !o.isUnicode && !o.isBoostClass && o.hasLen && o.hasGetitem)

/-- `int obj_size = PyObject_Length(obj_ptr)` (191): a `Py_ssize_t` stored in an `int` of 32 bits. -/
def Obj.size (o : Obj K) : Int :=
  match o.len with
  | none => -1
  | some n => (n : Int).bmod (2 ^ 32)

/-- `all_elements_convertible` (208-229): the answer, the count `i`, and what is left of the iterator. -/
def allConvertible (isRange : Bool) : List (Event K) → Nat → Bool × Nat × List (Event K)
  | [], i => (true, i, [])
  | .raises :: es, i => (false, i, es)
  | .elem e :: es, i => if !e.check then (false, i, es) else if isRange then (true, i, es) else allConvertible isRange es (i + 1)

/-- `convertible` (154-204) from line 190 on, with an iterator over `es`; `left` are the elements left in it. -/
def checked (o : Obj K) (es : List (Event K)) : Outcome (Option (List (Event K))) :=
  if o.size < 0 then .ok none
  else
    let r := allConvertible o.isRange es 0
    if !r.1 then .ok none
    else if !o.isRange && r.2.1 != o.size.toNat then .ub
    else .ok (some r.2.2)

/-- `convertible` (154-204): `none` is the null pointer, otherwise the object as it is left. -/
def convertible (o : Obj K) : Outcome (Option (Obj K)) :=
  if !o.admitted then .ok none
  else match o.iter with
    | .none => .ok none
    | .fresh es => (checked o es).map fun r => r.map fun _ => o
    | .itself es => (checked o es).map fun r => r.map fun left => { o with iter := .itself left }

/-- The loop of `construct` (243-251) with `set_value` of the policy (97-109). -/
def fill : List (Event K) → Nat → List K → Outcome (List K)
  | [], _, a => .ok a
  | .raises :: _, _, _ => .throws
  | .elem e :: es, i, a =>
    match e.value with
    | none => .throws
    | some v => if a.length = i then fill es (i + 1) (a ++ [v]) else .ub

/-- `construct` (231-253); `assert_size` of the default policy does nothing. -/
def construct (o : Obj K) : Outcome (List K) :=
  match o.iter with
  | .none => .throws
  | .fresh es => fill es 0 []
  | .itself es => fill es 0 []

/-- An object given for a parameter of type `std::vector<double>`: `none` is a refusal, which Boost.Python reports as a `TypeError`; `throws` is an
exception raised by the conversion. -/
def toVector (o : Obj K) : Outcome (Option (List K)) :=
  (convertible o).bind fun r =>
    match r with
    | none => .ok none
    | some o' => (construct o').map some

/-! ## Back to Python -/

/-- The loop of `VecToList<double>::convert` (nuSQUIDSpy.h 57-60): one `append` per index. -/
def appendAll : List K → List (Elem K) → List (Elem K)
  | [], l => l
  | v :: vs, l => appendAll vs (l ++ [.number v])

/-- `VecToList<double>::convert` (nuSQUIDSpy.h 54-64), registered at nuSQUIDSpy.cpp 466: a new Python list. -/
def vecToList (vs : List K) : Obj K :=
  let l := appendAll vs []
  { isList := true, hasLen := true, hasGetitem := true, len := some l.length, iter := .fresh (l.map .elem) }

end Verif.Py.Seq
