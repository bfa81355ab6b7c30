import Verif.MArray.Model

/-!
# Iterators of `marray` (marray.h:413-481, 572-633, 1274-1285)

A pointer into the buffer is its distance, in elements, from the start of the buffer. The class template `iterator_base` is written
in terms of `increment` of the derived class, as in the code. Pointer arithmetic comes in two readings: as the machine does it
(distances are integers), and as the C++ standard defines it, where leaving the range from the first element to one past the last
is undefined.
-/

namespace Verif.Marr.Iter

/-- The two derived classes `iterator_type` and `reverse_iterator_type`. -/
inductive Kind where
  | forward
  | reverse
  deriving DecidableEq, Repr

/-- marray.h:600 and 631 `increment`. -/
def increment (k : Kind) (ptr n : Int) : Int := match k with
  | .forward => ptr + n
  | .reverse => ptr - n

/-- marray.h:443-446 `operator++()`: the new value. -/
def preInc (k : Kind) (ptr : Int) : Int := increment k ptr 1

/-- marray.h:448-452 `operator++(int)`: the value returned and the new value. -/
def postInc (k : Kind) (ptr : Int) : Int × Int := (ptr, increment k ptr 1)

/-- marray.h:454-457 `operator--()`. -/
def preDec (k : Kind) (ptr : Int) : Int := increment k ptr (-1)

/-- marray.h:459-463 `operator--(int)`. -/
def postDec (k : Kind) (ptr : Int) : Int × Int := (ptr, increment k ptr (-1))

/-- marray.h:464-467 `operator+=`. -/
def addEq (k : Kind) (ptr n : Int) : Int := increment k ptr n

/-- marray.h:468-471 `operator-=`. -/
def subEq (k : Kind) (ptr n : Int) : Int := increment k ptr (-n)

/-- marray.h:472-474 `operator+(n)`: a copy, advanced. -/
def add (k : Kind) (ptr n : Int) : Int := addEq k ptr n

/-- marray.h:475-477 `operator-(n)`. -/
def sub (k : Kind) (ptr n : Int) : Int := subEq k ptr n

/-- marray.h:584-586 and 615-617: difference of two iterators. -/
def diff (k : Kind) (a b : Int) : Int := match k with
  | .forward => a - b
  | .reverse => b - a

/-- marray.h:587-589 and 618-620 `operator<`. -/
def lt (k : Kind) (a b : Int) : Bool := match k with
  | .forward => decide (a < b)
  | .reverse => decide (a > b)

/-- marray.h:590-592 and 621-623 `operator>`. -/
def gt (k : Kind) (a b : Int) : Bool := match k with
  | .forward => decide (a > b)
  | .reverse => decide (a < b)

/-- marray.h:593-595 and 624-626 `operator<=`. -/
def le (k : Kind) (a b : Int) : Bool := match k with
  | .forward => decide (a ≤ b)
  | .reverse => decide (a ≥ b)

/-- marray.h:596-598 and 627-629 `operator>=`. -/
def ge (k : Kind) (a b : Int) : Bool := match k with
  | .forward => decide (a ≥ b)
  | .reverse => decide (a ≤ b)

/-- marray.h:439 `operator*`: an element of the buffer. -/
def deref (data : List α) (ptr : Int) : Outcome α :=
  if 0 ≤ ptr then match data[ptr.toNat]? with
    | some v => .ok v
    | none => .ub
  else .ub

/-- marray.h:478-480 `operator[]`. -/
def subscript (k : Kind) (data : List α) (ptr n : Int) : Outcome α := deref data (increment k ptr n)

/-- `data+i` for a `size_type` number `i` (marray.h:422), as the machine computes it: 64-bit addition wraps. -/
def machinePtr (i : Nat) : Int := if i % 2 ^ 64 < 2 ^ 63 then (i % 2 ^ 64 : Nat) else (i % 2 ^ 64 : Nat) - 2 ^ 64

/-- `data+i` as the standard defines it. -/
def standardPtr (size : Nat) (i : Nat) : Outcome Int := if i ≤ size then .ok i else .ub

/-- `size_type` subtraction. -/
def sizeSub (a b : Nat) : Nat := (a % 2 ^ 64 + 2 ^ 64 - b % 2 ^ 64) % 2 ^ 64

/-- The `size_type` argument given to the constructors in marray.h:1274-1285: `begin`, `end`, `rbegin` and `rend`. -/
def beginArg : Nat := 0
def endArg (size : Nat) : Nat := size
def rbeginArg (size : Nat) : Nat := sizeSub size 1
def rendArg : Nat := sizeSub 0 1

/-- `for(it=first; it!=last; it++) visit(*it);` with machine pointers, for at most `fuel` rounds; running out of fuel is `throws`. -/
def visitAll (k : Kind) (data : List α) (last : Int) : (fuel : Nat) → (it : Int) → Outcome (List α)
  | 0, _ => .throws
  | fuel + 1, it =>
    if it = last then .ok []
    else (deref data it).bind fun v => (visitAll k data last fuel (postInc k it).2).bind fun rest => .ok (v :: rest)

end Verif.Marr.Iter
