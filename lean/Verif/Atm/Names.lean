import Verif.Base

/-!
# Names of the zenith nodes in a file (include/nuSQuIDS/nuSQuIDS.h 1537-1543, 1586-1598)

Strings are lists of characters. `std::to_string(double)` prints six decimals of the correctly rounded value; `rnd` is the rounding to an
integer number of millionths, of which only the distance is used. A negative zero is not a rational number and is not modelled.
-/

namespace Verif.Atm

/-- The six decimals. -/
def sixDigits (k : Nat) : List Char :=
  [(k / 100000 % 10).digitChar, (k / 10000 % 10).digitChar, (k / 1000 % 10).digitChar, (k / 100 % 10).digitChar, (k / 10 % 10).digitChar,
    (k % 10).digitChar]

/-- `std::to_string(double)`: `printf` with `%f`. -/
def toStr (rnd : Rat → Int) (x : Rat) : List Char :=
  let k := (rnd (x * 1000000)).natAbs
  (if x < 0 then ['-'] else []) ++ Nat.toDigits 10 (k / 1000000) ++ '.' :: sixDigits k

/-- `"/costh_" + std::to_string(costh_array[i])` (1541, 1590, 1595). -/
def nodeName (rnd : Rat → Int) (x : Rat) : List Char := ['/', 'c', 'o', 's', 't', 'h', '_'] ++ toStr rnd x

/-- Nodes written one after the other (1537-1543): creating a group that exists fails, and the handle throws
(src/nuSQuIDS.cpp 1729-1730). The second component is what is in the file. -/
def writeNodes {α : Type} (rnd : Rat → Int) : List (Rat × α) → List (List Char × α) → Bool × List (List Char × α)
  | [], file => (true, file)
  | (x, a) :: rest, file =>
    match file.lookup (nodeName rnd x) with
    | some _ => (false, file)
    | none => writeNodes rnd rest (file ++ [(nodeName rnd x, a)])

/-- Nodes read one after the other (1586-1598); opening a group that is not there throws. -/
def readNodes {α : Type} (rnd : Rat → Int) : List Rat → List (List Char × α) → Outcome (List α)
  | [], _ => .ok []
  | x :: xs, file =>
    match file.lookup (nodeName rnd x) with
    | none => .throws
    | some a => (readNodes rnd xs file).map (a :: ·)

end Verif.Atm
