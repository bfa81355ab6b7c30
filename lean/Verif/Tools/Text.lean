import Verif.Base
import Mathlib.Data.Int.Log
import Mathlib.Algebra.Order.Field.Rat
import Mathlib.Data.Rat.Floor

/-!
# Model of `quickread` and `quickwrite` (`/repo/src/tools.cpp`)

A file is a list of lines, a line a list of blank-separated tokens, and a token either a number (its exact decimal value) or
something `operator>>(double&)` does not accept. Splitting characters into tokens is in `Tools/Chars.lean`; opening the file is
assumed to succeed.
-/

namespace Verif.Tools

/-- A token of a text line: a decimal number, or anything else (`#`, a word, …). -/
inductive Tok where
  | num (v : Rat)
  | other
  deriving DecidableEq, Repr

abbrev Line := List Tok

/-- `while(linestream >> data) row.push_back(data)` (tools.cpp 57-62): the numbers before the first token that is not one.
`rd` is the conversion of a decimal value to the nearest double. -/
def extract (rd : Rat → Rat) : Line → List Rat
  | .num v :: rest => rd v :: extract rd rest
  | _ => []

/-- State of the reading loop: the rows so far and `column_number`. -/
structure ReadState where
  table : List (List Rat)
  columns : Nat

/-- `size_t column_number = -1` (tools.cpp 54). -/
def ReadState.init : ReadState := ⟨[], 2 ^ 64 - 1⟩

/-- One turn of the loop (tools.cpp 55-74). `column_number` is overwritten by every line, also by one without numbers. -/
def readLine (rd : Rat → Rat) (s : ReadState) (line : Line) : Outcome ReadState :=
  let row := extract rd line
  if row ≠ [] then
    if s.table ≠ [] ∧ s.columns ≠ row.length then .throws
    else .ok ⟨s.table ++ [row], row.length⟩
  else .ok ⟨s.table, row.length⟩

def readLines (rd : Rat → Rat) : ReadState → List Line → Outcome ReadState
  | s, [] => .ok s
  | s, l :: ls => (readLine rd s l).bind fun s => readLines rd s ls

/-- A two-dimensional `marray<double,2>`: extents and entries row by row. -/
structure Table where
  rows : Nat
  cols : Nat
  at_ : List (List Rat)
  deriving DecidableEq, Repr

/-- The copy into the result (tools.cpp 76-79): row `i` receives `table[i][j]` for `j < column_number`; reading past the end of
a row is undefined behaviour. -/
def copyOut (s : ReadState) : Outcome Table :=
  if ∀ r ∈ s.table, s.columns ≤ r.length then .ok ⟨s.table.length, s.columns, s.table.map (·.take s.columns)⟩
  else .ub

/-- `quickread` (tools.cpp 44-86) after the file has been opened. -/
def quickread (rd : Rat → Rat) (file : List Line) : Outcome Table :=
  (readLines rd .init file).bind copyOut

/-- Rounding to the nearest integer, ties to even, as `printf` does. -/
def roundEven (x : Rat) : Int :=
  let f := ⌊x⌋
  if x - f < 1 / 2 then f
  else if 1 / 2 < x - f then f + 1
  else if f % 2 = 0 then f else f + 1

/-- The value of the text printed for `x` with `precision(15)`: `x` rounded to 15 significant decimal digits. -/
def dec15 (x : Rat) : Rat :=
  let scale : Rat := 10 ^ (Int.log 10 |x| - 14)
  roundEven (x / scale) * scale

/-- `quickwrite` (tools.cpp 88-103): one line per row, the entries printed with 15 digits. -/
def quickwrite (t : List (List Rat)) : List Line := t.map fun row => row.map fun v => .num (dec15 v)

end Verif.Tools
