import Verif.Tools.Text

/-!
# Model of the characters of `quickread` and `quickwrite` (`/repo/src/tools.cpp` 44-103)

`Tools/Text.lean` models the two functions on lines and tokens. Here are the characters: what `getline` and
`operator>>(double&)` make of the bytes of a file, and what `operator<<(double)` with `precision(15)` puts into it.

Of the C++ library (C locale, as nothing in the repository sets another one): `getline` ends a line at a line feed and
delivers a last line without one if it is not empty; `operator>>` skips blanks and takes the longest beginning of a number
as libstdc++ does (`num_get::_M_extract_float`), and fails if what it took is not a number or not a finite double;
`operator<<` prints as `%.15g`. Negative zero is not distinguished from zero.
-/

namespace Verif.Chars

open Verif.Tools (ReadState Tok Table roundEven dec15)

/-- `isspace` in the C locale. -/
def blank (c : Char) : Bool := c == ' ' || (9 ≤ c.toNat && c.toNat ≤ 13)

/-- The digit that a character is. -/
def digit? (c : Char) : Option (Fin 10) :=
  if h : 48 ≤ c.toNat ∧ c.toNat < 58 then some ⟨c.toNat - 48, by omega⟩ else none

/-- The character of a digit. -/
def digitChar (d : Fin 10) : Char := Char.ofNat (48 + d.val)

/-- The number that digits stand for. -/
def natVal (ds : List (Fin 10)) : Nat := ds.foldl (fun n d => 10 * n + d.val) 0

/-- `getline(infile,line)` until it fails (tools.cpp 55); `cur` holds the characters of the line so far. -/
def linesFrom (cur : List Char) : List Char → List (List Char)
  | [] => if cur = [] then [] else [cur]
  | c :: cs => if c = '\n' then cur :: linesFrom [] cs else linesFrom (cur ++ [c]) cs

def lines (text : List Char) : List (List Char) := linesFrom [] text

/-- The digits at the beginning and what follows them. -/
def takeDigits : List Char → List (Fin 10) × List Char
  | [] => ([], [])
  | c :: cs =>
    match digit? c with
    | some d => (d :: (takeDigits cs).1, (takeDigits cs).2)
    | none => ([], c :: cs)

/-- A sign at the beginning, if there is one: is it a minus? -/
def takeSign : List Char → Bool × List Char
  | [] => (false, [])
  | c :: cs => if c = '+' then (false, cs) else if c = '-' then (true, cs) else (false, c :: cs)

/-- A decimal point with digits. -/
def takeFraction : List Char → List (Fin 10) × List Char
  | [] => ([], [])
  | c :: cs => if c = '.' then takeDigits cs else ([], c :: cs)

/-- An exponent. `none`: the letter without digits, which is not a number. -/
def takeExponent : List Char → Option (Int × List Char)
  | [] => some (0, [])
  | c :: cs =>
    if c = 'e' ∨ c = 'E' then
      let s := takeSign cs
      let ds := takeDigits s.2
      if ds.1 = [] then none else some (if s.1 then -(natVal ds.1 : Int) else natVal ds.1, ds.2)
    else some (0, c :: cs)

/-- What `operator>>(double&)` takes after the blanks, and its exact value; `none` if it fails. -/
def number (cs : List Char) : Option (Rat × List Char) :=
  let s := takeSign cs
  let whole := takeDigits s.2
  let fraction := takeFraction whole.2
  if whole.1 = [] ∧ fraction.1 = [] then none
  else
    (takeExponent fraction.2).map fun e =>
      ((if s.1 then -1 else 1) * (natVal (whole.1 ++ fraction.1) : Rat) * (10 : Rat) ^ (e.1 - (fraction.1.length : Int)), e.2)

/-- One successful `linestream >> data`: `rd` is the conversion to the nearest double, `none` if there is no finite one. -/
def get (rd : Rat → Option Rat) (cs : List Char) : Option (Rat × List Char) :=
  (number (cs.dropWhile blank)).bind fun r => (rd r.1).map fun v => (v, r.2)

theorem takeDigits_length (cs : List Char) : (takeDigits cs).2.length + (takeDigits cs).1.length = cs.length := by
  induction cs with
  | nil => rfl
  | cons c cs ih =>
    rw [takeDigits]
    cases hd : digit? c
    · simp
    · simp only [List.length_cons]; omega

theorem takeSign_length (cs : List Char) : (takeSign cs).2.length ≤ cs.length := by
  cases cs with
  | nil => simp [takeSign]
  | cons c cs => rw [takeSign]; split <;> [skip; split] <;> simp

theorem takeFraction_length (cs : List Char) :
    (takeFraction cs).2.length + (takeFraction cs).1.length ≤ cs.length := by
  cases cs with
  | nil => simp [takeFraction]
  | cons c cs =>
    rw [takeFraction]
    split
    · have := takeDigits_length cs
      simp only [List.length_cons]; omega
    · simp

theorem takeExponent_length (cs : List Char) (e : Int × List Char) (h : takeExponent cs = some e) :
    e.2.length ≤ cs.length := by
  cases cs with
  | nil => simp only [takeExponent, Option.some.injEq] at h; subst h; simp
  | cons c cs =>
    simp only [takeExponent] at h
    split at h
    · split at h
      · exact absurd h (by simp)
      · have h1 := takeDigits_length (takeSign cs).2
        have h2 := takeSign_length cs
        cases h
        simp only [List.length_cons]; omega
    · cases h; simp

/-- A number that is taken has at least one character. -/
theorem get_length (rd : Rat → Option Rat) (cs : List Char) (r : Rat × List Char) (h : get rd cs = some r) :
    r.2.length < cs.length := by
  unfold get at h
  rw [Option.bind_eq_some_iff] at h
  obtain ⟨n, hn, hr⟩ := h
  rw [Option.map_eq_some_iff] at hr
  obtain ⟨v, _, rfl⟩ := hr
  show n.2.length < cs.length
  unfold number at hn
  simp only at hn
  split at hn
  · exact absurd hn (by simp)
  next hne =>
    rw [Option.map_eq_some_iff] at hn
    obtain ⟨e, he, rfl⟩ := hn
    show e.2.length < cs.length
    have h0 := (List.dropWhile_sublist blank (l := cs)).length_le
    have h1 := takeSign_length (cs.dropWhile blank)
    have h2 := takeDigits_length (takeSign (cs.dropWhile blank)).2
    have h3 := takeFraction_length (takeDigits (takeSign (cs.dropWhile blank)).2).2
    have h4 := takeExponent_length _ e he
    have h5 : 0 < (takeDigits (takeSign (cs.dropWhile blank)).2).1.length ∨
        0 < (takeFraction (takeDigits (takeSign (cs.dropWhile blank)).2).2).1.length := by
      by_contra hc
      push Not at hc
      exact hne ⟨List.length_eq_zero_iff.1 (by omega), List.length_eq_zero_iff.1 (by omega)⟩
    omega

/-- `while(linestream >> data) row.push_back(data)` (tools.cpp 57-62). -/
def row (rd : Rat → Option Rat) (cs : List Char) : List Rat :=
  match _h : get rd cs with
  | none => []
  | some r => r.1 :: row rd r.2
termination_by cs.length
decreasing_by exact get_length rd cs _ _h

/-- `quickread` (tools.cpp 44-86) of the characters of a file: the loop over the lines is the one of `Tools/Text.lean`, given
the numbers found on each line. -/
def quickread (rd : Rat → Option Rat) (text : List Char) : Outcome Table :=
  Tools.quickread id ((lines text).map fun l => (row rd l).map Tok.num)

/-- The last `k` digits of a number. -/
def digits : Nat → Nat → List (Fin 10)
  | 0, _ => []
  | k + 1, n => digits k (n / 10) ++ [⟨n % 10, Nat.mod_lt _ (by decide)⟩]

/-- Without the zeros at the end. -/
def strip (ds : List (Fin 10)) : List (Fin 10) := (ds.reverse.dropWhile (· == 0)).reverse

/-- 15 digits and the exponent of the first of them, as for `%.14e`. -/
def rounded (x : Rat) : Nat × Int :=
  let e := Int.log 10 |x|
  let n := (roundEven (|x| / 10 ^ (e - 14))).toNat
  if n = 10 ^ 15 then (10 ^ 14, e + 1) else (n, e)

/-- A decimal point with digits, unless there are none. -/
def point (ds : List (Fin 10)) : List Char := if ds = [] then [] else '.' :: ds.map digitChar

/-- `outfile << x` with `precision(15)` (tools.cpp 95, 98): `%.15g`. -/
def print15 (x : Rat) : List Char :=
  if x = 0 then ['0']
  else
    let n := rounded x
    let ds := digits 15 n.1
    (if x < 0 then ['-'] else []) ++
      if n.2 < -4 ∨ 15 ≤ n.2 then
        (ds.take 1).map digitChar ++ point (strip (ds.drop 1)) ++
          'e' :: (if n.2 < 0 then '-' else '+') ::
            (digits (max 2 (Nat.log 10 n.2.natAbs + 1)) n.2.natAbs).map digitChar
      else if n.2 < 0 then
        ['0', '.'] ++ List.replicate ((-n.2).toNat - 1) '0' ++ (strip ds).map digitChar
      else (ds.take (n.2.toNat + 1)).map digitChar ++ point (strip (ds.drop (n.2.toNat + 1)))

/-- A double. -/
inductive Entry where
  | finite (x : Rat)
  | infinite (negative : Bool)
  | nan
  deriving DecidableEq, Repr

/-- What is printed for a double. -/
def Entry.print : Entry → List Char
  | .finite x => print15 x
  | .infinite negative => if negative then ['-', 'i', 'n', 'f'] else ['i', 'n', 'f']
  | .nan => ['n', 'a', 'n']

/-- `quickwrite` (tools.cpp 88-103): every entry is followed by a blank, every row by the end of the line. -/
def quickwrite (t : List (List Entry)) : List Char :=
  t.flatMap fun r => (r.flatMap fun v => v.print ++ [' ']) ++ ['\n']

end Verif.Chars
