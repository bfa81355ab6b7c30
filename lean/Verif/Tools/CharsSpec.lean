import Verif.Tools.Chars

/-!
# Specification of C117: decimal numbers, words and lines as they can be written
-/

namespace Verif.Chars

open Verif.Tools (Tok)

/-- An exponent as it can be written: which letter, whether there is a sign and which, and digits. -/
structure Exponent where
  capital : Bool
  sign : Option Bool
  ds : List (Fin 10)

/-- A decimal number as it can be written: perhaps a sign (`true` is the minus), digits, perhaps a point with digits, perhaps
an exponent. -/
structure Decimal where
  sign : Option Bool
  whole : List (Fin 10)
  fraction : Option (List (Fin 10))
  exponent : Option Exponent

/-- There is a digit, and one in the exponent if there is an exponent. -/
def Decimal.Ok (d : Decimal) : Prop :=
  (d.whole ≠ [] ∨ ∃ f, d.fraction = some f ∧ f ≠ []) ∧ ∀ e, d.exponent = some e → e.ds ≠ []

def signChars : Option Bool → List Char
  | none => []
  | some false => ['+']
  | some true => ['-']

def Exponent.chars (e : Exponent) : List Char :=
  (if e.capital then 'E' else 'e') :: (signChars e.sign ++ e.ds.map digitChar)

def fractionChars : Option (List (Fin 10)) → List Char
  | none => []
  | some f => '.' :: f.map digitChar

def exponentChars : Option Exponent → List Char
  | none => []
  | some e => e.chars

def Decimal.chars (d : Decimal) : List Char :=
  signChars d.sign ++ d.whole.map digitChar ++ fractionChars d.fraction ++ exponentChars d.exponent

/-- The number that digits stand for, first digit first. -/
def decimalValue : List (Fin 10) → Nat
  | [] => 0
  | d :: ds => d.val * 10 ^ ds.length + decimalValue ds

def signValue (s : Option Bool) : Rat := if s = some true then -1 else 1

def Exponent.value (e : Exponent) : Int := if e.sign = some true then -(decimalValue e.ds : Int) else decimalValue e.ds

def fractionValue : Option (List (Fin 10)) → Rat
  | none => 0
  | some f => (decimalValue f : Rat) / 10 ^ f.length

def exponentValue : Option Exponent → Int
  | none => 0
  | some e => e.value

/-- The value of a decimal number: the whole part and the fraction, times the power of ten. -/
def Decimal.value (d : Decimal) : Rat :=
  signValue d.sign * ((decimalValue d.whole : Rat) + fractionValue d.fraction) * (10 : Rat) ^ exponentValue d.exponent

/-- The blanks: space, tab, line feed, vertical tab, form feed and carriage return. -/
def Blank (c : Char) : Prop := c ∈ [' ', '\t', '\n', '\x0b', '\x0c', '\r']

instance (c : Char) : Decidable (Blank c) := inferInstanceAs (Decidable (_ ∈ _))

/-- What may follow a number without changing it: the end, or a character that is neither a digit, a point nor the letter of
an exponent. -/
def Stop (cs : List Char) : Prop := ∀ c, cs.head? = some c → digit? c = none ∧ c ≠ '.' ∧ c ≠ 'e' ∧ c ≠ 'E'

/-- What stands between blanks: a number, or something that cannot be the beginning of one: perhaps a sign, and then neither
a digit nor a point. -/
inductive Word where
  | num (d : Decimal)
  | other (sign : Option Bool) (rest : List Char)

def Word.chars : Word → List Char
  | .num d => d.chars
  | .other s rest => signChars s ++ rest

def Word.Ok : Word → Prop
  | .num d => d.Ok
  | .other s rest => signChars s ++ rest ≠ [] ∧ (∀ c ∈ rest, ¬ Blank c) ∧
      ∀ c, rest.head? = some c → digit? c = none ∧ c ≠ '.' ∧ (s = none → c ≠ '+' ∧ c ≠ '-')

/-- The token of `Tools/Text.lean` that a word is: a number if it has a double. -/
def Word.tok (rd : Rat → Option Rat) : Word → Tok
  | .num d => match rd d.value with
    | some v => .num v
    | none => .other
  | .other _ _ => .other

/-- `cs` is the words `ws` with blanks between them, and perhaps before and after. -/
inductive Spelled : List Char → List Word → Prop
  | blanks (b : List Char) (hb : ∀ c ∈ b, Blank c) : Spelled b []
  | last (b : List Char) (hb : ∀ c ∈ b, Blank c) (w : Word) : Spelled (b ++ w.chars) [w]
  | word (b : List Char) (hb : ∀ c ∈ b, Blank c) (w : Word) (c : Char) (hc : Blank c)
      (cs : List Char) (ws : List Word) (h : Spelled cs ws) : Spelled (b ++ w.chars ++ c :: cs) (w :: ws)

end Verif.Chars
