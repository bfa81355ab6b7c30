import Verif.Base
import Mathlib.Data.Rat.Defs

/-!
# Checking a table of rationals row by row

Used by `Verif.Interp.AkimaBound`, which says what it is good for; apart so that the checks do not depend on the model.
-/

namespace Verif.Interp

def slopeQ (p q : Rat × Rat) : Rat := (q.2 - p.2) / (q.1 - p.1)

def within (lo hi v : Rat) : Bool := decide (lo ≤ v) && decide (v ≤ hi)

def heldQ (lo hi : Rat) (p q : Rat × Rat) (m0 m1 m2 : Rat) : Bool :=
  let d := (q.1 - p.1) / 3
  decide (p.1 < q.1) && within lo hi p.2 && within lo hi q.2 && within lo hi (p.2 + d * m0) && within lo hi (p.2 + d * m1) &&
    within lo hi (q.2 - d * m1) && within lo hi (q.2 - d * m2)

def tameQ (lo hi : Rat) : Rat → List (Rat × Rat) → Bool
  | m0, p :: q :: r :: rest => heldQ lo hi p q m0 (slopeQ p q) (slopeQ q r) && tameQ lo hi (slopeQ p q) (q :: r :: rest)
  | m0, [p, q] => heldQ lo hi p q m0 (slopeQ p q) (2 * slopeQ p q - m0)
  | _, _ => true

def tameTableQ (lo hi : Rat) : List (Rat × Rat) → Bool
  | p :: q :: r :: rest => tameQ lo hi (2 * slopeQ p q - slopeQ q r) (p :: q :: r :: rest)
  | _ => false

end Verif.Interp
