import Verif.Body.DefaultData
import Verif.Interp.Tame

/-! The tables of data/astro pass the row by row check. -/

namespace Verif.Bodies

open Verif.Interp

def premRhoQ : List (Rat × Rat) := premRows.map fun r => ((r.1 : Rat) / 10 ^ 21, (r.2.1 : Rat) / 10 ^ 19)
def premYeQ : List (Rat × Rat) := premRows.map fun r => ((r.1 : Rat) / 10 ^ 21, (r.2.2 : Rat) / 10 ^ 19)
def sunRhoQ : List (Rat × Rat) := sunRows.map fun r => ((r.1 : Rat) / 10 ^ 5, (r.2.1 : Rat) / 10 ^ 7)
def sunXhQ : List (Rat × Rat) := sunRows.map fun r => ((r.1 : Rat) / 10 ^ 5, (r.2.2 : Rat) / 10 ^ 5)

theorem premRho_tame : tameTableQ (102 / 100) (130886 / 10000) premRhoQ = true := by decide +kernel
theorem premYe_tame : tameTableQ (4555 / 10000) (5058 / 10000) premYeQ = true := by decide +kernel
theorem sunRho_tame : tameTableQ (945 / 1000000) (1506 / 10) sunRhoQ = true := by decide +kernel
theorem sunXh_tame : tameTableQ (3646 / 10000) (7584 / 10000) sunXhQ = true := by decide +kernel

end Verif.Bodies
