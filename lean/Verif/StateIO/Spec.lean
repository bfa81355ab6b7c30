import Verif.StateIO.Model

/-!
# What it means that a saved state was read back
-/

namespace Verif.StateIO

open Life

/-- What C57 asks of the object read back: every getter and every content at a node answers as before. -/
structure SameReport (R : Rep) (s s' : State) : Prop where
  numneu : s'.obj.numneu = s.obj.numneu
  nt : s'.obj.nt = s.obj.nt
  ne : s'.obj.ne = s.obj.ne
  energies : s'.obj.energies = s.obj.energies
  angles : ∀ i j, i < s.obj.numneu → j < s.obj.numneu → getAngle s'.obj i j = getAngle s.obj i j
  phases : ∀ i j, i < s.obj.numneu → j < s.obj.numneu → getPhase s'.obj i j = getPhase s.obj i j
  masses : ∀ i, i < s.obj.numneu → getDm2 s'.obj i = getDm2 s.obj i
  iint : s'.obj.iint = s.obj.iint
  osc : s'.obj.osc = s.obj.osc
  tauregen : s'.obj.tauregen = s.obj.tauregen
  glashow : s'.obj.glashow = s.obj.glashow
  body : s'.obj.body = s.obj.body
  track : s'.obj.track = s.obj.track
  t : s'.obj.t = s.obj.t
  tIni : s'.obj.tIni = s.obj.tIni
  offset : s'.obj.offset = s.obj.offset
  flavour : ∀ flv ei rho, flavourAt R s' flv ei rho = flavourAt R s flv ei rho
  mass : ∀ flv ei rho, massAt R s' flv ei rho = massAt R s flv ei rho

end Verif.StateIO
