import Verif.Base
import Verif.Density.Model

/-!
# `nuSQUIDSAtm::EvalFlavor` (include/nuSQuIDS/nuSQuIDS.h 1332-1509)

The atmospheric object keeps one nuSQUIDS object per cos(zenith). What `EvalFlavor` reads of these is a `Node`. States and projectors are
matrices (`Density`). Reading an element that is not there is undefined behaviour, as is reading a member that was never given a value.
-/

namespace Verif.Atm

open Density

/-- What `EvalFlavor` reads of a nuSQUIDS object: clock, time of the initial state, ends of the track, sizes, `GetState` (nuSQuIDS.h
891-893), `GetFlavorProj` (895-897), the switch for oscillations and `DM2`. -/
structure Node (n : Nat) where
  t : ℝ
  tIni : ℝ
  xini : ℝ
  xend : ℝ
  ne : Nat
  nrhos : Nat
  state : Nat → Nat → Mat n
  b1 : Nat → Fin n → Mat n
  osc : Bool
  dm2 : Mat n

/-- `nuSQUIDSAtm` (1070-1107) as far as `EvalFlavor` reads it. `iinistate` has no value before it is assigned; `length` is the length of
the track the Earth makes for a cosine (1369-1370). -/
structure Obj (n : Nat) where
  iinistate : Option Bool
  inusquidsatm : Bool
  costh : List ℝ
  enu : List ℝ
  nodes : List (Node n)
  length : ℝ → ℝ

/-- `GetState(ei,rho)` (891-893), unchecked. -/
def Node.getState {n : Nat} (nd : Node n) (ei rho : Nat) : Option (Mat n) :=
  if ei < nd.ne ∧ rho < nd.nrhos then some (nd.state ei rho) else none

/-- `GetFlavorProj(flv,rho)` (895-897), unchecked. -/
def Node.getProj {n : Nat} (nd : Node n) (flv rho : Nat) : Option (Mat n) :=
  if h : flv < n then if rho < nd.nrhos then some (nd.b1 rho ⟨flv, h⟩) else none else none

/-- `nuSQUIDS::H0` (src/nuSQuIDS.cpp 328-332). -/
noncomputable def Node.h0 {n : Nat} (nd : Node n) (E : ℝ) : Mat n := if nd.osc then (1 / 2 / E) • nd.dm2 else 0

/-- `std::lower_bound` on a sorted array: the number of elements before the first that is not smaller. -/
noncomputable def lowerBound (l : List ℝ) (v : ℝ) : Nat := (l.takeWhile fun a => decide (a < v)).length

/-- The lower of the two nodes used (1350-1355, 1363-1367); `none` is the exception of lines 1352 and 1365. -/
noncomputable def bracket (l : List ℝ) (v : ℝ) : Option Nat :=
  if lowerBound l v = l.length then none else some (lowerBound l v - 1)

/-- `nuSQUIDSAtm::LinInter` (1082-1086). -/
noncomputable def linInter (x xM xP yM yP : ℝ) : ℝ :=
  let f2 := (x - xM) / (xP - xM)
  let f1 := 1 - f2
  f1 * yM + f2 * yP

/-- `t_inter` (1379-1384); `dt` is the length of the track of the query, changed by the random height if asked for (1371-1374). -/
noncomputable def tInter {n : Nat} (dt : ℝ) (nM nP : Node n) : ℝ :=
  1 / 2 * (dt * (nM.t - nM.tIni) / (nM.xend - nM.xini) + dt * (nP.t - nP.tIni) / (nP.xend - nP.xini))

/-- Lines 1378-1412 and 1465-1508 after the nodes `M` and `L` were found. `ev H t P` is the evolved projector: 1397 in one overload,
1486-1488 in the other. -/
noncomputable def interpolate {n : Nat} (a : Obj n) (ev : Mat n → ℝ → Mat n → Mat n) (height : ℝ) (flv : Nat) (costh enu : ℝ) (rho M L : Nat) :
    Option ℝ := do
  let nM ← a.nodes[M]?
  let nP ← a.nodes[M + 1]?
  let n0 ← a.nodes[0]?
  let P ← n0.getProj flv rho
  let op := ev (n0.h0 enu) (tInter (a.length costh + height) nM nP) P
  let eM ← a.enu[L]?
  let eP ← a.enu[L + 1]?
  let f2 := (enu - eM) / (eP - eM)
  let f1 := 1 - f2
  let s00 ← nM.getState L rho
  let s01 ← nM.getState (L + 1) rho
  let phiM := dot (f1 • s00 + f2 • s01) op
  let s10 ← nP.getState L rho
  let s11 ← nP.getState (L + 1) rho
  let phiP := dot (f1 • s10 + f2 • s11) op
  let cM ← a.costh[M]?
  let cP ← a.costh[M + 1]?
  some (linInter costh cM cP phiM phiP)

/-- Both overloads of `EvalFlavor` (1332-1413, 1425-1509). -/
noncomputable def evalWith {n : Nat} (a : Obj n) (ev : Mat n → ℝ → Mat n → Mat n) (height : ℝ) (flv : Nat) (costh enu : ℝ) (rho : Nat) :
    Outcome ℝ :=
  match a.iinistate with
  | none => .ub
  | some false => .throws
  | some true =>
    if !a.inusquidsatm then .throws
    else if ¬(rho = 0 ∨ rho = 1) then .throws
    else
      match a.costh.head?, a.costh.getLast? with
      | some c0, some c1 =>
        if costh < c0 ∨ c1 < costh then .throws
        else
          match a.enu.head?, a.enu.getLast? with
          | some e0, some e1 =>
            if enu < e0 ∨ e1 < enu then .throws
            else
              match bracket a.costh costh with
              | none => .throws
              | some M =>
                match bracket a.enu enu with
                | none => .throws
                | some L => .ofOption (interpolate a ev height flv costh enu rho M L)
          | _, _ => .ub
      | _, _ => .ub

/-- `EvalFlavor(flv,costh,enu,rho,randomize_production_height)` (1332-1413); `height` is the random number drawn, 0 if not asked for. -/
noncomputable def evalFlavor {n : Nat} (a : Obj n) (height : ℝ) (flv : Nat) (costh enu : ℝ) (rho : Nat) : Outcome ℝ :=
  evalWith a evolve height flv costh enu rho

/-- `EvalFlavor(flv,costh,enu,rho,scale,avr)` (1425-1509); `averaged` is what SQuIDS makes of `scale` and `avr`. -/
noncomputable def evalFlavorAveraged {n : Nat} (a : Obj n) (averaged : Mat n → ℝ → Mat n → Mat n) (flv : Nat) (costh enu : ℝ) (rho : Nat) :
    Outcome ℝ :=
  evalWith a averaged 0 flv costh enu rho

end Verif.Atm
