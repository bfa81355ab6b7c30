import Verif.Atm.Model
import Verif.Atm.Names
import Verif.Atm.Eval
import Verif.StateIO.Model

/-!
# State files of the atmospheric object (include/nuSQuIDS/nuSQuIDS.h 1511-1604)

`WriteStateHDF5` and `ReadStateHDF5` of `nuSQUIDSAtm`, on top of those of `nuSQUIDS` (`Verif.StateIO`) and of the names of the nodes
(`Names.lean`). A file is a record of what is in it. Zeniths and energies are rational numbers.

Not modelled: files that cannot be created; the logarithms of the energies, recomputed when reading (1575) and used nowhere but in the
constructors; arrays too long for the stack (1561, 1570); exceptions half way through reading (`Failed.lean`).
-/

namespace Verif.Atm

open Life (Status Xs Tables BodyRef TrackRef)
open StateIO (State File)

/-- Members of `nuSQUIDSAtm` (1088-1107), with the values the nodes hold. `earth` is `earth_atm`; the other members are those of `Sky`. -/
structure FullSky where
  iini : Option Bool
  iatm : Bool
  costh : List Rat
  enu : List Rat
  nodes : List State
  earth : Option BodyRef
  ncs : Option Xs
  tables : Option Tables
  threads : Option Nat

/-- The object without the values. -/
def FullSky.sky (a : FullSky) : Sky := ⟨a.iini, a.iatm, a.costh.length, a.enu.length, a.nodes.map State.obj, a.ncs, a.tables, a.threads⟩

/-- A file: the datasets of 1530-1532, the groups of the nodes and the shared group `crosssections` (1541). -/
structure SkyFile where
  zeniths : List Rat
  energies : List Rat
  groups : List (List Char × File)
  shared : Option Tables

/-- The nodes one after the other (1537-1543). `first` is `i==0`, the argument `save_cross_section`. Creating a group that exists throws
(src/nuSQuIDS.cpp 1729-1730), after the guards (1689-1700). The tables go to the shared group (src/nuSQuIDS.cpp 1830-1836). `costh_array[i]` is
not checked. -/
noncomputable def writeSkyNodes (rnd : Rat → Int) (dflt : Option Xs) (stray : Option Nat) :
    Bool → List Rat → List State → SkyFile → Outcome SkyFile
  | _, _, [], f => .ok f
  | _, [], _ :: _, _ => .ub
  | first, x :: xs, s :: ss, f =>
    if Life.evolveGuards s.obj then
      match f.groups.lookup (nodeName rnd x) with
      | some _ => .throws
      | none => (StateIO.write dflt first stray s).bind fun g =>
        writeSkyNodes rnd dflt stray false xs ss
          { f with groups := f.groups ++ [(nodeName rnd x, { g with tables := none })], shared := g.tables.or f.shared }
    else .throws

/-- `WriteStateHDF5(filename,overwrite)` (1511-1544). Without `overwrite` the flag given to `H5Fcreate` (1523) is none it accepts (it
takes `H5F_ACC_TRUNC` and `H5F_ACC_EXCL`), and the failure throws (1524-1525). -/
noncomputable def writeSky (rnd : Rat → Int) (dflt : Option Xs) (stray : Option Nat) (overwrite : Bool) (a : FullSky) : Outcome SkyFile :=
  match a.iini with
  | none => .ub
  | some false => .throws
  | some true =>
    if !a.iatm then .throws
    else if !overwrite then .throws
    else writeSkyNodes rnd dflt stray true a.costh a.nodes ⟨a.costh, a.enu, [], none⟩

/-- The nodes but the first (1593-1596), into new objects (1583). Opening a group that is not there throws. -/
noncomputable def readSkyNodes (rnd : Rat → Int) (f : SkyFile) (iis : Option Tables) : List Rat → Outcome (List State)
  | [] => .ok []
  | x :: xs =>
    match f.groups.lookup (nodeName rnd x) with
    | none => .throws
    | some g => (StateIO.readInternal iis StateIO.fresh g).bind fun s => (readSkyNodes rnd f iis xs).map (s :: ·)

/-- `ReadStateHDF5(hdf5_filename)` (1550-1604) on an object `a0`. The first node is read with the shared tables (1588-1592), which the
object keeps. With no zenith `front()` is called on an empty vector (1600). `isEarthAtm` says which bodies pass the cast of 1600; the
`assert` ends the program for others. -/
noncomputable def readSky (rnd : Rat → Int) (isEarthAtm : BodyRef → Bool) (a0 : FullSky) (f : SkyFile) : Outcome FullSky :=
  match f.zeniths with
  | [] => .ub
  | x :: xs =>
    match f.groups.lookup (nodeName rnd x) with
    | none => .throws
    | some g => (StateIO.read StateIO.fresh { g with tables := f.shared }).bind fun s =>
      let iis := if s.obj.iint then s.obj.tables else a0.tables
      (readSkyNodes rnd f iis xs).bind fun l =>
        match s.obj.body with
        | none => .ub
        | some b =>
          if isEarthAtm b then
            .ok { iini := some true, iatm := true, costh := f.zeniths, enu := f.energies, nodes := s :: l, earth := some b, ncs := a0.ncs,
                  tables := iis, threads := a0.threads }
          else .ub

/-- The object `nuSQUIDSAtm(hdf5_filename)` (1160-1166) reads into. -/
def emptySky : FullSky := ⟨none, false, [], [], [], none, none, none, none⟩

/-! ## What `EvalFlavor` reads -/

/-- `DM2` (src/nuSQuIDS.cpp 1602-1606). -/
noncomputable def dm2Mat (n : Nat) (dm2 : Nat → Rat) : Density.Mat n :=
  ∑ i : Fin n, (if 1 ≤ i.val then ((dm2 i : ℝ)) • Density.projector i else 0)

/-- A node as `EvalFlavor` sees it (`Eval.lean`); a node without a track is not evaluated. -/
noncomputable def nodeView (R : StateIO.Rep) (n : Nat) (s : State) : Node n where
  t := s.obj.t
  tIni := s.obj.tIni
  xini := (s.obj.track.map fun tr => (tr.xini : ℝ)).getD 0
  xend := (s.obj.track.map fun tr => (tr.xend : ℝ)).getD 0
  ne := s.obj.ne
  nrhos := s.obj.nrhos
  state := fun ei rho => R.vec n (StateIO.onComps n (s.comps ei rho))
  b1 := fun rho flv => StateIO.keyMat R n (s.obj.b1 rho flv)
  osc := s.obj.osc
  dm2 := dm2Mat n s.obj.dm2Key

/-- The object as `EvalFlavor` sees it; `length b` are the lengths of the tracks of the Earth `b`. -/
noncomputable def view (R : StateIO.Rep) (length : Option BodyRef → ℝ → ℝ) (n : Nat) (a : FullSky) : Obj n where
  iinistate := a.iini
  inusquidsatm := a.iatm
  costh := a.costh.map fun q : Rat => (q : ℝ)
  enu := a.enu.map fun q : Rat => (q : ℝ)
  nodes := a.nodes.map (nodeView R n)
  length := length a.earth

end Verif.Atm
