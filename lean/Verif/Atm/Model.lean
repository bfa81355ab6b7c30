import Verif.Lifecycle.Model

/-!
# Life of a `nuSQUIDSAtm` object (include/nuSQuIDS/nuSQuIDS.h 1068-1929)

One nuSQUIDS object (`Life.Obj`) per cos(zenith). The progress bar, the step sizes and error bounds of the integrator, the low-pass filter,
the per-node overloads `Set_h(h, idx)` and so on, and changes made through the references `GetnuSQuIDS` returns are not modelled.
-/

namespace Verif.Atm

open Life (Status Xs Tables BodyRef TrackRef Basis)

/-- Members of `nuSQUIDSAtm` (1088-1107). `none` for `iini` (`iinistate`) or `threads` (`evalThreads`) is a member that was not given a
value. `nodes` is `nusq_array`; `nCosth` and `nE` are the lengths of `costh_array` and `enu_array`. -/
structure Sky where
  iini : Option Bool
  iatm : Bool
  nCosth : Nat
  nE : Nat
  nodes : List Life.Obj
  ncs : Option Xs
  tables : Option Tables
  threads : Option Nat

/-- `for(BaseSQUIDS& nsq : nusq_array) nsq.f();`: in order, the first exception ends it. -/
def forAll {σ : Type} (f : σ → σ × Status) : List σ → List σ × Status
  | [] => ([], .ok)
  | x :: xs =>
    match f x with
    | (x', .ok) => let r := forAll f xs; (x' :: r.1, r.2)
    | (x', st) => (x' :: xs, st)

/-- The tasks of a thread pool that finish in the given order (1307-1319): every task runs `f` on its own node; an exception stays in the
future, and `wait` does not rethrow it. -/
def inTasks {σ : Type} (f : σ → σ × Status) : List Nat → List σ → List σ × Status
  | [], l => (l, .ok)
  | j :: js, l =>
    match l[j]? with
    | none => (l, .ub)
    | some x =>
      match f x with
      | (_, .ub) => (l, .ub)
      | (x', _) => inTasks f js (l.set j x')

/-- A node as the main constructor leaves it (1138-1142). -/
def startNode (c : Life.Ctor) (earth : BodyRef) (tr : TrackRef) : Life.Obj × Status :=
  match Life.construct c with
  | (s, .ok) =>
    match Life.setBody s (some earth) with
    | (s, .ok) => Life.setTrack s (some tr)
    | r => r
  | r => r

/-- The nodes, one per track; the first exception ends it. -/
def startNodes (c : Life.Ctor) (earth : BodyRef) : List TrackRef → Outcome (List Life.Obj)
  | [] => .ok []
  | tr :: trs =>
    match startNode c earth tr with
    | (s, .ok) => (startNodes c earth trs).map (s :: ·)
    | (_, .throws) => .throws
    | (_, .ub) => .ub

/-- `nuSQUIDSAtm(costh_array, args...)` (1126-1153). `trs` are the tracks of the zeniths. `found` is what is in `iinistate`, which this
constructor does not set. With no zenith `front()` of an empty vector is used (1143). -/
def create (found : Option Bool) (c : Life.Ctor) (earth : BodyRef) (trs : List TrackRef) : Outcome Sky :=
  match startNodes c earth trs with
  | .ok [] => .ub
  | .ok (s :: nodes) => .ok ⟨found, true, trs.length, s.ne, s :: nodes, s.ncs, none, some 1⟩
  | .throws => .throws
  | .ub => .ub

/-- `nuSQUIDSAtm(hdf5_filename)` (1160-1166): `ReadStateHDF5` sets both flags (1602-1603); `evalThreads` is not set; `ncs` stays null. -/
def fromFile (nodes : List Life.Obj) (nE : Nat) (tables : Option Tables) : Sky :=
  ⟨some true, true, nodes.length, nE, nodes, none, tables, none⟩

/-- Calls. `setThreads` carries what `hardware_concurrency` would return; `evolve` carries the order in which the tasks finish, used if
there are several threads; `setInitial` the extents of the array. -/
inductive AOp where
  | setAngle (i j : Nat) (v : Rat)
  | setPhase (i j : Nat) (v : Rat)
  | setDm2 (i : Nat) (v : Rat)
  | setDefaults
  | setOsc (b : Bool)
  | setTau (b : Bool)
  | setGlashow (b : Bool)
  | setPositivity (b : Bool)
  | setPosStep (v : Rat)
  | setAllowConst (b : Bool)
  | setSources (b : Bool)
  | setEarth (b : Option BodyRef)
  | setXs (x : Option Xs)
  | setThreads (n hardware : Nat)
  | setInitial (dims : List Nat) (basis : Basis)
  | evolve (order : List Nat)

/-- The call each node gets from a setter that only forwards: 1607-1611, 1619-1623, 1640-1644, 1660-1664, 1828-1832, 1834-1838, 1842-1846,
1850-1854, 1859-1863, 1866-1870, 1925-1928 and, for the body, 1894-1899. -/
def AOp.forward : AOp → Option Life.Op
  | .setAngle i j v => some (.setAngle i j v)
  | .setPhase i j v => some (.setPhase i j v)
  | .setDm2 i v => some (.setDm2 i v)
  | .setDefaults => some .setDefaults
  | .setOsc b => some (.setOsc b)
  | .setTau b => some (.setTau b)
  | .setGlashow b => some (.setGlashow b)
  | .setPositivity b => some (.setPositivity b)
  | .setPosStep v => some (.setPosStep v)
  | .setAllowConst b => some (.setAllowConst b)
  | .setSources b => some (.setSources b)
  | .setEarth b => some (.setBody b)
  | _ => none

/-- `Set_EvalThreads` (1876-1883). -/
def chooseThreads (n hardware : Nat) : Nat :=
  if n = 0 then if hardware = 0 then 1 else hardware else n

/-- The extents each node's `Set_initial_state` gets; `none` if the checks fail (1225-1228, 1256-1258). -/
def nodeDims (a : Sky) : List Nat → Option (List Nat)
  | [x, y, z] => if x = a.nCosth ∧ y = a.nE then some [y, z] else none
  | [x, y, z, w] => if x = a.nCosth then some [y, z, w] else none
  | _ => none

/-- `Set_initial_state` (1224-1241, 1255-1274). -/
def setInitial (a : Sky) (dims : List Nat) (basis : Basis) : Sky × Status :=
  match nodeDims a dims with
  | none => (a, .throws)
  | some d =>
    match forAll (fun s => Life.setInitial s d basis) a.nodes with
    | (l, .ok) => ({ a with nodes := l, iini := some true }, .ok)
    | (l, st) => ({ a with nodes := l }, st)

/-- The preparation of the interaction tables in `EvolveState` (1283-1291): the first node makes them, the others share them. -/
def prepare (dflt : Option Xs) (a : Sky) : Sky × Status :=
  match a.nodes with
  | [] => (a, .ub)
  | s :: l =>
    if s.iint then
      match Life.initInteractions dflt s with
      | (s, .ok) =>
        match forAll (fun x : Life.Obj => Life.initInteractions dflt { x with tables := s.tables }) (s :: l) with
        | (l, st) => ({ a with nodes := l, tables := s.tables }, st)
      | (s, st) => ({ a with nodes := s :: l }, st)
    else (a, .ok)

/-- `EvolveState` (1277-1321). -/
def evolve (dflt : Option Xs) (a : Sky) (order : List Nat) : Sky × Status :=
  match a.iini with
  | none => (a, .ub)
  | some false => (a, .throws)
  | some true =>
    if !a.iatm then (a, .throws)
    else
      match prepare dflt a with
      | (a, .ok) =>
        match a.threads with
        | none => (a, .ub)
        | some n =>
          match (if n = 1 then forAll (Life.evolveState dflt) a.nodes else inTasks (Life.evolveState dflt) order a.nodes) with
          | (l, st) => ({ a with nodes := l }, st)
      | r => r

/-- One call. `SetNeutrinoCrossSections` is 1907-1911. -/
def astep (dflt : Option Xs) (a : Sky) : AOp → Sky × Status
  | .setXs x =>
    match forAll (fun s => Life.setXs s x) a.nodes with
    | (l, st) => ({ a with ncs := x, nodes := l }, st)
  | .setThreads n hw => ({ a with threads := some (chooseThreads n hw) }, .ok)
  | .setInitial dims basis => setInitial a dims basis
  | .evolve order => evolve dflt a order
  | op =>
    match op.forward with
    | none => (a, .ok)
    | some o =>
      match forAll (fun s => Life.step dflt s o) a.nodes with
      | (l, st) => ({ a with nodes := l }, st)

/-- The guards of `nuSQUIDS::WriteStateHDF5` (src/nuSQuIDS.cpp 1689-1700), the same as those of `EvolveState`. -/
def writeNode (s : Life.Obj) : Life.Obj × Status := if Life.evolveGuards s then (s, .ok) else (s, .throws)

/-- `WriteStateHDF5` (1511-1544), as far as guards go; the file is assumed to be writable and the names to be different. The file has been
created, replacing an old one, before the nodes are asked (second component). -/
def write (a : Sky) : Status × Bool :=
  match a.iini with
  | none => (.ub, false)
  | some false => (.throws, false)
  | some true => if !a.iatm then (.throws, false) else ((forAll writeNode a.nodes).2, true)

/-- `Get_MixingAngle`, `Get_CPPhase`, `Get_SquareMassDifference` (1630-1632, 1651-1653, 1670-1672): those of node 0, unchecked. -/
def getAngle (a : Sky) (i j : Nat) : Outcome Rat :=
  match a.nodes with
  | [] => .ub
  | s :: _ => Life.getAngle s i j

def getPhase (a : Sky) (i j : Nat) : Outcome Rat :=
  match a.nodes with
  | [] => .ub
  | s :: _ => Life.getPhase s i j

def getDm2 (a : Sky) (i : Nat) : Outcome Rat :=
  match a.nodes with
  | [] => .ub
  | s :: _ => Life.getDm2 s i

/-- `Get_EvalThreads` (1888-1890). -/
def getThreads (a : Sky) : Outcome Nat := .ofOption a.threads

/-- Histories of an object made by the main constructor. Nothing is said after undefined behaviour. -/
inductive ARun (dflt : Option Xs) (found : Option Bool) (c : Life.Ctor) (earth : BodyRef) (trs : List TrackRef) :
    List (AOp × Status) → Sky → Prop where
  | start (a : Sky) (h : create found c earth trs = .ok a) : ARun dflt found c earth trs [] a
  | call (tr : List (AOp × Status)) (a a' : Sky) (op : AOp) (st : Status) (hr : ARun dflt found c earth trs tr a)
      (h : astep dflt a op = (a', st)) (hst : st ≠ .ub) : ARun dflt found c earth trs (tr ++ [(op, st)]) a'

end Verif.Atm
