import Verif.Atm.StateFile
import Verif.StateIO.Failed

/-!
# Reading of an atmospheric state file that fails (include/nuSQuIDS/nuSQuIDS.h 1550-1604)

`ReadStateHDF5` of `nuSQUIDSAtm` on any object and any file, with what is left of the object if it throws. The members are assigned in the order of the
source, the nodes are read as in `Verif.StateIO.readLeft`. Of a node the values are kept (`State`), not the sizes of its arrays.

Not modelled: the logarithms of the energies (1575); arrays too long for the stack (1561, 1570); the identifier of the root group (1555), which is closed
before the nodes are read.
-/

namespace Verif.Atm

open Life (Status Xs Tables BodyRef)
open StateIO (State Held Source readLeft)

/-! ## Model -/

/-- What is found in a file: the two datasets, if they are there, the groups and the tables of the shared group. -/
structure SkySource where
  zeniths : Option (List Rat)
  energies : Option (List Rat)
  groups : List (List Char × Source)
  shared : Option Tables

/-- A default-constructed node (1583). -/
noncomputable def freshHeld : Held := ⟨StateIO.fresh, 0, 0, 0⟩

/-- One node (1590, 1595), with the tables it is given: those of the shared group or those of the object. -/
noncomputable def nodeLeft (rnd : Rat → Int) (squids nusquids : Nat) (f : SkySource) (tables : Option Tables) (x : Rat) : State × Status :=
  let r := readLeft squids nusquids freshHeld ((f.groups.lookup (nodeName rnd x)).map fun src => { src with file := { src.file with tables := tables } })
  (r.1.st, r.2)

/-- The nodes but the first (1593-1596); those behind one that fails stay as they were made. -/
noncomputable def othersLeft (rnd : Rat → Int) (squids nusquids : Nat) (f : SkySource) (iis : Option Tables) : List Rat → List State × Status
  | [] => ([], .ok)
  | x :: xs =>
    match nodeLeft rnd squids nusquids f iis x with
    | (s, .ok) => let r := othersLeft rnd squids nusquids f iis xs; (s :: r.1, r.2)
    | (s, e) => (s :: xs.map fun _ => StateIO.fresh, e)

/-- `ReadStateHDF5(hdf5_filename)` (1550-1604); `none` if the file cannot be opened (1553-1554). The results of the calls for a dataset that is not there are
not looked at, and its size is used as it is (1559-1561, 1568-1570). With no zenith `front()` is called on an empty vector (1600); the `assert` of 1601 ends
the program for other bodies. -/
noncomputable def readSkyLeft (rnd : Rat → Int) (isEarthAtm : BodyRef → Bool) (squids nusquids : Nat) (a : FullSky) (found : Option SkySource) :
    FullSky × Status :=
  match found with
  | none => (a, .throws)
  | some f =>
    match f.zeniths with
    | none => (a, .ub)
    | some z =>
      let a := { a with costh := z }
      match f.energies with
      | none => (a, .ub)
      | some e =>
        let a := { a with enu := e, nodes := z.map fun _ => StateIO.fresh }
        match z with
        | [] => (a, .ub)
        | x :: xs =>
          match nodeLeft rnd squids nusquids f f.shared x with
          | (s, .ok) =>
            let a := { a with tables := if s.obj.iint then s.obj.tables else a.tables }
            match othersLeft rnd squids nusquids f a.tables xs with
            | (l, .ok) =>
              let a := { a with nodes := s :: l }
              match s.obj.body with
              | none => (a, .ub)
              | some b => if isEarthAtm b then ({ a with earth := some b, iini := some true, iatm := true }, .ok) else (a, .ub)
            | (l, st) => ({ a with nodes := s :: l }, st)
          | (s, st) => ({ a with nodes := s :: xs.map fun _ => StateIO.fresh }, st)

/-! ## Specification -/

/-- `a'` is what is left of `a` after a reading that stopped at node `k` of a file with zeniths `z` and energies `e`: the grid is that of the file, the nodes
before `k` are complete, the node `k` has no state, those behind are as they were made; flags, Earth, cross sections and threads are those of `a`. -/
structure Interrupted (a a' : FullSky) (z e : List Rat) (k : Nat) : Prop where
  costh : a'.costh = z
  enu : a'.enu = e
  count : a'.nodes.length = z.length
  inside : k < z.length
  before : ∀ j, j < k → ∃ s, a'.nodes[j]? = some s ∧ Life.evolveGuards s.obj = true
  broken : ∃ s, a'.nodes[k]? = some s ∧ s.obj.istate = false
  behind : ∀ j, k < j → j < z.length → a'.nodes[j]? = some StateIO.fresh
  iini : a'.iini = a.iini
  iatm : a'.iatm = a.iatm
  earth : a'.earth = a.earth
  ncs : a'.ncs = a.ncs
  threads : a'.threads = a.threads

/-- The object knows that it is not ready. -/
def Unready (a : FullSky) : Prop := a.iini = some false ∨ a.iini = some true ∧ a.iatm = false

/-- The file a source stands for, for C95. -/
def SkySource.file (f : SkySource) (z e : List Rat) : SkyFile := ⟨z, e, f.groups.map fun p => (p.1, p.2.file), f.shared⟩

end Verif.Atm
