import Verif.Lifecycle.Model
import Verif.Density.Model

/-!
# State files

`WriteStateHDF5`, `ReadStateHDF5` and `ReadStateHDF5Internal` of `nuSQUIDS` (nuSQuIDS.cpp 1688-2068, 2285-2715, 2078-2283) on the objects
of `Verif.Lifecycle`, with the components of the density matrices added.

A file is the record of what is stored under one group. Bodies and tracks are the references of the lifecycle model: their own
serialisation is in `Verif.Body`. The default arguments are used for the group names. Files are those of the present version
(`nusquids_version_number` at least 101100); the branches for older files are not modelled. Reading an attribute that is missing leaves a local
variable uninitialised, which is undefined behaviour.
-/

namespace Verif.StateIO

open Life

/-- An object with `state[ie].rho[rho][i]`. -/
structure State where
  obj : Obj
  comps : Nat → Nat → Nat → ℝ

/-! ## Names -/

/-- `"th"+std::to_string(i+1)+std::to_string(j+1)` (1772, 2194, 2402). -/
def thLabel (i j : Nat) : String := "th" ++ toString (i + 1) ++ toString (j + 1)

/-- `"delta"+std::to_string(i+1)+std::to_string(j+1)` (1776, 2199, 2407). -/
def deltaLabel (i j : Nat) : String := "delta" ++ toString (i + 1) ++ toString (j + 1)

/-- `"dm"+std::to_string(i+1)+"1sq"` (1783, 2207, 2415). -/
def dmLabel (i : Nat) : String := "dm" ++ toString (i + 1) ++ "1sq"

/-- The pairs in the order of the loops `i < numneu`, `i < j < numneu` (1770-1771, 2191-2192, 2399-2400). -/
def pairs (n : Nat) : List (Nat × Nat) := (List.range n).flatMap fun i => (List.range' (i + 1) (n - (i + 1))).map fun j => (i, j)

/-- The indices of the mass differences, `1 <= i < numneu` (1782, 2205, 2413). -/
def masses (n : Nat) : List Nat := List.range' 1 (n - 1)

/-! ## Files -/

/-- Attributes of one dataset. -/
abbrev Attrs := List (String × Rat)

/-- `H5LTset_attribute_double`: an attribute of the same name is replaced. -/
def setAttr (l : Attrs) (name : String) (v : Rat) : Attrs := (name, v) :: l.filter fun p => p.1 != name

/-- `static_cast<int>(NT)` (nuSQuIDS.h 61-65). -/
def ntCode : NT → Int
  | .neutrino => 1
  | .antineutrino => 2
  | .both => 3

/-- `static_cast<NeutrinoType>(auxint)`; other codes are refused by `init` (81-85, 157-163). -/
def ntOfCode (k : Int) : Option NT := if k = 1 then some .neutrino else if k = 2 then some .antineutrino else if k = 3 then some .both else none

/-- A rank-two dataset, row by row. -/
structure Dataset where
  rows : Nat
  cols : Nat
  data : List ℝ

structure File where
  energies : List Rat
  numneu : Nat
  nt : Int
  interactions : String
  oscillations : Int
  tau : Int
  glashow : Int
  time : Rat
  timeInitial : Rat
  angles : Attrs
  phases : Attrs
  masses : Attrs
  neustate : Dataset
  aneustate : Dataset
  track : TrackRef
  body : BodyRef
  /-- the contents of the group of cross sections, if any were saved -/
  tables : Option Tables

def boolInt (b : Bool) : Int := if b then 1 else 0

/-- One row after the other (1790-1811). -/
def dataset (ne cols : Nat) (v : Nat → Nat → ℝ) : Dataset :=
  ⟨ne, cols, (List.range ne).flatMap fun ie => (List.range cols).map (v ie)⟩

/-- Which table goes to the file (1945): the test for padding reads the fifth extent of an array that has two. `stray` is what that
read yields, `none` taking it for the undefined behaviour it is. If it happens to be the number of energies the padded tables are
written as if they were not padded. -/
def savedTables (stray : Option Nat) (ne : Nat) (t : Tables) : Outcome Tables :=
  match stray with
  | none => .ub
  | some k => .ok (if k = ne ∧ ne % 4 ≠ 0 then { t with complete := false } else t)

/-- What is stored for an object with body `b` and track `tr` (1734-1820). -/
noncomputable def fileOf (s : State) (b : BodyRef) (tr : TrackRef) (tables : Option Tables) : File :=
  let o := s.obj
  { energies := o.energies
    numneu := o.numneu
    nt := ntCode o.nt
    interactions := if o.iint then "True" else "False"
    oscillations := boolInt o.osc
    tau := boolInt o.tauregen
    glashow := boolInt o.glashow
    time := o.t
    timeInitial := o.tIni
    angles := (pairs o.numneu).foldl (fun l p => setAttr l (thLabel p.1 p.2) (o.params.angle p.1 p.2)) []
    phases := (pairs o.numneu).foldl (fun l p => setAttr l (deltaLabel p.1 p.2) (o.params.phase p.1 p.2)) []
    masses := (StateIO.masses o.numneu).foldl (fun l i => setAttr l (dmLabel i) (o.params.dm2 i)) []
    neustate := dataset o.ne (o.numneu * o.numneu) fun ie i => if o.nt = .antineutrino then 0 else s.comps ie 0 i
    aneustate := dataset o.ne (o.numneu * o.numneu) fun ie i =>
      if o.nt = .both then s.comps ie 1 i else if o.nt = .antineutrino then s.comps ie 0 i else 0
    track := tr
    body := b
    tables := tables }

/-- `WriteStateHDF5(str)` into a new file (1688-2068); `save` is `save_cross_section`. -/
noncomputable def write (dflt : Option Xs) (save : Bool) (stray : Option Nat) (s : State) : Outcome File :=
  if evolveGuards s.obj then
    match s.obj.body, s.obj.track with
    | some b, some tr =>
      if s.obj.iint && save then
        match initInteractions dflt s.obj with
        | (o, .ok) =>
          match o.tables with
          | some t => (savedTables stray s.obj.ne t).map fun t => fileOf s b tr (some t)
          | none => .ub
        | (_, .throws) => .throws
        | (_, .ub) => .ub
      else .ok (fileOf s b tr none)
    | _, _ => .throws
  else .throws

/-! ## Reading -/

def lift (r : Obj × Status) : Outcome Obj :=
  match r with
  | (o, .ok) => .ok o
  | (_, .throws) => .throws
  | (_, .ub) => .ub

/-- `init(xini)` on any object (77-140). -/
def initSingle (s : Obj) (xini : Rat) : Outcome Obj :=
  let s := { s with ne := 1 }
  if s.nt = .both then .throws
  else
    let s := { s with nrhos := 1 }
    if s.numneu > maxDim then .throws
    else if s.numneu < 3 then .throws
    else
      let s := { s with t := xini, tIni := xini, anyNumerics := true, h := 1 }
      let s := setDefaults s
      let s := if s.nt = .antineutrino then
          { s with params := { s.params with phase := flipPhases s.numneu s.params.phase }, istate := false } else s
      let s := iniProj s
      let s := iniH0 s
      .ok { s with inusquids := true }

/-- `init(E_vector, xini)` on any object (155-257). -/
def initMulti (s : Obj) (E : List Rat) (xini : Rat) : Outcome Obj :=
  let s := { s with nrhos := if s.nt = NT.both then 2 else 1 }
  if s.numneu > maxDim then .throws
  else if s.numneu < 3 then .throws
  else
    let s := { s with ne := E.length }
    if E = [] then .ub
    else
      let s := { s with t := xini, tIni := xini, anyNumerics := true, energies := E, ienergy := true }
      let s := setDefaults s
      let s := iniProj s
      let s := iniH0 s
      .ok { s with posScale := some 300 }

/-- One angle and one phase (2193-2201, 2401-2409). -/
def readPair (f : File) (s : Obj) (p : Nat × Nat) : Outcome Obj :=
  match f.angles.lookup (thLabel p.1 p.2) with
  | none => .ub
  | some th => (lift (setAngle s p.1 p.2 th)).bind fun s =>
    match f.phases.lookup (deltaLabel p.1 p.2) with
    | none => .ub
    | some d => lift (setPhase s p.1 p.2 d)

/-- One mass difference (2206-2209, 2414-2417). -/
def readMass (f : File) (s : Obj) (i : Nat) : Outcome Obj :=
  match f.masses.lookup (dmLabel i) with
  | none => .ub
  | some v => lift (setDm2 s i v)

/-- A loop that stops at the first call that does not return. -/
def each {α : Type} (step : Obj → α → Outcome Obj) : List α → Obj → Outcome Obj
  | [], s => .ok s
  | a :: l, s => (step s a).bind (each step l)

def Dataset.get (d : Dataset) (i j : Nat) : ℝ := d.data.getD (i * d.cols + j) 0

/-- `state[ie].rho[rho][j] = ...` (2239-2250, 2447-2458); the loop runs over the extents of `aneustate`. -/
noncomputable def readComps (f : File) (nt : NT) (old : Nat → Nat → Nat → ℝ) : Nat → Nat → Nat → ℝ := fun ie rho j =>
  if ie < f.aneustate.rows ∧ j < f.aneustate.cols then
    match nt, rho with
    | .neutrino, 0 => f.neustate.get ie j
    | .antineutrino, 0 => f.aneustate.get ie j
    | .both, 0 => f.neustate.get ie j
    | .both, 1 => f.aneustate.get ie j
    | _, _ => old ie rho j
  else old ie rho j

/-- The call of one of the two `init` (2180-2187, 2389-2396). In the single-energy case an object that is initialised is not initialised
again: its arrays then have the sizes they had, and components of a larger state are stored outside them. A smaller state is not
modelled (`ub`). -/
def readInit (s0 s : Obj) (f : File) : Outcome Obj :=
  match f.energies with
  | [e] =>
    (if s0.inusquids then (if s0.numneu = s.numneu ∧ s.nt ≠ .both then .ok s else .ub) else initSingle s f.timeInitial).bind fun s =>
      lift (setE s e)
  | E => initMulti s E f.timeInitial

/-- What `ReadStateHDF5` and `ReadStateHDF5Internal` have in common (2078-2250, 2285-2458) on an object `s0`. -/
noncomputable def readCommon (s0 : State) (f : File) : Outcome State :=
  match ntOfCode f.nt with
  | none => .throws
  | some nt =>
    let s := { s0.obj with
      numneu := f.numneu, nt := nt, iint := f.interactions == "True", osc := f.oscillations != 0, tauregen := f.tau != 0,
      glashow := f.glashow != 0, body := some f.body, track := some f.track, ne := f.energies.length, energies := f.energies }
    (readInit s0.obj s f).bind fun s =>
      (each (readPair f) (pairs s.numneu) s).bind fun s =>
        (each (readMass f) (masses s.numneu) s).bind fun s =>
          let s := { s with t := f.time, offset := some (f.time - f.track.x) }
          let s := iniH0 (iniProj s)
          .ok ⟨s, readComps f nt s0.comps⟩

/-- The end of both (2257-2282, 2690-2714): buffers, flags. -/
noncomputable def readTail (s : State) (t : Option Tables) : State :=
  let o := s.obj
  let o := match t with
    | some t => { o with tables := some t, ncSized := true, tauSized := o.tauSized || o.tauregen, grSized := o.grSized || o.glashow,
                         intInit := true }
    | none => o
  let o := { o with istate := true, ienergy := true, itrack := true, ibody := true }
  { s with obj := iniH0 o }

/-- `ReadStateHDF5(str)` (2285-2715): with interactions the tables must be in the file (2484-2489). -/
noncomputable def read (s0 : State) (f : File) : Outcome State :=
  (readCommon s0 f).bind fun s =>
    if s.obj.iint then
      match f.tables with
      | some t => .ok (readTail s (some t))
      | none => .throws
    else .ok (readTail s none)

/-- `ReadStateHDF5Internal(str,grp,iis)` (2078-2283): with interactions the tables are given. -/
noncomputable def readInternal (iis : Option Tables) (s0 : State) (f : File) : Outcome State :=
  (readCommon s0 f).bind fun s =>
    if s.obj.iint then
      match iis with
      | some t => .ok (readTail s (some t))
      | none => .throws
    else .ok (readTail s none)

/-- The object `nuSQUIDS(hdf5_filename)` (nuSQuIDS.h 623-631) reads into: in-class defaults; the two members without one are set first. -/
noncomputable def fresh : State := ⟨blank 0 .both false none, fun _ _ _ => 0⟩

/-! ## What an object reports at a node -/

/-- SQuIDS: the matrix of a list of components, and the mixing matrix of angles and phases. -/
structure Rep where
  vec : (n : Nat) → (Nat → ℝ) → Density.Mat n
  mix : (n : Nat) → (Nat → Nat → Rat) → (Nat → Nat → Rat) → Density.Mat n

/-- `RotateToB1` for n flavours reads the angles and phases of pairs below n. -/
def onPairs (n : Nat) (f : Nat → Nat → Rat) : Nat → Nat → Rat := fun i j => if i < j ∧ j < n then f i j else 0

/-- A vector of SU(n) has n² components. -/
noncomputable def onComps (n : Nat) (c : Nat → ℝ) : Nat → ℝ := fun j => if j < n * n then c j else 0

/-- The projector on state `f`. -/
def projectorN (n f : Nat) : Density.Mat n := if h : f < n then Density.projector ⟨f, h⟩ else 0

/-- A stored flavour projector as a matrix. -/
noncomputable def keyMat (R : Rep) (n : Nat) (k : ProjKey) : Density.Mat n :=
  Density.toB1 (R.mix n (onPairs n k.angle) (onPairs n k.phase)) (projectorN n k.flv)

/-- `H0(E)` (328-332) from the stored mass differences (1602-1606). -/
noncomputable def vacuumH (n : Nat) (osc : Bool) (dm2 : Nat → Rat) (E : Rat) : Density.Mat n :=
  if osc then (1 / 2 / (E : ℝ)) • ∑ i : Fin n, (if 1 ≤ i.val then ((dm2 i : ℝ)) • Density.projector i else 0) else 0

/-- The value both evaluators return (1514-1517, 1524-1527). -/
noncomputable def valueOf (n : Nat) (isMass osc : Bool) (elapsed : Rat) (dm2 : Nat → Rat) (E : Rat) (op rho : Density.Mat n) : ℝ :=
  if isMass then Density.dot op rho else Density.dot rho (Density.evolve (vacuumH n osc dm2 E) (elapsed : ℝ) op)

/-- The value of the projector with key `k` in the state with components `c`. -/
noncomputable def flavourValue (R : Rep) (n : Nat) (isMass osc : Bool) (elapsed : Rat) (dm2 : Nat → Rat) (E : Rat) (k : ProjKey)
    (c : Nat → ℝ) : ℝ :=
  valueOf n isMass osc elapsed dm2 E (keyMat R n k) (R.vec n (onComps n c))

/-- The value of the projector on mass state `flv`. -/
noncomputable def massValue (R : Rep) (n : Nat) (isMass osc : Bool) (elapsed : Rat) (dm2 : Nat → Rat) (E : Rat) (flv : Nat)
    (c : Nat → ℝ) : ℝ :=
  valueOf n isMass osc elapsed dm2 E (projectorN n flv) (R.vec n (onComps n c))

/-- `EvalFlavorAtNode` (1520-1528). -/
noncomputable def flavourAt (R : Rep) (s : State) (flv ei rho : Nat) : Outcome ℝ :=
  (evalAtNode s.obj flv ei rho).bind fun _ =>
    match s.obj.energies[ei]? with
    | none => .ub
    | some E => .ok (flavourValue R s.obj.numneu (s.obj.basis = .mass) s.obj.osc (s.obj.t - s.obj.tIni) s.obj.dm2Key E
        (s.obj.b1 rho flv) (s.comps ei rho))

/-- `EvalMassAtNode` (1510-1518). -/
noncomputable def massAt (R : Rep) (s : State) (flv ei rho : Nat) : Outcome ℝ :=
  (evalAtNode s.obj flv ei rho).bind fun _ =>
    match s.obj.energies[ei]? with
    | none => .ub
    | some E => .ok (massValue R s.obj.numneu (s.obj.basis = .mass) s.obj.osc (s.obj.t - s.obj.tIni) s.obj.dm2Key E
        flv (s.comps ei rho))

end Verif.StateIO
