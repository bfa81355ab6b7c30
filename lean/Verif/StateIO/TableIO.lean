import Verif.MArray.Model
import Verif.Interact.Cache

/-!
# Interaction tables in state files

The part of `WriteStateHDF5` (nuSQuIDS.cpp 1842-2059) and of `ReadStateHDF5` (2469-2688) that moves the interaction tables between
memory, where the rows are padded (258-276), and the file, where they are not. HDF5 is modelled by what its manual says about dataspaces:
a selection picks coordinates in each dimension, and a transfer pairs the selected elements of memory and file in row-major order.

Simplified: the arrays are sized as `InitializeInteractionVectors` asks (that `resize` does so is C04), 64-bit sizes do not wrap, the data
written before a failure are not kept, and the dataset of targets has rank one.
-/

namespace Verif.TableIO

open Marr (MArray)

variable {K : Type} [Zero K]

/-! ## HDF5 -/

/-- One dimension of the arguments of `H5Sselect_hyperslab`. -/
structure Slab where
  start : Nat
  stride : Nat
  count : Nat
  block : Nat

/-- The coordinates a hyperslab selects in one dimension. -/
def Slab.coords (s : Slab) : List Nat :=
  (List.range s.count).flatMap fun k => (List.range s.block).map fun b => s.start + k * s.stride + b

/-- `H5Sselect_hyperslab` fails if a stride is zero or the blocks overlap. -/
def Slab.accepted (s : Slab) : Bool := s.stride != 0 && (decide (s.count ≤ 1) || decide (s.block ≤ s.stride))

/-- A dataspace: its extents, and the selected coordinates in each dimension. -/
structure Space where
  dims : List Nat
  sel : List (List Nat)

/-- `H5Screate_simple`: everything is selected. -/
def Space.all (dims : List Nat) : Space := ⟨dims, dims.map List.range⟩

/-- `H5Sselect_hyperslab(space, H5S_SELECT_SET, ...)`; it reads one entry of each argument per dimension. -/
def hyperslab (s : Space) (slabs : List Slab) : Outcome Space :=
  if slabs.length < s.dims.length then .ub
  else if (slabs.take s.dims.length).all Slab.accepted then .ok ⟨s.dims, (slabs.take s.dims.length).map Slab.coords⟩
  else .throws

/-- Row-major positions of the selected elements, in row-major order. -/
def positions : (dims : List Nat) → (sel : List (List Nat)) → List Nat
  | _ :: es, c :: cs => c.flatMap fun i => (positions es cs).map fun o => i * es.prod + o
  | _, _ => [0]

/-- The selection lies within the extents. -/
def Space.inside (s : Space) : Bool := (s.dims.zip s.sel).all fun p => p.2.all fun i => decide (i < p.1)

/-- A dataset: extents and elements in row-major order. -/
structure Data (K : Type) where
  dims : List Nat
  data : List K

/-- `H5Dcreate2`: filled with the default fill value. -/
def created (dims : List Nat) : Data K := ⟨dims, List.replicate dims.prod 0⟩

/-- Element by element; outside of a buffer is undefined behaviour. -/
def copyPairs (src : List K) : List (Nat × Nat) → List K → Outcome (List K)
  | [], dst => .ok dst
  | (i, j) :: l, dst =>
    match src[i]? with
    | none => .ub
    | some v => if j < dst.length then copyPairs src l (dst.set j v) else .ub

/-- The dataspaces of a transfer; `none` is `H5S_ALL`: in the file the whole dataset, in memory the same as in the file. The call fails if
they select different numbers of elements or something outside the extents. -/
def transfer (dims : List Nat) (mem file : Option Space) : Outcome (List Nat × List Nat) :=
  let f := file.getD (Space.all dims)
  let m := mem.getD f
  if (positions m.dims m.sel).length ≠ (positions f.dims f.sel).length then .throws
  else if m.inside && f.inside then .ok (positions m.dims m.sel, positions f.dims f.sel)
  else .throws

/-- `H5Dwrite`. -/
def h5write (d : Data K) (mem file : Option Space) (buf : List K) : Outcome (Data K) :=
  (transfer d.dims mem file).bind fun p => (copyPairs buf (p.1.zip p.2) d.data).map fun x => ⟨d.dims, x⟩

/-- `H5Dread`. -/
def h5read (d : Data K) (mem file : Option Space) (buf : List K) : Outcome (List K) :=
  (transfer d.dims mem file).bind fun p => copyPairs d.data (p.2.zip p.1) buf

/-! ## Tables -/

/-- The sizes of the object. -/
structure Sizes where
  ne : Nat
  nrhos : Nat
  numneu : Nat

/-- `InteractionStructure` (nuSQuIDS.h 160-200). -/
structure Tables (K : Type) where
  targets : List Int
  sigmaCC : MArray K
  sigmaNC : MArray K
  sigmaGR : MArray K
  dNdECC : MArray K
  dNdENC : MArray K
  dNdEGR : MArray K
  tauAll : MArray K
  tauLep : MArray K

/-- An array of value-initialised elements. -/
def zeroArray (dims : List Nat) : MArray K := ⟨dims, dims.prod, List.replicate dims.prod 0⟩

/-- `InitializeInteractionVectors(nTargets)` on a new structure (258-276). -/
def initVectors (c : Sizes) (targets : List Int) (n : Nat) : Tables K :=
  let r := Cache.roundUp c.ne
  { targets := targets
    dNdENC := zeroArray [n, c.nrhos, c.numneu, c.ne, r]
    dNdECC := zeroArray [n, c.nrhos, c.numneu, c.ne, r]
    dNdEGR := zeroArray [c.ne, r]
    sigmaCC := zeroArray [n, c.nrhos, c.numneu, r]
    sigmaNC := zeroArray [n, c.nrhos, c.numneu, r]
    sigmaGR := zeroArray [r]
    tauAll := zeroArray [c.nrhos, c.ne, r]
    tauLep := zeroArray [c.nrhos, c.ne, r] }

/-- The group of cross sections of a file: the list of targets and the datasets by name. -/
structure Group (K : Type) where
  targets : Option (List Int)
  sets : List (String × Data K)

/-! ## Writing -/

/-- The arrays `start`, `stride`, `count`, `block` (1896-1899, 1972-1975, 2036-2039, 2546-2549, 2600-2603, 2650-2653). -/
def slabs (count block : List Nat) : List Slab := List.zipWith (fun c b => ⟨0, 1, c, b⟩) count block

/-- One dataset (1857-1928, 1936-2004, 2012-2055): either as it is in memory, or through the two selections. `source` are the extents of
the dataspace declared for the memory. -/
def store (simple : Bool) (dims source : List Nat) (sl : List Slab) (a : MArray K) : Outcome (Data K) :=
  if simple then h5write (created dims) none none a.data
  else (hyperslab (Space.all dims) sl).bind fun f => (hyperslab (Space.all source) sl).bind fun m =>
    h5write (created dims) (some m) (some f) a.data

/-- 1842-2059. The test for padding of the differential tables (1945) reads the fifth extent of the array for the Glashow resonance, which
has two; `stray` is what that read yields, `none` taking it for the undefined behaviour it is. -/
def writeTables (stray : Option Nat) (c : Sizes) (t : Tables K) : Outcome (Group K) :=
  let nT := t.targets.length
  let dim4 := [nT, c.nrhos, c.numneu, c.ne]
  let sl4 := slabs [nT, c.nrhos, c.numneu, 1] [1, 1, 1, c.ne]
  let simple4 := t.sigmaCC.extents.getD 3 0 == c.ne
  (store simple4 dim4 t.sigmaCC.extents sl4 t.sigmaCC).bind fun cc =>
  (store simple4 dim4 t.sigmaCC.extents sl4 t.sigmaNC).bind fun nc =>
  (store simple4 (dim4.drop 3) (t.sigmaCC.extents.drop 3) (sl4.drop 3) t.sigmaGR).bind fun gr =>
  (Outcome.ofOption stray).bind fun k =>
  let dim5 := [nT, c.nrhos, c.numneu, c.ne, c.ne]
  let sl5 := slabs [nT, c.nrhos, c.numneu, c.ne, 1] [1, 1, 1, 1, c.ne]
  let simple5 := k == c.ne
  (store simple5 dim5 t.dNdECC.extents sl5 t.dNdECC).bind fun dcc =>
  (store simple5 dim5 t.dNdECC.extents sl5 t.dNdENC).bind fun dnc =>
  (store simple5 (dim5.drop 3) (t.dNdECC.extents.drop 3) (sl5.drop 3) t.dNdEGR).bind fun dgr =>
  let dim3 := [c.nrhos, c.ne, c.ne]
  let sl3 := slabs [c.nrhos, c.ne, 1] [1, 1, c.ne]
  let simple3 := t.tauAll.extents.getD 2 0 == c.ne
  (store simple3 dim3 t.tauAll.extents sl3 t.tauAll).bind fun all =>
  (store simple3 dim3 t.tauAll.extents sl3 t.tauLep).bind fun lep =>
  .ok ⟨some t.targets, [("sigmacc", cc), ("sigmanc", nc), ("sigmagr", gr), ("dNdEcc", dcc), ("dNdEnc", dnc), ("dNdEgr", dgr),
    ("dNdEtauall", all), ("dNdEtaulep", lep)]⟩

/-! ## Reading -/

/-- `H5Dopen2` through `H5Handle`. -/
def Group.open_ (g : Group K) (name : String) : Outcome (Data K) :=
  match g.sets.lookup name with
  | some d => .ok d
  | none => .throws

/-- One table (2516-2567, 2576-2621, 2633-2665). -/
def load (simple : Bool) (d : Data K) (source : List Nat) (sl : List Slab) (a : MArray K) : Outcome (MArray K) :=
  (if simple then h5read d none none a.data
   else (hyperslab (Space.all source) sl).bind fun m => h5read d (some m) none a.data).map fun x => { a with data := x }

/-- `int_struct->dNdE_tau_all[rho][e1][e2] = dNdEtauall[e1*ne + e2]` (2676-2683), for one of the two. -/
def legacyTau (c : Sizes) (src : List K) (a : MArray K) : Outcome (MArray K) :=
  (copyPairs src ((List.range c.nrhos).flatMap fun rho => (List.range c.ne).flatMap fun e1 => (List.range e1).map fun e2 =>
    (e1 * c.ne + e2, Marr.chainedOffset a.extents [rho, e1, e2])) a.data).map fun x => { a with data := x }

/-- The targets (2472-2498): only one, the isoscalar nucleon, in files of versions before 1.11. Without a dataset of that name the number
stays 0. -/
def readTargets (legacy : Bool) (isoscalar : Int) (g : Group K) : Outcome (List Int) :=
  if legacy then .ok [isoscalar]
  else match g.targets with
    | none => .throws
    | some l => if l.length < 1 then .throws else .ok l

/-- `H5LTget_dataset_info` (2501-2502) stores one number per dimension of the dataset in an array of `room` numbers. -/
def infoFits (g : Group K) (name : String) (room : Nat) : Bool :=
  match g.sets.lookup name with
  | some d => decide (d.dims.length ≤ room)
  | none => true

/-- 2628-2687. In the branch for old files the buffer for the second table has the size of the first (2671-2674). -/
def readTau (c : Sizes) (dAll dLep : Data K) (t : Tables K) : Outcome (MArray K × MArray K) :=
  if dAll.dims.length = 3 then
    let simple := t.tauAll.extents.getD 2 0 == c.ne
    let sl := slabs [c.nrhos, c.ne, 1] [1, 1, c.ne]
    (load simple dAll t.tauAll.extents sl t.tauAll).bind fun all =>
    (load simple dLep t.tauAll.extents sl t.tauLep).map fun lep => (all, lep)
  else if dAll.dims.length = 2 then
    if dAll.data.length < dLep.data.length then .ub
    else (legacyTau c dAll.data t.tauAll).bind fun all => (legacyTau c dLep.data t.tauLep).map fun lep => (all, lep)
  else .throws

/-- 2469-2688. -/
def readTables (legacy : Bool) (isoscalar : Int) (c : Sizes) (g : Group K) : Outcome (Tables K) :=
  (readTargets legacy isoscalar g).bind fun targets =>
  if !(infoFits g "sigmacc" (if legacy then 3 else 4) && infoFits g "dNdEcc" (if legacy then 4 else 5)) then .ub else
  let nT := targets.length
  let t : Tables K := initVectors c targets nT
  (g.open_ "sigmacc").bind fun dCC => (g.open_ "sigmanc").bind fun dNC => (g.open_ "sigmagr").bind fun dGR =>
  let sl4 := slabs [nT, c.nrhos, c.numneu, 1] [1, 1, 1, c.ne]
  let simple4 := t.sigmaCC.extents.getD 3 0 == c.ne
  (load simple4 dCC t.sigmaCC.extents sl4 t.sigmaCC).bind fun cc =>
  (load simple4 dNC t.sigmaCC.extents sl4 t.sigmaNC).bind fun nc =>
  (load simple4 dGR (t.sigmaCC.extents.drop 3) (sl4.drop 3) t.sigmaGR).bind fun gr =>
  (g.open_ "dNdEcc").bind fun eCC => (g.open_ "dNdEnc").bind fun eNC => (g.open_ "dNdEgr").bind fun eGR =>
  let sl5 := slabs [nT, c.nrhos, c.numneu, c.ne, 1] [1, 1, 1, 1, c.ne]
  let simple5 := t.dNdECC.extents.getD 4 0 == c.ne
  (load simple5 eCC t.dNdECC.extents sl5 t.dNdECC).bind fun dcc =>
  (load simple5 eNC t.dNdECC.extents sl5 t.dNdENC).bind fun dnc =>
  (load simple5 eGR (t.dNdECC.extents.drop 3) (sl5.drop 3) t.dNdEGR).bind fun dgr =>
  (g.open_ "dNdEtauall").bind fun dAll => (g.open_ "dNdEtaulep").bind fun dLep =>
  (readTau c dAll dLep t).map fun tau =>
    { targets := targets, sigmaCC := cc, sigmaNC := nc, sigmaGR := gr, dNdECC := dcc, dNdENC := dnc, dNdEGR := dgr,
      tauAll := tau.1, tauLep := tau.2 }

end Verif.TableIO
