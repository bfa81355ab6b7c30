import Verif.MArray.Spec
import Verif.Interact.Update

/-!
C75: the rows of the interaction arrays `UpdateInteractions` takes pointers to (nuSQuIDS.cpp 636-964), and what it promises the compiler
about them with `SQUIDS_POINTER_IS_ALIGNED(ptr, preferred_alignment*sizeof(double))`, 32 bytes.

Each access is an array, the indices before the last, how many entries are touched from there on, and whether the alignment is promised.
Loops that skip nodes without flux (721, 903) are taken not to skip. `double` has 8 bytes.
-/

namespace Verif.Promise

open Marr
open Matter (NT)

/-- What decides about sizes and loops. -/
structure Cfg where
  ne : Nat
  nrhos : Nat
  numneu : Nat
  nTargets : Nat
  nt : NT
  tau : Bool
  glashow : Bool
  osc : Bool
  deriving DecidableEq, Repr

/-- The arrays: tables and inverse lengths (nuSQuIDS.h 153-197, 301-314), the factors without oscillations (668), local buffers
(`ALIGNED_LOCAL_BUFFER`, 654-660), and the members for the case with oscillations (nuSQuIDS.h 436-439). -/
inductive Arr where
  | dNdE_NC
  | dNdE_CC
  | dNdE_GR
  | sigma_GR
  | tau_all
  | tau_lep
  | invlen_GR
  | invlen_INT
  | flavor_factors
  | buffer
  | nc_factors
  | tau_decays
  | gr_factors
  deriving DecidableEq, Repr

/-- How the members `nc_factors`, `tau_hadlep_decays`, `tau_lep_decays` and `gr_factors` were last sized: the length of their rows,
`round_up_to_aligned(ne)` by `InitializeInteractions` (1032-1041) and by reading with given tables (2257-2264), `ne` by reading a state with
its tables (2690-2696); and whether tau regeneration and the Glashow resonance were on then. If not, those members were left alone. -/
structure Sized where
  row : Nat
  tau : Bool
  glashow : Bool
  deriving DecidableEq, Repr

/-- `InitializeInteractions` (970-1044) on an object whose members were sized already or not (`none`); nothing is done if they were. -/
def initialise (c : Cfg) : Option Sized → Sized
  | some m => m
  | none => ⟨Cache.roundUp c.ne, c.tau, c.glashow⟩

/-- `ReadStateHDF5` with the tables in the file (2690-2698). -/
def afterReading (c : Cfg) : Sized := ⟨c.ne, c.tau, c.glashow⟩

/-- Extents given by `InitializeInteractionVectors` (259-276), `UpdateInteractions` (588-594, 668) and for the members as above. A member
never sized is empty (marray.h 649-653). -/
def extents (c : Cfg) (m : Sized) : Arr → List Nat
  | .dNdE_NC => [c.nTargets, c.nrhos, c.numneu, c.ne, Cache.roundUp c.ne]
  | .dNdE_CC => [c.nTargets, c.nrhos, c.numneu, c.ne, Cache.roundUp c.ne]
  | .dNdE_GR => [c.ne, Cache.roundUp c.ne]
  | .sigma_GR => [Cache.roundUp c.ne]
  | .tau_all => [c.nrhos, c.ne, Cache.roundUp c.ne]
  | .tau_lep => [c.nrhos, c.ne, Cache.roundUp c.ne]
  | .invlen_GR => [Cache.roundUp c.ne]
  | .invlen_INT => [c.nrhos, c.numneu, Cache.roundUp c.ne]
  | .flavor_factors => [c.nrhos, 3, Cache.roundUp c.ne]
  | .buffer => [Cache.roundUp c.ne]
  | .nc_factors => [c.nrhos, 3, m.row]
  | .tau_decays => if m.tau then [2, m.row] else [0, 0]
  | .gr_factors => if m.glashow then [m.row] else [0]

/-- Storage from `aligned_allocator` with `log2(32)`; the members of nuSQuIDS.h 436-439 use the default allocator. -/
def usesAligned : Arr → Bool
  | .nc_factors | .tau_decays | .gr_factors => false
  | _ => true

/-- One pointer: `&arr[idx...][0]` and the entries `0..len-1` from there. -/
structure Access where
  arr : Arr
  idx : List Nat
  len : Nat
  promised : Bool
  deriving DecidableEq, Repr

/-- The nodes of a loop from 1 to below `ne`. -/
def nodes (c : Cfg) : List Nat := List.range' 1 (c.ne - 1)

def Cfg.gr (c : Cfg) : Bool := c.glashow && (decide (c.nt = .both) || decide (c.nt = .antineutrino))
def Cfg.grRho (c : Cfg) : Nat := if c.nt = .both then 1 else 0

/-- Glashow inverse lengths (629-646). -/
def grLengths (c : Cfg) : List Access :=
  if c.gr then [⟨.sigma_GR, [], c.ne, true⟩, ⟨.invlen_GR, [], c.ne, true⟩, ⟨.invlen_INT, [c.grRho, 0], c.ne, true⟩] else []

/-- The loop nest over types, active flavours, source nodes and targets (673-697, 861-884), with the row written to. -/
def ncRows (c : Cfg) (out : Arr) : List Access :=
  (List.range c.nrhos).flatMap fun rho => [0, 1, 2].flatMap fun a => (nodes c).flatMap fun e2 => (List.range c.nTargets).flatMap fun trg =>
    [⟨out, [rho, a], e2, true⟩, ⟨.dNdE_NC, [trg, rho, a, e2], e2, true⟩]

/-- Tau production (703-735, 888-918). -/
def tauProduction (c : Cfg) : List Access :=
  ⟨.buffer, [], c.ne, true⟩ :: (nodes c).flatMap fun en => (List.range c.nTargets).flatMap fun trg =>
    [⟨.dNdE_CC, [trg, 0, 2, en], en, true⟩, ⟨.dNdE_CC, [trg, 1, 2, en], en, true⟩]

/-- The spectra of tau decays (748-756, 924-933). -/
def tauSpectra (et : Nat) : List Access :=
  [⟨.tau_all, [0, et], et, true⟩, ⟨.tau_lep, [0, et], et, true⟩, ⟨.tau_all, [1, et], et, true⟩, ⟨.tau_lep, [1, et], et, true⟩]

/-- Without oscillations (667-855). -/
def noOscRows (c : Cfg) : List Access :=
  ncRows c .flavor_factors ++
  (if c.tau then
    tauProduction c ++
    ((nodes c).flatMap fun et => tauSpectra et ++ [⟨.flavor_factors, [0, 2], et, true⟩, ⟨.flavor_factors, [1, 2], et, true⟩]) ++
    [⟨.flavor_factors, [0, 0], Cache.roundUp c.ne, false⟩, ⟨.flavor_factors, [1, 0], Cache.roundUp c.ne, false⟩,
     ⟨.flavor_factors, [0, 1], Cache.roundUp c.ne, false⟩, ⟨.flavor_factors, [1, 1], Cache.roundUp c.ne, false⟩]
  else []) ++
  (if c.gr then
    ⟨.buffer, [], c.ne, true⟩ :: ((nodes c).flatMap fun e2 => [⟨.dNdE_GR, [e2], e2, true⟩]) ++
    [⟨.flavor_factors, [c.grRho, 0], c.ne, true⟩, ⟨.flavor_factors, [c.grRho, 1], c.ne, true⟩, ⟨.flavor_factors, [c.grRho, 2], c.ne, true⟩]
  else []) ++
  (List.range c.nrhos).flatMap fun rho => [0, 1, 2].flatMap fun a => [⟨.flavor_factors, [rho, a], c.ne, true⟩]

/-- With oscillations (857-964). -/
def oscRows (c : Cfg) : List Access :=
  ncRows c .nc_factors ++
  (if c.tau then
    tauProduction c ++
    ((nodes c).flatMap fun et => tauSpectra et ++ [⟨.tau_decays, [0], et, false⟩, ⟨.tau_decays, [1], et, false⟩])
  else []) ++
  (if c.gr then (nodes c).flatMap fun e2 => [⟨.dNdE_GR, [e2], e2, true⟩, ⟨.gr_factors, [], e2, false⟩] else [])

/-- All of `UpdateInteractions`. -/
def accesses (c : Cfg) : List Access := grLengths c ++ if c.osc then oscRows c else noOscRows c

/-- Address of the pointer when the array starts at `base`. -/
def address (base : Nat) (exts : List Nat) (a : Access) : Nat := base + 8 * chainedOffset exts (a.idx ++ [0])

/-! ## What is claimed -/

/-- Every entry touched is an element of the array. -/
def Inside (exts : List Nat) (a : Access) : Prop := ∀ k, k < a.len → InRange exts (a.idx ++ [k])

/-- A promise that holds. -/
def Kept (base : Nat) (exts : List Nat) (a : Access) : Prop := a.promised = true → address base exts a % 32 = 0

/-- The members were sized for these settings. -/
def Fresh (c : Cfg) (m : Sized) : Prop := m = initialise c none ∨ m = afterReading c

/-- The settings an object can have: types by mode, at least three flavours, tau regeneration with both types only. -/
structure Valid (c : Cfg) : Prop where
  nrhos : c.nrhos = if c.nt = .both then 2 else 1
  flavours : 3 ≤ c.numneu
  tau : c.tau = true → c.nt = .both

end Verif.Promise
