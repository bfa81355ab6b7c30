import Verif.Base

/-!
# Life of a `nuSQUIDS` object

State machine of the public interface of `nuSQUIDS` (nuSQuIDS.h, nuSQuIDS.cpp): the guards, the switches, the caches that hold
derived quantities, the clock and the track position. Positions, times, energies and parameters are rational numbers (every finite
double is one; rounding is not modelled).

Derived quantities are stored as the arguments they were computed from: `RotateToB1(params)` depends on the mixing angles and phases
in `params` only, so a projector is represented by those; `H0(E)` depends on `DM2`, `E` and the oscillation switch.

The base class SQuIDS is not part of this repository. Assumed of it: `ini(..., t0)` sets the clock and the initial time to t0 and
leaves the other switches alone; `Evolve(dt)` calls `PreDerive` at the starting time, advances the clock by dt, integrating numerically
if any term is enabled (`AnyNumerics`) and only calling `PreDerive` at the end time otherwise; `Set_*RhoTerms` recompute `AnyNumerics`
as the disjunction of the terms; `params.Set*` accepts ordered state indices below `SQUIDS_MAX_HILBERT_DIM` and throws otherwise. The
integration itself is assumed to finish.

Not modelled: default-constructed objects, subclasses that override the virtual functions, tracks and bodies changed through another
pointer while in use, the progress bar, the low-pass filter.
-/

namespace Verif.Life

/-- How a call ended. -/
inductive Status where
  | ok
  | throws
  | ub
  deriving DecidableEq, Repr

/-- `SQUIDS_MAX_HILBERT_DIM`, 6 in SQuIDS. -/
def maxDim : Nat := 6

/-- `NeutrinoType` (nuSQuIDS.h 60). -/
inductive NT where
  | neutrino
  | antineutrino
  | both
  deriving DecidableEq, Repr

/-- `Basis` (nuSQuIDS.h 63). -/
inductive Basis where
  | mass
  | interaction
  | flavor
  deriving DecidableEq, Repr

/-- A body as the lifecycle sees it. -/
structure BodyRef where
  id : Nat
  isConst : Bool
  deriving DecidableEq, Repr

/-- A track as the lifecycle sees it: initial, final and current position (body.h 74-80). -/
structure TrackRef where
  id : Nat
  xini : Rat
  xend : Rat
  x : Rat
  deriving DecidableEq, Repr

/-- A cross-section library: which targets it has, and whether the values computed from it pass the checks of
`GetCrossSections`. -/
structure Xs where
  id : Nat
  perNucleon : Bool
  isoscalar : Bool
  hasElectron : Bool
  valid : Bool
  deriving DecidableEq, Repr

/-- What the tables in `int_struct` were computed from: the library, whether the fill completed, and whether the Glashow tables
were filled. -/
structure Tables where
  xs : Nat
  complete : Bool
  glashow : Bool
  deriving DecidableEq, Repr

/-- `params`: mixing angles, phases and squared mass differences. -/
structure Params where
  angle : Nat → Nat → Rat
  phase : Nat → Nat → Rat
  dm2 : Nat → Rat

/-- What a flavour projector was computed from. -/
structure ProjKey where
  angle : Nat → Nat → Rat
  phase : Nat → Nat → Rat
  flv : Nat

/-- What an entry of `H0_array` was computed from. -/
structure H0Key where
  dm2 : Nat → Rat
  energy : Rat
  osc : Bool

/-- One call of SQuIDS `Evolve`: clock at start and end, track position at the start, and what was in force. -/
structure Segment where
  t0 : Rat
  t1 : Rat
  x0 : Rat
  numeric : Bool
  basis : Basis
  step : Rat
  body : Option BodyRef
  track : Option TrackRef
  proj : Nat → Nat → ProjKey
  h0 : List H0Key
  osc : Bool
  tables : Option Tables

/-- The object. -/
structure Obj where
  numneu : Nat
  nt : NT
  ne : Nat
  nrhos : Nat
  energies : List Rat
  params : Params
  basis : Basis
  body : Option BodyRef
  track : Option TrackRef
  /-- `b1_proj[rho][flv]` -/
  b1 : Nat → Nat → ProjKey
  /-- `evol_b1_proj[rho][flv][ei]` as set by `SetIniFlavorProyectors` -/
  evolB1 : Nat → Nat → Nat → ProjKey
  dm2Key : Nat → Rat
  h0 : List H0Key
  ncs : Option Xs
  tables : Option Tables
  ncSized : Bool
  tauSized : Bool
  grSized : Bool
  intInit : Bool
  inusquids : Bool
  ibody : Bool
  itrack : Bool
  ienergy : Bool
  istate : Bool
  iint : Bool
  osc : Bool
  tauregen : Bool
  glashow : Bool
  positivization : Bool
  /-- `positivization_scale`, indeterminate until set -/
  posScale : Option Rat
  allowConst : Bool
  fullH : Bool
  anyNumerics : Bool
  h : Rat
  t : Rat
  tIni : Rat
  /-- `time_offset`, indeterminate until set -/
  offset : Option Rat
  log : List Segment

/-! ## Parameters -/

/-- `params.SetMixingAngle`, `SetPhase`: assumed to accept ordered indices below the maximum dimension. -/
def pairOk (i j : Nat) : Bool := decide (i < j) && decide (j < maxDim)

def set2 (f : Nat → Nat → Rat) (i j : Nat) (v : Rat) : Nat → Nat → Rat := fun a b => if a = i ∧ b = j then v else f a b

def set1 (f : Nat → Rat) (i : Nat) (v : Rat) : Nat → Rat := fun a => if a = i then v else f a

/-- `Set_MixingAngle` (nuSQuIDS.cpp 2844-2849). -/
def setAngle (s : Obj) (i j : Nat) (v : Rat) : Obj × Status :=
  if i > s.numneu ∨ j > s.numneu then (s, .throws)
  else if pairOk i j then
    ({ s with params := { s.params with angle := set2 s.params.angle i j v }, istate := false }, .ok)
  else (s, .throws)

/-- `Set_CPPhase` (2857-2862). -/
def setPhase (s : Obj) (i j : Nat) (v : Rat) : Obj × Status :=
  if i > s.numneu ∨ j > s.numneu then (s, .throws)
  else if pairOk i j then
    ({ s with params := { s.params with phase := set2 s.params.phase i j v }, istate := false }, .ok)
  else (s, .throws)

/-- `Set_SquareMassDifference` (2870-2875). -/
def setDm2 (s : Obj) (i : Nat) (v : Rat) : Obj × Status :=
  if i > s.numneu then (s, .throws)
  else if 0 < i ∧ i < maxDim then
    ({ s with params := { s.params with dm2 := set1 s.params.dm2 i v }, istate := false }, .ok)
  else (s, .throws)

/-- `Get_MixingAngle` (2851-2855), `Get_CPPhase` (2864-2868). -/
def getAngle (s : Obj) (i j : Nat) : Outcome Rat :=
  if i > s.numneu ∨ j > s.numneu then .throws else if pairOk i j then .ok (s.params.angle i j) else .throws

def getPhase (s : Obj) (i j : Nat) : Outcome Rat :=
  if i > s.numneu ∨ j > s.numneu then .throws else if pairOk i j then .ok (s.params.phase i j) else .throws

/-- `Get_SquareMassDifference` (2877-2881). -/
def getDm2 (s : Obj) (i : Nat) : Outcome Rat :=
  if i > s.numneu then .throws else if 0 < i ∧ i < maxDim then .ok (s.params.dm2 i) else .throws

/-- `Set_MixingParametersToDefault` (2883-2894): six setter calls. -/
def setDefaults (s : Obj) : Obj :=
  let s := (setAngle s 0 1 (583638 / 1000000)).1
  let s := (setAngle s 0 2 (149575 / 1000000)).1
  let s := (setAngle s 1 2 (855211 / 1000000)).1
  let s := (setDm2 s 1 (742 / 10000000)).1
  let s := (setDm2 s 2 (2514 / 1000000)).1
  (setPhase s 0 2 0).1

/-! ## Projectors and vacuum Hamiltonian -/

/-- The loops of `AntineutrinoCPFix` (1617-1625) over the phases. -/
def flipPhases (n : Nat) (ph : Nat → Nat → Rat) : Nat → Nat → Rat :=
  (List.range n).foldl (fun ph i => (List.range' (i + 1) (n - (i + 1))).foldl (fun ph j => set2 ph i j (-(ph i j))) ph) ph

/-- `AntineutrinoCPFix(rho)`: acts for antineutrinos only. -/
def cpFix (nt : NT) (n rho : Nat) (ph : Nat → Nat → Rat) : Nat → Nat → Rat :=
  if nt = .antineutrino ∨ (nt = .both ∧ rho = 1) then flipPhases n ph else ph

/-- The members changed by the projector loops. -/
structure Projs where
  phase : Nat → Nat → Rat
  b1 : Nat → Nat → ProjKey
  evol : Nat → Nat → Nat → ProjKey

/-- One evolved projector: flip, rotate, flip back (1667-1671). -/
def evolStep (nt : NT) (n : Nat) (angle : Nat → Nat → Rat) (rho flv : Nat) (p : Projs) (e : Nat) : Projs :=
  let flipped := cpFix nt n rho p.phase
  { p with
    phase := cpFix nt n rho flipped,
    evol := fun r f e' => if r = rho ∧ f = flv ∧ e' = e then ⟨angle, flipped, flv⟩ else p.evol r f e' }

/-- One flavour (1665-1678): the evolved projectors of all energies, then `b1_proj`. -/
def flvStep (nt : NT) (n ne : Nat) (angle : Nat → Nat → Rat) (rho : Nat) (p : Projs) (flv : Nat) : Projs :=
  let p := (List.range ne).foldl (evolStep nt n angle rho flv) p
  let flipped := cpFix nt n rho p.phase
  { p with
    phase := cpFix nt n rho flipped,
    b1 := fun r f => if r = rho ∧ f = flv then ⟨angle, flipped, flv⟩ else p.b1 r f }

/-- `SetIniFlavorProyectors` (1662-1679); the loops of `iniProjectors` (1627-1660) compute the same values. -/
def projLoops (nt : NT) (n ne nrhos : Nat) (angle : Nat → Nat → Rat) (p : Projs) : Projs :=
  (List.range nrhos).foldl (fun p rho => (List.range n).foldl (flvStep nt n ne angle rho) p) p

/-- Running the loops on the object. The flips go through `Set_CPPhase`, which clears `istate` when they act (1621). -/
def iniProj (s : Obj) : Obj :=
  let p := projLoops s.nt s.numneu s.ne s.nrhos s.params.angle ⟨s.params.phase, s.b1, s.evolB1⟩
  { s with params := { s.params with phase := p.phase }, b1 := p.b1, evolB1 := p.evol,
           istate := if s.nt = .neutrino then s.istate else false }

/-- `iniH0` (1602-1615) with `H0` (328-332). -/
def iniH0 (s : Obj) : Obj :=
  { s with dm2Key := s.params.dm2,
           h0 := if s.ienergy then s.energies.map fun e => ⟨s.params.dm2, e, s.osc⟩ else s.h0 }

/-! ## Construction -/

/-- Members before any initialiser: in-class defaults (nuSQuIDS.h) and the default parameters of SQuIDS (all zero). -/
def blank (numneu : Nat) (nt : NT) (iint : Bool) (ncs : Option Xs) : Obj where
  numneu := numneu
  nt := nt
  ne := 0
  nrhos := 0
  energies := []
  params := ⟨fun _ _ => 0, fun _ _ => 0, fun _ => 0⟩
  basis := .interaction
  body := none
  track := none
  b1 := fun _ _ => ⟨fun _ _ => 0, fun _ _ => 0, 0⟩
  evolB1 := fun _ _ _ => ⟨fun _ _ => 0, fun _ _ => 0, 0⟩
  dm2Key := fun _ => 0
  h0 := []
  ncs := ncs
  tables := none
  ncSized := false
  tauSized := false
  grSized := false
  intInit := false
  inusquids := false
  ibody := false
  itrack := false
  ienergy := false
  istate := false
  iint := iint
  osc := true
  tauregen := false
  glashow := false
  positivization := false
  posScale := none
  allowConst := false
  fullH := false
  anyNumerics := false
  h := 1
  t := 0
  tIni := 0
  offset := none
  log := []

/-- `nuSQUIDS(numneu, NT)` with `init(xini)` (nuSQuIDS.h 612-615, nuSQuIDS.cpp 77-140), `xini = 0`. The step is 1 km, here 1. The phases
are negated once more for antineutrinos (102-108). -/
def ctorSingle (numneu : Nat) (nt : NT) : Obj × Status :=
  let s := { blank numneu nt false none with ne := 1 }
  if nt = .both then (s, .throws)
  else
    let s := { s with nrhos := 1 }
    if numneu > maxDim then (s, .throws)
    else if numneu < 3 then (s, .throws)
    else
      let s := { s with anyNumerics := true, h := 1 }
      let s := setDefaults s
      let s := if nt = .antineutrino then
          { s with params := { s.params with phase := flipPhases numneu s.params.phase }, istate := false } else s
      let s := iniProj s
      let s := iniH0 s
      ({ s with inusquids := true }, .ok)

/-- `nuSQUIDS(E_vector, numneu, NT, iinteraction, ncs)` with `init(E_vector, xini)` (nuSQuIDS.h 600-604, nuSQuIDS.cpp 155-257). An empty
energy vector fails the `assert` of 177. `scale` is the 300 km of 244. The step is the default of SQuIDS, here 1. -/
def ctorMulti (E : List Rat) (numneu : Nat) (nt : NT) (iint : Bool) (ncs : Option Xs) (scale : Rat := 300) : Obj × Status :=
  let s := blank numneu nt iint ncs
  let s := { s with nrhos := if nt = .both then 2 else 1 }
  if numneu > maxDim then (s, .throws)
  else if numneu < 3 then (s, .throws)
  else
    let s := { s with ne := E.length }
    if E = [] then (s, .ub)
    else
      let s := { s with anyNumerics := true, energies := E, ienergy := true }
      let s := setDefaults s
      let s := iniProj s
      let s := iniH0 s
      ({ s with posScale := some scale }, .ok)

/-! ## Setters -/

/-- `Set_E` (142-153). -/
def setE (s : Obj) (e : Rat) : Obj × Status :=
  if s.ne ≠ 1 then (s, .throws)
  else ({ s with energies := [e], ienergy := true, istate := false }, .ok)

/-- `Set_Body` (1196-1199). -/
def setBody (s : Obj) (b : Option BodyRef) : Obj × Status := ({ s with body := b, ibody := true }, .ok)

/-- `Set_Track` (1201-1209). A null track is dereferenced. -/
def setTrack (s : Obj) (tr : Option TrackRef) : Obj × Status :=
  match tr with
  | none => (s, .ub)
  | some tr => ({ s with offset := some (s.t - tr.xini), track := some { tr with x := tr.xini }, itrack := true }, .ok)

/-- The guards of the three overloads of `Set_initial_state` (1307-1323, 1352-1367, 1397-1414), by the extents of the input. -/
def initialGuards (s : Obj) (dims : List Nat) (basis : Basis) : Bool :=
  match dims with
  | [a] => a ≠ 0 && a = s.numneu && basis ≠ .interaction && s.nt ≠ .both && s.ne = 1 && s.itrack && s.ibody && s.ienergy
  | [a, b] => a * b ≠ 0 && a = s.ne && b = s.numneu && basis ≠ .interaction && s.nt ≠ .both && s.itrack && s.ibody && s.ienergy
  | [a, b, c] => a * b * c ≠ 0 && a = s.ne && b = s.nrhos && c = s.numneu && basis ≠ .interaction && s.nt = .both && s.itrack &&
      s.ibody && s.ienergy
  | _ => false

/-- `Set_initial_state` (1307-1444). With the guards passed the track is not null unless the flag is set without one, which would be
dereferenced. -/
def setInitial (s : Obj) (dims : List Nat) (basis : Basis) : Obj × Status :=
  if initialGuards s dims basis then
    match s.track with
    | none => (s, .ub)
    | some tr =>
      let s := { s with track := some { tr with x := tr.xini }, t := tr.xini, tIni := tr.xini, offset := some 0 }
      let s := iniProj s
      let s := iniH0 s
      ({ s with istate := true }, .ok)
  else (s, .throws)

/-- `Set_IncludeOscillations` (2828-2830). -/
def setOsc (s : Obj) (b : Bool) : Obj × Status := ({ s with osc := b }, .ok)

/-- `Set_Basis` (2896-2900). -/
def setBasis (s : Obj) (b : Basis) : Obj × Status :=
  if b = .flavor then (s, .throws) else ({ s with basis := b }, .ok)

/-- `Set_TauRegeneration` (2801-2809). -/
def setTau (s : Obj) (b : Bool) : Obj × Status :=
  if b ∧ (s.nt ≠ .both ∨ s.iint = false ∨ s.numneu < 3) then (s, .throws) else ({ s with tauregen := b }, .ok)

/-- `Set_GlashowResonance` (2811-2815). -/
def setGlashow (s : Obj) (b : Bool) : Obj × Status :=
  if b ∧ s.iint = false then (s, .throws) else ({ s with glashow := b }, .ok)

/-- `SetNeutrinoCrossSections` (nuSQuIDS.h 1040-1043). -/
def setXs (s : Obj) (x : Option Xs) : Obj × Status := ({ s with ncs := x, intInit := false }, .ok)

/-- `Set_NeutrinoSources` (nuSQuIDS.h 1046-1054), as far as it changes `AnyNumerics`. -/
def setSources (s : Obj) (b : Bool) : Obj × Status :=
  ({ s with anyNumerics := if !s.iint && b then true else s.anyNumerics }, .ok)

/-! ## Interaction tables -/

/-- `GetCrossSections` (1046-1194) succeeds if the values are valid and, with the Glashow resonance on for antineutrinos, the library
has electrons. -/
def fillOk (s : Obj) (x : Xs) : Bool :=
  x.valid && (!(s.glashow && s.nt ≠ .neutrino) || x.hasElectron)

/-- The tail of `InitializeInteractions` (1032-1043). -/
def sizeBuffers (s : Obj) : Obj :=
  let s := if s.iint then { s with ncSized := true, tauSized := s.tauSized || s.tauregen, grSized := s.grSized || s.glashow } else s
  { s with intInit := true }

/-- `InitializeInteractions` (970-1044). `dflt` is the library `loadDefaultCrossSections` returns; `none` if it throws (missing data
files). `tdc.Init` is assumed to succeed. -/
def initInteractions (dflt : Option Xs) (s : Obj) : Obj × Status :=
  if s.intInit then (s, .ok)
  else
    match s.tables with
    | some _ => (sizeBuffers s, .ok)
    | none =>
      let s := { s with tables := some ⟨0, false, false⟩ }
      match (match s.ncs with | some x => some x | none => dflt) with
      | none => (s, .throws)
      | some x =>
        let s := { s with ncs := some x }
        if x.perNucleon || x.isoscalar then
          if fillOk s x then
            (sizeBuffers { s with tables := some ⟨x.id, true, s.glashow && s.nt ≠ .neutrino⟩ }, .ok)
          else ({ s with tables := some ⟨x.id, false, false⟩ }, .throws)
        else (s, .throws)

/-- The buffers `UpdateInteractions` (855-965) and `InteractionsRho` (374-431) index are there: with oscillations, `nc_factors`, and the
tau and Glashow buffers if those are on. Without oscillations local buffers are used. The tables themselves must exist. -/
def buffersOk (s : Obj) : Bool :=
  !s.iint || (s.tables.isSome && (!s.osc || (s.ncSized && (!s.tauregen || s.tauSized) &&
    (!(s.glashow && s.nt ≠ .neutrino) || s.grSized))))

/-! ## Evolution -/

/-- SQuIDS `Evolve(dt)` on this object: `PreDerive` reads the clock offset (278-297). -/
def evolveBy (s : Obj) (dt : Rat) : Obj × Status :=
  match s.offset with
  | none => (s, .ub)
  | some off =>
    if buffersOk s then
      ({ s with
          t := s.t + dt,
          track := s.track.map fun tr => { tr with x := s.t + dt - off },
          log := s.log ++ [⟨s.t, s.t + dt, s.t - off, s.anyNumerics, s.basis, s.h, s.body, s.track, s.b1, s.h0, s.osc, s.tables⟩] },
        .ok)
    else (s, .ub)

/-- Conversion of a double to `int` (1292): truncation towards zero; undefined if the value does not fit. -/
def toInt (q : Rat) : Option Int :=
  let n := if 0 ≤ q then q.floor else q.ceil
  if -(2 ^ 31 : Int) ≤ n ∧ n < 2 ^ 31 then some n else none

/-- The loop of 1293-1296, `n` times. `PositivizeFlavors` changes the state only. -/
def evolveSteps (scale : Rat) : Nat → Obj → Obj × Status
  | 0, s => (s, .ok)
  | n + 1, s =>
    match evolveBy s scale with
    | (s, .ok) => evolveSteps scale n s
    | r => r

/-- The guards of `EvolveState` (1235-1246). -/
def evolveGuards (s : Obj) : Bool :=
  s.body.isSome && s.ibody && s.track.isSome && s.itrack && s.istate && s.ienergy

/-- `EvolveState` after the tables are ready (1253-1305), for the track `tr` and body `b`. -/
def evolveMain (s : Obj) (b : BodyRef) (tr : TrackRef) : Obj × Status :=
  let s := if tr.xend < tr.xini then { s with h := -s.h } else s
  if b.isConst && !s.iint && s.allowConst then
    let s := { s with fullH := true, anyNumerics := false, basis := .mass }
    evolveBy s (tr.xend - tr.xini)
  else if s.positivization then
    match s.posScale with
    | none => (s, .ub)
    | some scale =>
      if scale = 0 then (s, .ub)
      else
        match toInt ((tr.xend - tr.xini) / scale) with
        | none => (s, .ub)
        | some n =>
          match evolveSteps scale n.toNat s with
          | (s, .ok) => evolveBy s (tr.xend - scale * n)
          | r => r
  else evolveBy s (tr.xend - tr.xini)

/-- `EvolveState` (1233-1305). `SetUpInteractionCache` is the subject of the cache model. -/
def evolveState (dflt : Option Xs) (s : Obj) : Obj × Status :=
  if evolveGuards s then
    match s.body, s.track with
    | some b, some tr =>
      let r := if s.iint && !s.intInit then initInteractions dflt s else (s, .ok)
      match r with
      | (s, .ok) => evolveMain s b tr
      | r => r
    | _, _ => (s, .throws)
  else (s, .throws)

/-! ## Evaluation -/

/-- Range check of `EvalFlavor(flv, E, rho)` (1472-1474); an empty energy array is dereferenced. -/
def inRange (s : Obj) (e : Rat) : Outcome Bool :=
  match s.energies.head?, s.energies.getLast? with
  | some lo, some hi => .ok (decide (lo ≤ e ∧ e ≤ hi))
  | _, _ => .ub

/-- Subscripts of the projector arrays. -/
def indexOk (s : Obj) (flv rho : Nat) : Bool := decide (flv < s.numneu) && decide (rho < s.nrhos)

/-- `EvalFlavor(flv, E, rho)` (1467-1478) and the averaging version (1495-1508, the flag vector having the right size): the call
returns a value exactly when it is `ok`. -/
def evalFlavor (s : Obj) (flv : Nat) (e : Rat) (rho : Nat) : Outcome Unit :=
  if !s.ienergy then .throws
  else if rho ≠ 0 ∧ s.nt ≠ .both then .throws
  else (inRange s e).bind fun ok => if !ok then .throws else if indexOk s flv rho then .ok () else .ub

/-- `EvalMass(flv, E, rho)` (1454-1465): in the mass basis the range is not checked before interpolating. The interpolation of SQuIDS is
assumed to return for some energies outside the range (`extrapolates`). -/
def evalMass (s : Obj) (flv : Nat) (e : Rat) (rho : Nat) (extrapolates : Bool) : Outcome Unit :=
  if !s.ienergy then .throws
  else if rho ≠ 0 ∧ s.nt ≠ .both then .throws
  else if s.basis = .mass then
    if !indexOk s flv rho then .ub
    else (inRange s e).bind fun ok => if ok || extrapolates then .ok () else .throws
  else (inRange s e).bind fun ok => if !ok then .throws else if indexOk s flv rho then .ok () else .ub

/-- `EvalFlavorAtNode`, `EvalMassAtNode` (1510-1528): the node and flavour are not checked. -/
def evalAtNode (s : Obj) (flv ei rho : Nat) : Outcome Unit :=
  if !s.ienergy then .throws
  else if rho ≠ 0 ∧ s.nt ≠ .both then .throws
  else if indexOk s flv rho && decide (ei < s.ne) then .ok () else .ub

/-- `EvalFlavor(flv)`, `EvalMass(flv)` (1530-1600). -/
def evalSingle (s : Obj) (flv : Nat) : Outcome Unit :=
  if !s.inusquids then .throws
  else if !s.ienergy then .throws
  else if s.ne ≠ 1 then .throws
  else if flv ≥ s.numneu then .throws
  else .ok ()

/-! ## Histories -/

inductive Op where
  | setE (e : Rat)
  | setBody (b : Option BodyRef)
  | setTrack (tr : Option TrackRef)
  | setInitial (dims : List Nat) (basis : Basis)
  | evolve
  | setAngle (i j : Nat) (v : Rat)
  | setPhase (i j : Nat) (v : Rat)
  | setDm2 (i : Nat) (v : Rat)
  | setDefaults
  | setOsc (b : Bool)
  | setBasis (b : Basis)
  | setTau (b : Bool)
  | setGlashow (b : Bool)
  | setXs (x : Option Xs)
  | initInteractions
  | setSources (b : Bool)
  | setPositivity (b : Bool)
  | setPosStep (v : Rat)
  | setAllowConst (b : Bool)
  deriving DecidableEq, Repr

/-- One call. `Set_PositivityConstrain`, `Set_PositivityConstrainStep` (1225-1231), `Set_AllowConstantDensityOscillationOnlyEvolution`
(2832-2834) just store. -/
def step (dflt : Option Xs) (s : Obj) : Op → Obj × Status
  | .setE e => setE s e
  | .setBody b => setBody s b
  | .setTrack tr => setTrack s tr
  | .setInitial dims basis => setInitial s dims basis
  | .evolve => evolveState dflt s
  | .setAngle i j v => setAngle s i j v
  | .setPhase i j v => setPhase s i j v
  | .setDm2 i v => setDm2 s i v
  | .setDefaults => (setDefaults s, .ok)
  | .setOsc b => setOsc s b
  | .setBasis b => setBasis s b
  | .setTau b => setTau s b
  | .setGlashow b => setGlashow s b
  | .setXs x => setXs s x
  | .initInteractions => initInteractions dflt s
  | .setSources b => setSources s b
  | .setPositivity b => ({ s with positivization := b }, .ok)
  | .setPosStep v => ({ s with posScale := some v }, .ok)
  | .setAllowConst b => ({ s with allowConst := b }, .ok)

/-- Any constructor call. -/
inductive Ctor where
  | single (numneu : Nat) (nt : NT)
  | multi (E : List Rat) (numneu : Nat) (nt : NT) (iint : Bool) (ncs : Option Xs)
  deriving DecidableEq, Repr

def construct : Ctor → Obj × Status
  | .single n nt => ctorSingle n nt
  | .multi E n nt iint ncs => ctorMulti E n nt iint ncs

/-- A history: what was called and how it ended. Calls after one that throws are possible; after undefined behaviour nothing more is
said. -/
inductive Run (dflt : Option Xs) (c : Ctor) : List (Op × Status) → Obj → Prop where
  | start (s : Obj) (h : construct c = (s, .ok)) : Run dflt c [] s
  | call (tr : List (Op × Status)) (s s' : Obj) (op : Op) (st : Status) (hr : Run dflt c tr s) (h : step dflt s op = (s', st))
      (hst : st ≠ .ub) : Run dflt c (tr ++ [(op, st)]) s'

end Verif.Life
