import Verif.StateIO.Model

/-!
# Reading that fails (nuSQuIDS.cpp 2285-2489)

`ReadStateHDF5` on any object and any file, with what is left of the object if it throws. The members the reading assigns are assigned in the order
of the source. The arrays of the object have the sizes of the last `init`, whatever `numneu`, `ne` and `nrhos` say.
-/

namespace Verif.StateIO

open Life

/-! ## Model -/

/-- An object, with the numbers of flavours, nodes and types its arrays were made for. -/
structure Held where
  st : State
  flavours : Nat
  nodes : Nat
  types : Nat

/-- What is found under the names given: the contents of the group, the two version numbers, and whether body and track are known by name and can be
restored. The type is one of the three (`nt` and the number in the file agree). -/
structure Source where
  file : File
  nt : NT
  squidsVersion : Nat
  nusquidsVersion : Nat
  bodyOk : Bool
  trackOk : Bool

/-- The attributes that are read into members before the versions are looked at (2302-2322). -/
def header (o : Obj) (src : Source) : Obj :=
  { o with numneu := src.file.numneu, nt := src.nt, iint := src.file.interactions == "True", osc := src.file.oscillations != 0,
           tauregen := src.file.tau != 0, glashow := src.file.glashow != 0 }

/-- `init(xini)` (77-140). -/
def initSingleLeft (h : Held) (xini : Rat) : Held × Status :=
  let s := { h.st.obj with ne := 1 }
  if s.nt = .both then ({ h with st := { h.st with obj := s } }, .throws)
  else
    let s := { s with nrhos := 1 }
    if s.numneu > maxDim then ({ h with st := { h.st with obj := s } }, .throws)
    else if s.numneu < 3 then ({ h with st := { h.st with obj := s } }, .throws)
    else
      let s := { s with t := xini, tIni := xini, anyNumerics := true, h := 1 }
      let s := setDefaults s
      let s := if s.nt = .antineutrino then
          { s with params := { s.params with phase := flipPhases s.numneu s.params.phase }, istate := false } else s
      let s := iniProj s
      let s := iniH0 s
      (⟨{ h.st with obj := { s with inusquids := true } }, s.numneu, 1, 1⟩, .ok)

/-- `init(E_vector, xini)` (155-257). -/
def initMultiLeft (h : Held) (E : List Rat) (xini : Rat) : Held × Status :=
  let s := { h.st.obj with nrhos := if h.st.obj.nt = NT.both then 2 else 1 }
  if s.numneu > maxDim then ({ h with st := { h.st with obj := s } }, .throws)
  else if s.numneu < 3 then ({ h with st := { h.st with obj := s } }, .throws)
  else
    let s := { s with ne := E.length }
    if E = [] then ({ h with st := { h.st with obj := s } }, .ub)
    else
      let s := { s with t := xini, tIni := xini, anyNumerics := true, energies := E, ienergy := true }
      let s := setDefaults s
      let s := iniProj s
      let s := iniH0 s
      (⟨{ h.st with obj := { s with posScale := some 300 } }, s.numneu, E.length, s.nrhos⟩, .ok)

/-- Either `init` (2389-2396); `inited` is `inusquids` and `flavours0` the number of flavours before the call. As in `readInit`, an initialised object
of another number of flavours is not followed further. -/
def initLeft (h : Held) (inited : Bool) (flavours0 : Nat) (f : File) : Held × Status :=
  match f.energies with
  | [e] =>
    let r := if inited then (if flavours0 = h.st.obj.numneu ∧ h.st.obj.nt ≠ .both then (h, .ok) else (h, .ub)) else initSingleLeft h f.timeInitial
    match r with
    | (h, .ok) => let q := setE h.st.obj e; ({ h with st := { h.st with obj := q.1 } }, q.2)
    | r => r
  | E => initMultiLeft h E f.timeInitial

/-- One angle and one phase (2401-2409). -/
def readPairLeft (f : File) (s : Obj) (p : Nat × Nat) : Obj × Status :=
  match f.angles.lookup (thLabel p.1 p.2) with
  | none => (s, .ub)
  | some th =>
    match setAngle s p.1 p.2 th with
    | (s, .ok) =>
      match f.phases.lookup (deltaLabel p.1 p.2) with
      | none => (s, .ub)
      | some d => setPhase s p.1 p.2 d
    | r => r

/-- One mass difference (2414-2417). -/
def readMassLeft (f : File) (s : Obj) (i : Nat) : Obj × Status :=
  match f.masses.lookup (dmLabel i) with
  | none => (s, .ub)
  | some v => setDm2 s i v

def eachLeft {α : Type} (step : Obj → α → Obj × Status) : List α → Obj → Obj × Status
  | [], s => (s, .ok)
  | a :: l, s => match step s a with
    | (s, .ok) => eachLeft step l s
    | r => r

/-- From the parameters to the end (2398-2714). -/
noncomputable def restLeft (h : Held) (f : File) : Held × Status :=
  let put (o : Obj) : Held := { h with st := { h.st with obj := o } }
  match eachLeft (readPairLeft f) (pairs h.st.obj.numneu) h.st.obj with
  | (s, .ok) =>
    match eachLeft (readMassLeft f) (masses s.numneu) s with
    | (s, .ok) =>
      let s := { s with t := f.time, offset := some (f.time - f.track.x) }
      let st : State := ⟨iniH0 (iniProj s), readComps f s.nt h.st.comps⟩
      if st.obj.iint then
        match f.tables with
        | some t => ({ h with st := readTail st (some t) }, .ok)
        | none => ({ h with st := st }, .throws)
      else ({ h with st := readTail st none }, .ok)
    | (s, e) => (put s, e)
  | (s, e) => (put s, e)

/-- `ReadStateHDF5(str)` by a library of versions `squids`, `nusquids`; `none` if there is no such file or group (2289-2299). -/
noncomputable def readLeft (squids nusquids : Nat) (h : Held) (found : Option Source) : Held × Status :=
  match found with
  | none => (h, .throws)
  | some src =>
    let put (o : Obj) : Held := { h with st := { h.st with obj := o } }
    let s := header h.st.obj src
    if src.squidsVersion > squids then (put s, .throws)
    else if src.nusquidsVersion > nusquids then (put s, .throws)
    else if !src.bodyOk then (put s, .throws)
    else
      let s := { s with body := some src.file.body }
      if !src.trackOk then (put s, .throws)
      else
        let s := { s with track := some src.file.track, ne := src.file.energies.length, energies := src.file.energies }
        match initLeft (put s) h.st.obj.inusquids h.st.obj.numneu src.file with
        | (h, .ok) => restLeft h src.file
        | r => r

/-- `EvalFlavor(flv, E, rho)` (1467-1478): the checks look at the members, the subscripts at the arrays. -/
def Held.evalFlavor (h : Held) (flv : Nat) (e : Rat) (rho : Nat) : Outcome Unit :=
  if !h.st.obj.ienergy then .throws
  else if rho ≠ 0 ∧ h.st.obj.nt ≠ .both then .throws
  else (inRange h.st.obj e).bind fun ok => if !ok then .throws else if flv < h.flavours ∧ rho < h.types then .ok () else .ub

/-- `EvalFlavor(flv)` of a single-energy object (1583-1600): the flavour is compared with `nsun`, which `init` sets. -/
def Held.evalSingle (h : Held) (flv : Nat) : Outcome Unit :=
  if !h.st.obj.inusquids then .throws
  else if !h.st.obj.ienergy then .throws
  else if h.st.obj.ne ≠ 1 then .throws
  else if flv ≥ h.flavours then .throws
  else .ok ()

/-- Whether `EvolveState` goes over all flavours, types and nodes the members count: `EvolveProjectors` and `UpdateInteractions` in `PreDerive` (286-290),
and the shortcut (1260-1280). -/
def goesOver (s : Obj) : Bool :=
  (s.osc && decide (s.basis ≠ .mass)) || s.iint || (s.allowConst && (match s.body with | some b => b.isConst | none => false))

/-- `EvolveState` (1233-1305). -/
def Held.evolve (dflt : Option Xs) (h : Held) : Obj × Status :=
  if evolveGuards h.st.obj && goesOver h.st.obj &&
      !(decide (h.st.obj.numneu ≤ h.flavours) && decide (h.st.obj.ne ≤ h.nodes) && decide (h.st.obj.nrhos ≤ h.types)) then (h.st.obj, .ub)
  else evolveState dflt h.st.obj

/-! ## Specification -/

/-- The arrays have room for what the members count. -/
structure Covers (h : Held) : Prop where
  flavours : h.st.obj.numneu = h.flavours
  nodes : h.st.obj.ne ≤ h.nodes
  types : h.st.obj.nrhos ≤ h.types
  both : h.st.obj.nt = .both → 2 ≤ h.types
  single : h.st.obj.inusquids = true → 1 ≤ h.nodes ∧ 1 ≤ h.types

/-- A source this library understands: versions, body and track. -/
def Understood (squids nusquids : Nat) (src : Source) : Prop :=
  src.squidsVersion ≤ squids ∧ src.nusquidsVersion ≤ nusquids ∧ src.bodyOk = true ∧ src.trackOk = true

/-- A source whose object can be initialised. -/
def Possible (src : Source) : Prop :=
  3 ≤ src.file.numneu ∧ src.file.numneu ≤ maxDim ∧ (src.file.energies.length = 1 → src.nt ≠ .both)

/-- The file describes an object of the same kind and with the same switches. -/
def SameKind (h : Held) (src : Source) : Prop := header h.st.obj src = h.st.obj

end Verif.StateIO
