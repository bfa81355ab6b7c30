import Mathlib.Analysis.Normed.Algebra.MatrixExponential
import Mathlib.Analysis.Complex.Basic
import Mathlib.Analysis.Calculus.MeanValue
import Verif.Base
import Verif.Interact.Matter

/-!
# Density matrices

Initial states, projectors and expectation values of `nuSQUIDS` (nuSQuIDS.cpp 328-360, 1211-1223, 1307-1440, 1510-1680).

`squids::SU_vector` is not part of this repository. Assumed of it: an `SU_vector` of dimension n is an n by n Hermitian matrix, `+`, `-`
and the product with a double are those of matrices, `a*b` of two vectors is the trace of the product, `Projector(n,i)` is the matrix
with a one at (i,i), `RotateToB1(params)` is `U A U†` for a unitary `U` that depends on `params` only, `Evolve(H,t)` is
`e^(iHt) A e^(-iHt)`, `A.UTransform(H,i t)` is `e^(-iHt) A e^(iHt)`. Assumed of the base class `SQuIDS`: `GetExpectationValue(op,rho,ei)` is
`state[ei].rho[rho] * op.Evolve(H0(x[ei],rho), t - t_ini)`, and `ini(...,t0)` sets `t` and `t_ini` to `t0`. Numbers are real.

Flavour indices are below the number of flavours by type; what happens with others is in `Verif.Lifecycle`.
-/

namespace Verif.Density

open Matrix
open Matter (NT)

/-- An `SU_vector` as a matrix. -/
abbrev Mat (n : Nat) : Type := Matrix (Fin n) (Fin n) ℂ

/-- `SU_vector * SU_vector`. -/
noncomputable def dot {n : Nat} (A B : Mat n) : ℝ := (A * B).trace.re

/-- `SU_vector::Projector(n,i)`. -/
def projector {n : Nat} (i : Fin n) : Mat n := Matrix.single i i 1

/-- `SU_vector::RotateToB1`. -/
noncomputable def toB1 {n : Nat} (U A : Mat n) : Mat n := U * A * Uᴴ

/-- `e^(iHt)`. -/
noncomputable def phase {n : Nat} (H : Mat n) (t : ℝ) : Mat n := NormedSpace.exp ((Complex.I * t) • H)

/-- `SU_vector::Evolve(H,t)`. -/
noncomputable def evolve {n : Nat} (H : Mat n) (t : ℝ) (A : Mat n) : Mat n := phase H t * A * phase H (-t)

/-- `SU_vector::UTransform(H, i t)`. -/
noncomputable def uTransform {n : Nat} (H : Mat n) (t : ℝ) (A : Mat n) : Mat n := phase H (-t) * A * phase H t

/-- `Basis` (nuSQuIDS.h 63). -/
inductive Basis where
  | mass
  | interaction
  | flavor
  deriving DecidableEq, Repr

/-- The members the code below reads and writes. `mixing rho` is the unitary matrix `RotateToB1` uses for particle type `rho`, that is
with the phases reversed for antineutrinos (`AntineutrinoCPFix`, 1617-1625). -/
structure Obj (n : Nat) where
  nt : NT
  ne : Nat
  nrhos : Nat
  basis : Basis
  ienergy : Bool
  itrack : Bool
  ibody : Bool
  istate : Bool
  ioscillations : Bool
  full : Bool
  energies : Nat → ℝ
  differences : Fin n → ℝ
  mixing : Nat → Mat n
  b0 : Fin n → Mat n
  b1 : Nat → Fin n → Mat n
  evolB1 : Nat → Fin n → Nat → Mat n
  dm2 : Mat n
  h0s : Nat → Mat n
  state : Nat → Nat → Mat n
  trackStart : ℝ
  t : ℝ
  tini : ℝ

variable {n : Nat}

/-- The loops of `iniProjectors` (1627-1660). -/
noncomputable def iniProjectors (o : Obj n) : Obj n :=
  { o with
    b0 := fun f => projector f
    b1 := fun rho f => toB1 (o.mixing rho) (projector f)
    evolB1 := fun rho f _ => toB1 (o.mixing rho) (projector f) }

/-- `SetIniFlavorProyectors` (1662-1679). -/
noncomputable def setIniFlavorProjectors (o : Obj n) : Obj n :=
  { o with
    b1 := fun rho f => if rho < o.nrhos then toB1 (o.mixing rho) (o.b0 f) else o.b1 rho f
    evolB1 := fun rho f e => if rho < o.nrhos ∧ e < o.ne then toB1 (o.mixing rho) (o.b0 f) else o.evolB1 rho f e }

/-- `H0` (328-332), the same for all types. -/
noncomputable def h0 (o : Obj n) (E : ℝ) : Mat n := if o.ioscillations then (1 / 2 / E) • o.dm2 else 0

/-- `iniH0` (1602-1615). -/
noncomputable def iniH0 (o : Obj n) : Obj n :=
  let o : Obj n := { o with
    dm2 := (List.finRange n).foldl (fun s i => if 1 ≤ i.val then s + o.differences i • o.b0 i else s) 0 }
  if o.ienergy then { o with h0s := fun e => if e < o.ne then h0 o (o.energies e) else o.h0s e } else o

/-- The common tail of the three `Set_initial_state` (1324-1348, 1369-1393, 1414-1440): the clock is set to the start of the track,
projectors and Hamiltonian are initialised and the state is summed up in the loop over flavours. -/
noncomputable def fill (o : Obj n) (v : Nat → Nat → Fin n → ℝ) (basis : Basis) : Obj n :=
  let o : Obj n := { o with t := o.trackStart, tini := o.trackStart }
  let o := iniH0 (setIniFlavorProjectors o)
  let value := fun i r =>
    let zero : Mat n := 0
    match basis with
    | .flavor => (List.finRange n).foldl (fun s j => s + v i r j • o.b1 r j) zero
    | .mass => (List.finRange n).foldl (fun s j => s + v i r j • o.b0 j) zero
    | .interaction => zero
  { o with
    state := fun i r => if i < o.ne ∧ r < o.nrhos then value i r else o.state i r
    istate := true }

/-- The checks shared by the three overloads: a flavour or mass basis, body and track, energies. -/
def checked (o : Obj n) (basis : Basis) : Bool := (basis = .flavor || basis = .mass) && o.itrack && o.ibody && o.ienergy

/-- `Set_initial_state(marray<double,1>)` (1307-1350); `len` is the extent of the array. -/
noncomputable def setInitial1 (o : Obj n) (len : Nat) (v : Fin n → ℝ) (basis : Basis) : Outcome (Obj n) :=
  if len ≠ 0 ∧ len = n ∧ o.nt ≠ .both ∧ o.ne = 1 ∧ checked o basis = true then .ok (fill o (fun _ _ j => v j) basis) else .throws

/-- `Set_initial_state(marray<double,2>)` (1352-1395). -/
noncomputable def setInitial2 (o : Obj n) (len0 len1 : Nat) (v : Nat → Fin n → ℝ) (basis : Basis) : Outcome (Obj n) :=
  if len0 * len1 ≠ 0 ∧ len0 = o.ne ∧ len1 = n ∧ o.nt ≠ .both ∧ checked o basis = true then .ok (fill o (fun i _ j => v i j) basis)
  else .throws

/-- `Set_initial_state(marray<double,3>)` (1397-1441). -/
noncomputable def setInitial3 (o : Obj n) (len0 len1 len2 : Nat) (v : Nat → Nat → Fin n → ℝ) (basis : Basis) : Outcome (Obj n) :=
  if len0 * len1 * len2 ≠ 0 ∧ len0 = o.ne ∧ len1 = o.nrhos ∧ len2 = n ∧ o.nt = .both ∧ checked o basis = true then .ok (fill o v basis)
  else .throws

/-- `SQuIDS::GetExpectationValue`. -/
noncomputable def expectation (o : Obj n) (op : Mat n) (rho ei : Nat) : ℝ :=
  dot (o.state ei rho) (evolve (h0 o (o.energies ei)) (o.t - o.tini) op)

/-- `EvalMassAtNode` (1510-1518). -/
noncomputable def evalMassAtNode (o : Obj n) (flv : Fin n) (ei rho : Nat) : Outcome ℝ :=
  if o.ienergy = false then .throws
  else if rho ≠ 0 ∧ o.nt ≠ .both then .throws
  else if o.basis = .mass then .ok (dot (o.b0 flv) (o.state ei rho))
  else .ok (expectation o (o.b0 flv) rho ei)

/-- `EvalFlavorAtNode` (1520-1528). -/
noncomputable def evalFlavorAtNode (o : Obj n) (flv : Fin n) (ei rho : Nat) : Outcome ℝ :=
  if o.ienergy = false then .throws
  else if rho ≠ 0 ∧ o.nt ≠ .both then .throws
  else if o.basis = .mass then .ok (dot (o.b1 rho flv) (o.state ei rho))
  else .ok (expectation o (o.b1 rho flv) rho ei)

/-- `EvalMass(flv)` (1566-1581) on an initialised object. -/
noncomputable def evalMass1 (o : Obj n) (flv : Fin n) : Outcome ℝ :=
  if o.ienergy = false then .throws
  else if o.ne ≠ 1 then .throws
  else if o.basis = .mass then .ok (dot (o.b0 flv) (o.state 0 0))
  else .ok (expectation o (o.b0 flv) 0 0)

/-- `EvalFlavor(flv)` (1583-1600) on an initialised object. -/
noncomputable def evalFlavor1 (o : Obj n) (flv : Fin n) : Outcome ℝ :=
  if o.ienergy = false then .throws
  else if o.ne ≠ 1 then .throws
  else if o.basis = .mass then .ok (dot (o.b1 0 flv) (o.state 0 0))
  else if o.full then .ok (dot (o.evolB1 0 flv 0) (o.state 0 0))
  else .ok (expectation o (o.b1 0 flv) 0 0)

/-- `EvolveProjectors` (299-326) at time `x`; `filter` is the low-pass filter, the identity if the cut-off is zero. -/
noncomputable def evolveProjectors (o : Obj n) (filter : Mat n → Mat n) (x : ℝ) : Obj n :=
  { o with
    evolB1 := fun rho f e =>
      if rho < o.nrhos ∧ e < o.ne then filter (evolve (o.h0s e) (x - o.tini) (o.b1 rho f)) else o.evolB1 rho f e }

/-- One pass of the innermost loop of `PositivizeFlavors` (1216-1219). `estate` is taken to be the same storage as `state`: the base class
makes it point there when the integrator's last evaluation is at the end point. -/
noncomputable def positivize1 (rho ie : Nat) (o : Obj n) (flv : Fin n) : Outcome (Obj n) :=
  (evalFlavorAtNode o flv ie rho).bind fun quantity =>
    if quantity < 0 then
      .ok { o with state := fun i r => if i = ie ∧ r = rho then o.state i r - quantity • o.evolB1 rho flv ie else o.state i r }
    else .ok o

/-- A loop over outcomes. -/
def forAll {α β : Type} (l : List α) (f : β → α → Outcome β) (b : β) : Outcome β :=
  l.foldl (fun acc a => acc.bind fun s => f s a) (.ok b)

/-- `PositivizeFlavors` (1211-1223). -/
noncomputable def positivize (o : Obj n) : Outcome (Obj n) :=
  forAll (List.range o.nrhos) (fun o' rho =>
    forAll (List.range o.ne) (fun o'' ie => forAll (List.finRange n) (positivize1 rho ie) o'') o') o

/-- `HI` (334-360) at node `ie` for type `irho` in matter of density `rho` and electron fraction `ye`: the model of `Verif.Interact.Matter`
with matrices for vectors. `flavours` tells that there are at least three flavours, as the object requires. -/
noncomputable def hamiltonian (c rho ye : ℝ) (o : Obj n) (flavours : Fin 3 → Fin n) (evolved : Fin n → Mat n) (ie irho : Nat) : Mat n :=
  Matter.hi c rho ye o.nt (if o.basis = .mass then .mass else .interaction) irho
    (fun f => if h : f < 3 then evolved (flavours ⟨f, h⟩) else 0) (o.h0s ie)

/-- The constant-density shortcut of `EvolveState` (1258-1287): the working basis becomes the mass basis, the clock advances, and each
state is transformed by the full Hamiltonian, density and electron fraction being those of the body. -/
noncomputable def shortcut (c rho ye length : ℝ) (flavours : Fin 3 → Fin n) (o : Obj n) : Obj n :=
  let o : Obj n := { o with full := true, basis := .mass, t := o.t + length }
  { o with
    state := fun ie r =>
      if ie < o.ne ∧ r < o.nrhos then uTransform (hamiltonian c rho ye o flavours (fun f => o.evolB1 r f ie) ie r) length (o.state ie r)
      else o.state ie r }

end Verif.Density
