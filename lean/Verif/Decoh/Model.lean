import Verif.Base
import Mathlib.Analysis.SpecialFunctions.Pow.Real

/-!
# Decoherence (examples/Decoherence/nuSQUIDSDecoh.cpp, nuSQUIDSDecoh.h)

`nuSQUIDSDecoh` adds a term `-D[rho]` to the evolution equation, where `D` acts on the `N²` components of the state by a real matrix `Gamma`. Arrays
given by the user are their extents and a function of the indices; the matrix of GSL is a function of the indices that are in range, and an index
out of range is undefined (GSL's error handler ends the program). Imaginary parts are always written as zero and never read.
-/

namespace Verif.Decoh

/-- The members of nuSQUIDSDecoh.h 82-107. `num_basis_vectors` is `numneu²` (nuSQUIDSDecoh.cpp 26); `numneu` is at most 6, so that it fits. -/
structure Nsq where
  numneu : Nat
  gamma : Nat → Nat → ℝ
  index : ℝ
  scale : ℝ
  enabled : Bool

def Nsq.nb (s : Nsq) : Nat := s.numneu ^ 2

/-- `init` (nuSQUIDSDecoh.cpp 12-41). -/
def init (numneu : Nat) (GeV : ℝ) : Nsq := ⟨numneu, fun _ _ => 0, 0, 1 * GeV, true⟩

/-- `EnableDecoherence` (6-8). -/
def enable (s : Nsq) (b : Bool) : Nsq := { s with enabled := b }

/-- `Set_DecoherenceGammaEnergyDependence` (181-183). -/
def setIndex (s : Nsq) (n : ℝ) : Nsq := { s with index := n }

/-- `Set_DecoherenceGammaEnergyScale` (189-191). -/
def setScale (s : Nsq) (e : ℝ) : Nsq := { s with scale := e }

/-- `MapBasisVectorConventions` (44-95). -/
def mapBasis (numneu i : Nat) : Outcome Nat :=
  if i > numneu ^ 2 then .throws
  else if numneu = 2 then
    if i = 0 then .ok 0
    else if i = 1 then .ok 1
    else if i = 2 then .ok 2
    else if i = 3 then .ok 3
    else .throws
  else if numneu = 3 then
    if i = 0 then .ok 0
    else if i = 1 then .ok 1
    else if i = 2 then .ok 3
    else if i = 3 then .ok 4
    else if i = 4 then .ok 2
    else if i = 5 then .ok 6
    else if i = 6 then .ok 5
    else if i = 7 then .ok 7
    else if i = 8 then .ok 8
    else .throws
  else .throws

/-- `gsl_matrix_complex_set`. -/
def Nsq.write (s : Nsq) (m n : Nat) (x : ℝ) : Nsq × Outcome Unit :=
  if m < s.nb ∧ n < s.nb then ({ s with gamma := fun a b => if a = m ∧ b = n then x else s.gamma a b }, .ok ()) else (s, .ub)

/-- The body of the loops in `Set_DecoherenceGammaMatrix` (111-124). -/
def setOne (s : Nsq) (dmat : Nat → Nat → ℝ) (gellMann : Bool) (i j : Nat) : Nsq × Outcome Unit :=
  if gellMann then
    match mapBasis s.numneu i, mapBasis s.numneu j with
    | .ok m, .ok n => s.write m n (dmat i j)
    | .ok _, .throws => (s, .throws)
    | .ok _, .ub => (s, .ub)
    | .throws, _ => (s, .throws)
    | .ub, _ => (s, .ub)
  else s.write i j (dmat i j)

/-- The loops themselves (108-126), over the pairs of indices in order. -/
def setLoop (dmat : Nat → Nat → ℝ) (gellMann : Bool) : List (Nat × Nat) → Nsq → Nsq × Outcome Unit
  | [], s => (s, .ok ())
  | (i, j) :: ps, s =>
    match setOne s dmat gellMann i j with
    | (s', .ok _) => setLoop dmat gellMann ps s'
    | (s', .throws) => (s', .throws)
    | (s', .ub) => (s', .ub)

def pairs (nb : Nat) : List (Nat × Nat) := (List.range nb).flatMap fun i => (List.range nb).map fun j => (i, j)

/-- `Set_DecoherenceGammaMatrix` for an array (98-128). -/
def setMatrix (s : Nsq) (rows cols : Nat) (dmat : Nat → Nat → ℝ) (gellMann : Bool) : Nsq × Outcome Unit :=
  if rows ≠ s.nb then (s, .throws)
  else if cols ≠ s.nb then (s, .throws)
  else setLoop dmat gellMann (pairs s.nb) s

/-- `Set_DecoherenceGammaMatrixDiagonal` (131-149). -/
def setDiagonal (s : Nsq) (len : Nat) (dmat : Nat → ℝ) (gellMann : Bool) : Nsq × Outcome Unit :=
  if len ≠ s.nb then (s, .throws)
  else setMatrix s s.nb s.nb (fun i j => if i = j then dmat i else 0) gellMann

/-- The pre-built models (nuSQUIDSDecoh.h 25). -/
inductive Prebuilt where
  | randomizePhase | randomizeState | neutrinoLoss
  deriving DecidableEq, Repr

/-- `dmat[i] = x` for an array of `len` entries. -/
def put (len : Nat) (d : Nat → ℝ) (i : Nat) (x : ℝ) : Outcome (Nat → ℝ) :=
  if i < len then .ok fun a => if a = i then x else d a else .ub

/-- The `switch` (155-159): the cases fall through. -/
def prebuilt (len : Nat) (model : Prebuilt) (d : Nat → ℝ) : Outcome (Nat → ℝ) :=
  let state (d : Nat → ℝ) : Outcome (Nat → ℝ) := put len d 0 0
  match model with
  | .randomizePhase => ((put len d 0 0).bind fun d => (put len d 3 0).bind fun d => put len d 8 0).bind state
  | .randomizeState => state d
  | .neutrinoLoss => .ok d

/-- `Set_DecoherenceGammaMatrix` for a pre-built model (151-161). -/
def setModel (s : Nsq) (model : Prebuilt) (gamma : ℝ) : Nsq × Outcome Unit :=
  match prebuilt s.nb model fun _ => gamma with
  | .ok d => setDiagonal s s.nb d false
  | .throws => (s, .throws)
  | .ub => (s, .ub)

/-- `Get_DecoherenceGammaMatrix` (163-178): the extents are `num_basis_vectors` both. -/
def getMatrix (s : Nsq) : Nat → Nat → ℝ := fun i j => s.gamma i j

/-- `DRho` (198-216): component `i` for a state with components `rho` at energy `E`. -/
noncomputable def drho (s : Nsq) (E : ℝ) (rho : Nat → ℝ) (i : Nat) : ℝ :=
  (List.range s.nb).foldl (fun acc j => acc + s.gamma i j * rho j * (E / s.scale) ^ s.index) 0

/-- `InteractionsRho` (219-224): `base` are the components of what the base class gives. -/
noncomputable def interactionsRho (s : Nsq) (E : ℝ) (base rho : Nat → ℝ) (i : Nat) : ℝ :=
  if s.enabled then base i - drho s E rho i else base i

end Verif.Decoh
