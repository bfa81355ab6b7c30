import Verif.Density.Lemmas

/-!
# Solar neutrinos

The user contribution `resources/user_contributions/SolarTransitions`: `SolarModel` (SolarModel.h, SolarModel.cpp) and `SOP`
(SolarProbabilities.h, SolarProbabilities.cpp). Line numbers refer to these files, prefix `P` for SolarProbabilities.cpp, `M` for
SolarModel.cpp, `H` for SolarModel.h.

Assumed of SQuIDS, besides what is assumed in `Verif.Density.Model`: `RotateToB0(params)` undoes `RotateToB1(params)`; `GetEigenSystem` returns
orthonormal eigenvectors as columns; `GetTransformationMatrix` is the matrix of the mass components of the flavour states, flavours being
rows. Assumed of GSL: `gsl_eigen_hermv_sort(..., GSL_EIGEN_SORT_VAL_ASC)` orders eigenvalues and eigenvectors; `gsl_spline_eval` refuses
arguments outside the table (its error handler ends the program by default; the outcome is `throws` here).
-/

namespace Verif.Solar

open Density Matrix

variable {n : Nat}

/-! ## Probabilities -/

/-- The members of `SOP` (a `nuSQUIDS`) in use: what `RotateToB0(params)` and `GetTransformationMatrix` make of the current parameters, the
projector `b1_proj[0][0]`, `DM2` and `HI_constants`. -/
structure SOP (n : Nat) where
  mixing : Mat n
  b1 : Mat n
  dm2 : Mat n
  c : ℝ

/-- The constructor with given parameters: `iniProjectors` and `iniH0` (nuSQuIDS.cpp 1627-1643, 1602-1606); the same members are recomputed by
`Set_initial_state`. `masses` are the squared masses relative to the first. -/
noncomputable def SOP.make [NeZero n] (U : Mat n) (masses : Fin n → ℝ) (c : ℝ) : SOP n where
  mixing := U
  b1 := toB1 U (projector 0)
  dm2 := Matrix.diagonal fun i => (masses i : ℂ)
  c := c

/-- `Set_MixingAngle` and `Set_CPPhase` (nuSQuIDS.cpp 2844-2849, 2857-2862) only change `params` and clear
`istate`, which `SolarOscillationProbability` does not look at. -/
def SOP.setMixing (o : SOP n) (U : Mat n) : SOP n := { o with mixing := U }

/-- `SOP::Hamiltonian` (P28-37); `density` is `eDensity(r)`. -/
noncomputable def SOP.hamiltonian (o : SOP n) (E density : ℝ) : Mat n := (1 / (2 * E)) • o.dm2 + (o.c * density) • o.b1

/-- `RotateToB0`. -/
def toB0 (U A : Mat n) : Mat n := Uᴴ * A * U

/-- What `GetEigenSystem` and the sorting (P14-16) may return for `H`. -/
structure Eigensystem (H : Mat n) (ev : Fin n → ℝ) (V : Mat n) : Prop where
  unitary : Unitary V
  eigen : H * V = V * Matrix.diagonal fun i => (ev i : ℂ)
  sorted : Monotone ev

/-- `GetTransformationMatrix()(flavour, mass)`. -/
def transformation (U : Mat n) : Mat n := Uᴴ

/-- The sum of P20-25, with the eigenvectors that were found. -/
noncomputable def SOP.sum [NeZero n] (o : SOP n) (V : Mat n) : ℝ := ∑ i, Complex.normSq (V 0 i) * Complex.normSq (transformation o.mixing 0 i)

/-- `SolarOscillationProbability` (P6-26) may return `p`. -/
def SOP.Probability [NeZero n] (o : SOP n) (E density p : ℝ) : Prop :=
  ∃ ev V, Eigensystem (toB0 o.mixing (o.hamiltonian E density)) ev V ∧ p = o.sum V

/-! ## Fluxes -/

/-- `FluxType` (H21). -/
inductive Flux where
  | pp | pep | hep | be7 | b8 | n13 | o15 | f17 | electron | dm
  deriving DecidableEq, Repr

/-- `FluxType(i)` for `i < NumComp()` (M76-78). -/
def Flux.components : List Flux := [.pp, .pep, .hep, .be7, .b8, .n13, .o15, .f17]

/-- `isline` (H23); a missing key is inserted as `false` by `operator[]`. -/
def Flux.isline : Flux → Bool
  | .pep => true
  | .be7 => true
  | _ => false

/-- `spectrum_limits` (H33-42). -/
def Flux.limits : Flux → List ℚ
  | .pp => [5040, 423410]
  | .pep => [1440000]
  | .hep => [18784, 18784000]
  | .be7 => [861800]
  | .b8 => [20000, 16560000]
  | .n13 => [5995, 1199000]
  | .o15 => [3464, 1732000]
  | .f17 => [3480, 1740000]
  | .electron => []
  | .dm => []

/-- `Emin`, `Emax`, `Rsun` (H26-28). -/
def Emin : ℚ := 3464
def Emax : ℚ := 18784000
def Rsun : ℚ := 69662651411.1

/-- A table that `gsl_spline_eval` interpolates: it refuses what is outside. -/
structure Spline where
  first : ℚ
  last : ℚ
  at_ : ℚ → ℚ

def Spline.eval (s : Spline) (x : ℚ) : Outcome ℚ := if x < s.first ∨ s.last < x then .throws else .ok (s.at_ x)

/-- A solar model once its tables are read. -/
structure Sun where
  radial : Flux → Spline
  spectral : Flux → Spline

/-- `nuFlux` (M43-60). -/
def Sun.nuFlux (m : Sun) (R E : ℚ) (t : Flux) : Outcome ℚ :=
  if R > 1 ∨ R < 0 then .throws
  else if E < Emin ∨ E > Emax then .ok 0
  else match t.limits with
    | [_] => (m.radial t).eval (R * Rsun)
    | [lo, hi] =>
      if E > lo ∧ E < hi then ((m.radial t).eval (R * Rsun)).bind fun a => ((m.spectral t).eval E).bind fun b => .ok (a * b) else .ok 0
    | _ => .throws

/-- `eDensity` (M62-67). -/
def Sun.eDensity (m : Sun) (R : ℚ) : Outcome ℚ := if R > 1 ∨ R < 0 then .throws else (m.radial .electron).eval (R * Rsun)

/-- The summands at radius `r` of the two integrands (P43-51, P59-66), each as a component and the energy it is evaluated at. For
`E = 0` the quotient is infinite and the test fails. Lines have limits, so that the access `[0]` is never out of range. -/
def Flux.terms (E : ℚ) : List (Flux × ℚ) :=
  Flux.components.filterMap fun t =>
    if t.isline = false then some (t, E)
    else match t.limits with
      | [] => none
      | l :: _ => if E ≠ 0 ∧ |E - l| / E < 1 / 100 then some (t, l) else none

/-- Both integrands: `weight` is the probability for `PeeSquare` and one for `RadialIntegratedFluxes`. -/
def Sun.integrand (m : Sun) (weight : ℚ → ℚ → Outcome ℚ) (E r : ℚ) : Outcome ℚ :=
  (Flux.terms E).foldl (fun acc t => acc.bind fun s => (weight t.2 r).bind fun w => (m.nuFlux r t.2 t.1).bind fun f => .ok (s + w * f)) (.ok 0)

/-- `PeeSquare` (P39-54) and `RadialIntegratedFluxes` (P56-69), with `integrate` replaced by a rule with nodes and weights. A normalisation of
zero gives `0 * (1/0)`, which is not a number: `none`. -/
def rule (nodes : List (ℚ × ℚ)) (f : ℚ → Outcome ℚ) : Outcome ℚ :=
  nodes.foldl (fun acc x => acc.bind fun s => (f x.1).bind fun y => .ok (s + x.2 * y)) (.ok 0)

def Sun.integratedFluxes (m : Sun) (nodes : List (ℚ × ℚ)) (E : ℚ) : Outcome ℚ := rule nodes (m.integrand (fun _ _ => .ok 1) E)

def Sun.peeSquare (m : Sun) (nodes : List (ℚ × ℚ)) (probability : ℚ → ℚ → Outcome ℚ) (E : ℚ) : Outcome (Option ℚ) :=
  (m.integratedFluxes nodes E).bind fun norm =>
    (rule nodes (m.integrand probability E)).bind fun x => .ok (if norm = 0 then none else some (x * (1 / norm)))

/-! ## Reading the tables -/

/-- The abscissae given to `gsl_spline_init` (M11-15, M23): the array is not initialised, the loop starts at one. -/
def abscissae (column : List ℚ) : List (Option ℚ) := column.mapIdx fun j x => if 1 ≤ j then some x else none

/-- `gsl_spline_init` reads them all. -/
def splineInit (column : List ℚ) : Outcome (List ℚ) :=
  (abscissae column).foldr (fun x acc => (Outcome.ofOption x).bind fun a => acc.bind fun l => .ok (a :: l)) (.ok [])

end Verif.Solar
