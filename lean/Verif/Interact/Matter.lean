import Mathlib.Algebra.Order.Field.Basic
import Mathlib.Algebra.Module.Basic
import Mathlib.Algebra.BigOperators.Group.Finset.Basic
import Verif.Base

/-!
C51-C53 and C72: target number densities, the matter potential and `GetHamiltonian` (nuSQuIDS.cpp 278-361, 441-489, 1681-1686).

Numbers are elements of a linearly ordered field `K`; `SU_vector`s (SQuIDS) are elements of a vector space `V` over it. Interpreting
them as Hermitian matrices is left to the density-matrix model. User hooks (`AddToPreDerive`, overridden `HI`) are the defaults.
-/

namespace Verif.Matter

variable {K : Type} [Field K] [LinearOrder K] [IsStrictOrderedRing K]

/-- The constants of `squids::Const` used here. -/
structure Consts (K : Type) where
  gr : K
  /-- `pow(params.cm,-3)` -/
  cm3 : K
  me : K
  mp : K
  mn : K
  na : K

/-- The target list: `isoscalar_nucleon` alone, or proton and neutron (nuSQuIDS.cpp 1150-1160). -/
inductive Targets where
  | isoscalar
  | protonNeutron
  deriving DecidableEq, Repr

/-- `GetTargetNumberFractions` (441-446). -/
def fractions (tg : Targets) (ye : K) : List K :=
  match tg with
  | .isoscalar => [1]
  | .protonNeutron => [ye, 1 - ye]

/-- `GetTargetNumberDensities` (448-489). -/
def densities (p : Consts K) (tg : Targets) (rho ye : K) : List K :=
  let density := (p.gr * p.cm3) * rho
  match tg with
  | .isoscalar =>
    let n := density * 2 / (p.me + p.mp + p.mn)
    if n < 1 / 10 ^ 10 then [p.na * p.cm3 * (1 / 10 ^ 10)] else [n]
  | .protonNeutron =>
    if ye = 0 then [0, density / p.mn]
    else
      let np := density / (p.me + p.mp + p.mn * ((1 - ye) / ye))
      [np, (1 - ye) * np / ye]

variable {V : Type} [AddCommGroup V] [Module K V]

inductive Basis where
  | mass
  | interaction
  deriving DecidableEq, Repr

inductive NT where
  | neutrino
  | antineutrino
  | both
  deriving DecidableEq, Repr

/-- `irho == 1 and NT==both or NT==antineutrino` (344). -/
def anti (nt : NT) (irho : Nat) : Bool := (decide (irho = 1) && decide (nt = .both)) || decide (nt = .antineutrino)

/-- The two potentials before the projectors (335-347). -/
def potentials (c rho ye : K) (isAnti : Bool) : K × K :=
  let cc := c * rho * ye
  let nc := if ye < 1 / 10 ^ 10 then c * rho else cc * (-(1 / 2) * (1 - ye) / ye)
  if isAnti then (cc * -1, nc * -1) else (cc, nc)

/-- `HI(ie, irho)` (334-361): `proj` are the projectors `evol_b1_proj[irho][.][ie]`, `h0` is `H0_array[ie]`. -/
def hi (c rho ye : K) (nt : NT) (basis : Basis) (irho : Nat) (proj : Nat → V) (h0 : V) : V :=
  let r := potentials c rho ye (anti nt irho)
  let potential := (r.1 + r.2) • proj 0 + r.2 • proj 1 + r.2 • proj 2
  if basis = .mass then potential + h0 else potential

/-- `H0(Enu, irho)` (328-332). -/
def h0 (osc : Bool) (dm2 : V) (e : K) : V := if osc then ((1 / 2) / e) • dm2 else 0

/-- What `GetHamiltonian` reads. -/
structure World (K V : Type) where
  basis : Basis
  osc : Bool
  nt : NT
  /-- `ienergy` -/
  energies : Bool
  /-- interactions on, and whether the tables and buffers they need are there -/
  iint : Bool
  ready : Bool
  /-- density and electron fraction along the track; none if the body is null -/
  body : Option (K → K × K)
  /-- whether there is a track -/
  track : Bool
  /-- `time_offset`; none if indeterminate -/
  offset : Option K
  t : K
  tIni : K
  c : K
  dm2 : V
  e : Nat → K
  /-- `H0_array`, filled by `iniH0` (1608-1614) -/
  h0s : Nat → V
  /-- `b1_proj` -/
  b1 : Nat → Nat → V
  /-- `evol_b1_proj` -/
  evol : Nat → Nat → Nat → V
  /-- `Evolve` of a vector by the Hamiltonian of a node over a time, low-pass filter included (303-322) -/
  rotate : Nat → K → V → V

/-- The projectors after `PreDerive` (287-289, 299-326). -/
def World.projectors (w : World K V) (irho flv ei : Nat) : V :=
  if w.basis ≠ .mass ∧ w.osc = true then w.rotate ei (w.t - w.tIni) (w.b1 irho flv) else w.evol irho flv ei

/-- `GetHamiltonian(ei, rho)` (1681-1686): `PreDerive(Get_t())` (278-297), then `H0 + HI`. -/
def getHamiltonian (w : World K V) (ei irho : Nat) : Outcome V :=
  if w.energies then
    match w.body, w.track, w.offset with
    | some b, true, some off =>
      if w.iint && !w.ready then .ub
      else
        let r := b (w.t - off)
        .ok (h0 w.osc w.dm2 (w.e ei) + hi w.c r.1 r.2 w.nt w.basis irho (fun f => w.projectors irho f ei) (w.h0s ei))
    | _, _, _ => .ub
  else .throws

/-! ## What is claimed -/

/-- Potential of flavour `f` for neutrinos: charged and neutral current for nu_e, neutral current for nu_mu and nu_tau, none for sterile. -/
def flavourPotential (c rho ye : K) (f : Nat) : K :=
  if f = 0 then c * rho * (ye - (1 - ye) / 2) else if f < 3 then c * rho * (-(1 - ye) / 2) else 0

/-- The matter Hamiltonian: each flavour's potential on its projector, reversed for antineutrinos. -/
def matterTerm (c rho ye : K) (isAnti : Bool) (numneu : Nat) (proj : Nat → V) : V :=
  ∑ f ∈ Finset.range numneu, ((if isAnti then -1 else 1) * flavourPotential c rho ye f) • proj f

end Verif.Matter
