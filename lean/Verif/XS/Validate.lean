import Verif.XS.Tables
import Mathlib.Algebra.Order.Field.Rat

/-!
# `nuSQUIDS::GetCrossSections` (src/nuSQuIDS.cpp 1046-1194)

Here infinities and NaN matter: a double is a rational number, one of the two infinities, or NaN. Rounding, overflow and signed zeros are not
modelled. (With a negative zero as divisor the infinity has the other sign; both are refused in the same way.)
-/

namespace Verif.XS

inductive Dbl where
  | fin (x : Rat)
  | pinf
  | ninf
  | nan
  deriving DecidableEq, Repr

/-- Product with a positive finite number, as for the units. -/
def Dbl.scale (v : Dbl) (u : Rat) : Dbl :=
  match v with
  | .fin x => .fin (x * u)
  | v => v

/-- `x/y`. -/
def Dbl.div : Dbl → Dbl → Dbl
  | .nan, _ => .nan
  | _, .nan => .nan
  | .fin x, .fin y => if y = 0 then (if 0 < x then .pinf else if x < 0 then .ninf else .nan) else .fin (x / y)
  | .fin _, _ => .fin 0
  | .pinf, .fin y => if 0 ≤ y then .pinf else .ninf
  | .ninf, .fin y => if 0 ≤ y then .ninf else .pinf
  | _, _ => .nan

/-- `value<0.0 || std::isinf(value) || std::isnan(value)` (1073). -/
def Dbl.bad : Dbl → Bool
  | .fin x => decide (x < 0)
  | .ninf => true
  | .pinf => true
  | .nan => true

/-- `validateCrossSection` (1071-1082). -/
def validate (flv : Nat) (v : Dbl) : Outcome Dbl := if flv < 3 ∧ v.bad = true then .throws else .ok v

/-- What a cross-section object answers for the energies with the given numbers in the grid; it may throw. `avgTotal c nt f e1` is the average
between the energies e1-1 and e1, `avgSingle c nt f e1 e2` that over the outgoing energies e2-1 to e2. -/
structure Provider where
  total : Cur → NType → Nat → Nat → Outcome Dbl
  avgTotal : Cur → NType → Nat → Nat → Outcome Dbl
  single : Cur → NType → Nat → Nat → Nat → Outcome Dbl
  avgSingle : Cur → NType → Nat → Nat → Nat → Outcome Dbl

/-- A loop that fills an array: `n` entries in order. -/
def fill {α : Type} (f : Nat → Outcome α) : Nat → Outcome (List α)
  | 0 => .ok []
  | n + 1 => (fill f n).bind fun l => (f n).bind fun a => .ok (l ++ [a])

/-- Both currents of one entry. -/
structure Two where
  nc : Dbl
  cc : Dbl
  deriving Repr

/-- The differential cross sections of one line of the arrays (1093-1102): entry 0 at the first energy, the entries below e1 averaged. -/
def diffEntry (p : Provider) (u : Rat) (nt : NType) (flv e1 e2 : Nat) : Outcome Two :=
  if e2 = 0 then
    (p.single .NC nt flv e1 0).bind fun a => (validate flv (a.scale u)).bind fun a =>
    (p.single .CC nt flv e1 0).bind fun b => (validate flv (b.scale u)).bind fun b => .ok ⟨a, b⟩
  else
    (p.avgSingle .NC nt flv e1 e2).bind fun a => (validate flv (a.scale u)).bind fun a =>
    (p.avgSingle .CC nt flv e1 e2).bind fun b => (validate flv (b.scale u)).bind fun b => .ok ⟨a, b⟩

/-- The total cross sections (1104-1115). -/
def totalEntry (p : Provider) (u : Rat) (nt : NType) (flv e1 : Nat) : Outcome Two :=
  (if 0 < e1 then
    (p.avgTotal .CC nt flv e1).bind fun b => (p.avgTotal .NC nt flv e1).bind fun a => .ok (Two.mk (a.scale u) (b.scale u))
  else
    (p.total .CC nt flv e1).bind fun b => (p.total .NC nt flv e1).bind fun a => .ok (Two.mk (a.scale u) (b.scale u))).bind fun s =>
  (validate flv s.cc).bind fun _ => (validate flv s.nc).bind fun _ => .ok s

/-- One line: differentials (at least entry 0) and totals. -/
structure Line where
  diff : List Two
  total : Two

def line (p : Provider) (uD uT : Rat) (nt : NType) (flv e1 : Nat) : Outcome Line :=
  (fill (diffEntry p uD nt flv e1) (max 1 e1)).bind fun d => (totalEntry p uT nt flv e1).bind fun s => .ok ⟨d, s⟩

/-- One normalised spectrum (1125-1130, 1131-1136). -/
def normal (flv : Nat) (d s : Dbl) : Outcome Dbl := if d = .fin 0 then .ok (.fin 0) else validate flv (d.div s)

/-- The spectra of one line (1124-1137). -/
def spectrum (flv e1 : Nat) (l : Line) : Outcome (List Two) :=
  fill (fun e2 => (Outcome.ofOption l.diff[e2]?).bind fun d => (normal flv d.nc l.total.nc).bind fun a =>
    (normal flv d.cc l.total.cc).bind fun b => .ok ⟨a, b⟩) e1

/-- What is stored for one target, type, flavour and energy. -/
structure Stored where
  total : Two
  dNdE : List Two

/-- The two groups of loops for a target (1090-1140): first all values are taken, then all spectra made. -/
def target (p : Provider) (uD uT : Rat) (types : List NType) (numneu ne : Nat) : Outcome (List (List (List Stored))) :=
  (fill (fun rho => (Outcome.ofOption types[rho]?).bind fun nt => fill (fun flv => fill (line p uD uT nt flv) ne) numneu) types.length).bind fun lines =>
  fill (fun rho => (Outcome.ofOption lines[rho]?).bind fun ls => fill (fun flv => (Outcome.ofOption ls[flv]?).bind fun ls => fill (fun e1 =>
    (Outcome.ofOption ls[e1]?).bind fun l => (spectrum flv e1 l).bind fun sp => .ok ⟨l.total, sp⟩) ne) numneu) types.length

/-- The tables of the Glashow resonance (1148-1166); nothing is validated. -/
structure GRTables where
  sigma : List Dbl
  dNdE : List (List Dbl)

def glashow (p : Provider) (uD uT : Rat) (ne : Nat) : Outcome GRTables :=
  (fill (fun e1 =>
    (if 0 < e1 then p.avgTotal .GR .antineutrino 0 e1 else p.total .GR .antineutrino 0 e1).bind fun s =>
    (fill (fun e2 => if e2 = 0 then p.single .GR .antineutrino 0 e1 0 else p.avgSingle .GR .antineutrino 0 e1 e2) (max 1 e1)).bind fun d =>
    .ok (s.scale uT, d.map (Dbl.scale · uD))) ne).bind fun rows =>
  (fill (fun e1 => (Outcome.ofOption rows[e1]?).bind fun r =>
    fill (fun e2 => (Outcome.ofOption r.2[e2]?).bind fun d => .ok (d.div r.1)) e1) ne).bind fun dn =>
  .ok ⟨rows.map (·.1), dn⟩

/-- `NT`. -/
inductive NT where
  | neutrino
  | antineutrino
  | both
  deriving DecidableEq, Repr

/-- `neutype_xs_dict` (1058-1069); its length is `nrhos`. -/
def NT.types : NT → List NType
  | .neutrino => [.neutrino]
  | .antineutrino => [.antineutrino]
  | .both => [.neutrino, .antineutrino]

/-- The DIS and Glashow parts of `int_struct`. -/
structure AllTables where
  dis : List (List (List (List Stored)))
  gr : Option GRTables

/-- `GetCrossSections` (1046-1167). `targets`: the cross sections of the targets; `el`: those of the electron. The tau decay tables (1169-1189)
are the subject of C69. -/
def getCrossSections (targets : List Provider) (el : Option Provider) (nt : NT) (iglashow : Bool) (uD uT : Rat) (numneu ne : Nat) :
    Outcome AllTables :=
  (fill (fun t => (Outcome.ofOption targets[t]?).bind fun p => target p uD uT nt.types numneu ne) targets.length).bind fun dis =>
  if iglashow = true ∧ (nt = .both ∨ nt = .antineutrino) then
    match el with
    | none => .throws
    | some p => (glashow p uD uT ne).bind fun g => .ok ⟨dis, some g⟩
  else .ok ⟨dis, none⟩

/-- `NullCrossSections` (xsections.h 117-126); the averages of zero over an interval of positive length are zero. -/
def nullProvider : Provider := ⟨fun _ _ _ _ => .ok (.fin 0), fun _ _ _ _ => .ok (.fin 0), fun _ _ _ _ _ => .ok (.fin 0), fun _ _ _ _ _ => .ok (.fin 0)⟩

end Verif.XS
