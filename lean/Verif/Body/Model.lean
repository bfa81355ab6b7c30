import Verif.Interp.Akima
import Mathlib.Analysis.Real.Sqrt
import Mathlib.Analysis.SpecialFunctions.Exp
import Mathlib.Analysis.SpecialFunctions.Trigonometric.Inverse

/-!
# Model of the bodies and tracks (`/repo/src/body.cpp`, `/repo/include/nuSQuIDS/body.h`)

Doubles are real numbers. `param.km` and `param.cm` are parameters (`Units`). The square root of a negative number, which
would be NaN, is 0 here: the theorems have hypotheses under which all radicands are non-negative. `static_cast` of a track
to the wrong class is undefined behaviour. Tables read from files are given as lists of columns (the text reader is modelled
in `Verif.Tools.Text`).
-/

namespace Verif.Bodies

open Verif.Interp

/-- `param.km` and `param.cm` of `squids::Const`. -/
structure Units where
  km : ℝ
  cm : ℝ

/-- The tables of a body with a radial or linear profile, and the two splines built from them. The second column is the
electron fraction or, for the Sun, the hydrogen mass fraction. -/
structure Tab where
  xs : List ℝ
  rho : List ℝ
  ye : List ℝ
  interRho : Spline ℝ
  interYe : Spline ℝ

/-- `inter_density(x,rho), inter_ye(x,ye)` in the constructors (body.cpp 224, 336, 475, 580, 880): the splines throw on columns
of different lengths, fewer than three points, or abscissas that do not increase. -/
noncomputable def Tab.make (xs rho ye : List ℝ) : Outcome Tab :=
  (ofVectors xs rho).bind fun s => (ofVectors xs ye).bind fun s' => .ok ⟨xs, rho, ye, s, s'⟩

/-- First and last entry of a column (the tables have at least three rows). -/
def first (l : List ℝ) : ℝ := l.getD 0 0
def last (l : List ℝ) : ℝ := l.getD (l.length - 1) 0

/-- The classes derived from `Body`, with their members. -/
inductive Kind where
  | vacuum
  | constant (rho ye : ℝ)
  | variable (t : Tab)
  | earth (t : Tab) (radius : ℝ)
  | sun (t : Tab) (radius : ℝ)
  | sunASnu (t : Tab) (radius : ℝ)
  | earthAtm (t : Tab) (radius atmHeight earthWithAtmRadius : ℝ)

/-- A body object: its class and members, and the base class's `is_constant_density` (body.h 56). -/
structure Body where
  kind : Kind
  isConst : Bool

/-- The classes derived from `Body::Track`, with the members they add. `plain` stands for the tracks of Vacuum, ConstantDensity,
VariableDensity and Sun, which add nothing. -/
inductive TrackKind where
  | plain (name : String)
  | earth (baseline : ℝ)
  | sunASnu (radiusNu bImpact : ℝ)
  | earthAtm (cosphi earthRadius atmheight L : ℝ)

/-- A track object: `x`, `xini`, `xend` (body.h 73-78) and what the class adds. -/
structure Track where
  x : ℝ
  xini : ℝ
  xend : ℝ
  kind : TrackKind

/-! ## Body constructors -/

def mkVacuum : Body := ⟨.vacuum, false⟩

/-- body.cpp 167-173. -/
def mkConstant (rho ye : ℝ) : Body := ⟨.constant rho ye, false⟩

/-- body.cpp 222-238. -/
noncomputable def mkVariable (xs rho ye : List ℝ) : Outcome Body := (Tab.make xs rho ye).map fun t => ⟨.variable t, false⟩

/-- Both Earth constructors (body.cpp 304-350): radius 6371 (in km). -/
noncomputable def mkEarth (xs rho ye : List ℝ) : Outcome Body := (Tab.make xs rho ye).map fun t => ⟨.earth t 6371, false⟩

/-- Both Sun constructors (body.cpp 451-479): radius 695980 km. -/
noncomputable def mkSun (u : Units) (xs rho xh : List ℝ) : Outcome Body :=
  (Tab.make xs rho xh).map fun t => ⟨.sun t (695980 * u.km), false⟩

/-- `SunASnu` from vectors (body.cpp 578-584): radius 695980 km. -/
noncomputable def mkSunASnu (u : Units) (xs rho xh : List ℝ) : Outcome Body :=
  (Tab.make xs rho xh).map fun t => ⟨.sunASnu t (695980 * u.km), false⟩

/-- `SunASnu` from a file (body.cpp 557-576): radius 694439 km. -/
noncomputable def mkSunASnuFile (u : Units) (xs rho xh : List ℝ) : Outcome Body :=
  (Tab.make xs rho xh).map fun t => ⟨.sunASnu t (694439 * u.km), false⟩

/-- Both EarthAtm constructors (body.cpp 848-896): radius 6371, height 22 (in km). -/
noncomputable def mkEarthAtm (xs rho ye : List ℝ) : Outcome Body :=
  (Tab.make xs rho ye).map fun t => ⟨.earthAtm t 6371 22 (6371 + 22), false⟩

/-- `EarthAtm::SetAtmosphereHeight` (body.cpp 900-903). -/
noncomputable def Body.setAtmosphereHeight (b : Body) (height : ℝ) : Body :=
  match b.kind with
  | .earthAtm t radius _ _ => { b with kind := .earthAtm t radius height (radius + height) }
  | _ => b

/-- `SetIsConstantDensity` (body.h 127). -/
def Body.setIsConst (b : Body) (v : Bool) : Body := { b with isConst := v }

/-- `IsConstantDensity` (body.h 125, body.cpp 136 and 213). -/
def Body.isConstantDensity (b : Body) : Bool :=
  match b.kind with
  | .vacuum => true
  | .constant .. => true
  | _ => b.isConst

/-- `GetBodyParams` (body.h 119; filled in body.cpp 172 and 232-237). -/
def Body.params (b : Body) : List ℝ :=
  match b.kind with
  | .constant rho ye => [rho, ye]
  | .variable t => t.xs ++ t.rho ++ t.ye
  | _ => []

/-- `GetRadius` (body.h 421, 524, 632, 745) and `GetAtmosphereHeight` (748), where the class has them. -/
def Body.sizes (b : Body) : List ℝ :=
  match b.kind with
  | .earth _ r => [r]
  | .sun _ r => [r]
  | .sunASnu _ r => [r]
  | .earthAtm _ r h _ => [r, h]
  | _ => []

/-! ## Track constructors and operations -/

/-- Vacuum, ConstantDensity, VariableDensity and Sun tracks (body.h 160, 216, 292, 494). -/
def mkPlainTrack (name : String) (x xini xend : ℝ) : Track := ⟨x, xini, xend, .plain name⟩

/-- `Earth::Track` (body.h 389). -/
def mkEarthTrack (x xini xend baseline : ℝ) : Track := ⟨x, xini, xend, .earth baseline⟩

/-- `SunASnu::Track` (body.cpp 587-593). -/
noncomputable def mkSunASnuTrack (u : Units) (x xini b : ℝ) : Track :=
  ⟨x, xini, 2 * √((694439 * u.km) * (694439 * u.km) - b * b), .sunASnu (694439 * u.km) b⟩

/-- The length of an EarthAtm track (body.cpp 692-694, 775-777). -/
noncomputable def atmLength (cosphi R h : ℝ) : ℝ :=
  let sinsqphi := 1 - cosphi * cosphi
  √((R + h) * (R + h) - R * R * sinsqphi) - R * cosphi

/-- `EarthAtm::Track(phi, earth_radius, atmheight)` (body.cpp 686-707). -/
noncomputable def mkAtmTrack (phi R h : ℝ) : Track :=
  let cosphi := Real.cos phi
  let L := atmLength cosphi R h
  ⟨0, 0, L, .earthAtm cosphi R h L⟩

/-- `EarthAtm::Track::MakeWithCosine` (body.cpp 770-783): the members `earth_radius` and `atmheight` keep the values given by
the default constructor (767-768), 6371 km and 22 km. -/
noncomputable def mkAtmTrackCosine (u : Units) (cosphi R h : ℝ) : Track :=
  let L := atmLength cosphi R h
  ⟨0, 0, L, .earthAtm cosphi (6371 * u.km) (22 * u.km) L⟩

/-- `EarthAtm::MakeTrack` (body.cpp 791-793). -/
noncomputable def Body.makeTrack (u : Units) (b : Body) (phi : ℝ) : Option Track :=
  match b.kind with
  | .earthAtm _ R h _ => some (mkAtmTrack phi (R * u.km) (h * u.km))
  | _ => none

/-- `EarthAtm::MakeTrackWithCosine` (body.cpp 795-797). -/
noncomputable def Body.makeTrackWithCosine (u : Units) (b : Body) (cosphi : ℝ) : Option Track :=
  match b.kind with
  | .earthAtm _ R h _ => some (mkAtmTrackCosine u cosphi (R * u.km) (h * u.km))
  | _ => none

/-- `SetX` (body.h 91). -/
def Track.setX (t : Track) (y : ℝ) : Track := { t with x := y }

/-- `ReverseTrack` (body.h 99-103). -/
def Track.reverse (t : Track) : Track := { t with xini := t.xend, xend := t.xini }

/-- `GetBaseline`, where the class has it (body.h 400, 725). -/
def Track.baseline (t : Track) : Option ℝ :=
  match t.kind with
  | .earth b => some b
  | .earthAtm _ _ _ L => some L
  | _ => none

/-- The parameters appended by `FillDerivedParams` (body.cpp 437-439, 627-629, 785-789). For EarthAtm the first entry is `acos`
of the stored cosine. -/
noncomputable def Track.derivedParams (t : Track) : List ℝ :=
  match t.kind with
  | .plain _ => []
  | .earth b => [b]
  | .sunASnu _ b => [b]
  | .earthAtm c R h _ => [Real.arccos c, R, h]

/-- `GetTrackParams` (body.h 105-109). -/
noncomputable def Track.params (t : Track) : List ℝ := [t.xini, t.xend] ++ t.derivedParams

/-! ## Densities -/

/-- Distance from the centre, in km, along an Earth track (body.cpp 373-381): a negative square beyond the tolerance throws. -/
noncomputable def earthDistance (u : Units) (radius baseline x : ℝ) : Outcome ℝ :=
  let xkm := x / u.km
  let r2 := radius * radius + xkm * xkm - baseline / u.km * xkm
  if r2 > 0 then .ok (√r2)
  else if |r2| < 1e-6 then .ok 0
  else .throws

/-- The table lookup of Earth (body.cpp 383-391, 407-415): clamped at both ends. -/
noncomputable def clampedLookup (xs col : List ℝ) (s : Spline ℝ) (v : ℝ) : Outcome ℝ :=
  if v < first xs then .ok (first col)
  else if v > last xs then .ok (last col)
  else s.eval v

/-- `rdensity`, `rxh` of Sun and SunASnu (body.cpp 498-518, 631-651): clamped below, zero above. -/
noncomputable def sunLookup (xs col : List ℝ) (s : Spline ℝ) (v : ℝ) : Outcome ℝ :=
  if v < first xs then .ok (first col)
  else if v > last xs then .ok 0
  else s.eval v

/-- Fractional radius along a SunASnu track (body.cpp 659, 669). -/
noncomputable def sunDistance (radius x b : ℝ) : ℝ :=
  √(radius * radius + x * x - 2 * x * √(radius * radius - b * b)) / radius

/-- Distance from the centre, in km, along an EarthAtm track (body.cpp 802-806, 828-832). -/
noncomputable def atmDistance (u : Units) (radius ewa cosphi L x : ℝ) : ℝ :=
  let xkm := x / u.km
  let sinsqphi := 1 - cosphi * cosphi
  let dL := √(ewa * ewa - radius * radius * sinsqphi) + radius * cosphi
  let r2 := ewa * ewa + xkm * xkm - (L / u.km + dL) * xkm
  if r2 > 0 then √r2 else 0

/-- The lookup of EarthAtm (body.cpp 808-822, 834-845): the table is entered with `r / earth_with_atm_radius`; `above` is the value
above the surface. -/
noncomputable def atmLookup (xs col : List ℝ) (s : Spline ℝ) (radius ewa r : ℝ) (above : ℝ) : Outcome ℝ :=
  let rel := r / ewa
  if rel < first xs then .ok (first col)
  else if rel > last xs ∧ r < radius then .ok (last col)
  else if r > radius then .ok above
  else s.eval rel

/-- `density` (body.cpp 128, 203, 260, 370, 520, 653, 799). -/
noncomputable def density (u : Units) (b : Body) (tr : Track) : Outcome ℝ :=
  match b.kind with
  | .vacuum => .ok 0
  | .constant rho _ => .ok rho
  | .variable t =>
    let x := tr.x / u.cm
    if x < first t.xs ∨ x > last t.xs then .ok 0 else t.interRho.eval x
  | .earth t R =>
    match tr.kind with
    | .earth bl => (earthDistance u R bl tr.x).bind fun r => clampedLookup t.xs t.rho t.interRho (r / R)
    | _ => .ub
  | .sun t R => sunLookup t.xs t.rho t.interRho (tr.x / R)
  | .sunASnu t R =>
    match tr.kind with
    | .sunASnu _ bi => sunLookup t.xs t.rho t.interRho (sunDistance R tr.x bi)
    | _ => .ub
  | .earthAtm t R _ ewa =>
    match tr.kind with
    | .earthAtm c _ _ L =>
      let r := atmDistance u R ewa c L tr.x
      atmLookup t.xs t.rho t.interRho R ewa r (0.0012 * Real.exp (-(r - R) / 7.594))
    | _ => .ub

/-- `ye` (body.cpp 132, 208, 269, 394, 525, 664, 825). -/
noncomputable def ye (u : Units) (b : Body) (tr : Track) : Outcome ℝ :=
  match b.kind with
  | .vacuum => .ok 1
  | .constant _ y => .ok y
  | .variable t =>
    let x := tr.x / u.cm
    if x < first t.xs ∨ x > last t.xs then .ok 0 else t.interYe.eval x
  | .earth t R =>
    match tr.kind with
    | .earth bl => (earthDistance u R bl tr.x).bind fun r => clampedLookup t.xs t.ye t.interYe (r / R)
    | _ => .ub
  | .sun t R => (sunLookup t.xs t.ye t.interYe (tr.x / R)).map fun h => 0.5 * (1 + h)
  | .sunASnu t R =>
    match tr.kind with
    | .sunASnu _ bi => (sunLookup t.xs t.ye t.interYe (sunDistance R tr.x bi)).map fun h => 0.5 * (1 + h)
    | _ => .ub
  | .earthAtm t R _ ewa =>
    match tr.kind with
    | .earthAtm c _ _ L =>
      let r := atmDistance u R ewa c L tr.x
      atmLookup t.xs t.ye t.interYe R ewa r 0.494
    | _ => .ub

end Verif.Bodies
