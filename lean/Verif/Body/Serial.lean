import Verif.Body.Model

/-!
# Model of body and track serialisation (`/repo/src/body.cpp`)

An HDF5 group is a set of named attributes and a set of named one-dimensional datasets. Groups are created empty by the
caller (nuSQuIDS.cpp 1813-1819). Writing a name that exists fails without effect (the return values are not checked).
-/

namespace Verif.Bodies

/-- Attribute values. -/
inductive Attr where
  | str (s : String)
  | num (v : ℝ)
  | uint (n : Nat)

structure Group where
  attrs : List (String × Attr)
  dsets : List (String × List ℝ)

def Group.empty : Group := ⟨[], []⟩

/-- `addStringAttribute`, `addDoubleAttribute`, `addUIntAttribute`, `addH5Attribute` (body.cpp 53-107, tools.h 384-395). -/
def Group.add (g : Group) (name : String) (v : Attr) : Group :=
  if (g.attrs.lookup name).isSome then g else { g with attrs := g.attrs ++ [(name, v)] }

/-- `H5LTmake_dataset_double`. -/
def Group.addArr (g : Group) (name : String) (v : List ℝ) : Group :=
  if (g.dsets.lookup name).isSome then g else { g with dsets := g.dsets ++ [(name, v)] }

/-- `readDoubleAttribute` (body.cpp 90-98), `readH5Attribute<double>` (tools.h 398-418): throws if missing. -/
def Group.num (g : Group) (name : String) : Outcome ℝ :=
  match g.attrs.lookup name with
  | some (.num v) => .ok v
  | _ => .throws

/-- `H5Aexists(group,name)` then `readH5Attribute` over a default (body.cpp 727-730, 757-760). -/
def Group.numOr (g : Group) (name : String) (dflt : ℝ) : Outcome ℝ :=
  match g.attrs.lookup name with
  | none => .ok dflt
  | some (.num v) => .ok v
  | _ => .throws

/-- `readUIntAttribute` (body.cpp 109-117). -/
def Group.uint (g : Group) (name : String) : Outcome Nat :=
  match g.attrs.lookup name with
  | some (.uint n) => .ok n
  | _ => .throws

/-- `H5LTread_dataset_double` into a zero-initialised vector of `n` entries: a missing dataset leaves the zeros (the return value
is not checked), a longer one overruns the vector. -/
def Group.arr (g : Group) (name : String) (n : Nat) : Outcome (List ℝ) :=
  match g.dsets.lookup name with
  | none => .ok (List.replicate n 0)
  | some l => if l.length ≤ n then .ok (l ++ List.replicate (n - l.length) 0) else .ub

/-- The registered body name (`GetName`, body.h 179, 236, 312, 413, 516, 624, 739). -/
def Kind.name : Kind → String
  | .vacuum => "Vacuum"
  | .constant .. => "ConstantDensity"
  | .variable _ => "VariableDensity"
  | .earth .. => "Earth"
  | .sun .. => "Sun"
  | .sunASnu .. => "SunASnu"
  | .earthAtm .. => "EarthAtm"

/-- The three columns and their number, under the names of the class. -/
def Group.addTab (g : Group) (t : Tab) (nx nr ny : String) : Group :=
  (((g.add "arraysize" (.uint t.xs.length)).addArr nx t.xs).addArr nr t.rho).addArr ny t.ye

/-- `*::Serialize` (body.cpp 138, 175, 240, 352, 481, 609, 736). `arraysize` is the number of abscissas. -/
def Body.serialize (b : Body) : Group :=
  let g := Group.empty.add "name" (.str b.kind.name)
  match b.kind with
  | .vacuum => g
  | .constant rho ye => (g.add "constant_density" (.num rho)).add "constant_ye" (.num ye)
  | .variable t => g.addTab t "x_arr" "density_arr" "ye_arr"
  | .earth t _ => g.addTab t "earth_radius" "earth_density" "earth_ye"
  | .sun t _ => g.addTab t "sun_radius" "sun_density" "sun_xh"
  | .sunASnu t _ => g.addTab t "sun_radius" "sun_density" "sun_xh"
  | .earthAtm t r h _ =>
    ((g.addTab t "earth_radius" "earth_density" "earth_ye").add "radius" (.num r)).add "atm_height" (.num h)

/-- Reading the three columns (for instance body.cpp 250-254). -/
def Group.readTab (g : Group) (nx nr ny : String) : Outcome (List ℝ × List ℝ × List ℝ) :=
  (g.uint "arraysize").bind fun n => (g.arr nx n).bind fun x => (g.arr nr n).bind fun r => (g.arr ny n).bind fun y =>
    .ok (x, r, y)

/-- `*::Deserialize` selected by the name of the class (body.cpp 142, 181, 249, 361, 489, 618, 747 through the registry
923-928); an unknown name throws. -/
noncomputable def deserializeBody (u : Units) (name : String) (g : Group) : Outcome Body :=
  match name with
  | "Vacuum" => .ok mkVacuum
  | "ConstantDensity" =>
    (g.num "constant_density").bind fun r => (g.num "constant_ye").bind fun y => .ok (mkConstant r y)
  | "VariableDensity" => (g.readTab "x_arr" "density_arr" "ye_arr").bind fun (x, r, y) => mkVariable x r y
  | "Earth" => (g.readTab "earth_radius" "earth_density" "earth_ye").bind fun (x, r, y) => mkEarth x r y
  | "Sun" => (g.readTab "sun_radius" "sun_density" "sun_xh").bind fun (x, r, y) => mkSun u x r y
  | "SunASnu" => (g.readTab "sun_radius" "sun_density" "sun_xh").bind fun (x, r, y) => mkSunASnu u x r y
  | "EarthAtm" =>
    (g.readTab "earth_radius" "earth_density" "earth_ye").bind fun (x, r, y) =>
      (g.numOr "radius" 6371).bind fun radius => (g.numOr "atm_height" 22).bind fun h =>
        (mkEarthAtm x r y).map fun b =>
          match b.kind with
          | .earthAtm t _ h0 ewa => ({ b with kind := .earthAtm t radius h0 ewa } : Body).setAtmosphereHeight h
          | _ => b
  | _ => .throws

/-! ## Tracks -/

/-- The registered track name (body.h 174, 230, 306, 407, 509, 617, 734). -/
def TrackKind.name : TrackKind → String
  | .plain n => n
  | .earth _ => "EarthTrack"
  | .sunASnu .. => "SunASnuTrack"
  | .earthAtm .. => "EarthAtmTrack"

/-- `*::Track::Serialize` (body.cpp 146, 189, 279, 421, 533, 595, 709). -/
def Track.serialize (t : Track) : Group :=
  let g := (((Group.empty.add "name" (.str t.kind.name)).add "x" (.num t.x)).add "xini" (.num t.xini)).add "xend"
    (.num t.xend)
  match t.kind with
  | .plain _ => g
  | .earth b => g.add "baseline" (.num b)
  | .sunASnu .. => g
  | .earthAtm c R h _ => ((g.add "cosphi" (.num c)).add "earth_radius" (.num R)).add "atmheight" (.num h)

/-- The four names whose tracks have no members of their own. -/
def plainNames : List String := ["VacuumTrack", "ConstantDensityTrack", "VariableDensityTrack", "SunTrack"]

/-- `*::Track::Deserialize` selected by name (body.cpp 153, 196, 286, 429, 540, 602, 719 through the registry 930-935). -/
noncomputable def deserializeTrack (u : Units) (name : String) (g : Group) : Outcome Track :=
  if name ∈ plainNames then
    (g.num "x").bind fun x => (g.num "xini").bind fun xi => (g.num "xend").bind fun xe => .ok (mkPlainTrack name x xi xe)
  else if name = "EarthTrack" then
    (g.num "x").bind fun x => (g.num "xini").bind fun xi => (g.num "xend").bind fun xe =>
      (g.num "baseline").bind fun b => .ok (mkEarthTrack x xi xe b)
  else if name = "SunASnuTrack" then
    (g.num "x").bind fun x => (g.num "xini").bind fun xi => (g.num "xend").bind fun xe => .ok (mkSunASnuTrack u x xi xe)
  else if name = "EarthAtmTrack" then
    (g.num "x").bind fun x => (g.num "cosphi").bind fun c =>
      (g.numOr "earth_radius" (6371 * u.km)).bind fun R => (g.numOr "atmheight" (22 * u.km)).bind fun h =>
        .ok ((mkAtmTrackCosine u c R h).setX x)
  else .throws

/-! ## Registry -/

/-- The registries (body.cpp 907-908): null, or a map; kept as an association list. -/
abbrev Registry (α : Type) := Option (List (String × α))

/-- `registerBody`, `registerTrack` (body.cpp 911-920): create the map if needed; `std::map::insert` keeps an existing entry. -/
def Registry.register {α : Type} (r : Registry α) (name : String) (f : α) : Registry α :=
  let m := match r with | none => [] | some m => m
  if (m.lookup name).isSome then some m else some (m ++ [(name, f)])

/-- `GetBodyDeserializer`, `GetTrackDeserializer` (body.cpp 923-935): throw on an unknown name; dereference the null pointer if
nothing was ever registered. -/
def Registry.get {α : Type} (r : Registry α) (name : String) : Outcome α :=
  match r with
  | none => .ub
  | some m => match m.lookup name with
    | some f => .ok f
    | none => .throws

end Verif.Bodies
