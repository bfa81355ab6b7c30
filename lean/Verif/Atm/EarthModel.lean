import Verif.Body.GeometryProps

/-!
# The Earth of an atmospheric object (include/nuSQuIDS/nuSQuIDS.h 1102-1141, 1894-1899)

`nuSQUIDSAtm` makes an `EarthAtm` and one track per cosine when it is constructed. `Set_EarthModel` replaces the Earth in the object and in
all nodes. The Earth is shared, so that a call of `SetAtmosphereHeight` by whoever holds it is seen by all nodes.
-/

namespace Verif.Atm

open Bodies (Units Body Track Tab)

/-! ## Model -/

/-- `earth_atm`, `costh_array`, and body and track of each node of `nusq_array`. -/
structure Globe where
  earth : Body
  costh : List ℝ
  nodes : List (Body × Track)

/-- The constructor (1134-1142) for the Earth `b` that `std::make_shared<EarthAtm>()` gives; `none` cannot happen for an `EarthAtm`. -/
noncomputable def Globe.make (u : Units) (b : Body) (costh : List ℝ) : Option Globe :=
  (costh.mapM (b.makeTrackWithCosine u)).map fun tracks => ⟨b, costh, tracks.map fun t => (b, t)⟩

/-- `Set_EarthModel` (1894-1899). -/
def Globe.setEarthModel (g : Globe) (b : Body) : Globe := { g with earth := b, nodes := g.nodes.map fun p => (b, p.2) }

/-- `EarthAtm::SetAtmosphereHeight` (body.cpp 900-903) called on the Earth the object holds. -/
noncomputable def Globe.setAtmosphereHeight (g : Globe) (h : ℝ) : Globe :=
  { g with earth := g.earth.setAtmosphereHeight h, nodes := g.nodes.map fun p => (p.1.setAtmosphereHeight h, p.2) }

/-- The calls that change the Earth. -/
inductive EarthOp where
  | model (b : Body)
  | height (h : ℝ)

noncomputable def Globe.step (g : Globe) : EarthOp → Globe
  | .model b => g.setEarthModel b
  | .height h => g.setAtmosphereHeight h

noncomputable def Globe.run (g : Globe) (ops : List EarthOp) : Globe := ops.foldl Globe.step g

/-! ## Specification -/

/-- The distance from the centre of the Earth, in km, that `density` and `ye` find at the position `x` of a track. -/
noncomputable def distanceAt (u : Units) (b : Body) (t : Track) (x : ℝ) : Option ℝ :=
  match b.kind, t.kind with
  | .earthAtm _ R _ ewa, .earthAtm c _ _ L => some (Bodies.atmDistance u R ewa c L x)
  | _, _ => none

/-- An `EarthAtm` whose atmosphere has height `h`, as the constructors and `SetAtmosphereHeight` leave it. -/
def HasHeight (b : Body) (h : ℝ) : Prop := ∃ t, b.kind = .earthAtm t 6371 h (6371 + h)

/-- Neutrinos of the node start at the top of the atmosphere of the node's Earth. -/
def FromTheTop (u : Units) (p : Body × Track) : Prop := ∀ h, HasHeight p.1 h → distanceAt u p.1 p.2 p.2.xini = some (6371 + h)

/-- Neutrinos of the node end at the surface. -/
def ToTheSurface (u : Units) (p : Body × Track) : Prop := distanceAt u p.1 p.2 p.2.xend = some 6371

end Verif.Atm
