import Verif.Body.Model

/-!
# The Earth with rescaled layers of examples/Bodies (exBody.h, exBody.cpp)

A file is its table of radii, densities and electron fractions; `prem` is the default one. Reading files is C28.
-/

namespace Verif.Example

open Verif.Bodies

abbrev Rows := List (ℝ × ℝ × ℝ)

/-- The members of `EarthAtm` that matter; `arraysize` is the member of the base class. -/
structure EarthMod where
  arraysize : Nat
  tab : Tab
  radius : ℝ
  atmHeight : ℝ
  earthWithAtmRadius : ℝ

/-- The factor of row `i` (exBody.cpp 23-29 and 62-68). -/
noncomputable def factor (f1 f2 f3 : ℝ) (i : Nat) : ℝ :=
  if i < 39 then f1
  else if i ≥ 39 ∧ i < 110 then f2
  else if i ≥ 110 ∧ i < 201 then f3
  else 1

/-- The loop over the rows and the splines (exBody.cpp 15-44 and 55-83); the local `arraysize` hides the member. The first and last entries are read,
which is undefined for an empty table. -/
noncomputable def fill (rows : Rows) (f1 f2 f3 : ℝ) : Outcome Tab :=
  let rad := (List.range rows.length).map fun i => (rows.getD i (0, 0, 0)).1
  let rho := (List.range rows.length).map fun i => factor f1 f2 f3 i * (rows.getD i (0, 0, 0)).2.1
  let ye := (List.range rows.length).map fun i => (rows.getD i (0, 0, 0)).2.2
  if rows.length = 0 then .ub else Tab.make rad rho ye

/-- The constructor of the base class without arguments (body.cpp 682 and 848-876). -/
noncomputable def baseMake (prem : Rows) : Outcome EarthMod :=
  if prem.length = 0 then .ub
  else (Tab.make (prem.map fun r => r.1) (prem.map fun r => r.2.1) (prem.map fun r => r.2.2)).map fun t => ⟨prem.length, t, 6371, 22, 6371 + 22⟩

/-- The constructor (exBody.cpp 47-84). -/
noncomputable def EarthMod.make (prem rows : Rows) (f1 f2 f3 : ℝ) : Outcome EarthMod :=
  (baseMake prem).bind fun e => (fill rows f1 f2 f3).map fun t => { e with tab := t, atmHeight := 20, radius := 6371, earthWithAtmRadius := 6371 + 20 }

/-- `Mod` (exBody.cpp 15-45): always reads the default file. -/
noncomputable def EarthMod.mod (e : EarthMod) (prem : Rows) (f1 f2 f3 : ℝ) : Outcome EarthMod :=
  (fill prem f1 f2 f3).map fun t => { e with tab := t }

/-- What `EarthAtm::Serialize` (body.cpp 736-745) writes: `arraysize` numbers of each column, wherever the columns end. -/
def EarthMod.serialize (e : EarthMod) : Outcome (List ℝ × List ℝ × List ℝ) :=
  if e.arraysize ≤ e.tab.xs.length ∧ e.arraysize ≤ e.tab.rho.length ∧ e.arraysize ≤ e.tab.ye.length then
    .ok (e.tab.xs.take e.arraysize, e.tab.rho.take e.arraysize, e.tab.ye.take e.arraysize)
  else .ub

end Verif.Example
