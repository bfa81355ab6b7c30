import Verif.Body.Model
import Verif.Body.DefaultData

/-!
# The bodies made without naming a table (body.cpp 302, 448, 554, 682)

The numbers of the files are read as the decimals they are written as; the rounding to `double` is not modelled. `quickread` of
a file is in `Verif.Tools`.
-/

namespace Verif.Bodies

/-- The three columns of EARTH_MODEL_PREM.dat (body.cpp 314-317, 693-697). -/
noncomputable def premXs : List ℝ := premRows.map fun r => (r.1 : ℝ) / 10 ^ 21
noncomputable def premRho : List ℝ := premRows.map fun r => (r.2.1 : ℝ) / 10 ^ 19
noncomputable def premYe : List ℝ := premRows.map fun r => (r.2.2 : ℝ) / 10 ^ 19

/-- Columns 1, 3 and 6 of bs05_agsop.dat (body.cpp 463-467, 567-571). -/
noncomputable def sunXs : List ℝ := sunRows.map fun r => (r.1 : ℝ) / 10 ^ 5
noncomputable def sunRho : List ℝ := sunRows.map fun r => (r.2.1 : ℝ) / 10 ^ 7
noncomputable def sunXh : List ℝ := sunRows.map fun r => (r.2.2 : ℝ) / 10 ^ 5

/-- `Earth()` (body.cpp 302). -/
noncomputable def defaultEarth : Outcome Body := mkEarth premXs premRho premYe

/-- `EarthAtm()` (body.cpp 682). -/
noncomputable def defaultEarthAtm : Outcome Body := mkEarthAtm premXs premRho premYe

/-- `Sun()` (body.cpp 448). -/
noncomputable def defaultSun (u : Units) : Outcome Body := mkSun u sunXs sunRho sunXh

/-- `SunASnu()` (body.cpp 554): the constructor from a file. -/
noncomputable def defaultSunASnu (u : Units) : Outcome Body := mkSunASnuFile u sunXs sunRho sunXh

end Verif.Bodies
