import Verif.Density.Average

/-!
# Flavour ratios from far away

`examples/Astrophysical_neutrino_flavor_ratio/main.cpp`. The state is set, evolved and read with the functions modelled elsewhere; here is what the
example adds, the averaged ratio from the mixing matrix. `GetTransformationMatrix` of SQuIDS is assumed to be the matrix of the mass components
of the flavour states, flavours being rows.
-/

namespace Verif.Density

variable {n : Nat}

/-- The loops of 159-165 for one final flavour; `pmns` is what `GetTransformationMatrix` returns (148), `ini` the initial contents (86). -/
noncomputable def flavourRatio (pmns : Mat n) (ini : Fin n → ℝ) (flvFinal : Fin n) : ℝ :=
  (List.finRange n).foldl (fun s imass =>
    (List.finRange n).foldl (fun s flvIni =>
      s + Complex.normSq (pmns flvFinal imass) * Complex.normSq (pmns flvIni imass) * ini flvIni) s) 0

end Verif.Density
