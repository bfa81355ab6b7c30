import Verif.Density.EvolProps

/-!
# Evaluation with averaged fast oscillations (nuSQuIDS.cpp 1480-1508, 1530-1564)

Assumed of SQuIDS: `GetExpectationValue(op,rho,ei,scale,avr)` and `GetExpectationValueD(op,rho,E,scale,avr)` evolve the operator with the
diagonal Hamiltonian `H0` like the versions without `scale`, except that the components belonging to a pair of levels whose phase
difference exceeds `scale` in size are set to zero; which pairs were averaged is reported in `avr`. `GetIntermediateState(rho,E)` is the
state interpolated between nodes; it is a parameter here.
-/

namespace Verif.Density

open Matrix
open Matter (NT)

variable {n : Nat}

/-- The phase by which levels `i` and `j` of `H` differ after a time `t`. -/
def phaseDifference (H : Mat n) (t : ℝ) (i j : Fin n) : ℝ := ((H i i).re - (H j j).re) * t

/-- `op.Evolve(buffer)` with `PrepareEvolve(buffer,t,scale,avr)`. -/
noncomputable def averagedEvolve (H : Mat n) (t scale : ℝ) (A : Mat n) : Mat n :=
  Matrix.of fun i j => if i ≠ j ∧ scale < |phaseDifference H t i j| then 0 else evolve H t A i j

/-- `SQuIDS::GetExpectationValueD(op,rho,E,scale,avr)`; `A` is the intermediate state. -/
noncomputable def expectationAveraged (o : Obj n) (A op : Mat n) (E scale : ℝ) : ℝ :=
  dot A (averagedEvolve (h0 o E) (o.t - o.tini) scale op)

/-- The energy is outside the range of nodes. -/
def outside (o : Obj n) (E : ℝ) : Prop := E < o.energies 0 ∨ o.energies (o.ne - 1) < E

open Classical in
/-- `EvalFlavor(flv,EE,rho,scale,avr)` (1495-1508); `avrLen` is `avr.size()` and `inter` is `GetIntermediateState`. -/
noncomputable def evalFlavorAveraged (o : Obj n) (inter : Nat → ℝ → Mat n) (flv : Fin n) (E : ℝ) (rho : Nat) (scale : ℝ) (avrLen : Nat) :
    Outcome ℝ :=
  if o.ienergy = false then .throws
  else if rho ≠ 0 ∧ o.nt ≠ .both then .throws
  else if outside o E then .throws
  else if avrLen ≠ n then .throws
  else if o.basis = .mass then .ok (dot (o.b1 rho flv) (inter rho E))
  else .ok (expectationAveraged o (inter rho E) (o.b1 rho flv) E scale)

open Classical in
/-- `EvalMass(flv,EE,rho,scale,avr)` (1480-1493). -/
noncomputable def evalMassAveraged (o : Obj n) (inter : Nat → ℝ → Mat n) (flv : Fin n) (E : ℝ) (rho : Nat) (scale : ℝ) (avrLen : Nat) :
    Outcome ℝ :=
  if o.ienergy = false then .throws
  else if rho ≠ 0 ∧ o.nt ≠ .both then .throws
  else if outside o E then .throws
  else if avrLen ≠ n then .throws
  else if o.basis = .mass then .ok (dot (o.b0 flv) (inter rho E))
  else .ok (expectationAveraged o (inter rho E) (o.b0 flv) E scale)

/-- `EvalFlavor(flv,scale,avr)` (1547-1564) on an initialised object. -/
noncomputable def evalFlavorAveraged1 (o : Obj n) (flv : Fin n) (scale : ℝ) : Outcome ℝ :=
  if o.ienergy = false then .throws
  else if o.ne ≠ 1 then .throws
  else if o.basis = .mass then .ok (dot (o.b1 0 flv) (o.state 0 0))
  else if o.full then .ok (dot (o.evolB1 0 flv 0) (o.state 0 0))
  else .ok (expectationAveraged o (o.state 0 0) (o.b1 0 flv) (o.energies 0) scale)

/-- `EvalMass(flv,scale,avr)` (1530-1545) on an initialised object. -/
noncomputable def evalMassAveraged1 (o : Obj n) (flv : Fin n) (scale : ℝ) : Outcome ℝ :=
  if o.ienergy = false then .throws
  else if o.ne ≠ 1 then .throws
  else if o.basis = .mass then .ok (dot (o.b0 flv) (o.state 0 0))
  else .ok (expectationAveraged o (o.state 0 0) (o.b0 flv) (o.energies 0) scale)

end Verif.Density
