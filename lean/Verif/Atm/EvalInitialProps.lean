import Verif.Atm.EvalProps

/-! C63 for evaluation. -/

namespace Verif.Atm

open Density

/-- C63, partial: if the flag is false both overloads of `EvalFlavor` throw. -/
theorem c63_evaluation_partial {n : Nat} (a : Obj n) (h : a.iinistate = some false) (averaged : Mat n → ℝ → Mat n → Mat n) (height : ℝ)
    (flv : Nat) (costh enu : ℝ) (rho : Nat) :
    evalFlavor a height flv costh enu rho = .throws ∧ evalFlavorAveraged a averaged flv costh enu rho = .throws := by
  unfold evalFlavor evalFlavorAveraged evalWith
  rw [h]
  exact ⟨rfl, rfl⟩

/-- Two zeniths with the flag as given. -/
noncomputable def flaggedSky (found : Option Bool) : Obj 3 :=
  { demoSky 2 3 (demoNode 0 3 true fun _ => 0) (demoNode 0 3 true fun _ => 0) with iinistate := found }

example : evalFlavor (flaggedSky (some false)) 0 0 0 1 0 = .throws := (c63_evaluation_partial _ rfl (fun _ _ P => P) 0 0 0 1 0).1

/-- C63 fails: with the flag not set `EvalFlavor` reads a member without a value, whatever it is asked; if that happens to be true it
returns a number. -/
theorem c63_evaluates_violated :
    (∀ (a : Obj 3) (height : ℝ) (flv : Nat) (costh enu : ℝ) (rho : Nat), a.iinistate = none → evalFlavor a height flv costh enu rho = .ub) ∧
    (flaggedSky none).iinistate = none ∧ ∃ v, evalFlavor (flaggedSky (some true)) 0 0 0 1 0 = .ok v := by
  refine ⟨?_, rfl, ?_⟩
  · intro a height flv costh enu rho h
    unfold evalFlavor evalWith
    rw [h]
  · have hr : Ready (flaggedSky (some true)) 1 := demo_ready 2 3 0 0 3 true true _ _ (by norm_num)
    obtain ⟨_, _, _, _, _, _, _, _, _, _, _, _, _, _, _, _, _, _, _, _, _, _, _, _, hv⟩ :=
      eval_inside _ 1 hr evolve 0 0 0 1 0 Nat.zero_lt_one Nat.zero_lt_two (by constructor <;> simp [flaggedSky, demoSky])
        (by constructor <;> simp [flaggedSky, demoSky])
    exact ⟨_, hv⟩

end Verif.Atm
