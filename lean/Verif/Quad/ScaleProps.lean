import Verif.Quad.Scale
import Verif.Quad.BoundsProps

/-! # Property C79: averages do not depend on the units -/

set_option linter.unusedSectionVars false

namespace Verif.Quad

variable {K : Type} [Field K] [LinearOrder K] [IsStrictOrderedRing K]

theorem average_units {k c : K} (hk : 0 < k) (hc : 0 < c) {N : Nodes K} (hN : N.Valid) {eps : K} (he : 0 ≤ eps) {s : K} (hs : |s| ≤ 1)
    (f : K → K) {a b : K} (h : k = 1 ∨ ∀ x, min a b ≤ x → x ≤ max a b → 0 ≤ f x) (fuel : Nat) :
    average N eps s (fun x => k * f (x / c)) (c * a) (c * b) fuel = (average N eps s f a b fuel).map (Outcome.map (k * ·)) := by
  have := fastInt_sc hk hc hN he hs f (tol := 1 / 1000) (by norm_num) h fuel
  unfold average
  rw [show (fun x => k * f (x / c)) = inUnits k c f from rfl, this, Option.map_map, Option.map_map]
  congr 1
  funext o
  cases o with
  | ok v =>
    simp only [Function.comp, Outcome.map, Outcome.bind_ok, fdiv]
    rw [← mul_sub]
    by_cases hz : b - a = 0
    · rw [if_pos (by rw [hz, mul_zero]), if_pos hz]
    · rw [if_neg (mul_ne_zero hc.ne' hz), if_neg hz]
      simp only
      congr 1
      rw [mul_assoc, mul_div_assoc, mul_div_mul_left _ _ hc.ne']
  | throws => rfl
  | ub => rfl

/-- C79: in other units of energy the average is the same, for every cross section. -/
theorem c79_energy_units (N : Nodes K) (hN : N.Valid) (eps : K) (he : 0 ≤ eps) (s : K) (hs : |s| ≤ 1) (sigma : K → K) (eMin eMax c : K)
    (hc : 0 < c) (fuel : Nat) :
    average N eps s (fun x => sigma (x / c)) (c * eMin) (c * eMax) fuel = average N eps s sigma eMin eMax fuel := by
  have := average_units (k := 1) one_pos hc hN he hs sigma (a := eMin) (b := eMax) (Or.inl rfl) fuel
  simp only [one_mul] at this
  rw [this]
  have e : (Outcome.map fun x : K => x) = id := by funext o; cases o <;> rfl
  rw [e, Option.map_id]
  rfl

/-- C79: in other units of the cross section the average of a non-negative cross section is the same number in those units. -/
theorem c79_cross_section_units (N : Nodes K) (hN : N.Valid) (eps : K) (he : 0 ≤ eps) (s : K) (hs : |s| ≤ 1) (sigma : K → K) (eMin eMax k : K)
    (hk : 0 < k) (hf : ∀ x, min eMin eMax ≤ x → x ≤ max eMin eMax → 0 ≤ sigma x) (fuel : Nat) :
    average N eps s (fun x => k * sigma x) eMin eMax fuel = (average N eps s sigma eMin eMax fuel).map (Outcome.map (k * ·)) := by
  have := average_units (c := 1) hk one_pos hN he hs sigma (a := eMin) (b := eMax) (Or.inr hf) fuel
  simp only [div_one, one_mul] at this
  exact this

/-- 1/(1+x^2) with the energies in units ten times smaller and the values in units a thousand times smaller. -/
example : (∀ x : Rat, min 0 3 ≤ x → x ≤ max 0 3 → 0 ≤ 1 / (1 + x ^ 2)) ∧
    (average ratNodes (1 / 2 ^ 52) (577 / 1000) (fun x : Rat => 1 / (1 + (x / 10) ^ 2)) 0 30 10).map (Outcome.map fun v => decide (v < 1 / 2)) =
      some (.ok true) :=
  ⟨fun x _ _ => div_nonneg one_pos.le (add_nonneg one_pos.le (sq_nonneg x)), by decide +kernel⟩

end Verif.Quad
