import Verif.Example.Cross
import Mathlib.Analysis.SpecialFunctions.Integrals.Basic
import Mathlib.Tactic.FieldSimp

/-!
# C89: the example cross sections are normalised
-/

namespace Verif.Example

open MeasureTheory intervalIntegral

/-- C89: the total cross section exists for both currents, is not negative, grows linearly, and its sum over the currents does not depend on how it is
shared. -/
theorem c89_total (GeV ratio : ℝ) (h0 : 0 ≤ ratio) (h1 : ratio ≤ 1) : ∃ c, Linear.make GeV ratio = .ok c ∧ ∃ s : ℝ, 0 < s ∧
    (∀ E, c.total E .CC = .ok (s * (1 - ratio) * E)) ∧ (∀ E, c.total E .NC = .ok (s * ratio * E)) ∧ ∀ E, c.total E .GR = .throws := by
  refine ⟨⟨GeV, 1.16639e-23, 938.272e6, ratio⟩, if_pos ⟨h1, h0⟩, 1e-7 * 2.0 * 1.16639e-23 * 1.16639e-23 * 938.272e6, by norm_num, ?_, ?_, fun _ => rfl⟩
  · intro E
    unfold Linear.total
    rw [if_pos rfl]
    congr 1
    dsimp only
    generalize (1e-7 : ℝ) = a, (2.0 : ℝ) = b, (1.16639e-23 : ℝ) = g, (938.272e6 : ℝ) = m
    ring
  · intro E
    unfold Linear.total
    rw [if_neg (by decide), if_pos rfl]
    congr 1
    dsimp only
    generalize (1e-7 : ℝ) = a, (2.0 : ℝ) = b, (1.16639e-23 : ℝ) = g, (938.272e6 : ℝ) = m
    ring

example : Linear.make 1 2 = .ub := if_neg (by norm_num)

/-- C89: the differential cross section is zero outside of the outgoing energies that are possible and not negative inside; its integral over the outgoing
energy, in GeV, is the total, and the mean outgoing energy is two thirds of the incoming one. -/
theorem c89_normalised (GeV ratio : ℝ) (hG : 0 < GeV) (h0 : 0 ≤ ratio) (h1 : ratio ≤ 1) (E : ℝ) (hE : 0 < E) (cur : Current) (hc : cur ≠ .GR) :
    ∃ c t, Linear.make GeV ratio = .ok c ∧ c.total E cur = .ok t ∧ 0 ≤ t ∧ ∃ f : ℝ → ℝ, (∀ E2, c.single E E2 cur = .ok (f E2)) ∧
      (∀ E2, 0 ≤ f E2) ∧ (∀ E2, E2 < 0 ∨ E < E2 → f E2 = 0) ∧
      ∫ x in (0 : ℝ)..E, f x / GeV = t ∧ ∫ x in (0 : ℝ)..E, x * (f x / GeV) = 2 / 3 * E * t := by
  obtain ⟨c, hm, s, hs, hcc, hnc, -⟩ := c89_total GeV ratio h0 h1
  have hg : c.GeV = GeV := by
    unfold Linear.make at hm
    rw [if_pos ⟨h1, h0⟩] at hm
    cases hm
    rfl
  obtain ⟨t, ht, htn⟩ : ∃ t, c.total E cur = .ok t ∧ 0 ≤ t := by
    cases cur with
    | GR => exact absurd rfl hc
    | CC => exact ⟨_, hcc E, mul_nonneg (mul_nonneg hs.le (by linarith)) hE.le⟩
    | NC => exact ⟨_, hnc E, mul_nonneg (mul_nonneg hs.le h0) hE.le⟩
  have hin : ∀ x ∈ Set.uIcc 0 E, (if x > E then (0 : ℝ) else if x < 0 then 0 else t / (E / GeV) * (2 * x / E)) / GeV = 2 * t / E ^ 2 * x := by
    intro x hx
    rw [Set.uIcc_of_le hE.le] at hx
    rw [if_neg (not_lt.2 hx.2), if_neg (not_lt.2 hx.1)]
    field_simp
  refine ⟨c, t, hm, ht, htn, fun x => if x > E then 0 else if x < 0 then 0 else t / (E / GeV) * (2 * x / E), ?_, ?_, ?_, ?_, ?_⟩
  · intro x
    unfold Linear.single
    by_cases a : x > E
    · simp [a]
    · by_cases b : x < 0
      · simp [a, b]
      · rw [if_neg a, if_neg b, if_neg hE.ne', ht, hg]
        simp [a, b]
  · intro x
    dsimp only
    split
    · exact le_rfl
    · split
      · exact le_rfl
      · have : 0 ≤ x := by linarith
        positivity
  · intro x hx
    dsimp only
    rcases hx with hx | hx
    · rw [if_neg (by linarith), if_pos hx]
    · rw [if_pos hx]
  · rw [integral_congr hin, intervalIntegral.integral_const_mul, integral_id]
    field_simp
    ring
  · rw [integral_congr (g := fun x => 2 * t / E ^ 2 * x ^ 2) (by
      intro x hx
      dsimp only
      rw [hin x hx]
      ring), intervalIntegral.integral_const_mul, integral_pow]
    field_simp
    norm_num

example : ∃ c, Linear.make 1e9 0.25 = .ok c := (c89_total 1e9 0.25 (by norm_num) (by norm_num)).imp fun _ h => h.1

end Verif.Example
