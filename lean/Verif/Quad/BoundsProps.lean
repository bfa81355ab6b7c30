import Verif.Quad.Bounds

/-! # Property C78: averages lie between bounds of the averaged cross section -/

set_option linter.unusedSectionVars false

namespace Verif.Quad

variable {K : Type} [Field K] [LinearOrder K] [IsStrictOrderedRing K]

/-- C78: the average over a bin, with the edges in either order, lies between any non-negative bounds that the cross section has on the bin,
whichever of the four rules is used and however often the bin is subdivided. The upper bound holds up to the rounding of the decimal weights of
the 13-point rule, 2 parts in 10^16. -/
theorem c78_average_between (N : Nodes K) (hN : N.Valid) (eps : K) (he : 0 ≤ eps) (s : K) (hs : |s| ≤ 1) (sigma : K → K) (eMin eMax m M : K)
    (hm : 0 ≤ m) (hf : ∀ x, min eMin eMax ≤ x → x ≤ max eMin eMax → m ≤ sigma x ∧ sigma x ≤ M) (fuel : Nat) (v : K)
    (h : average N eps s sigma eMin eMax fuel = some (.ok v)) : m ≤ v ∧ v ≤ M * (1 + 2 / 10 ^ 16) := by
  rw [average, Option.map_eq_some_iff] at h
  obtain ⟨o, ho, hv⟩ := h
  cases o with
  | throws => cases hv
  | ub => cases hv
  | ok w =>
    rw [Outcome.bind_ok, fdiv] at hv
    split at hv
    · cases hv
    · rename_i hne
      cases hv
      have hab : eMin ≠ eMax := fun e => hne (by rw [e, sub_self])
      have hM : 0 ≤ M := hm.trans ((hf eMin (min_le_left _ _) (le_max_left _ _)).1.trans (hf eMin (min_le_left _ _) (le_max_left _ _)).2)
      have up : M ≤ M * (1 + 2 / 10 ^ 16) := by
        have : (0 : K) ≤ M * (2 / 10 ^ 16) := by positivity
        linarith
      have low : m ≤ m * (1 + 2 / 10 ^ 16) := by
        have : (0 : K) ≤ m * (2 / 10 ^ 16) := by positivity
        linarith
      rcases fastInt_between hN he hs sigma hab hf fuel ho with r | r
      · exact ⟨r.1, r.2.trans up⟩
      · exact ⟨low.trans r.1, r.2⟩

/-- C78 for the table class, also on an empty bin. -/
theorem c78_tables_between (N : Nodes K) (hN : N.Valid) (eps : K) (he : 0 ≤ eps) (s : K) (hs : |s| ≤ 1) (sigma : K → K) (eMin eMax m M : K)
    (hm : 0 ≤ m) (hf : ∀ x, min eMin eMax ≤ x → x ≤ max eMin eMax → m ≤ sigma x ∧ sigma x ≤ M) (fuel : Nat) (v : K)
    (h : averageTables N eps s sigma eMin eMax fuel = some (.ok v)) : m ≤ v ∧ v ≤ M * (1 + 2 / 10 ^ 16) := by
  have hsig := hf eMin (min_le_left _ _) (le_max_left _ _)
  have hM : 0 ≤ M := hm.trans (hsig.1.trans hsig.2)
  have up : M ≤ M * (1 + 2 / 10 ^ 16) := by
    have : (0 : K) ≤ M * (2 / 10 ^ 16) := by positivity
    linarith
  have hlo : (if eMin > eMax then eMax else eMin) = min eMin eMax := by
    split
    · rename_i hgt; rw [min_eq_right (le_of_lt hgt)]
    · rename_i hgt; rw [min_eq_left (not_lt.1 hgt)]
  have hhi : (if eMin > eMax then eMin else eMax) = max eMin eMax := by
    split
    · rename_i hgt; rw [max_eq_left (le_of_lt hgt)]
    · rename_i hgt; rw [max_eq_right (not_lt.1 hgt)]
  simp only [averageTables, hlo, hhi] at h
  split at h
  · cases h
    have := hf (max eMin eMax) min_le_max (le_refl _)
    exact ⟨this.1, this.2.trans up⟩
  · refine c78_average_between N hN eps he s hs sigma (min eMin eMax) (max eMin eMax) m M hm ?_ fuel v h
    intro x h1 h2
    rw [min_eq_left min_le_max] at h1
    rw [max_eq_right min_le_max] at h2
    exact hf x h1 h2

/-- C78: the average of a positive cross section is positive. -/
theorem c78_average_positive (N : Nodes K) (hN : N.Valid) (eps : K) (he : 0 ≤ eps) (s : K) (hs : |s| ≤ 1) (sigma : K → K) (eMin eMax : K)
    (hf : ∀ x, min eMin eMax ≤ x → x ≤ max eMin eMax → 0 < sigma x) (fuel : Nat) (v : K)
    (h : average N eps s sigma eMin eMax fuel = some (.ok v)) : 0 < v := by
  rw [average, Option.map_eq_some_iff] at h
  obtain ⟨o, ho, hv⟩ := h
  cases o with
  | throws => cases hv
  | ub => cases hv
  | ok w =>
    rw [Outcome.bind_ok, fdiv] at hv
    split at hv
    · cases hv
    · rename_i hne
      cases hv
      exact fastInt_pos hN he hs sigma (fun e => hne (by rw [e, sub_self])) hf fuel ho

/-- 1/(1+x^2) on [0,3] is between 1/10 and 1, and averaging it ends in the adaptive procedure. -/
example : (∀ x : Rat, min 0 3 ≤ x → x ≤ max 0 3 → (1 : Rat) / 10 ≤ 1 / (1 + x ^ 2) ∧ 1 / (1 + x ^ 2) ≤ 1) ∧
    (average ratNodes (1 / 2 ^ 52) (577 / 1000) (fun x : Rat => 1 / (1 + x ^ 2)) 0 3 10).map (Outcome.map fun v => decide (v < 1 / 2)) =
      some (.ok true) := by
  refine ⟨?_, by decide +kernel⟩
  intro x h0 h3
  rw [min_eq_left (by norm_num)] at h0
  rw [max_eq_right (by norm_num)] at h3
  have hx : 0 ≤ x ^ 2 := sq_nonneg x
  have hx' : x ^ 2 ≤ 9 := by nlinarith
  constructor
  · rw [div_le_div_iff₀ (by norm_num) (by linarith)]; linarith
  · rw [div_le_one (by linarith)]; linarith

end Verif.Quad
