import Verif.Quad.Ends

/-!
# C91: adaptive quadrature always ends; C92: it reports its quality truthfully
-/

set_option linter.unusedSectionVars false

namespace Verif.Quad

variable {K : Type} [Field K] [LinearOrder K] [IsStrictOrderedRing K]

/-! ## C91 -/

/-- C91: an integrand that is bounded between the limits is integrated, or refused, in finitely many turns of the refinement loop, whatever the limits, the
tolerance and the endpoint values supplied; more turns do not change the outcome. -/
theorem c91_bounded [Archimedean K] (N : Nodes K) (hN : N.Valid) (eps : K) (he : 0 < eps) (f : K → K) (a b tol B : K)
    (hf : ∀ x, min a b ≤ x → x ≤ max a b → |f x| ≤ B) (ofa ofb : Option K) :
    ∃ n o, ∀ fuel, n ≤ fuel → integrate N eps f a b tol ofa ofb fuel = some o := by
  suffices ∃ n o, integrate N eps f a b tol ofa ofb n = some o by
    obtain ⟨n, o, h⟩ := this
    exact ⟨n, o, fun fuel hl => integrate_mono N eps f a b tol ofa ofb hl h⟩
  have ord : ∀ a b, a ≤ b → (∀ x, a ≤ x → x ≤ b → |f x| ≤ B) → eps ≤ tol → ∃ n o, integrateOrdered N eps f a b tol ofa ofb n = some o := by
    intro a b hab hf ht
    have hf' : ∀ x, a ≤ x → x ≤ b → |f x| ≤ max B (max |ofa.getD (f a)| |ofb.getD (f b)|) := fun x h1 h2 => le_max_of_le_left (hf x h1 h2)
    obtain ⟨n, hn⟩ := ordered_ends hN he.le f (lt_of_lt_of_le he ht) ofa ofb hf' (le_max_of_le_right (le_max_left _ _))
      (le_max_of_le_right (le_max_right _ _)) (small_bounded hN eps hf')
    obtain ⟨o, ho⟩ := hn n le_rfl
    exact ⟨n, o, ho⟩
  unfold integrate
  by_cases ht : tol < eps
  · exact ⟨0, .throws, if_pos ht⟩
  · by_cases hab : a > b
    · obtain ⟨n, o, h⟩ := ord b a hab.le (by rwa [min_eq_right hab.le, max_eq_left hab.le] at hf) (not_lt.1 ht)
      refine ⟨n, ?_⟩
      rw [if_neg ht, if_pos hab, h]
      exact ⟨_, rfl⟩
    · obtain ⟨n, o, h⟩ := ord a b (not_lt.1 hab) (by rwa [min_eq_left (not_lt.1 hab), max_eq_right (not_lt.1 hab)] at hf) (not_lt.1 ht)
      exact ⟨n, o, by rw [if_neg ht, if_neg hab, h]⟩

example : ∀ x : Rat, min 0 1 ≤ x → x ≤ max 0 1 → |if x = 1 / 3 then 7 else x| ≤ 7 := by
  intro x h1 h2
  rw [min_eq_left (by norm_num)] at h1
  rw [max_eq_right (by norm_num)] at h2
  split
  · norm_num
  · rw [abs_le]; constructor <;> linarith

/-- C91: any integrand whatever is integrated, or refused, in finitely many turns if the range does not touch zero. -/
theorem c91_away_from_zero [Archimedean K] (N : Nodes K) (hN : N.Valid) (eps : K) (he : 0 < eps) (f : K → K) (a b tol : K)
    (h0 : 0 < min a b ∨ max a b < 0) (ofa ofb : Option K) :
    ∃ n o, ∀ fuel, n ≤ fuel → integrate N eps f a b tol ofa ofb fuel = some o := by
  suffices ∃ n o, integrate N eps f a b tol ofa ofb n = some o by
    obtain ⟨n, o, h⟩ := this
    exact ⟨n, o, fun fuel hl => integrate_mono N eps f a b tol ofa ofb hl h⟩
  have ord : ∀ a b, 0 < a ∨ b < 0 → eps ≤ tol → ∃ n o, integrateOrdered N eps f a b tol ofa ofb n = some o := by
    intro a b h0 ht
    obtain ⟨n, hn⟩ := ordered_ends hN he.le f (lt_of_lt_of_le he ht) ofa ofb (P := fun _ => True) (fun _ _ _ => trivial) trivial trivial
      (fun t _ => small_away he h0 t)
    obtain ⟨o, ho⟩ := hn n le_rfl
    exact ⟨n, o, ho⟩
  unfold integrate
  by_cases ht : tol < eps
  · exact ⟨0, .throws, if_pos ht⟩
  · by_cases hab : a > b
    · obtain ⟨n, o, h⟩ := ord b a (by rwa [min_eq_right hab.le, max_eq_left hab.le] at h0) (not_lt.1 ht)
      refine ⟨n, ?_⟩
      rw [if_neg ht, if_pos hab, h]
      exact ⟨_, rfl⟩
    · obtain ⟨n, o, h⟩ := ord a b (by rwa [min_eq_left (not_lt.1 hab), max_eq_right (not_lt.1 hab)] at h0) (not_lt.1 ht)
      exact ⟨n, o, by rw [if_neg ht, if_neg hab, h]⟩

example : (0 : Rat) < min 2 1 := by norm_num

theorem fastInt_ends {N : Nodes K} {eps s : K} {f : K → K} {a b tol : K}
    (h : ∀ ofa ofb, ∃ n o, ∀ fuel, n ≤ fuel → integrate N eps f a b tol ofa ofb fuel = some o) :
    ∃ n o, ∀ fuel, n ≤ fuel → fastInt N eps s f a b tol fuel = some o := by
  obtain ⟨n, o, h⟩ := h (some (f (fx s a b 0))) (some (f (fx s a b 4)))
  unfold fastInt
  dsimp only
  split
  · exact ⟨0, _, fun _ _ => rfl⟩
  · split
    · exact ⟨0, _, fun _ _ => rfl⟩
    · split
      · exact ⟨0, _, fun _ _ => rfl⟩
      · exact ⟨n, _, fun fuel hl => by rw [h fuel hl]; rfl⟩

/-- C91: so do the averages of cross sections over energies above zero. -/
theorem c91_average [Archimedean K] (N : Nodes K) (hN : N.Valid) (eps : K) (he : 0 < eps) (s : K) (sigma : K → K) (eMin eMax : K)
    (h1 : 0 < eMin) (h2 : 0 < eMax) :
    (∃ n o, ∀ fuel, n ≤ fuel → average N eps s sigma eMin eMax fuel = some o) ∧
    ∃ n o, ∀ fuel, n ≤ fuel → averageTables N eps s sigma eMin eMax fuel = some o := by
  have key : ∀ a b, 0 < a → 0 < b → ∃ n o, ∀ fuel, n ≤ fuel → fastInt N eps s sigma a b (1 / 1000) fuel = some o := fun a b ha hb =>
    fastInt_ends fun ofa ofb => c91_away_from_zero N hN eps he sigma a b (1 / 1000) (.inl (lt_min ha hb)) ofa ofb
  constructor
  · obtain ⟨n, o, h⟩ := key eMin eMax h1 h2
    exact ⟨n, _, fun fuel hl => by rw [average, h fuel hl]; rfl⟩
  · unfold averageTables
    by_cases hlt : eMin > eMax
    · simp only [if_pos hlt]
      split
      · exact ⟨0, _, fun _ _ => rfl⟩
      · obtain ⟨n, o, h⟩ := key eMax eMin h2 h1
        exact ⟨n, _, fun fuel hl => by rw [h fuel hl]; rfl⟩
    · simp only [if_neg hlt]
      split
      · exact ⟨0, _, fun _ _ => rfl⟩
      · obtain ⟨n, o, h⟩ := key eMin eMax h1 h2
        exact ⟨n, _, fun fuel hl => by rw [h fuel hl]; rfl⟩

example : (0 : Rat) < 100 ∧ (0 : Rat) < 1 / 2 ^ 52 := by norm_num

/-! ## C92 -/

/-- The goal of an integration over a range of width `w` with estimates by 4, 7 and 13 points: the relative tolerance, relaxed as much as the 7-point rule
is better than the 4-point rule, times the integral, or the width if that is zero. -/
def goal (l4 k7 k13 w tol : K) : K :=
  (if |k7 - k13| ≠ 0 ∧ |k7 - k13| < |l4 - k13| then tol * |l4 - k13| / |k7 - k13| else tol) * if k13 = 0 then w else |k13|

theorem absTol_goal {N : Nodes K} (f : K → K) {a b : K} (hab : a < b) (is1 tol fa fb : K) :
    absTol (evaluate N f a b fa fb) is1 tol = goal (evaluate N f a b fa fb).i2 (evaluate N f a b fa fb).value is1 (b - a) tol := by
  unfold absTol goal
  dsimp only
  generalize hx : |(evaluate N f a b fa fb).value - is1| = x
  generalize hy : |(evaluate N f a b fa fb).i2 - is1| = y
  have hx0 : 0 ≤ x := hx ▸ abs_nonneg _
  have hy0 : 0 ≤ y := hy ▸ abs_nonneg _
  have e1 : (evaluate N f a b fa fb).b - (evaluate N f a b fa fb).a = b - a := rfl
  rw [e1]
  congr 1
  · by_cases h : x ≠ 0 ∧ x < y
    · have hxp : 0 < x := lt_of_le_of_ne hx0 (Ne.symm h.1)
      have hyp : 0 < y := hxp.trans h.2
      rw [if_pos hyp.ne', if_pos ⟨div_pos hxp hyp, (div_lt_one hyp).2 h.2⟩, if_pos h]
      field_simp
    · rw [if_neg h, if_neg]
      rintro ⟨h1, h2⟩
      by_cases hz : y = 0
      · rw [if_neg (not_not.2 hz)] at h2
        exact lt_irrefl _ h2
      · rw [if_pos hz] at h1 h2
        have hyp : 0 < y := lt_of_le_of_ne hy0 (Ne.symm hz)
        refine h ⟨?_, (div_lt_one hyp).1 h2⟩
        rintro rfl
        rw [zero_div] at h1
        exact lt_irrefl _ h1
  · split
    · exact abs_of_pos (sub_pos.2 hab)
    · rfl

/-- How an integration without supplied endpoint values relates to one on the ordered range. -/
theorem integrate_ordered {N : Nodes K} {eps : K} {f : K → K} {a b tol : K} {fuel : Nat} {r : Result K}
    (h : integrate N eps f a b tol none none fuel = some (.ok r)) :
    ∃ r', integrateOrdered N eps f (min a b) (max a b) tol none none fuel = some (.ok r') ∧ r'.outOfTolerance = r.outOfTolerance ∧
      r'.committed = r.committed ∧ r'.unc2 = r.unc2 ∧ |r'.value| = |r.value| := by
  unfold integrate at h
  split at h
  · cases h
  split at h
  · rename_i hab
    obtain ⟨o, ho, hr⟩ := Option.map_eq_some_iff.1 h
    cases o with
    | throws => cases hr
    | ub => cases hr
    | ok r' =>
      cases hr
      rw [min_eq_right hab.le, max_eq_left hab.le]
      exact ⟨r', ho, rfl, rfl, rfl, (abs_neg _).symm⟩
  · rename_i hab
    rw [min_eq_left (not_lt.1 hab), max_eq_right (not_lt.1 hab)]
    exact ⟨r, h, rfl, rfl, rfl, rfl⟩

/-- C92: unless `outOfTolerance` is set, the 4-point and 7-point rules agree within the goal on every sub-interval that contributes; it is set exactly if
one of them was too narrow to be split again. -/
theorem c92_in_tolerance (N : Nodes K) (hN : N.Valid) (eps : K) (he : 0 ≤ eps) (f : K → K) (a b tol : K) (fuel : Nat) (r : Result K)
    (h : integrate N eps f a b tol none none fuel = some (.ok r)) :
    (r.outOfTolerance = false → ∀ i ∈ r.committed, |kronrod7 N f i.a i.b - lobatto4 N f i.a i.b| ≤
      goal (lobatto4 N f (min a b) (max a b)) (kronrod7 N f (min a b) (max a b)) (k13 N f (min a b) (max a b) (f (min a b)) (f (max a b))) |b - a| tol) ∧
    (r.outOfTolerance = true ↔ ∃ i ∈ r.committed, i.b - i.a ≤ 32 * eps * max |i.a| |i.b|) := by
  obtain ⟨r', ho, e1, e2, e3, -⟩ := integrate_ordered h
  obtain ⟨h1, h2, -⟩ := ordered_report N f none none fuel ho
  obtain ⟨hlt, -, -, f1, f2, h4, h5, -⟩ := ordered_spec hN he f none none fuel ho
  rw [e1, e2] at h1
  rw [e2] at h2 h4 h5
  have hw : max a b - min a b = |b - a| := by
    rcases le_total a b with hab | hab
    · rw [max_eq_right hab, min_eq_left hab, abs_of_nonneg (by linarith)]
    · rw [max_eq_left hab, min_eq_right hab, abs_of_nonpos (by linarith)]; ring
  refine ⟨?_, ?_⟩
  · intro hf i hi
    have hn : ¬ ∃ i ∈ r.committed, ¬ canSubdivide eps i.a i.b := fun hx => by
      rw [h1.2 hx] at hf; cases hf
    have hb := (h2 i hi).resolve_right fun hc => hn ⟨i, hi, hc⟩
    have hv := h4 i hi
    obtain ⟨g1, g2⟩ := h5 f1 f2 i hi
    rw [g1, g2] at hv
    rw [Option.getD_none, Option.getD_none, absTol_goal f hlt, evaluate_value, evaluate_i2, hw] at hb
    unfold badness at hb
    rw [hv, evaluate_value, evaluate_i2] at hb
    linarith
  · rw [h1]
    unfold canSubdivide
    simp only [gt_iff_lt, not_lt]

example : ((integrate ratNodes (1 / 2 ^ 52) (fun x : Rat => x ^ 6) (-1) 1 (1 / 100) none none 10).map fun o =>
    o.map fun r => (r.outOfTolerance, r.committed.length)) = some (.ok (false, 3)) := by decide +kernel

/-- C92, partial: if a contributing sub-interval misses the goal, `outOfTolerance` is set. Missing: it is also set in other cases
(`c92_flag_violated`). -/
theorem c92_flag_partial (N : Nodes K) (hN : N.Valid) (eps : K) (he : 0 ≤ eps) (f : K → K) (a b tol : K) (fuel : Nat) (r : Result K)
    (h : integrate N eps f a b tol none none fuel = some (.ok r)) (i : Ivl K) (hi : i ∈ r.committed)
    (hm : goal (lobatto4 N f (min a b) (max a b)) (kronrod7 N f (min a b) (max a b)) (k13 N f (min a b) (max a b) (f (min a b)) (f (max a b))) |b - a| tol
      < |kronrod7 N f i.a i.b - lobatto4 N f i.a i.b|) : r.outOfTolerance = true := by
  by_contra hc
  exact absurd ((c92_in_tolerance N hN eps he f a b tol fuel r h).1 (by simpa using hc) i hi) (not_le.2 hm)

/-- C92: the uncertainty reported, squared: if nothing was split, the distance of the result, by 13 points, from the 7-point rule; else the sum of the
squared distances of the 7-point and 4-point rules on the contributing sub-intervals, times the squared ratio of their errors on the whole range if
that is below one. -/
theorem c92_uncertainty (N : Nodes K) (hN : N.Valid) (eps : K) (he : 0 ≤ eps) (f : K → K) (a b tol : K) (fuel : Nat) (r : Result K)
    (h : integrate N eps f a b tol none none fuel = some (.ok r)) :
    ∃ k7 l4 k : K, k7 = kronrod7 N f (min a b) (max a b) ∧ l4 = lobatto4 N f (min a b) (max a b) ∧
      k = k13 N f (min a b) (max a b) (f (min a b)) (f (max a b)) ∧
      (|r.value| = |k| ∧ r.unc2 = (k7 - k) ^ 2 ∨
        ∃ R : K, (R = 1 ∨ R < 1 ∧ R * |l4 - k| = |k7 - k|) ∧ 0 < R ∧
          r.unc2 = R ^ 2 * (r.committed.map fun i => (kronrod7 N f i.a i.b - lobatto4 N f i.a i.b) ^ 2).sum) := by
  obtain ⟨r', ho, e1, e2, e3, e4⟩ := integrate_ordered h
  obtain ⟨-, -, h3⟩ := ordered_report N f none none fuel ho
  obtain ⟨hlt, -, -, f1, f2, h4, h5, -⟩ := ordered_spec hN he f none none fuel ho
  rw [Option.getD_none, Option.getD_none, evaluate_value] at h3
  refine ⟨_, _, _, rfl, rfl, rfl, ?_⟩
  rcases h3 with ⟨hv, hu⟩ | hu
  · left
    rw [← e4, hv, ← e3, hu]
    exact ⟨rfl, rfl⟩
  · right
    refine ⟨uncFactor (evaluate N f (min a b) (max a b) (f (min a b)) (f (max a b)))
      (k13 N f (min a b) (max a b) (f (min a b)) (f (max a b))), ?_, ?_, ?_⟩
    · unfold uncFactor
      dsimp only
      rw [evaluate_value, evaluate_i2]
      by_cases hz : |lobatto4 N f (min a b) (max a b) - k13 N f (min a b) (max a b) (f (min a b)) (f (max a b))| = 0
      · rw [if_neg (not_not.2 hz), if_neg (fun h => lt_irrefl _ h.2)]
        exact .inl rfl
      · rw [if_pos hz]
        split
        · rename_i hR
          refine .inr ⟨hR.2, ?_⟩
          rw [div_mul_cancel₀ _ hz]
        · exact .inl rfl
    · unfold uncFactor
      dsimp only
      have key : ∀ R : K, 0 < if 0 < R ∧ R < 1 then R else 1 := by
        intro R
        split
        · rename_i hR; exact hR.1
        · exact one_pos
      exact key _
    · rw [← e3, hu, mul_comm, e2]
      congr 2
      refine List.map_congr_left fun i hi => ?_
      have hv := h4 i (e2 ▸ hi)
      obtain ⟨g1, g2⟩ := h5 f1 f2 i (e2 ▸ hi)
      rw [g1, g2] at hv
      rw [hv, evaluate_value, evaluate_i2]
      rfl

example : ((integrate ratNodes (1 / 2 ^ 52) (fun x : Rat => x ^ 6) (-1) 1 (1 / 100) none none 10).map fun o =>
    o.map fun r => decide (0 < r.unc2)) = some (.ok true) := by decide +kernel

/-- A function that is zero except at one abscissa of the first evaluation on a narrow range. -/
def spike (x : Rat) : Rat := if x = absX ratNodes 1 (1 + 40 / 2 ^ 52) 2 then 1 else 0

/-- C92 fails: `outOfTolerance` is set although every contributing sub-interval meets the goal, here with both rules giving exactly zero. -/
theorem c92_flag_violated : ∃ (f : Rat → Rat) (a b tol : Rat) (fuel : Nat),
    ((integrate ratNodes (1 / 2 ^ 52) f a b tol none none fuel).map fun o => o.map fun r =>
      (r.outOfTolerance, r.committed.map fun i => (i.value, i.i2))) = some (.ok (true, [(0, 0), (0, 0), (0, 0)])) :=
  ⟨spike, 1, 1 + 40 / 2 ^ 52, 1 / 1000, 1, by decide +kernel⟩

end Verif.Quad
