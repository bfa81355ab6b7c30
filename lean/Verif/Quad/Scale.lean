import Verif.Quad.Bounds

/-! # Lemmas for property C79: change of units -/

set_option linter.unusedSectionVars false

namespace Verif.Quad

variable {K : Type} [Field K] [LinearOrder K] [IsStrictOrderedRing K]

/-- The function `f` in units in which arguments are `c` times and values `k` times as large. -/
def inUnits (k c : K) (f : K → K) : K → K := fun x => k * f (x / c)

/-- An interval in the other units. -/
def Ivl.sc (k c : K) (i : Ivl K) : Ivl K :=
  ⟨c * i.a, c * i.b, k * i.fa, k * i.fb, c * i.spa, c * i.spb, k * i.fspa, k * i.fspb, k * c * i.value, k * c * i.i2⟩

/-- A state of the loop in the other units. -/
def St.sc (k c : K) (s : St K) : St K :=
  ⟨s.stack.map (Ivl.sc k c), s.committed.map (Ivl.sc k c), k * c * s.total, k * c * s.comp, (k * c) ^ 2 * s.unc2, s.evals.map (c * ·),
    s.outOfTolerance⟩

/-- A result in the other units. -/
def Result.sc (k c : K) (r : Result K) : Result K :=
  ⟨k * c * r.value, k * r.fa, k * r.fb, r.outOfTolerance, r.committed.map (Ivl.sc k c), r.evals.map (c * ·),
    (k * c) ^ 2 * r.unc2⟩

variable {k c : K} (hk : 0 < k) (hc : 0 < c)

theorem absX_sc (N : Nodes K) (a b : K) (i : Nat) : absX N (c * a) (c * b) i = c * absX N a b i := by
  simp only [absX, midpoint_eq]; ring

include hc in
theorem yval_sc (N : Nodes K) (f : K → K) (a b fa fb : K) (i : Nat) :
    yval N (inUnits k c f) (c * a) (c * b) (k * fa) (k * fb) i = k * yval N f a b fa fb i := by
  unfold yval
  split
  · rfl
  · split
    · rfl
    · rw [absX_sc, inUnits, mul_div_cancel_left₀ _ hc.ne']

include hc in
theorem evaluate_sc (N : Nodes K) (f : K → K) (a b fa fb : K) :
    evaluate N (inUnits k c f) (c * a) (c * b) (k * fa) (k * fb) = (evaluate N f a b fa fb).sc k c := by
  simp only [evaluate, Ivl.sc, yval_sc hc, absX_sc]
  congr 1 <;> ring

include hc in
theorem k13_sc (N : Nodes K) (f : K → K) (a b fa fb : K) :
    k13 N (inUnits k c f) (c * a) (c * b) (k * fa) (k * fb) = k * c * k13 N f a b fa fb := by
  simp only [k13, yval_sc hc]
  ring

theorem callPoints_sc (N : Nodes K) (full : Bool) (a b : K) : callPoints N full (c * a) (c * b) = (callPoints N full a b).map (c * ·) := by
  simp only [callPoints, List.map_map]
  congr 1
  funext i
  exact absX_sc N a b i

include hc in
theorem canSubdivide_sc (eps a b : K) : canSubdivide eps (c * a) (c * b) ↔ canSubdivide eps a b := by
  unfold canSubdivide
  have e1 : max |c * a| |c * b| = c * max |a| |b| := by
    rw [abs_mul, abs_mul, abs_of_pos hc, mul_max_of_nonneg _ _ hc.le]
  rw [e1, show 32 * eps * (c * max |a| |b|) = c * (32 * eps * max |a| |b|) by ring, ← mul_sub]
  exact mul_lt_mul_iff_of_pos_left hc

include hk hc in
theorem badness_sc (i : Ivl K) (tol : K) : badness (i.sc k c) (k * c * tol) = k * c * badness i tol := by
  have hkc := mul_pos hk hc
  simp only [badness, Ivl.sc]
  rw [← mul_sub, abs_mul, abs_of_pos hkc]
  ring

theorem accumulate_sc (s : St K) (i : Ivl K) : accumulate (s.sc k c) (i.sc k c) = (accumulate s i).sc k c := by
  simp only [accumulate, St.sc, Ivl.sc, List.map_cons]
  congr 1 <;> ring

include hk hc in
theorem process_sc (eps tol : K) (s : St K) (i : Ivl K) :
    process eps (k * c * tol) (s.sc k c) (i.sc k c) = (process eps tol s i).sc k c := by
  have hkc := mul_pos hk hc
  have h1 : badness (i.sc k c) (k * c * tol) ≤ 0 ↔ badness i tol ≤ 0 := by
    rw [badness_sc hk hc]
    constructor
    · intro h
      by_contra hne
      exact absurd h (not_le.2 (mul_pos hkc (not_le.1 hne)))
    · intro h; exact mul_nonpos_of_nonneg_of_nonpos hkc.le h
  have h2 : canSubdivide eps (i.sc k c).a (i.sc k c).b ↔ canSubdivide eps i.a i.b := canSubdivide_sc hc eps i.a i.b
  unfold process
  by_cases hs : canSubdivide eps i.a i.b
  · by_cases hb : badness i tol ≤ 0
    · rw [if_pos (Or.inl (h1.2 hb)), if_pos (Or.inl hb), if_pos (h2.2 hs), if_pos hs, accumulate_sc]
    · rw [if_neg (by rintro (h | h); exacts [hb (h1.1 h), h (h2.2 hs)]), if_neg (by rintro (h | h); exacts [hb h, h hs])]
      simp only [St.sc, List.map_cons]
  · rw [if_pos (Or.inr fun h => hs (h2.1 h)), if_pos (Or.inr hs), if_neg (fun h => hs (h2.1 h)), if_neg hs, ← accumulate_sc]
    rfl

include hk hc in
theorem loop_sc (N : Nodes K) (eps : K) (f : K → K) (tol : K) (fuel : Nat) : ∀ s : St K,
    loop N eps (inUnits k c f) (k * c * tol) fuel (s.sc k c) = (loop N eps f tol fuel s).map (St.sc k c) := by
  induction fuel with
  | zero =>
    intro s
    simp only [loop]
    have : (s.sc k c).stack.isEmpty = s.stack.isEmpty := by simp [St.sc]
    rw [this]
    split <;> rfl
  | succ n ih =>
    intro s
    cases hs : s.stack with
    | nil =>
      have : (s.sc k c).stack = [] := by simp [St.sc, hs]
      simp only [loop, hs, this, Option.map_some]
    | cons i rest =>
      have : (s.sc k c).stack = i.sc k c :: rest.map (Ivl.sc k c) := by simp [St.sc, hs]
      rw [loop_succ _ _ _ _ _ _ _ _ hs, loop_succ _ _ _ _ _ _ _ _ this, ← ih]
      congr 1
      unfold turn
      have e0 : ({ s.sc k c with stack := rest.map (Ivl.sc k c), evals := (s.sc k c).evals ++ (callPoints N false (i.sc k c).a (i.sc k c).spa ++
          callPoints N false (i.sc k c).spa (i.sc k c).spb ++ callPoints N false (i.sc k c).spb (i.sc k c).b) } : St K) =
          St.sc k c { s with stack := rest, evals := s.evals ++ (callPoints N false i.a i.spa ++
          callPoints N false i.spa i.spb ++ callPoints N false i.spb i.b) } := by
        simp only [St.sc, Ivl.sc, callPoints_sc, List.map_append]
      rw [e0]
      simp only [Ivl.sc]
      rw [evaluate_sc hc, evaluate_sc hc, evaluate_sc hc, process_sc hk hc, process_sc hk hc, process_sc hk hc]

include hk hc in
theorem absTol_sc (i : Ivl K) (is1 tol : K) (h : k = 1 ∨ is1 ≠ 0) : absTol (i.sc k c) (k * c * is1) tol = k * c * absTol i is1 tol := by
  have hkc := mul_pos hk hc
  have e1 : |(i.sc k c).value - k * c * is1| = k * c * |i.value - is1| := by
    simp only [Ivl.sc]; rw [← mul_sub, abs_mul, abs_of_pos hkc]
  have e2 : |(i.sc k c).i2 - k * c * is1| = k * c * |i.i2 - is1| := by
    simp only [Ivl.sc]; rw [← mul_sub, abs_mul, abs_of_pos hkc]
  have e3 : (if k * c * |i.i2 - is1| ≠ 0 then k * c * |i.value - is1| / (k * c * |i.i2 - is1|) else 1) =
      (if |i.i2 - is1| ≠ 0 then |i.value - is1| / |i.i2 - is1| else 1) := by
    by_cases hz : |i.i2 - is1| = 0
    · rw [if_neg (by rw [hz]; simp), if_neg (by simp [hz])]
    · rw [if_pos (mul_ne_zero hkc.ne' hz), if_pos hz, mul_div_mul_left _ _ hkc.ne']
  have e4 : |if k * c * is1 = 0 then (i.sc k c).b - (i.sc k c).a else k * c * is1| = k * c * |if is1 = 0 then i.b - i.a else is1| := by
    by_cases hz : is1 = 0
    · rcases h with rfl | h
      · rw [if_pos (by rw [hz, mul_zero]), if_pos hz]
        simp only [Ivl.sc]
        rw [← mul_sub, abs_mul, abs_of_pos hc, one_mul]
      · exact absurd hz h
    · rw [if_neg (mul_ne_zero hkc.ne' hz), if_neg hz, abs_mul, abs_of_pos hkc]
  unfold absTol
  dsimp only
  rw [e1, e2, e3, e4]
  ring

include hk hc in
theorem dist_sc (i : Ivl K) (is1 : K) : |(i.sc k c).value - k * c * is1| ^ 2 = (k * c) ^ 2 * |i.value - is1| ^ 2 := by
  have hkc := mul_pos hk hc
  simp only [Ivl.sc]; rw [← mul_sub, abs_mul, abs_of_pos hkc, mul_pow]

include hk hc in
theorem uncFactor_sc (i : Ivl K) (is1 : K) : uncFactor (i.sc k c) (k * c * is1) = uncFactor i is1 := by
  have hkc := mul_pos hk hc
  have e1 : |(i.sc k c).value - k * c * is1| = k * c * |i.value - is1| := by
    simp only [Ivl.sc]; rw [← mul_sub, abs_mul, abs_of_pos hkc]
  have e2 : |(i.sc k c).i2 - k * c * is1| = k * c * |i.i2 - is1| := by
    simp only [Ivl.sc]; rw [← mul_sub, abs_mul, abs_of_pos hkc]
  have e3 : (if k * c * |i.i2 - is1| ≠ 0 then k * c * |i.value - is1| / (k * c * |i.i2 - is1|) else 1) =
      (if |i.i2 - is1| ≠ 0 then |i.value - is1| / |i.i2 - is1| else 1) := by
    by_cases hz : |i.i2 - is1| = 0
    · rw [if_neg (by rw [hz]; simp), if_neg (by simp [hz])]
    · rw [if_pos (mul_ne_zero hkc.ne' hz), if_pos hz, mul_div_mul_left _ _ hkc.ne']
  unfold uncFactor
  dsimp only
  rw [e1, e2, e3]

/-- A non-negative integrand whose 13-point estimate vanishes is zero at all the points of the rule. -/
theorem zero_estimates {N : Nodes K} (hN : N.Valid) (f : K → K) {a b fa fb : K} (hab : a < b)
    (hf : ∀ x, a ≤ x → x ≤ b → 0 ≤ f x) (ha : 0 ≤ fa) (hb : 0 ≤ fb) (h : k13 N f a b fa fb = 0) :
    (evaluate N f a b fa fb).value = 0 ∧ (evaluate N f a b fa fb).i2 = 0 := by
  have q := fun i => hf _ (absX_mem hN hab.le i).1 (absX_mem hN hab.le i).2
  have hw : 0 < (b - a) / 2 := by linarith
  have q1 := q 1; have q2 := q 2; have q3 := q 3; have q4 := q 4; have q5 := q 5; have q6 := q 6
  have q7 := q 7; have q8 := q 8; have q9 := q 9; have q10 := q 10; have q11 := q 11
  simp only [k13, yval] at h
  norm_num only [if_true, if_false] at h
  rcases mul_eq_zero.1 h with h | h
  · exact absurd h hw.ne'
  have z0 : fa = 0 := by linarith
  have z12 : fb = 0 := by linarith
  have z2 : f (absX N a b 2) = 0 := by linarith
  have z4 : f (absX N a b 4) = 0 := by linarith
  have z6 : f (absX N a b 6) = 0 := by linarith
  have z8 : f (absX N a b 8) = 0 := by linarith
  have z10 : f (absX N a b 10) = 0 := by linarith
  simp only [evaluate, yval]
  norm_num only [if_true, if_false]
  rw [z0, z12, z2, z4, z6, z8, z10]
  constructor <;> ring

include hk hc in
theorem ordered_sc {N : Nodes K} (hN : N.Valid) {eps : K} (he : 0 ≤ eps) (f : K → K) {a b tol : K} (ht : 0 ≤ tol) (fa fb : K)
    (h : k = 1 ∨ (∀ x, a ≤ x → x ≤ b → 0 ≤ f x) ∧ 0 ≤ fa ∧ 0 ≤ fb) (fuel : Nat) :
    integrateOrdered N eps (inUnits k c f) (c * a) (c * b) tol (some (k * fa)) (some (k * fb)) fuel =
      (integrateOrdered N eps f a b tol (some fa) (some fb) fuel).map (Outcome.map (Result.sc k c)) := by
  have hkc := mul_pos hk hc
  simp only [integrateOrdered, Option.getD_some, Option.isSome_some, if_true, List.nil_append]
  rw [evaluate_sc hc, k13_sc hc]
  by_cases hs : canSubdivide eps a b
  swap
  · rw [if_pos (fun h => hs ((canSubdivide_sc hc eps a b).1 h)), if_pos hs]
    rfl
  rw [if_neg (not_not.2 ((canSubdivide_sc hc eps a b).2 hs)), if_neg (not_not.2 hs)]
  have hab := canSubdivide_lt he hs
  by_cases hz : k = 1 ∨ k13 N f a b fa fb ≠ 0
  · rw [absTol_sc hk hc _ _ _ hz, badness_sc hk hc]
    have hb : k * c * badness (evaluate N f a b fa fb) (absTol (evaluate N f a b fa fb) (k13 N f a b fa fb) tol) ≤ 0 ↔
        badness (evaluate N f a b fa fb) (absTol (evaluate N f a b fa fb) (k13 N f a b fa fb) tol) ≤ 0 := by
      constructor
      · intro h
        by_contra hne
        exact absurd h (not_le.2 (mul_pos hkc (not_le.1 hne)))
      · intro h; exact mul_nonpos_of_nonneg_of_nonpos hkc.le h
    by_cases hbad : badness (evaluate N f a b fa fb) (absTol (evaluate N f a b fa fb) (k13 N f a b fa fb) tol) ≤ 0
    · rw [if_pos (hb.2 hbad), if_pos hbad]
      simp only [Option.map_some, Outcome.map, Result.sc, List.map_cons, List.map_nil, callPoints_sc, dist_sc hk hc]
    · rw [if_neg (fun h => hbad (hb.1 h)), if_neg hbad]
      have e : startState ((evaluate N f a b fa fb).sc k c) (callPoints N true (c * a) (c * b)) =
          (startState (evaluate N f a b fa fb) (callPoints N true a b)).sc k c := by
        simp only [startState, St.sc, List.map_cons, List.map_nil, callPoints_sc, mul_zero]
      rw [e, loop_sc hk hc, Option.map_map, Option.map_map]
      congr 1
      funext st
      simp only [Function.comp, Outcome.map, Result.sc, St.sc, uncFactor_sc hk hc]
      simp only [mul_assoc]
  · have hne : k ≠ 1 := fun e => hz (Or.inl e)
    have hzero : k13 N f a b fa fb = 0 := by
      by_contra e; exact hz (Or.inr e)
    obtain ⟨hf, hfa, hfb⟩ := h.resolve_left hne
    obtain ⟨z1, z2⟩ := zero_estimates hN f hab hf hfa hfb hzero
    have hb : ∀ (i : Ivl K) (is1 : K), i.value = 0 → i.i2 = 0 → badness i (absTol i is1 tol) ≤ 0 := by
      intro i is1 h1 h2
      have hnn : 0 ≤ absTol i is1 tol := by
        unfold absTol
        dsimp only
        refine mul_nonneg ?_ (abs_nonneg _)
        have key : ∀ R : K, 0 ≤ if 0 < R ∧ R < 1 then tol / R else tol := by
          intro R
          split
          · rename_i hR
            exact div_nonneg ht hR.1.le
          · exact ht
        exact key _
      rw [badness, h1, h2, sub_zero, abs_zero]
      linarith
    rw [if_pos (hb _ _ (by simp only [Ivl.sc, z1, mul_zero]) (by simp only [Ivl.sc, z2, mul_zero])), if_pos (hb _ _ z1 z2)]
    simp only [Option.map_some, Outcome.map, Result.sc, List.map_cons, List.map_nil, callPoints_sc, dist_sc hk hc]

include hk in
theorem agree_sc (x y tol : K) : agree (k * x) (k * y) tol = agree x y tol := by
  have e1 : max |k * x| |k * y| = k * max |x| |y| := by rw [abs_mul, abs_mul, abs_of_pos hk, mul_max_of_nonneg _ _ hk.le]
  have e2 : min |k * x| |k * y| = k * min |x| |y| := by rw [abs_mul, abs_mul, abs_of_pos hk, mul_min_of_nonneg _ _ hk.le]
  unfold agree
  simp only [e1, e2, mul_div_mul_left _ _ hk.ne', ne_eq, mul_eq_zero, hk.ne', false_or, mul_right_inj' hk.ne']

theorem fx_sc (s a b : K) (i : Nat) : fx s (c * a) (c * b) i = c * fx s a b i := by
  match i with
  | 0 => simp only [fx, midpoint_eq]; ring
  | 1 => simp only [fx, midpoint_eq]; ring
  | 2 => simp only [fx, midpoint_eq]; ring
  | 3 => simp only [fx, midpoint_eq]; ring
  | _ + 4 => simp only [fx, midpoint_eq]; ring

include hk hc in
theorem fastInt_sc {N : Nodes K} (hN : N.Valid) {eps : K} (he : 0 ≤ eps) {s : K} (hs : |s| ≤ 1) (f : K → K) {a b tol : K} (ht : 0 ≤ tol)
    (h : k = 1 ∨ ∀ x, min a b ≤ x → x ≤ max a b → 0 ≤ f x) (fuel : Nat) :
    fastInt N eps s (inUnits k c f) (c * a) (c * b) tol fuel = (fastInt N eps s f a b tol fuel).map (Outcome.map (k * c * ·)) := by
  have hmem : k = 1 ∨ ∀ i, 0 ≤ f (fx s a b i) := by
    refine h.imp id fun hf i => ?_
    rcases le_total a b with hle | hle
    · rw [min_eq_left hle, max_eq_right hle] at hf
      exact hf _ (fx_mem hs hle i).1 (fx_mem hs hle i).2
    · rw [min_eq_right hle, max_eq_left hle] at hf
      exact hf _ (fx_mem' hs hle i).1 (fx_mem' hs hle i).2
  have y : ∀ i, inUnits k c f (fx s (c * a) (c * b) i) = k * f (fx s a b i) := fun i => by
    rw [fx_sc, inUnits, mul_div_cancel_left₀ _ hc.ne']
  have a2 : agree (k * f (fx s a b 1) + k * f (fx s a b 3)) (k * f (fx s a b 0) + k * f (fx s a b 4)) tol =
      agree (f (fx s a b 1) + f (fx s a b 3)) (f (fx s a b 0) + f (fx s a b 4)) tol := by
    rw [← mul_add, ← mul_add, agree_sc hk]
  have a3 : agree (k * f (fx s a b 1) + k * f (fx s a b 3)) ((k * f (fx s a b 0) + 4 * (k * f (fx s a b 2)) + k * f (fx s a b 4)) / 3) tol =
      agree (f (fx s a b 1) + f (fx s a b 3)) ((f (fx s a b 0) + 4 * f (fx s a b 2) + f (fx s a b 4)) / 3) tol := by
    rw [← agree_sc hk (f (fx s a b 1) + f (fx s a b 3))]
    congr 1 <;> ring
  unfold fastInt
  simp only [y]
  rw [agree_sc hk, a2, a3]
  split
  · simp only [Option.map_some, Outcome.map]; congr 2; ring
  split
  · simp only [Option.map_some, Outcome.map]; congr 2; ring
  split
  · simp only [Option.map_some, Outcome.map]; congr 2; ring
  unfold integrate
  split
  · rfl
  have hgt : (c * a > c * b) ↔ a > b := mul_lt_mul_iff_of_pos_left hc
  by_cases hab : a > b
  · rw [if_pos (hgt.2 hab), if_pos hab, ordered_sc hk hc hN he f ht _ _ (by
      refine h.imp id fun hf => ?_
      rw [min_eq_right hab.le, max_eq_left hab.le] at hf
      rcases hmem with e | hmem
      · exact ⟨hf, hf _ (fx_mem' hs hab.le 0).1 (fx_mem' hs hab.le 0).2, hf _ (fx_mem' hs hab.le 4).1 (fx_mem' hs hab.le 4).2⟩
      · exact ⟨hf, hmem 0, hmem 4⟩)]
    simp only [Option.map_map]
    congr 1
    funext o
    cases o with
    | ok r => simp only [Function.comp, Outcome.map, Result.sc]; congr 1; ring
    | throws => rfl
    | ub => rfl
  · rw [if_neg (fun h => hab (hgt.1 h)), if_neg hab, ordered_sc hk hc hN he f ht _ _ (by
      refine h.imp id fun hf => ?_
      have hle := not_lt.1 hab
      rw [min_eq_left hle, max_eq_right hle] at hf
      exact ⟨hf, hf _ (fx_mem hs hle 0).1 (fx_mem hs hle 0).2, hf _ (fx_mem hs hle 4).1 (fx_mem hs hle 4).2⟩)]
    simp only [Option.map_map]
    congr 1
    funext o
    cases o <;> rfl

end Verif.Quad
