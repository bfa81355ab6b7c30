import Verif.Quad.Bounds
import Mathlib.Algebra.Order.Archimedean.Basic
import Mathlib.Tactic.Positivity

/-! Lemmas: the refinement ends (C91) and what it reports (C92). -/

set_option linter.unusedSectionVars false

namespace Verif.Quad

variable {K : Type} [Field K] [LinearOrder K] [IsStrictOrderedRing K]

/-- The factor by which the widest part of a split interval is narrower. -/
def shrink (N : Nodes K) : K := max N.beta ((1 - N.beta) / 2)

theorem shrink_pos {N : Nodes K} (hN : N.Valid) : 0 < shrink N := lt_max_of_lt_left hN.beta_pos

theorem shrink_lt {N : Nodes K} (hN : N.Valid) : shrink N < 1 := by
  have := hN.beta_pos
  exact max_lt hN.beta_lt (by linarith)

/-- The widths of the three parts. -/
theorem parts {N : Nodes K} {a b : K} (hab : a ≤ b) :
    absX N a b 4 - a ≤ shrink N * (b - a) ∧ absX N a b 8 - absX N a b 4 ≤ shrink N * (b - a) ∧ b - absX N a b 8 ≤ shrink N * (b - a) := by
  have h1 : N.beta ≤ shrink N := le_max_left _ _
  have h2 : (1 - N.beta) / 2 ≤ shrink N := le_max_right _ _
  have hw : 0 ≤ b - a := by linarith
  have e1 := mul_le_mul_of_nonneg_right h1 hw
  have e2 := mul_le_mul_of_nonneg_right h2 hw
  simp only [absX, midpoint_eq, absc]
  refine ⟨?_, ?_, ?_⟩
  · refine le_trans (le_of_eq ?_) e2; ring
  · refine le_trans (le_of_eq ?_) e1; ring
  · refine le_trans (le_of_eq ?_) e2; ring

/-- Each interval that waits is at most as wide as its level says. -/
def Levels (d q : K) : List (Ivl K) → List Nat → Prop := List.Forall₂ fun i n => (i.b - i.a) * q ^ n ≤ d

/-- What an interval with all its values is committed without. -/
def Small (eps tol d : K) (good : Ivl K → Prop) : Prop := ∀ i, good i → i.b - i.a ≤ d → badness i tol ≤ 0 ∨ ¬ canSubdivide eps i.a i.b

theorem process_stack (eps tol : K) (s : St K) (i : Ivl K) : (process eps tol s i).stack = s.stack ∨
    (process eps tol s i).stack = i :: s.stack ∧ ¬ (badness i tol ≤ 0 ∨ ¬ canSubdivide eps i.a i.b) := by
  unfold process accumulate
  by_cases h : badness i tol ≤ 0 ∨ ¬ canSubdivide eps i.a i.b
  · rw [if_pos h]; left; split <;> rfl
  · rw [if_neg h]; right; exact ⟨rfl, h⟩

/-- Adding one part. -/
theorem levels_process {eps tol d q : K} {good : Ivl K → Prop} (hS : Small eps tol d good) (s : St K) (ns : List Nat) (h : Levels d q s.stack ns)
    (i : Ivl K) (hg : good i) (n : Nat) (hw : (i.b - i.a) * q ^ n ≤ d) :
    ∃ ms, Levels d q (process eps tol s i).stack ms ∧
      ((ms.map (4 ^ ·)).sum ≤ (ns.map (4 ^ ·)).sum ∨ 0 < n ∧ (ms.map (4 ^ ·)).sum ≤ 4 ^ n + (ns.map (4 ^ ·)).sum) := by
  rcases process_stack eps tol s i with e | ⟨e, hne⟩
  · rw [e]; exact ⟨ns, h, .inl le_rfl⟩
  · rw [e]
    refine ⟨n :: ns, .cons hw h, .inr ⟨?_, by simp⟩⟩
    rcases Nat.eq_zero_or_pos n with rfl | hn
    · rw [pow_zero, mul_one] at hw
      exact absurd (hS i hg hw) hne
    · exact hn

/-- What is known of every interval of a run. -/
def Good (N : Nodes K) (f : K → K) (lo hi : K) (P : K → Prop) (i : Ivl K) : Prop :=
  i = evaluate N f i.a i.b i.fa i.fb ∧ lo ≤ i.a ∧ i.a < i.b ∧ i.b ≤ hi ∧ P i.fa ∧ P i.fb

theorem good_of_inv {N : Nodes K} {f : K → K} {lo hi : K} {P : K → Prop} {s : St K} (hI : Inv N f lo hi s) (hE : Ends P s) :
    ∀ i ∈ s.committed ++ s.stack, Good N f lo hi P i := by
  intro i hi
  obtain ⟨l, hp, ht⟩ := hI.tiles
  obtain ⟨h1, h2, h3⟩ := ht.mem i (hp.mem_iff.2 hi)
  exact ⟨hI.eval i hi, h1, h2, h3, (hE i hi).1, (hE i hi).2⟩

/-- One turn lowers the weight of what waits. -/
theorem levels_turn {N : Nodes K} (hN : N.Valid) {eps tol d : K} {f : K → K} {lo hi : K} {P : K → Prop} (hP : ∀ x, lo ≤ x → x ≤ hi → P (f x))
    (hS : Small eps tol d (Good N f lo hi P)) (s : St K) (i : Ivl K) (rest : List (Ivl K)) (hs : s.stack = i :: rest) (hI : Inv N f lo hi s)
    (hE : Ends P s) (ns : List Nat) (hl : Levels d (shrink N) s.stack ns) :
    ∃ ms, Levels d (shrink N) (turn N eps f tol s i rest).stack ms ∧ (ms.map (4 ^ ·)).sum < (ns.map (4 ^ ·)).sum := by
  rw [hs] at hl
  cases hl with
  | @cons _ n _ ns hw hl =>
  have hmem : i ∈ s.committed ++ s.stack := by rw [hs]; simp
  have hg := good_of_inv hI hE i hmem
  have hI' := inv_turn hN eps f tol lo hi s i rest hs hI
  have hE' := ends_turn hN eps f tol lo hi P hP s i rest hs hI hE
  have hperm := process3_perm eps tol { s with stack := rest, evals := s.evals ++ (callPoints N false i.a i.spa ++
    callPoints N false i.spa i.spb ++ callPoints N false i.spb i.b) } (evaluate N f i.a i.spa i.fa i.fspa)
    (evaluate N f i.spa i.spb i.fspa i.fspb) (evaluate N f i.spb i.b i.fspb i.fb)
  have hg' := fun j (hj : j ∈ [evaluate N f i.a i.spa i.fa i.fspa, evaluate N f i.spa i.spb i.fspa i.fspb, evaluate N f i.spb i.b i.fspb i.fb]) =>
    good_of_inv hI' hE' j (hperm.mem_iff.2 (List.mem_append_left _ hj))
  have hspa : i.spa = absX N i.a i.b 4 := by rw [hg.1]; rfl
  have hspb : i.spb = absX N i.a i.b 8 := by rw [hg.1]; rfl
  obtain ⟨p1, p2, p3⟩ := parts (N := N) hg.2.2.1.le
  rw [← hspa] at p1 p2
  rw [← hspb] at p2 p3
  have hq := shrink_pos hN
  have hd : 0 ≤ i.b - i.a := by linarith [hg.2.2.1]
  have key : ∀ w, w ≤ shrink N * (i.b - i.a) → w * shrink N ^ (n - 1) ≤ d := by
    intro w hw'
    refine le_trans (mul_le_mul_of_nonneg_right hw' (pow_nonneg hq.le _)) ?_
    rcases Nat.eq_zero_or_pos n with rfl | hn
    · rw [pow_zero, mul_one] at hw
      rw [Nat.zero_sub, pow_zero, mul_one]
      refine le_trans ?_ hw
      calc shrink N * (i.b - i.a) ≤ 1 * (i.b - i.a) := mul_le_mul_of_nonneg_right (shrink_lt hN).le hd
        _ = _ := one_mul _
    · refine le_trans (le_of_eq ?_) hw
      obtain ⟨m, rfl⟩ : ∃ m, n = m + 1 := ⟨n - 1, by omega⟩
      rw [Nat.add_sub_cancel, pow_succ]
      ring
  obtain ⟨m1, l1, s1⟩ := levels_process hS { s with stack := rest, evals := s.evals ++ (callPoints N false i.a i.spa ++
    callPoints N false i.spa i.spb ++ callPoints N false i.spb i.b) } ns hl _ (hg' (evaluate N f i.a i.spa i.fa i.fspa) (by simp)) (n - 1) (key _ p1)
  obtain ⟨m2, l2, s2⟩ := levels_process hS _ m1 l1 _ (hg' (evaluate N f i.spa i.spb i.fspa i.fspb) (by simp)) (n - 1) (key _ p2)
  obtain ⟨m3, l3, s3⟩ := levels_process hS _ m2 l2 _ (hg' (evaluate N f i.spb i.b i.fspb i.fb) (by simp)) (n - 1) (key _ p3)
  refine ⟨m3, l3, ?_⟩
  rw [List.map_cons, List.sum_cons]
  have hpos : 0 < 4 ^ n := pow_pos (by norm_num) n
  rcases Nat.lt_or_ge 1 n with hn | hn
  · have e : 4 ^ n = 4 * 4 ^ (n - 1) := by rw [← pow_succ']; congr 1; omega
    have : 0 < 4 ^ (n - 1) := pow_pos (by norm_num) _
    omega
  · omega

/-- The loop ends after at most as many turns as what waits weighs. -/
theorem loop_ends {N : Nodes K} (hN : N.Valid) {eps tol d : K} {f : K → K} {lo hi : K} {P : K → Prop} (hP : ∀ x, lo ≤ x → x ≤ hi → P (f x))
    (hS : Small eps tol d (Good N f lo hi P)) (fuel : Nat) : ∀ (s : St K) (ns : List Nat), Inv N f lo hi s → Ends P s → Levels d (shrink N) s.stack ns →
      (ns.map (4 ^ ·)).sum ≤ fuel → ∃ s', loop N eps f tol fuel s = some s' := by
  induction fuel with
  | zero =>
    intro s ns hI hE hl hf
    cases hs : s.stack with
    | nil => exact ⟨s, by simp [loop, hs]⟩
    | cons i rest =>
      rw [hs] at hl
      cases hl with
      | @cons _ n _ ns _ _ =>
        rw [List.map_cons, List.sum_cons] at hf
        have hpos : 0 < 4 ^ n := pow_pos (by norm_num) n
        omega
  | succ m ih =>
    intro s ns hI hE hl hf
    cases hs : s.stack with
    | nil => exact ⟨s, by simp [loop, hs]⟩
    | cons i rest =>
      obtain ⟨ms, h1, h2⟩ := levels_turn hN hP hS s i rest hs hI hE ns hl
      rw [loop_succ _ _ _ _ _ _ _ _ hs]
      exact ih _ ms (inv_turn hN eps f tol lo hi s i rest hs hI) (ends_turn hN eps f tol lo hi P hP s i rest hs hI hE) h1 (by omega)

/-- Every width has a level. -/
theorem exists_level [Archimedean K] {N : Nodes K} (hN : N.Valid) {d : K} (hd : 0 < d) (w : K) : ∃ n, w * shrink N ^ n ≤ d := by
  rcases le_or_gt w 0 with hw | hw
  · exact ⟨0, by rw [pow_zero, mul_one]; linarith⟩
  · obtain ⟨n, hn⟩ := exists_pow_lt_of_lt_one (div_pos hd hw) (shrink_lt hN)
    refine ⟨n, ?_⟩
    rw [lt_div_iff₀ hw] at hn
    linarith

theorem tol_pos {i : Ivl K} {is1 tol : K} (ht : 0 < tol) (hab : i.a < i.b) : 0 < absTol i is1 tol := by
  unfold absTol
  dsimp only
  have key : ∀ R : K, 0 < if 0 < R ∧ R < 1 then tol / R else tol := by
    intro R
    split
    · rename_i h; exact div_pos ht h.1
    · exact ht
  refine mul_pos (key _) (abs_pos.2 ?_)
  · split
    · exact (sub_pos.2 hab).ne'
    · assumption

/-- If narrow intervals are committed, an integration on an ordered range ends. -/
theorem ordered_ends [Archimedean K] {N : Nodes K} (hN : N.Valid) {eps : K} (he : 0 ≤ eps) (f : K → K) {a b tol : K} (ht : 0 < tol)
    (ofa ofb : Option K) {P : K → Prop} (hP : ∀ x, a ≤ x → x ≤ b → P (f x)) (ha : P (ofa.getD (f a))) (hb : P (ofb.getD (f b)))
    (hS : ∀ t, 0 < t → ∃ d, 0 < d ∧ Small eps t d (Good N f a b P)) :
    ∃ n, ∀ fuel, n ≤ fuel → ∃ o, integrateOrdered N eps f a b tol ofa ofb fuel = some o := by
  by_cases hc : canSubdivide eps a b
  swap
  · exact ⟨0, fun fuel _ => ⟨.throws, by simp [integrateOrdered, hc]⟩⟩
  have hab := canSubdivide_lt he hc
  obtain ⟨d, hd, hS⟩ := hS (absTol (evaluate N f a b (ofa.getD (f a)) (ofb.getD (f b))) (k13 N f a b (ofa.getD (f a)) (ofb.getD (f b))) tol) (tol_pos ht hab)
  obtain ⟨n, hn⟩ := exists_level hN hd (b - a)
  refine ⟨4 ^ n, fun fuel hf => ?_⟩
  simp only [integrateOrdered]
  rw [if_neg (not_not.2 hc)]
  split
  · exact ⟨_, rfl⟩
  · have hev : ∀ x ∈ ((if ofa.isSome then [] else [a]) ++ (if ofb.isSome then [] else [b])) ++ callPoints N true a b,
        a ≤ x ∧ x ≤ b := by
      intro x hx
      rcases List.mem_append.1 hx with hx | hx
      · rcases List.mem_append.1 hx with hx | hx
        · split at hx
          · cases hx
          · simp at hx; subst hx; exact ⟨le_refl _, hab.le⟩
        · split at hx
          · cases hx
          · simp at hx; subst hx; exact ⟨hab.le, le_refl _⟩
      · exact callPoints_mem hN hab.le _ x hx
    obtain ⟨s', hs'⟩ := loop_ends hN hP hS fuel _ [n] (inv_start f hab (ofa.getD (f a)) (ofb.getD (f b)) _ hev)
      (by
        intro i hi
        simp only [startState, List.nil_append, List.mem_singleton] at hi
        subst hi; exact ⟨ha, hb⟩) (.cons hn .nil) (by simpa using hf)
    rw [hs']
    exact ⟨_, rfl⟩

theorem i2_between {N : Nodes K} (hN : N.Valid) (f : K → K) {a b m M fa fb : K} (hab : a < b)
    (hf : ∀ x, a ≤ x → x ≤ b → m ≤ f x ∧ f x ≤ M) (ha : m ≤ fa ∧ fa ≤ M) (hb : m ≤ fb ∧ fb ≤ M) :
    m * (b - a) ≤ (evaluate N f a b fa fb).i2 ∧ (evaluate N f a b fa fb).i2 ≤ M * (b - a) := by
  have q := fun i => hf _ (absX_mem hN hab.le i).1 (absX_mem hN hab.le i).2
  have hw : 0 < b - a := sub_pos.2 hab
  have q4 := q 4; have q8 := q 8
  simp only [evaluate, yval]
  norm_num only [if_true, if_false]
  constructor
  · have : 12 * m ≤ fa + fb + 5 * (f (absX N a b 4) + f (absX N a b 8)) := by linarith
    have := mul_le_mul_of_nonneg_left this hw.le
    linarith
  · have : fa + fb + 5 * (f (absX N a b 4) + f (absX N a b 8)) ≤ 12 * M := by linarith
    have := mul_le_mul_of_nonneg_left this hw.le
    linarith

/-- Narrow intervals of a bounded integrand are committed. -/
theorem small_bounded {N : Nodes K} (hN : N.Valid) (eps : K) {f : K → K} {a b B : K} (hf : ∀ x, a ≤ x → x ≤ b → |f x| ≤ B) (t : K) (ht : 0 < t) :
    ∃ d, 0 < d ∧ Small eps t d (Good N f a b fun y => |y| ≤ B) := by
  refine ⟨t / (2 * (|B| + 1)), by positivity, ?_⟩
  intro i hg hw
  left
  obtain ⟨he, h1, h2, h3, h4, h5⟩ := hg
  have hf' : ∀ x, i.a ≤ x → x ≤ i.b → -B ≤ f x ∧ f x ≤ B := fun x hx hx' => abs_le.1 (hf x (h1.trans hx) (hx'.trans h3))
  have v := evaluate_between hN f h2 hf' (abs_le.1 h4) (abs_le.1 h5)
  have w := i2_between hN f h2 hf' (abs_le.1 h4) (abs_le.1 h5)
  rw [← he] at v w
  unfold badness
  rw [le_div_iff₀ (by positivity)] at hw
  have hB : B * (i.b - i.a) ≤ (|B| + 1) * (i.b - i.a) := mul_le_mul_of_nonneg_right (by linarith [le_abs_self B]) (by linarith)
  have : |i.value - i.i2| ≤ t := by
    rw [abs_le]
    constructor <;> linarith
  linarith

/-- Narrow intervals away from zero are committed. -/
theorem small_away {N : Nodes K} {eps : K} (he : 0 < eps) {f : K → K} {a b : K} (h0 : 0 < a ∨ b < 0) (t : K) :
    ∃ d, 0 < d ∧ Small eps t d (Good N f a b fun _ => True) := by
  rcases h0 with h0 | h0
  · refine ⟨32 * eps * a, by positivity, ?_⟩
    intro i ⟨_, h1, h2, h3, _⟩ hw
    right
    unfold canSubdivide
    rw [not_lt]
    refine hw.trans (mul_le_mul_of_nonneg_left ?_ (by positivity))
    exact le_max_of_le_left (h1.trans (le_abs_self _))
  · refine ⟨32 * eps * -b, mul_pos (by positivity) (by linarith), ?_⟩
    intro i ⟨_, h1, h2, h3, _⟩ hw
    right
    unfold canSubdivide
    rw [not_lt]
    refine hw.trans (mul_le_mul_of_nonneg_left ?_ (by positivity))
    exact le_max_of_le_right ((neg_le_neg h3).trans (neg_le_abs _))

/-- Once the loop has ended, more turns change nothing. -/
theorem loop_mono (N : Nodes K) (eps : K) (f : K → K) (tol : K) (n : Nat) : ∀ (s s' : St K), loop N eps f tol n s = some s' →
    ∀ m, n ≤ m → loop N eps f tol m s = some s' := by
  induction n with
  | zero =>
    intro s s' h m _
    simp only [loop] at h
    split at h
    · cases h
      rename_i he
      have : s.stack = [] := by simpa using he
      cases m <;> simp [loop, this]
    · cases h
  | succ n ih =>
    intro s s' h m hm
    obtain ⟨m, rfl⟩ : ∃ k, m = k + 1 := ⟨m - 1, by omega⟩
    cases hs : s.stack with
    | nil => simp only [loop, hs] at h ⊢; exact h
    | cons i rest =>
      rw [loop_succ _ _ _ _ _ _ _ _ hs] at h ⊢
      exact ih _ _ h m (by omega)

theorem integrate_mono (N : Nodes K) (eps : K) (f : K → K) (a b tol : K) (ofa ofb : Option K) {n m : Nat} (hnm : n ≤ m) {o : Outcome (Result K)}
    (h : integrate N eps f a b tol ofa ofb n = some o) : integrate N eps f a b tol ofa ofb m = some o := by
  have ord : ∀ a b o, integrateOrdered N eps f a b tol ofa ofb n = some o → integrateOrdered N eps f a b tol ofa ofb m = some o := by
    intro a b o h
    simp only [integrateOrdered] at h ⊢
    split at h
    · rename_i hc; rw [if_pos hc]; exact h
    rename_i hc
    rw [if_neg hc]
    split at h
    · rename_i hb; rw [if_pos hb]; exact h
    rename_i hb
    rw [if_neg hb]
    obtain ⟨s, hs, hr⟩ := Option.map_eq_some_iff.1 h
    rw [loop_mono N eps f _ n _ _ hs m hnm]
    exact congrArg some hr
  unfold integrate at h ⊢
  split at h
  · rename_i h1; rw [if_pos h1]; exact h
  rename_i h1
  rw [if_neg h1]
  split at h
  · rename_i h2
    rw [if_pos h2]
    obtain ⟨o', ho, hr⟩ := Option.map_eq_some_iff.1 h
    rw [ord _ _ _ ho]
    exact congrArg some hr
  · rename_i h2
    rw [if_neg h2]
    exact ord _ _ _ h

/-! What is reported -/

/-- The flag, the tolerance and the sum of squares of a run. -/
def Report (eps tol : K) (s : St K) : Prop :=
  (s.outOfTolerance = true ↔ ∃ i ∈ s.committed, ¬ canSubdivide eps i.a i.b) ∧
  (∀ i ∈ s.committed, badness i tol ≤ 0 ∨ ¬ canSubdivide eps i.a i.b) ∧
  s.unc2 = (s.committed.map fun i => (i.value - i.i2) ^ 2).sum

theorem report_process {eps tol : K} {s : St K} (h : Report eps tol s) (i : Ivl K) : Report eps tol (process eps tol s i) := by
  obtain ⟨h1, h2, h3⟩ := h
  unfold process
  by_cases hc : badness i tol ≤ 0 ∨ ¬ canSubdivide eps i.a i.b
  · rw [if_pos hc]
    by_cases hs : canSubdivide eps i.a i.b
    · rw [if_pos hs]
      refine ⟨?_, ?_, ?_⟩
      · simp only [accumulate, h1, List.mem_cons, exists_eq_or_imp, hs, not_true_eq_false, false_or]
      · intro j hj
        rcases List.mem_cons.1 hj with rfl | hj
        · exact hc
        · exact h2 j hj
      · simp only [accumulate, h3, List.map_cons, List.sum_cons]; ring
    · rw [if_neg hs]
      refine ⟨?_, ?_, ?_⟩
      · simp only [accumulate, List.mem_cons, exists_eq_or_imp, hs, not_false_eq_true, true_or]
      · intro j hj
        rcases List.mem_cons.1 hj with rfl | hj
        · exact hc
        · exact h2 j hj
      · simp only [accumulate, h3, List.map_cons, List.sum_cons]; ring
  · rw [if_neg hc]
    exact ⟨h1, h2, h3⟩

theorem report_loop (N : Nodes K) (eps : K) (f : K → K) (tol : K) (n : Nat) : ∀ (s s' : St K), loop N eps f tol n s = some s' →
    Report eps tol s → Report eps tol s' := by
  induction n with
  | zero =>
    intro s s' h hr
    simp only [loop] at h
    split at h
    · cases h; exact hr
    · cases h
  | succ n ih =>
    intro s s' h hr
    cases hs : s.stack with
    | nil => simp only [loop, hs] at h; cases h; exact hr
    | cons i rest =>
      rw [loop_succ _ _ _ _ _ _ _ _ hs] at h
      refine ih _ _ h ?_
      unfold turn
      exact report_process (report_process (report_process (s := { s with stack := rest, evals := _ }) hr _) _) _

/-- What a run on an ordered range reports. -/
theorem ordered_report (N : Nodes K) {eps : K} (f : K → K) {a b tol : K} (ofa ofb : Option K) (fuel : Nat) {r : Result K}
    (h : integrateOrdered N eps f a b tol ofa ofb fuel = some (.ok r)) :
    (r.outOfTolerance = true ↔ ∃ i ∈ r.committed, ¬ canSubdivide eps i.a i.b) ∧
    (∀ i ∈ r.committed, badness i (absTol (evaluate N f a b (ofa.getD (f a)) (ofb.getD (f b))) (k13 N f a b (ofa.getD (f a)) (ofb.getD (f b))) tol) ≤ 0 ∨
      ¬ canSubdivide eps i.a i.b) ∧
    (r.value = k13 N f a b (ofa.getD (f a)) (ofb.getD (f b)) ∧
        r.unc2 = ((evaluate N f a b (ofa.getD (f a)) (ofb.getD (f b))).value - k13 N f a b (ofa.getD (f a)) (ofb.getD (f b))) ^ 2 ∨
      r.unc2 = (r.committed.map fun i => (i.value - i.i2) ^ 2).sum *
        uncFactor (evaluate N f a b (ofa.getD (f a)) (ofb.getD (f b))) (k13 N f a b (ofa.getD (f a)) (ofb.getD (f b))) ^ 2) := by
  simp only [integrateOrdered] at h
  split at h
  · cases h
  rename_i hc
  split at h
  · rename_i hb
    cases h
    refine ⟨?_, ?_, .inl ⟨rfl, sq_abs _⟩⟩
    · simp only [List.mem_singleton, exists_eq_left, Bool.false_eq_true, false_iff, not_not]
      exact not_not.1 hc
    · intro i hi
      rw [List.mem_singleton.1 hi]
      exact .inl hb
  · obtain ⟨s, hs, hr⟩ := Option.map_eq_some_iff.1 h
    cases hr
    obtain ⟨h1, h2, h3⟩ := report_loop N eps f _ fuel _ _ hs ⟨by simp [startState], by simp [startState], by simp [startState]⟩
    refine ⟨h1, h2, .inr ?_⟩
    dsimp only
    rw [h3]

end Verif.Quad
