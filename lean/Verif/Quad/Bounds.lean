import Verif.Quad.Props

/-! # Lemmas for property C78: bounds of quadrature results -/

set_option linter.unusedSectionVars false

namespace Verif.Quad

variable {K : Type} [Field K] [LinearOrder K] [IsStrictOrderedRing K]

/-- The endpoint values carried by the intervals have the property `P`. -/
def Ends (P : K → Prop) (s : St K) : Prop := ∀ i ∈ s.committed ++ s.stack, P i.fa ∧ P i.fb

theorem ends_turn {N : Nodes K} (hN : N.Valid) (eps : K) (f : K → K) (tol lo hi : K) (P : K → Prop) (hP : ∀ x, lo ≤ x → x ≤ hi → P (f x))
    (s : St K) (i : Ivl K) (rest : List (Ivl K)) (hs : s.stack = i :: rest) (hI : Inv N f lo hi s) (h : Ends P s) :
    Ends P (turn N eps f tol s i rest) := by
  have hmem : i ∈ s.committed ++ s.stack := by rw [hs]; simp
  have hi := hI.eval i hmem
  have hperm := process3_perm eps tol { s with stack := rest, evals := s.evals ++ (callPoints N false i.a i.spa ++
    callPoints N false i.spa i.spb ++ callPoints N false i.spb i.b) } (evaluate N f i.a i.spa i.fa i.fspa)
    (evaluate N f i.spa i.spb i.fspa i.fspb) (evaluate N f i.spb i.b i.fspb i.fb)
  obtain ⟨l, hp, ht⟩ := hI.tiles
  obtain ⟨h1, h2, h3⟩ := ht.mem i (hp.mem_iff.2 hmem)
  have e1 : i.fspa = f (absX N i.a i.b 4) := by rw [hi]; rfl
  have e2 : i.fspb = f (absX N i.a i.b 8) := by rw [hi]; rfl
  have x4 := absX_mem hN h2.le 4
  have x8 := absX_mem hN h2.le 8
  have p1 : P i.fspa := by rw [e1]; exact hP _ (h1.trans x4.1) (x4.2.trans h3)
  have p2 : P i.fspb := by rw [e2]; exact hP _ (h1.trans x8.1) (x8.2.trans h3)
  have hR := h i hmem
  intro j hj
  have := hperm.mem_iff.1 hj
  rcases List.mem_append.1 this with h' | h'
  · simp only [List.mem_cons, List.not_mem_nil, or_false] at h'
    rcases h' with rfl | rfl | rfl
    · exact ⟨hR.1, p1⟩
    · exact ⟨p1, p2⟩
    · exact ⟨p2, hR.2⟩
  · refine h j ?_
    rw [hs]
    rcases List.mem_append.1 h' with h' | h'
    · exact List.mem_append_left _ h'
    · exact List.mem_append_right _ (List.mem_cons_of_mem _ h')

theorem ends_loop {N : Nodes K} (hN : N.Valid) (eps : K) (f : K → K) (tol lo hi : K) (P : K → Prop) (hP : ∀ x, lo ≤ x → x ≤ hi → P (f x))
    (fuel : Nat) : ∀ (s s' : St K), loop N eps f tol fuel s = some s' → Inv N f lo hi s → Ends P s → Ends P s' := by
  induction fuel with
  | zero =>
    intro s s' h hI hR
    simp only [loop] at h
    split at h
    · cases h; exact hR
    · cases h
  | succ n ih =>
    intro s s' h hI hR
    cases hs : s.stack with
    | nil => simp only [loop, hs] at h; cases h; exact hR
    | cons i rest =>
      rw [loop_succ _ _ _ _ _ _ _ _ hs] at h
      exact ih _ _ h (inv_turn hN eps f tol lo hi s i rest hs hI) (ends_turn hN eps f tol lo hi P hP s i rest hs hI hR)

/-- The 7-point rule lies between bounds of the values it uses. -/
theorem evaluate_between {N : Nodes K} (hN : N.Valid) (f : K → K) {a b m M fa fb : K} (hab : a < b)
    (hf : ∀ x, a ≤ x → x ≤ b → m ≤ f x ∧ f x ≤ M) (ha : m ≤ fa ∧ fa ≤ M) (hb : m ≤ fb ∧ fb ≤ M) :
    m * (b - a) ≤ (evaluate N f a b fa fb).value ∧ (evaluate N f a b fa fb).value ≤ M * (b - a) := by
  have q := fun i => hf _ (absX_mem hN hab.le i).1 (absX_mem hN hab.le i).2
  have hw : 0 < b - a := sub_pos.2 hab
  have e : (evaluate N f a b fa fb).value = (b - a) * ((77 * (fa + fb) + 432 * (f (absX N a b 2) + f (absX N a b 10)) +
      625 * (f (absX N a b 4) + f (absX N a b 8)) + 672 * f (absX N a b 6)) / 2940) := by
    simp only [evaluate, yval]
    norm_num
    ring
  rw [e, mul_comm m, mul_comm M]
  have q2 := q 2; have q4 := q 4; have q6 := q 6; have q8 := q 8; have q10 := q 10
  constructor
  · refine mul_le_mul_of_nonneg_left ?_ hw.le
    rw [le_div_iff₀ (by norm_num)]
    linarith [ha.1, hb.1, q2.1, q4.1, q6.1, q8.1, q10.1]
  · refine mul_le_mul_of_nonneg_left ?_ hw.le
    rw [div_le_iff₀ (by norm_num)]
    linarith [ha.2, hb.2, q2.2, q4.2, q6.2, q8.2, q10.2]

/-- The 13-point rule: the same, times the sum of its decimal weights. -/
theorem k13_between {N : Nodes K} (hN : N.Valid) (f : K → K) {a b m M fa fb : K} (hab : a < b)
    (hf : ∀ x, a ≤ x → x ≤ b → m ≤ f x ∧ f x ≤ M) (ha : m ≤ fa ∧ fa ≤ M) (hb : m ≤ fb ∧ fb ≤ M) :
    m * (1 + 2 / 10 ^ 16) * (b - a) ≤ k13 N f a b fa fb ∧ k13 N f a b fa fb ≤ M * (1 + 2 / 10 ^ 16) * (b - a) := by
  have q := fun i => hf _ (absX_mem hN hab.le i).1 (absX_mem hN hab.le i).2
  have hw : 0 < (b - a) / 2 := by linarith
  have q1 := q 1; have q2 := q 2; have q3 := q 3; have q4 := q 4; have q5 := q 5; have q6 := q 6
  have q7 := q 7; have q8 := q 8; have q9 := q 9; have q10 := q 10; have q11 := q 11
  have e : ∀ z : K, z * (1 + 2 / 10 ^ 16) * (b - a) = (b - a) / 2 * (2 * z * (1 + 2 / 10 ^ 16)) := fun z => by ring
  rw [e, e]
  simp only [k13, yval]
  norm_num only [if_true, if_false]
  constructor
  · refine mul_le_mul_of_nonneg_left ?_ hw.le
    linarith [ha.1, hb.1, q1.1, q2.1, q3.1, q4.1, q5.1, q6.1, q7.1, q8.1, q9.1, q10.1, q11.1]
  · refine mul_le_mul_of_nonneg_left ?_ hw.le
    linarith [ha.2, hb.2, q1.2, q2.2, q3.2, q4.2, q5.2, q6.2, q7.2, q8.2, q9.2, q10.2, q11.2]

theorem tiles_sum {lo hi : K} {l : List (Ivl K)} (h : Tiles lo hi l) (m M : K)
    (hb : ∀ i ∈ l, m * (i.b - i.a) ≤ i.value ∧ i.value ≤ M * (i.b - i.a)) :
    m * (hi - lo) ≤ (l.map Ivl.value).sum ∧ (l.map Ivl.value).sum ≤ M * (hi - lo) := by
  induction l generalizing lo with
  | nil => cases h; simp
  | cons i l ih =>
    obtain ⟨h1, h2, h3⟩ := h
    subst h1
    have r := ih h3 fun j hj => hb j (List.mem_cons_of_mem _ hj)
    have q := hb i (by simp)
    rw [List.map_cons, List.sum_cons]
    constructor
    · have e : m * (hi - i.a) = m * (i.b - i.a) + m * (hi - i.b) := by ring
      rw [e]; exact add_le_add q.1 r.1
    · have e : M * (hi - i.a) = M * (i.b - i.a) + M * (hi - i.b) := by ring
      rw [e]; exact add_le_add q.2 r.2

/-- A completed `integrateOrdered` lies between bounds of the integrand, up to the rounding of the decimal weights. -/
theorem ordered_between {N : Nodes K} (hN : N.Valid) {eps : K} (he : 0 ≤ eps) (f : K → K) {a b tol m M : K} (ofa ofb : Option K)
    (hf : ∀ x, a ≤ x → x ≤ b → m ≤ f x ∧ f x ≤ M) (ha : m ≤ ofa.getD (f a) ∧ ofa.getD (f a) ≤ M)
    (hb : m ≤ ofb.getD (f b) ∧ ofb.getD (f b) ≤ M) (fuel : Nat) {r : Result K}
    (h : integrateOrdered N eps f a b tol ofa ofb fuel = some (.ok r)) :
    a < b ∧ (m * (b - a) ≤ r.value ∧ r.value ≤ M * (b - a) ∨
      m * (1 + 2 / 10 ^ 16) * (b - a) ≤ r.value ∧ r.value ≤ M * (1 + 2 / 10 ^ 16) * (b - a)) := by
  simp only [integrateOrdered] at h
  split at h
  · cases h
  rename_i hc
  have hab := canSubdivide_lt he (Decidable.not_not.1 hc)
  refine ⟨hab, ?_⟩
  have hev : ∀ x ∈ ((if ofa.isSome then [] else [a]) ++ (if ofb.isSome then [] else [b])) ++ callPoints N true a b,
      a ≤ x ∧ x ≤ b := by
    intro x hx
    rcases List.mem_append.1 hx with hx | hx
    · rcases List.mem_append.1 hx with hx | hx
      · split at hx
        · cases hx
        · simp at hx; subst hx; exact ⟨le_refl _, hab.le⟩
      · split at hx
        · cases hx
        · simp at hx; subst hx; exact ⟨hab.le, le_refl _⟩
    · exact callPoints_mem hN hab.le _ x hx
  split at h
  · cases h
    exact Or.inr (k13_between hN f hab hf ha hb)
  · simp only [Option.map_eq_some_iff] at h
    obtain ⟨s, hs, hr⟩ := h
    cases hr
    have hI0 := inv_start (N := N) f hab (ofa.getD (f a)) (ofb.getD (f b)) _ hev
    obtain ⟨hI, hnil⟩ := inv_loop hN eps f _ a b fuel _ _ hs hI0
    have hE := ends_loop hN eps f _ a b (fun y => m ≤ y ∧ y ≤ M) hf fuel _ _ hs hI0 (by
      intro j hj
      simp only [startState, List.nil_append, List.mem_singleton] at hj
      subst hj
      exact ⟨ha, hb⟩)
    left
    obtain ⟨l, hl, ht⟩ := hI.tiles
    have hl' := hl
    rw [hnil, List.append_nil] at hl
    have := tiles_sum ht m M fun i hi => by
      obtain ⟨h1, h2, h3⟩ := ht.mem i hi
      have hev := hI.eval i (hl'.mem_iff.1 hi)
      have hee := hE i (hl'.mem_iff.1 hi)
      rw [hev]
      exact evaluate_between hN f h2 (fun x hx hx' => hf x (h1.trans hx) (hx'.trans h3)) hee.1 hee.2
    rw [hI.total, ← (hl.map Ivl.value).sum_eq]
    exact this

theorem fx_mem {s a b : K} (hs : |s| ≤ 1) (h : a ≤ b) (i : Nat) : a ≤ fx s a b i ∧ fx s a b i ≤ b := by
  have hw : 0 ≤ (b - a) / 2 := by linarith
  have h1 := abs_le.1 hs
  have h2 := mul_le_mul_of_nonneg_right h1.1 hw
  have h3 := mul_le_mul_of_nonneg_right h1.2 hw
  match i with
  | 0 => simp only [fx, midpoint_eq]; constructor <;> linarith
  | 1 => simp only [fx, midpoint_eq]; constructor <;> linarith
  | 2 => simp only [fx, midpoint_eq]; constructor <;> linarith
  | 3 => simp only [fx, midpoint_eq]; constructor <;> linarith
  | _ + 4 => simp only [fx, midpoint_eq]; constructor <;> linarith

theorem fx_mem' {s a b : K} (hs : |s| ≤ 1) (h : b ≤ a) (i : Nat) : b ≤ fx s a b i ∧ fx s a b i ≤ a := by
  have hw : 0 ≤ (a - b) / 2 := by linarith
  have h1 := abs_le.1 hs
  have h2 := mul_le_mul_of_nonneg_right h1.1 hw
  have h3 := mul_le_mul_of_nonneg_right h1.2 hw
  have e : s * ((b - a) / 2) = -(s * ((a - b) / 2)) := by ring
  match i with
  | 0 => simp only [fx, midpoint_eq]; constructor <;> linarith
  | 1 => simp only [fx, midpoint_eq]; constructor <;> linarith
  | 2 => simp only [fx, midpoint_eq]; constructor <;> linarith
  | 3 => simp only [fx, midpoint_eq]; constructor <;> linarith
  | _ + 4 => simp only [fx, midpoint_eq]; constructor <;> linarith

/-- The result of `fastInt`, divided by the width, lies between bounds of the integrand. -/
theorem fastInt_between {N : Nodes K} (hN : N.Valid) {eps : K} (he : 0 ≤ eps) {s : K} (hs : |s| ≤ 1) (f : K → K) {a b tol m M : K}
    (hab : a ≠ b) (hf : ∀ x, min a b ≤ x → x ≤ max a b → m ≤ f x ∧ f x ≤ M) (fuel : Nat) {v : K}
    (h : fastInt N eps s f a b tol fuel = some (.ok v)) :
    (m ≤ v / (b - a) ∧ v / (b - a) ≤ M) ∨ (m * (1 + 2 / 10 ^ 16) ≤ v / (b - a) ∧ v / (b - a) ≤ M * (1 + 2 / 10 ^ 16)) := by
  have hmem : ∀ i, m ≤ f (fx s a b i) ∧ f (fx s a b i) ≤ M := by
    intro i
    rcases le_total a b with hle | hle
    · rw [min_eq_left hle, max_eq_right hle] at hf
      exact hf _ (fx_mem hs hle i).1 (fx_mem hs hle i).2
    · rw [min_eq_right hle, max_eq_left hle] at hf
      exact hf _ (fx_mem' hs hle i).1 (fx_mem' hs hle i).2
  have hne : b - a ≠ 0 := sub_ne_zero.2 fun h => hab h.symm
  have cancel : ∀ w : K, (b - a) / 2 * w / (b - a) = w / 2 := fun w => by field_simp
  have q0 := hmem 0; have q1 := hmem 1; have q2 := hmem 2; have q3 := hmem 3; have q4 := hmem 4
  simp only [fastInt] at h
  split at h
  · cases h
    left; rw [cancel]; constructor <;> linarith [q0.1, q0.2, q4.1, q4.2]
  split at h
  · cases h
    left; rw [cancel]; constructor <;> linarith [q1.1, q1.2, q3.1, q3.2]
  split at h
  · cases h
    left; rw [cancel]; constructor <;> linarith [q0.1, q0.2, q2.1, q2.2, q4.1, q4.2]
  rw [Option.map_eq_some_iff] at h
  obtain ⟨o, ho, hv⟩ := h
  unfold integrate at ho
  split at ho
  · cases ho; cases hv
  split at ho
  · rename_i hgt
    rw [Option.map_eq_some_iff] at ho
    obtain ⟨o', ho', hv'⟩ := ho
    cases o' with
    | throws => cases hv'; cases hv
    | ub => cases hv'; cases hv
    | ok r =>
      cases hv'; cases hv
      rw [min_eq_right hgt.le, max_eq_left hgt.le] at hf
      obtain ⟨-, r1⟩ := ordered_between hN he f (some _) (some _) hf q0 q4 fuel ho'
      have hw : 0 < a - b := sub_pos.2 hgt
      have e : -r.value / (b - a) = r.value / (a - b) := by rw [← neg_sub a b, neg_div_neg_eq]
      rw [e]
      rcases r1 with r1 | r1
      · left; rw [le_div_iff₀ hw, div_le_iff₀ hw]; exact r1
      · right; rw [le_div_iff₀ hw, div_le_iff₀ hw]; exact r1
  · rename_i hgt
    cases o with
    | throws => cases hv
    | ub => cases hv
    | ok r =>
      cases hv
      have hle : a ≤ b := not_lt.1 hgt
      rw [min_eq_left hle, max_eq_right hle] at hf
      obtain ⟨hlt, r1⟩ := ordered_between hN he f (some _) (some _) hf q0 q4 fuel ho
      have hw : 0 < b - a := sub_pos.2 hlt
      rcases r1 with r1 | r1
      · left; rw [le_div_iff₀ hw, div_le_iff₀ hw]; exact r1
      · right; rw [le_div_iff₀ hw, div_le_iff₀ hw]; exact r1

/-! Positive integrands -/

theorem evaluate_pos {N : Nodes K} (hN : N.Valid) (f : K → K) {a b fa fb : K} (hab : a < b)
    (hf : ∀ x, a ≤ x → x ≤ b → 0 < f x) (ha : 0 < fa) (hb : 0 < fb) : 0 < (evaluate N f a b fa fb).value := by
  have q := fun i => hf _ (absX_mem hN hab.le i).1 (absX_mem hN hab.le i).2
  have hw : 0 < b - a := sub_pos.2 hab
  have q2 := q 2; have q4 := q 4; have q6 := q 6; have q8 := q 8; have q10 := q 10
  simp only [evaluate, yval]
  norm_num only [if_true, if_false]
  positivity

theorem k13_pos {N : Nodes K} (hN : N.Valid) (f : K → K) {a b fa fb : K} (hab : a < b)
    (hf : ∀ x, a ≤ x → x ≤ b → 0 < f x) (ha : 0 < fa) (hb : 0 < fb) : 0 < k13 N f a b fa fb := by
  have q := fun i => hf _ (absX_mem hN hab.le i).1 (absX_mem hN hab.le i).2
  have hw : 0 < b - a := sub_pos.2 hab
  have q1 := q 1; have q2 := q 2; have q3 := q 3; have q4 := q 4; have q5 := q 5; have q6 := q 6
  have q7 := q 7; have q8 := q 8; have q9 := q 9; have q10 := q 10; have q11 := q 11
  simp only [k13, yval]
  norm_num only [if_true, if_false]
  positivity

theorem tiles_pos {lo hi : K} {l : List (Ivl K)} (h : Tiles lo hi l) (hlt : lo < hi) (hb : ∀ i ∈ l, 0 < i.value) :
    0 < (l.map Ivl.value).sum := by
  cases l with
  | nil => cases h; exact absurd hlt (lt_irrefl _)
  | cons i l =>
    rw [List.map_cons, List.sum_cons]
    refine add_pos_of_pos_of_nonneg (hb i (by simp)) ?_
    refine List.sum_nonneg fun x hx => ?_
    obtain ⟨j, hj, rfl⟩ := List.mem_map.1 hx
    exact (hb j (List.mem_cons_of_mem _ hj)).le

theorem ordered_pos {N : Nodes K} (hN : N.Valid) {eps : K} (he : 0 ≤ eps) (f : K → K) {a b tol : K} (ofa ofb : Option K)
    (hf : ∀ x, a ≤ x → x ≤ b → 0 < f x) (ha : 0 < ofa.getD (f a)) (hb : 0 < ofb.getD (f b)) (fuel : Nat) {r : Result K}
    (h : integrateOrdered N eps f a b tol ofa ofb fuel = some (.ok r)) : a < b ∧ 0 < r.value := by
  simp only [integrateOrdered] at h
  split at h
  · cases h
  rename_i hc
  have hab := canSubdivide_lt he (Decidable.not_not.1 hc)
  refine ⟨hab, ?_⟩
  have hev : ∀ x ∈ ((if ofa.isSome then [] else [a]) ++ (if ofb.isSome then [] else [b])) ++ callPoints N true a b,
      a ≤ x ∧ x ≤ b := by
    intro x hx
    rcases List.mem_append.1 hx with hx | hx
    · rcases List.mem_append.1 hx with hx | hx
      · split at hx
        · cases hx
        · simp at hx; subst hx; exact ⟨le_refl _, hab.le⟩
      · split at hx
        · cases hx
        · simp at hx; subst hx; exact ⟨hab.le, le_refl _⟩
    · exact callPoints_mem hN hab.le _ x hx
  split at h
  · cases h
    exact k13_pos hN f hab hf ha hb
  · simp only [Option.map_eq_some_iff] at h
    obtain ⟨s, hs, hr⟩ := h
    cases hr
    have hI0 := inv_start (N := N) f hab (ofa.getD (f a)) (ofb.getD (f b)) _ hev
    obtain ⟨hI, hnil⟩ := inv_loop hN eps f _ a b fuel _ _ hs hI0
    have hE := ends_loop hN eps f _ a b (fun y => 0 < y) hf fuel _ _ hs hI0 (by
      intro j hj
      simp only [startState, List.nil_append, List.mem_singleton] at hj
      subst hj
      exact ⟨ha, hb⟩)
    obtain ⟨l, hl, ht⟩ := hI.tiles
    have hl' := hl
    rw [hnil, List.append_nil] at hl
    have := tiles_pos ht hab fun i hi => by
      obtain ⟨h1, h2, h3⟩ := ht.mem i hi
      have hev := hI.eval i (hl'.mem_iff.1 hi)
      have hee := hE i (hl'.mem_iff.1 hi)
      rw [hev]
      exact evaluate_pos hN f h2 (fun x hx hx' => hf x (h1.trans hx) (hx'.trans h3)) hee.1 hee.2
    rw [hI.total, ← (hl.map Ivl.value).sum_eq]
    exact this

theorem fastInt_pos {N : Nodes K} (hN : N.Valid) {eps : K} (he : 0 ≤ eps) {s : K} (hs : |s| ≤ 1) (f : K → K) {a b tol : K}
    (hab : a ≠ b) (hf : ∀ x, min a b ≤ x → x ≤ max a b → 0 < f x) (fuel : Nat) {v : K}
    (h : fastInt N eps s f a b tol fuel = some (.ok v)) : 0 < v / (b - a) := by
  have hmem : ∀ i, 0 < f (fx s a b i) := by
    intro i
    rcases le_total a b with hle | hle
    · rw [min_eq_left hle, max_eq_right hle] at hf
      exact hf _ (fx_mem hs hle i).1 (fx_mem hs hle i).2
    · rw [min_eq_right hle, max_eq_left hle] at hf
      exact hf _ (fx_mem' hs hle i).1 (fx_mem' hs hle i).2
  have hne : b - a ≠ 0 := sub_ne_zero.2 fun h => hab h.symm
  have cancel : ∀ w : K, (b - a) / 2 * w / (b - a) = w / 2 := fun w => by field_simp
  have q0 := hmem 0; have q1 := hmem 1; have q2 := hmem 2; have q3 := hmem 3; have q4 := hmem 4
  simp only [fastInt] at h
  split at h
  · cases h
    rw [cancel]; positivity
  split at h
  · cases h
    rw [cancel]; positivity
  split at h
  · cases h
    rw [cancel]; positivity
  rw [Option.map_eq_some_iff] at h
  obtain ⟨o, ho, hv⟩ := h
  unfold integrate at ho
  split at ho
  · cases ho; cases hv
  split at ho
  · rename_i hgt
    rw [Option.map_eq_some_iff] at ho
    obtain ⟨o', ho', hv'⟩ := ho
    cases o' with
    | throws => cases hv'; cases hv
    | ub => cases hv'; cases hv
    | ok r =>
      cases hv'; cases hv
      rw [min_eq_right hgt.le, max_eq_left hgt.le] at hf
      obtain ⟨-, r1⟩ := ordered_pos hN he f (some _) (some _) hf q0 q4 fuel ho'
      have e : -r.value / (b - a) = r.value / (a - b) := by rw [← neg_sub a b, neg_div_neg_eq]
      rw [e]
      exact div_pos r1 (sub_pos.2 hgt)
  · rename_i hgt
    cases o with
    | throws => cases hv
    | ub => cases hv
    | ok r =>
      cases hv
      have hle : a ≤ b := not_lt.1 hgt
      rw [min_eq_left hle, max_eq_right hle] at hf
      obtain ⟨hlt, r1⟩ := ordered_pos hN he f (some _) (some _) hf q0 q4 fuel ho
      exact div_pos r1 (sub_pos.2 hlt)

end Verif.Quad
