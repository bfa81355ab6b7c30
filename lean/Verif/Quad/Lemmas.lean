import Verif.Quad.Spec
import Mathlib.Tactic.Ring
import Mathlib.Tactic.Linarith
import Mathlib.Tactic.LinearCombination
import Mathlib.Tactic.NormNum
import Mathlib.Tactic.FieldSimp
import Mathlib.Tactic.Positivity
import Mathlib.Tactic.IntervalCases

/-! Lemmas for C18-C20. -/

set_option linter.unusedSectionVars false

namespace Verif.Quad

variable {K : Type} [Field K] [LinearOrder K] [IsStrictOrderedRing K]

theorem midpoint_eq (a b : K) : midpoint a b = (a + b) / 2 := by unfold midpoint; ring

theorem absc_abs {N : Nodes K} (hN : N.Valid) (i : Nat) : |absc N i| ≤ 1 := by
  have hb : |N.beta| ≤ 1 := by rw [abs_of_pos hN.beta_pos]; exact hN.beta_lt.le
  have := hN.alpha_abs
  have := hN.x1_abs
  have := hN.x2_abs
  have := hN.x3_abs
  unfold absc
  split <;> simp_all [abs_neg]

theorem absX_mem {N : Nodes K} (hN : N.Valid) {a b : K} (h : a ≤ b) (i : Nat) : a ≤ absX N a b i ∧ absX N a b i ≤ b := by
  have h1 := abs_le.1 (absc_abs hN i)
  rw [absX, midpoint_eq]
  have hw : 0 ≤ (b - a) / 2 := by linarith
  have h2 := mul_le_mul_of_nonneg_right h1.1 hw
  have h3 := mul_le_mul_of_nonneg_right h1.2 hw
  constructor <;> linarith

theorem split_order {N : Nodes K} (hN : N.Valid) {a b : K} (h : a < b) :
    a < absX N a b 4 ∧ absX N a b 4 < absX N a b 8 ∧ absX N a b 8 < b := by
  simp only [absX, absc, midpoint_eq]
  have hw : 0 < (b - a) / 2 := by linarith
  have h1 := mul_lt_mul_of_pos_right hN.beta_lt hw
  have h2 := mul_pos hN.beta_pos hw
  refine ⟨?_, ?_, ?_⟩ <;> linarith

theorem callPoints_mem {N : Nodes K} (hN : N.Valid) {a b : K} (h : a ≤ b) (full : Bool) :
    ∀ x ∈ callPoints N full a b, a ≤ x ∧ x ≤ b := by
  intro x hx
  simp only [callPoints, List.mem_map] at hx
  obtain ⟨i, _, rfl⟩ := hx
  exact absX_mem hN h i

/-! Tilings -/

theorem Tiles.le {lo hi : K} {l : List (Ivl K)} (h : Tiles lo hi l) : lo ≤ hi := by
  induction l generalizing lo with
  | nil => exact le_of_eq h
  | cons i l ih => obtain ⟨h1, h2, h3⟩ := h; have := ih h3; linarith

theorem Tiles.mem {lo hi : K} {l : List (Ivl K)} (h : Tiles lo hi l) : ∀ i ∈ l, lo ≤ i.a ∧ i.a < i.b ∧ i.b ≤ hi := by
  induction l generalizing lo with
  | nil => simp
  | cons j l ih =>
    obtain ⟨h1, h2, h3⟩ := h
    intro i hi
    rcases List.mem_cons.1 hi with rfl | hi
    · exact ⟨h1.ge, h2, h3.le⟩
    · have := ih h3 i hi; exact ⟨by linarith [this.1], this.2⟩

theorem Tiles.append {lo mid hi : K} {l l' : List (Ivl K)} (h : Tiles lo mid l) (h' : Tiles mid hi l') :
    Tiles lo hi (l ++ l') := by
  induction l generalizing lo with
  | nil => cases h; exact h'
  | cons i l ih => exact ⟨h.1, h.2.1, ih h.2.2⟩

theorem Tiles.replace {lo hi : K} {l1 l2 l' : List (Ivl K)} {i : Ivl K} (h : Tiles lo hi (l1 ++ i :: l2))
    (h' : Tiles i.a i.b l') : Tiles lo hi (l1 ++ (l' ++ l2)) := by
  induction l1 generalizing lo with
  | nil => obtain ⟨h1, _, h3⟩ := h; subst h1; exact h'.append h3
  | cons j l1 ih => exact ⟨h.1, h.2.1, ih h.2.2⟩

/-! The loop -/

structure Inv (N : Nodes K) (f : K → K) (lo hi : K) (s : St K) : Prop where
  tiles : ∃ l, l.Perm (s.committed ++ s.stack) ∧ Tiles lo hi l
  eval : ∀ i ∈ s.committed ++ s.stack, i = evaluate N f i.a i.b i.fa i.fb
  total : s.total = (s.committed.map Ivl.value).sum
  comp : s.comp = 0
  evals : ∀ x ∈ s.evals, lo ≤ x ∧ x ≤ hi

theorem process_perm (eps tol : K) (s : St K) (i : Ivl K) :
    ((process eps tol s i).committed ++ (process eps tol s i).stack).Perm (i :: (s.committed ++ s.stack)) := by
  unfold process accumulate
  split
  · split <;> exact List.Perm.refl _
  · exact List.perm_middle

theorem process_total (eps tol : K) (s : St K) (i : Ivl K) (h1 : s.total = (s.committed.map Ivl.value).sum)
    (h2 : s.comp = 0) : (process eps tol s i).total = ((process eps tol s i).committed.map Ivl.value).sum ∧
      (process eps tol s i).comp = 0 := by
  unfold process accumulate
  split
  · split <;> (simp only [List.map_cons, List.sum_cons, h1, h2]; constructor <;> ring)
  · exact ⟨h1, h2⟩

theorem process_evals (eps tol : K) (s : St K) (i : Ivl K) : (process eps tol s i).evals = s.evals := by
  unfold process accumulate
  split
  · split <;> rfl
  · rfl

theorem process3_perm (eps tol : K) (s : St K) (i1 i2 i3 : Ivl K) :
    ((process eps tol (process eps tol (process eps tol s i1) i2) i3).committed ++
      (process eps tol (process eps tol (process eps tol s i1) i2) i3).stack).Perm
      ([i1, i2, i3] ++ (s.committed ++ s.stack)) := by
  have p1 := process_perm eps tol (process eps tol (process eps tol s i1) i2) i3
  have p2 := process_perm eps tol (process eps tol s i1) i2
  have p3 := process_perm eps tol s i1
  have q : (i3 :: (i2 :: (i1 :: (s.committed ++ s.stack)))).Perm ([i1, i2, i3] ++ (s.committed ++ s.stack)) := by
    have : ([i3, i2, i1] : List (Ivl K)).Perm [i1, i2, i3] := (List.reverse_perm [i1, i2, i3])
    exact this.append_right _
  exact p1.trans ((List.Perm.cons _ (p2.trans (List.Perm.cons _ p3))).trans q)

/-- One turn of the loop. -/
def turn (N : Nodes K) (eps : K) (f : K → K) (tol : K) (s : St K) (i : Ivl K) (rest : List (Ivl K)) : St K :=
  process eps tol (process eps tol (process eps tol
    { s with stack := rest, evals := s.evals ++ (callPoints N false i.a i.spa ++ callPoints N false i.spa i.spb ++
      callPoints N false i.spb i.b) } (evaluate N f i.a i.spa i.fa i.fspa))
    (evaluate N f i.spa i.spb i.fspa i.fspb)) (evaluate N f i.spb i.b i.fspb i.fb)

theorem loop_succ (N : Nodes K) (eps : K) (f : K → K) (tol : K) (fuel : Nat) (s : St K) (i : Ivl K) (rest : List (Ivl K))
    (h : s.stack = i :: rest) : loop N eps f tol (fuel + 1) s = loop N eps f tol fuel (turn N eps f tol s i rest) := by
  simp only [loop, h]; rfl

theorem inv_turn {N : Nodes K} (hN : N.Valid) (eps : K) (f : K → K) (tol lo hi : K) (s : St K) (i : Ivl K)
    (rest : List (Ivl K)) (hs : s.stack = i :: rest) (h : Inv N f lo hi s) : Inv N f lo hi (turn N eps f tol s i rest) := by
  obtain ⟨⟨l, hp, ht⟩, hev, htot, hcomp, hx⟩ := h
  have hmem : i ∈ s.committed ++ s.stack := by rw [hs]; simp
  have hi := hev i hmem
  obtain ⟨l1, l2, rfl⟩ := List.append_of_mem (hp.mem_iff.2 hmem)
  have hab := ht.mem i (by simp)
  have hspa : i.spa = absX N i.a i.b 4 := by rw [hi]; rfl
  have hspb : i.spb = absX N i.a i.b 8 := by rw [hi]; rfl
  obtain ⟨o1, o2, o3⟩ := split_order hN hab.2.1
  rw [← hspa, ← hspb] at o2
  rw [← hspa] at o1
  rw [← hspb] at o3
  have hperm := process3_perm eps tol { s with stack := rest, evals := s.evals ++ (callPoints N false i.a i.spa ++
    callPoints N false i.spa i.spb ++ callPoints N false i.spb i.b) } (evaluate N f i.a i.spa i.fa i.fspa)
    (evaluate N f i.spa i.spb i.fspa i.fspb) (evaluate N f i.spb i.b i.fspb i.fb)
  have hl : (l1 ++ l2).Perm (s.committed ++ rest) := by
    have h1 : (i :: (l1 ++ l2)).Perm (i :: (s.committed ++ rest)) :=
      (List.perm_middle.symm.trans hp).trans (by rw [hs]; exact List.perm_middle)
    exact h1.cons_inv
  have q1 := process_total eps tol { s with stack := rest, evals := s.evals ++ (callPoints N false i.a i.spa ++
    callPoints N false i.spa i.spb ++ callPoints N false i.spb i.b) } (evaluate N f i.a i.spa i.fa i.fspa) htot hcomp
  have q2 := process_total eps tol _ (evaluate N f i.spa i.spb i.fspa i.fspb) q1.1 q1.2
  have q3 := process_total eps tol _ (evaluate N f i.spb i.b i.fspb i.fb) q2.1 q2.2
  refine ⟨⟨l1 ++ ([evaluate N f i.a i.spa i.fa i.fspa, evaluate N f i.spa i.spb i.fspa i.fspb,
    evaluate N f i.spb i.b i.fspb i.fb] ++ l2), ?_, ?_⟩, ?_, ?_, ?_, ?_⟩
  · refine List.Perm.trans ?_ hperm.symm
    refine List.Perm.trans ?_ (hl.append_left _)
    rw [← List.append_assoc, ← List.append_assoc]
    exact (List.perm_append_comm).append_right _
  · exact ht.replace ⟨rfl, o1, rfl, o2, rfl, o3, rfl⟩
  · intro j hj
    have := hperm.mem_iff.1 hj
    rcases List.mem_append.1 this with h | h
    · simp only [List.mem_cons, List.not_mem_nil, or_false] at h
      rcases h with rfl | rfl | rfl <;> rfl
    · refine hev j ?_
      rw [hs]
      rcases List.mem_append.1 h with h | h
      · exact List.mem_append_left _ h
      · exact List.mem_append_right _ (List.mem_cons_of_mem _ h)
  · exact q3.1
  · exact q3.2
  · intro x
    simp only [turn, process_evals, List.mem_append]
    rintro (h | (h | h) | h)
    · exact hx x h
    · have := callPoints_mem hN o1.le _ x h; exact ⟨by linarith [hab.1, this.1], by linarith [hab.2.2, this.2]⟩
    · have := callPoints_mem hN o2.le _ x h; exact ⟨by linarith [hab.1, this.1], by linarith [hab.2.2, this.2]⟩
    · have := callPoints_mem hN o3.le _ x h; exact ⟨by linarith [hab.1, this.1], by linarith [hab.2.2, this.2]⟩

theorem inv_loop {N : Nodes K} (hN : N.Valid) (eps : K) (f : K → K) (tol lo hi : K) (fuel : Nat) : ∀ (s s' : St K),
    loop N eps f tol fuel s = some s' → Inv N f lo hi s → Inv N f lo hi s' ∧ s'.stack = [] := by
  induction fuel with
  | zero =>
    intro s s' h hI
    simp only [loop] at h
    split at h
    · cases h; exact ⟨hI, by simpa using ‹s.stack.isEmpty = true›⟩
    · cases h
  | succ n ih =>
    intro s s' h hI
    cases hs : s.stack with
    | nil => simp only [loop, hs] at h; cases h; exact ⟨hI, hs⟩
    | cons i rest =>
      rw [loop_succ _ _ _ _ _ _ _ _ hs] at h
      exact ih _ _ h (inv_turn hN eps f tol lo hi s i rest hs hI)

/-! Only values of the integrand inside the range matter. -/

theorem yval_congr {N : Nodes K} (hN : N.Valid) {f g : K → K} {a b : K} (hab : a ≤ b) (h : ∀ x, a ≤ x → x ≤ b → f x = g x)
    (fa fb : K) (i : Nat) : yval N f a b fa fb i = yval N g a b fa fb i := by
  unfold yval
  rw [h _ (absX_mem hN hab i).1 (absX_mem hN hab i).2]

theorem evaluate_congr {N : Nodes K} (hN : N.Valid) {f g : K → K} {a b : K} (hab : a ≤ b)
    (h : ∀ x, a ≤ x → x ≤ b → f x = g x) (fa fb : K) : evaluate N f a b fa fb = evaluate N g a b fa fb := by
  have hy : yval N f a b fa fb = yval N g a b fa fb := funext fun i => yval_congr hN hab h fa fb i
  simp only [evaluate, hy]

theorem turn_congr {N : Nodes K} (hN : N.Valid) (eps : K) {f g : K → K} (tol lo hi : K)
    (hfg : ∀ x, lo ≤ x → x ≤ hi → f x = g x) (s : St K) (i : Ivl K) (rest : List (Ivl K)) (hs : s.stack = i :: rest)
    (h : Inv N f lo hi s) : turn N eps f tol s i rest = turn N eps g tol s i rest := by
  obtain ⟨⟨l, hp, ht⟩, hev, -, -, -⟩ := h
  have hmem : i ∈ s.committed ++ s.stack := by rw [hs]; simp
  obtain ⟨h1, h2, h3⟩ := ht.mem i (hp.mem_iff.2 hmem)
  have hi := hev i hmem
  obtain ⟨o1, o2, o3⟩ := split_order hN h2
  have e1 : i.spa = absX N i.a i.b 4 := by rw [hi]; rfl
  have e2 : i.spb = absX N i.a i.b 8 := by rw [hi]; rfl
  rw [← e1] at o1 o2
  rw [← e2] at o2 o3
  unfold turn
  rw [evaluate_congr hN o1.le fun x hx hx' => hfg x (h1.trans hx) (by linarith),
    evaluate_congr hN o2.le fun x hx hx' => hfg x (by linarith) (by linarith),
    evaluate_congr hN o3.le fun x hx hx' => hfg x (by linarith) (hx'.trans h3)]

theorem loop_congr {N : Nodes K} (hN : N.Valid) (eps : K) {f g : K → K} (tol lo hi : K)
    (hfg : ∀ x, lo ≤ x → x ≤ hi → f x = g x) (fuel : Nat) : ∀ s : St K, Inv N f lo hi s →
    loop N eps f tol fuel s = loop N eps g tol fuel s := by
  induction fuel with
  | zero => intro s _; rfl
  | succ n ih =>
    intro s hI
    cases hs : s.stack with
    | nil => simp only [loop, hs]
    | cons i rest =>
      rw [loop_succ _ _ _ _ _ _ _ _ hs, loop_succ _ _ _ _ _ _ _ _ hs, ← turn_congr hN eps tol lo hi hfg s i rest hs hI]
      exact ih _ (inv_turn hN eps f tol lo hi s i rest hs hI)

/-- The endpoint values carried by the intervals are values of the integrand. -/
def Right (f : K → K) (s : St K) : Prop := ∀ i ∈ s.committed ++ s.stack, i.fa = f i.a ∧ i.fb = f i.b

theorem right_turn {N : Nodes K} (eps : K) (f : K → K) (tol : K) (s : St K) (i : Ivl K)
    (rest : List (Ivl K)) (hs : s.stack = i :: rest) (hi : i = evaluate N f i.a i.b i.fa i.fb)
    (h : Right f s) : Right f (turn N eps f tol s i rest) := by
  have hmem : i ∈ s.committed ++ s.stack := by rw [hs]; simp
  have hperm := process3_perm eps tol { s with stack := rest, evals := s.evals ++ (callPoints N false i.a i.spa ++
    callPoints N false i.spa i.spb ++ callPoints N false i.spb i.b) } (evaluate N f i.a i.spa i.fa i.fspa)
    (evaluate N f i.spa i.spb i.fspa i.fspb) (evaluate N f i.spb i.b i.fspb i.fb)
  have e1 : i.fspa = f i.spa := by rw [hi]; rfl
  have e2 : i.fspb = f i.spb := by rw [hi]; rfl
  have hR := h i hmem
  intro j hj
  have := hperm.mem_iff.1 hj
  rcases List.mem_append.1 this with h' | h'
  · simp only [List.mem_cons, List.not_mem_nil, or_false] at h'
    rcases h' with rfl | rfl | rfl
    · exact ⟨hR.1, e1⟩
    · exact ⟨e1, e2⟩
    · exact ⟨e2, hR.2⟩
  · refine h j ?_
    rw [hs]
    rcases List.mem_append.1 h' with h' | h'
    · exact List.mem_append_left _ h'
    · exact List.mem_append_right _ (List.mem_cons_of_mem _ h')

theorem right_loop {N : Nodes K} (hN : N.Valid) (eps : K) (f : K → K) (tol lo hi : K) (fuel : Nat) : ∀ (s s' : St K),
    loop N eps f tol fuel s = some s' → Inv N f lo hi s → Right f s → Right f s' := by
  induction fuel with
  | zero =>
    intro s s' h hI hR
    simp only [loop] at h
    split at h
    · cases h; exact hR
    · cases h
  | succ n ih =>
    intro s s' h hI hR
    cases hs : s.stack with
    | nil => simp only [loop, hs] at h; cases h; exact hR
    | cons i rest =>
      rw [loop_succ _ _ _ _ _ _ _ _ hs] at h
      exact ih _ _ h (inv_turn hN eps f tol lo hi s i rest hs hI)
        (right_turn eps f tol s i rest hs (hI.eval i (by rw [hs]; simp)) hR)

theorem inv_start {N : Nodes K} (f : K → K) {a b : K} (hab : a < b) (fa fb : K) (ev : List K)
    (hev : ∀ x ∈ ev, a ≤ x ∧ x ≤ b) : Inv N f a b (startState (evaluate N f a b fa fb) ev) := by
  refine ⟨⟨[evaluate N f a b fa fb], List.Perm.refl _, rfl, hab, rfl⟩, ?_, by simp [startState], rfl, hev⟩
  intro i hi
  simp only [startState, List.nil_append, List.mem_singleton] at hi
  subst hi; rfl

theorem canSubdivide_lt {eps a b : K} (he : 0 ≤ eps) (h : canSubdivide eps a b) : a < b := by
  unfold canSubdivide at h
  have : 0 ≤ 32 * eps * max |a| |b| := by positivity
  linarith

theorem ordered_congr {N : Nodes K} (hN : N.Valid) {eps : K} (he : 0 ≤ eps) {f g : K → K} {a b : K} (tol : K)
    (hab : a ≤ b) (hfg : ∀ x, a ≤ x → x ≤ b → f x = g x) (ofa ofb : Option K) (fuel : Nat) :
    integrateOrdered N eps f a b tol ofa ofb fuel = integrateOrdered N eps g a b tol ofa ofb fuel := by
  unfold integrateOrdered
  have hy : ∀ fa fb, k13 N f a b fa fb = k13 N g a b fa fb := fun fa fb => by
    have hy : yval N f a b fa fb = yval N g a b fa fb := funext fun i => yval_congr hN hab hfg fa fb i
    simp only [k13, hy]
  simp only [hfg a (le_refl a) hab, hfg b hab (le_refl b), hy, evaluate_congr hN hab hfg]
  split
  · rfl
  · rename_i hc
    have hlt := canSubdivide_lt he (not_not.1 hc)
    split
    · rfl
    · rw [loop_congr (f := g) (g := f) hN eps _ a b (fun x h1 h2 => (hfg x h1 h2).symm) fuel]
      refine inv_start g hlt _ _ _ fun x hx => ?_
      rcases List.mem_append.1 hx with hx | hx
      · rcases List.mem_append.1 hx with hx | hx
        · split at hx
          · cases hx
          · rw [List.mem_singleton.1 hx]; exact ⟨le_refl a, hab⟩
        · split at hx
          · cases hx
          · rw [List.mem_singleton.1 hx]; exact ⟨hab, le_refl b⟩
      · exact callPoints_mem hN hab true x hx

/-- Everything about a completed `integrateOrdered`. -/
theorem ordered_spec {N : Nodes K} (hN : N.Valid) {eps : K} (he : 0 ≤ eps) (f : K → K) {a b tol : K} (ofa ofb : Option K)
    (fuel : Nat) {r : Result K} (h : integrateOrdered N eps f a b tol ofa ofb fuel = some (.ok r)) :
    a < b ∧ (∃ l, l.Perm r.committed ∧ Tiles a b l) ∧ (∀ x ∈ r.evals, a ≤ x ∧ x ≤ b) ∧
      r.fa = ofa.getD (f a) ∧ r.fb = ofb.getD (f b) ∧
      (∀ i ∈ r.committed, i = evaluate N f i.a i.b i.fa i.fb) ∧
      (r.fa = f a → r.fb = f b → ∀ i ∈ r.committed, i.fa = f i.a ∧ i.fb = f i.b) ∧
      (r.value = (r.committed.map Ivl.value).sum ∨ r.value = k13 N f a b r.fa r.fb) := by
  simp only [integrateOrdered] at h
  split at h
  · cases h
  rename_i hc
  have hab := canSubdivide_lt he (Decidable.not_not.1 hc)
  have hev : ∀ x ∈ ((if ofa.isSome then [] else [a]) ++ (if ofb.isSome then [] else [b])) ++ callPoints N true a b,
      a ≤ x ∧ x ≤ b := by
    intro x hx
    rcases List.mem_append.1 hx with hx | hx
    · rcases List.mem_append.1 hx with hx | hx
      · split at hx
        · cases hx
        · simp at hx; subst hx; exact ⟨le_refl _, hab.le⟩
      · split at hx
        · cases hx
        · simp at hx; subst hx; exact ⟨hab.le, le_refl _⟩
    · exact callPoints_mem hN hab.le _ x hx
  split at h
  · cases h
    refine ⟨hab, ⟨[evaluate N f a b _ _], List.Perm.refl _, rfl, hab, rfl⟩, hev, rfl, rfl, ?_, ?_, Or.inr rfl⟩
    · intro i hi; simp only [List.mem_singleton] at hi; subst hi; rfl
    · intro h1 h2 i hi; simp only [List.mem_singleton] at hi; subst hi; exact ⟨h1, h2⟩
  · simp only [Option.map_eq_some_iff] at h
    obtain ⟨s, hs, hr⟩ := h
    cases hr
    obtain ⟨hI, hnil⟩ := inv_loop hN eps f _ a b fuel _ _ hs (inv_start f hab _ _ _ hev)
    refine ⟨hab, ?_, hI.evals, rfl, rfl, ?_, ?_, Or.inl hI.total⟩
    · obtain ⟨l, hl, ht⟩ := hI.tiles
      rw [hnil, List.append_nil] at hl
      exact ⟨l, hl, ht⟩
    · intro i hi; exact hI.eval i (List.mem_append_left _ hi)
    · intro h1 h2 i hi
      refine right_loop hN eps f _ a b fuel _ _ hs (inv_start f hab _ _ _ hev) ?_ i (List.mem_append_left _ hi)
      intro j hj
      simp only [startState, List.nil_append, List.mem_singleton] at hj
      subst hj; exact ⟨h1, h2⟩

/-! The rules -/

theorem evaluate_value {N : Nodes K} (f : K → K) (a b : K) : (evaluate N f a b (f a) (f b)).value = kronrod7 N f a b := by
  simp only [evaluate, yval, kronrod7, absX, absc, midpoint_eq]
  norm_num
  rw [← sub_eq_add_neg, ← sub_eq_add_neg]
  ring

theorem evaluate_i2 {N : Nodes K} (f : K → K) (a b : K) : (evaluate N f a b (f a) (f b)).i2 = lobatto4 N f a b := by
  simp only [evaluate, yval, lobatto4, absX, absc, midpoint_eq]
  norm_num
  rw [← sub_eq_add_neg]
  ring

theorem kronrod7_exact {N : Nodes K} (hN : N.Exact) (c : Nat → K) (a b : K) :
    kronrod7 N (poly 9 c) a b = polyInt 9 c a b := by
  obtain ⟨ha, hb, _, _, _⟩ := hN
  have a4 : N.alpha ^ 4 = 4 / 9 := by
    have : N.alpha ^ 4 = (N.alpha ^ 2) ^ 2 := by ring
    rw [this, ha]; norm_num
  have a6 : N.alpha ^ 6 = 8 / 27 := by
    have : N.alpha ^ 6 = (N.alpha ^ 2) ^ 3 := by ring
    rw [this, ha]; norm_num
  have a8 : N.alpha ^ 8 = 16 / 81 := by
    have : N.alpha ^ 8 = (N.alpha ^ 2) ^ 4 := by ring
    rw [this, ha]; norm_num
  have b4 : N.beta ^ 4 = 1 / 25 := by
    have : N.beta ^ 4 = (N.beta ^ 2) ^ 2 := by ring
    rw [this, hb]; norm_num
  have b6 : N.beta ^ 6 = 1 / 125 := by
    have : N.beta ^ 6 = (N.beta ^ 2) ^ 3 := by ring
    rw [this, hb]; norm_num
  have b8 : N.beta ^ 8 = 1 / 625 := by
    have : N.beta ^ 8 = (N.beta ^ 2) ^ 4 := by ring
    rw [this, hb]; norm_num
  obtain ⟨m, hm⟩ : ∃ m, m = (a + b) / 2 := ⟨_, rfl⟩
  obtain ⟨w, hw⟩ : ∃ w, w = (b - a) / 2 := ⟨_, rfl⟩
  have ea : a = m - w := by rw [hm, hw]; ring
  have eb : b = m + w := by rw [hm, hw]; ring
  unfold kronrod7
  rw [← hm, ← hw, ea, eb]
  have mono : ∀ k ∈ Finset.range 10, w * (77 / 1470 * ((m - w) ^ k + (m + w) ^ k) +
      432 / 1470 * ((m - N.alpha * w) ^ k + (m + N.alpha * w) ^ k) +
      625 / 1470 * ((m - N.beta * w) ^ k + (m + N.beta * w) ^ k) + 672 / 1470 * m ^ k) =
      ((m + w) ^ (k + 1) - (m - w) ^ (k + 1)) / (k + 1) := by
    intro k hk
    simp only [Finset.mem_range] at hk
    interval_cases k
    · push_cast; ring
    · push_cast; ring
    all_goals
      push_cast
      ring_nf
      simp only [ha, hb, a4, a6, a8, b4, b6, b8]
      ring
  have lhs : w * (77 / 1470 * (poly 9 c (m - w) + poly 9 c (m + w)) +
      432 / 1470 * (poly 9 c (m - N.alpha * w) + poly 9 c (m + N.alpha * w)) +
      625 / 1470 * (poly 9 c (m - N.beta * w) + poly 9 c (m + N.beta * w)) + 672 / 1470 * poly 9 c m) =
      ∑ k ∈ Finset.range 10, c k * (w * (77 / 1470 * ((m - w) ^ k + (m + w) ^ k) +
      432 / 1470 * ((m - N.alpha * w) ^ k + (m + N.alpha * w) ^ k) +
      625 / 1470 * ((m - N.beta * w) ^ k + (m + N.beta * w) ^ k) + 672 / 1470 * m ^ k)) := by
    simp only [poly, Finset.sum_range_succ, Finset.sum_range_zero]
    ring
  rw [lhs, polyInt]
  exact Finset.sum_congr rfl fun k hk => by rw [mono k hk]

end Verif.Quad
