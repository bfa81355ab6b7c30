import Verif.Tools.Chunk

/-!
# Property C30: HDF5 chunk shapes
-/

namespace Verif.Tools

private theorem turn_ok {size e : Nat} (hs : 0 < size) (he : 0 < e) :
    ∃ c size', chunkTurn size e = .ok (c, size') ∧ size' = size * c ∧ 1 ≤ c ∧ c ≤ e ∧ (size ≤ target → size' ≤ target) := by
  unfold chunkTurn
  by_cases h : size < target
  · rw [if_pos h, if_neg (by omega)]
    have hq1 : 1 ≤ target / size := (Nat.le_div_iff_mul_le hs).2 (by omega)
    have hq2 : target / size ≤ 2 ^ 16 := Nat.div_le_self _ _
    have hm : target / size % 2 ^ 32 = target / size := Nat.mod_eq_of_lt (by omega)
    have hmul : size * (target / size) ≤ target := Nat.mul_div_le _ _
    simp only [hm]
    by_cases hd : e < target / size
    · rw [if_pos (Or.inl hd), Nat.mod_eq_of_lt (by omega : e < 2 ^ 32)]
      have h1 : size * e ≤ target := Nat.le_trans (Nat.mul_le_mul_left _ (by omega)) hmul
      rw [Nat.mod_eq_of_lt (by have : target = 2 ^ 16 := rfl; omega)]
      exact ⟨_, _, rfl, rfl, he, Nat.le_refl _, fun _ => h1⟩
    · rw [if_neg (by omega)]
      rw [Nat.mod_eq_of_lt (by have : target = 2 ^ 16 := rfl; omega)]
      exact ⟨_, _, rfl, rfl, hq1, by omega, fun _ => hmul⟩
  · rw [if_neg h]
    exact ⟨1, size, rfl, by omega, Nat.le_refl _, he, id⟩

private theorem loop_ok : ∀ (es : List Nat) (size : Nat), 0 < size → (∀ e ∈ es, 0 < e) →
    ∃ cs, chunkLoop size es = .ok cs ∧ cs.length = es.length ∧
      (∀ (i e : Nat), es[i]? = some e → ∃ c, cs[i]? = some c ∧ 1 ≤ c ∧ c ≤ e) ∧
      (size ≤ target → size * cs.foldr (· * ·) 1 ≤ target) := by
  intro es
  induction es with
  | nil => intro size _ _; exact ⟨[], rfl, rfl, by simp, by simp⟩
  | cons e es ih =>
    intro size hs he
    obtain ⟨c, size', h1, h2, h3, h4, h5⟩ := turn_ok hs (he e (List.mem_cons_self ..))
    obtain ⟨cs, g1, g2, g3, g4⟩ := ih size' (by rw [h2]; exact Nat.mul_pos hs h3)
      (fun x hx => he x (List.mem_cons_of_mem _ hx))
    refine ⟨c :: cs, by simp only [chunkLoop, h1, Outcome.bind_ok, g1, Outcome.map_ok], by simp [g2], ?_, ?_⟩
    · intro i x hx
      cases i with
      | zero => simp at hx; subst hx; exact ⟨c, rfl, h3, h4⟩
      | succ i => exact g3 i x (by simpa using hx)
    · intro ht
      have := g4 (h5 ht)
      rw [List.foldr_cons, ← Nat.mul_assoc, ← h2]
      exact this

/-- For an array all of whose extents are positive: the chunk shape exists, has one entry per dimension, each between 1 and the
extent, and a chunk of elements of `elem` bytes occupies at most 64 KiB. Missing from the full claim: arrays with an empty
dimension (`c30_empty_violated`). -/
theorem c30_chunks_partial (elem : Nat) (extents : List Nat) (he : 0 < elem) (hs : elem ≤ 65536)
    (hpos : ∀ e ∈ extents, 0 < e) :
    ∃ cs, chunkDims elem extents = .ok cs ∧ cs.length = extents.length ∧
      (∀ (i e : Nat), extents[i]? = some e → ∃ c, cs[i]? = some c ∧ 1 ≤ c ∧ c ≤ e) ∧
      elem * cs.foldr (· * ·) 1 ≤ 65536 := by
  obtain ⟨cs, h1, h2, h3, h4⟩ := loop_ok extents.reverse elem he (fun e h => hpos e (List.mem_reverse.1 h))
  rw [List.length_reverse] at h2
  refine ⟨cs.reverse, by rw [chunkDims, h1, Outcome.map_ok], by rw [List.length_reverse, h2], ?_, ?_⟩
  · intro i e hi
    have hlt : i < extents.length := (List.getElem?_eq_some_iff.1 hi).1
    obtain ⟨c, hc, hc1⟩ := h3 (extents.length - 1 - i) e (by
      rw [List.getElem?_reverse (by omega), show extents.length - 1 - (extents.length - 1 - i) = i by omega]; exact hi)
    exact ⟨c, by rw [List.getElem?_reverse (by omega), h2]; exact hc, hc1⟩
  · have hp : ∀ (l : List Nat) (a : Nat), (l.reverse).foldr (· * ·) a = a * l.foldr (· * ·) 1 := by
      intro l
      induction l with
      | nil => intro a; simp
      | cons x l ih =>
        intro a
        rw [List.reverse_cons, List.foldr_append, ih, List.foldr_cons, List.foldr_cons, List.foldr_nil, Nat.mul_assoc,
          Nat.mul_left_comm]
    rw [hp, Nat.one_mul]
    exact h4 hs

example : chunkDims 8 [2, 200, 150] = .ok [1, 54, 150] ∧ chunkDims 8 [5, 7] = .ok [5, 7] ∧
    chunkDims 8 [3, 100000] = .ok [1, 8192] := by decide

/-- An array with an empty dimension: a chunk entry 0 if it is the first dimension, a division by zero otherwise. -/
theorem c30_empty_violated :
    chunkDims 8 [0, 3] = .ok [0, 3] ∧ ∀ (pre : List Nat) (e : Nat), chunkDims 8 (pre ++ [e, 0]) = .ub := by
  refine ⟨by decide, ?_⟩
  intro pre e
  have h1 : chunkTurn 8 0 = .ok (0, 0) := by decide
  have h2 : chunkTurn 0 e = .ub := by unfold chunkTurn; rw [if_pos (by decide), if_pos rfl]
  have e1 : (pre ++ [e, 0]).reverse = 0 :: e :: pre.reverse := by simp
  rw [chunkDims, e1]
  simp only [chunkLoop, h1, Outcome.bind_ok, h2, Outcome.bind_ub]
  rfl

end Verif.Tools
