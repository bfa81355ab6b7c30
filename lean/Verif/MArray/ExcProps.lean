import Verif.MArray.ExcLemmas
import Verif.MArray.Spec

/-! # Property C07 of `marray` -/

namespace Verif.Marr

/-- Loop bounds never reach past the stored elements, whatever the 32-bit products truncate to. -/
private theorem loop_bound (a : MArray α) (hwf : a.WF) (dim pos : Nat) (hd : dim < a.extents.length)
    (hp : pos ≤ a.extents[dim]) :
    accU32 (a.extents.take dim) * (pos * accU32 (a.extents.drop (dim + 1)) +
      (a.extents[dim] - pos) * accU32 (a.extents.drop (dim + 1))) ≤ a.data.length := by
  have e1 : pos * accU32 (a.extents.drop (dim + 1)) + (a.extents[dim] - pos) * accU32 (a.extents.drop (dim + 1)) =
      a.extents[dim] * accU32 (a.extents.drop (dim + 1)) := by
    rw [← Nat.add_mul]; congr 1; omega
  have e2 : a.data.length = (a.extents.take dim).prod * (a.extents[dim] * (a.extents.drop (dim + 1)).prod) := by
    rw [hwf.2, hwf.1]
    conv_lhs => rw [← List.take_append_drop dim a.extents, List.drop_eq_getElem_cons hd]
    rw [List.prod_append, List.prod_cons]
  rw [e1, e2, accU32_eq, accU32_eq]
  exact mod_prod_le _ _ _ _ _ (Nat.mod_le _ _) (Nat.mod_le _ _)

/-- For every array, position and failure point, `insert` either completes exactly as it does without failures, or an
exception leaves it with the array's extents, size and elements as they were and no constructed element of the new
storage left undestroyed. It never moves from a moved-from element, destroys twice or touches memory it does not own. -/
theorem c07_strong_guarantee (nothrowMove : Bool) (a : MArray α) (hwf : a.WF) (dim pos num : Nat) (val : α)
    (hd : dim < a.extents.length) (hp : pos ≤ a.extents[dim]) (allocOk : Bool) (budget : Option Nat) :
    (∃ b, a.insertExc nothrowMove dim pos num val allocOk budget = .done b ∧ a.insert dim pos num val = .ok b) ∨
    a.insertExc nothrowMove dim pos num val allocOk budget = .threw a.extents a.total (a.data.map some) [] := by
  have hb := loop_bound a hwf dim pos hd hp
  have hins := insertLoop_packed (pos * accU32 (a.extents.drop (dim + 1))) (num * accU32 (a.extents.drop (dim + 1)))
    ((a.extents[dim] - pos) * accU32 (a.extents.drop (dim + 1))) val _ a.data hb
  cases allocOk with
  | false =>
    right
    cases nothrowMove <;> simp [MArray.insertExc, MArray.insertMove, MArray.insertCopy, hd, hp]
  | true =>
    cases nothrowMove with
    | true =>
      rcases moveLoop_spec (pos * accU32 (a.extents.drop (dim + 1))) (num * accU32 (a.extents.drop (dim + 1)))
        ((a.extents[dim] - pos) * accU32 (a.extents.drop (dim + 1))) val _ a.data 0 0 budget [] hb with
        ⟨s, hs, hn, _⟩ | ⟨j, m, hj, hm, _, hs⟩
      · left
        simp only [List.replicate_zero, List.nil_append] at hs hn
        refine ⟨⟨a.extents.set dim (a.extents[dim] + num),
          accU32 (a.extents.take dim) * (a.extents[dim] + num) * accU32 (a.extents.drop (dim + 1)), s.new⟩, ?_, ?_⟩
        · simp only [MArray.insertExc, MArray.insertMove, dif_pos hd, if_pos hp, if_true, hs]
        · simp only [MArray.insert, dif_pos hd, if_pos hp, hins, hn]
      · right
        simp only [List.replicate_zero, List.nil_append, Nat.zero_add] at hs
        have hbj : j * (pos * accU32 (a.extents.drop (dim + 1)) +
            (a.extents[dim] - pos) * accU32 (a.extents.drop (dim + 1))) + pos * accU32 (a.extents.drop (dim + 1)) ≤
            a.data.length := by
          refine le_trans ?_ hb
          refine le_trans ?_ (Nat.mul_le_mul_right _ hj)
          rw [Nat.succ_mul]; omega
        have hr := rollback_spec (pos * accU32 (a.extents.drop (dim + 1))) (num * accU32 (a.extents.drop (dim + 1)))
          ((a.extents[dim] - pos) * accU32 (a.extents.drop (dim + 1))) m val j a.data []
          (List.replicate (j * (pos * accU32 (a.extents.drop (dim + 1)) +
            (a.extents[dim] - pos) * accU32 (a.extents.drop (dim + 1))) + pos * accU32 (a.extents.drop (dim + 1))) none ++
            (a.data.drop (j * (pos * accU32 (a.extents.drop (dim + 1)) +
            (a.extents[dim] - pos) * accU32 (a.extents.drop (dim + 1))) + pos * accU32 (a.extents.drop (dim + 1)))).map
              some) hbj (by simp)
        simp only [List.nil_append, List.length_nil] at hr
        simp only [MArray.insertExc, MArray.insertMove, dif_pos hd, if_pos hp, if_true, hs, hr]
        congr 1
        rw [List.drop_left' (List.length_replicate ..), ← List.map_append, List.take_append_drop]
    | false =>
      rcases copyLoop_spec (pos * accU32 (a.extents.drop (dim + 1))) (num * accU32 (a.extents.drop (dim + 1)))
        ((a.extents[dim] - pos) * accU32 (a.extents.drop (dim + 1))) val _ a.data budget [] 0 rfl hb with
        ⟨w, hs, _⟩ | ⟨new, m, hs, _⟩
      · left
        refine ⟨⟨a.extents.set dim (a.extents[dim] + num),
          accU32 (a.extents.take dim) * (a.extents[dim] + num) * accU32 (a.extents.drop (dim + 1)),
          packed (pos * accU32 (a.extents.drop (dim + 1))) (num * accU32 (a.extents.drop (dim + 1)))
            ((a.extents[dim] - pos) * accU32 (a.extents.drop (dim + 1))) val (accU32 (a.extents.take dim)) a.data⟩, ?_, ?_⟩
        · simp only [MArray.insertExc, MArray.insertCopy, dif_pos hd, if_pos hp, if_true, hs, if_false,
            Bool.false_eq_true, List.nil_append]
        · simp only [MArray.insert, dif_pos hd, if_pos hp, hins]
      · right
        simp [MArray.insertExc, MArray.insertCopy, hd, hp, hs]

/-- A 2×2 array, two columns inserted at column 1; the third of four fill constructions throws in the second row. -/
example : (⟨[2, 2], 4, [1, 2, 3, 4]⟩ : MArray Nat).insertExc true 1 1 2 9 true (some 2) =
    .threw [2, 2] 4 [some 1, some 2, some 3, some 4] [] := by decide

example : (⟨[2, 2], 4, [1, 2, 3, 4]⟩ : MArray Nat).insertExc false 1 1 2 9 true (some 5) =
    .threw [2, 2] 4 [some 1, some 2, some 3, some 4] [] := by decide

/-- The exception is not swallowed: with moves that cannot throw, `insert` throws exactly when one of its
`num × (product of the other extents)` fill constructions does. -/
theorem c07_reaches_caller (a : MArray α) (hwf : a.WF) (dim pos num : Nat) (val : α) (hd : dim < a.extents.length)
    (hp : pos ≤ a.extents[dim]) (hf : Fits32 a.extents dim) (k : Nat) :
    a.insertExc true dim pos num val true (some k) = .threw a.extents a.total (a.data.map some) [] ↔
      k < (a.extents.take dim).prod * (num * (a.extents.drop (dim + 1)).prod) := by
  have hb := loop_bound a hwf dim pos hd hp
  have hg := c07_strong_guarantee true a hwf dim pos num val hd hp true (some k)
  rw [accU32_of_lt hf.1, accU32_of_lt hf.2] at hb
  rcases moveLoop_spec (pos * (a.extents.drop (dim + 1)).prod) (num * (a.extents.drop (dim + 1)).prod)
    ((a.extents[dim] - pos) * (a.extents.drop (dim + 1)).prod) val _ a.data 0 0 (some k) [] hb with
    ⟨s, hs, hn, hk⟩ | ⟨j, m, hj, hm, hk, hs⟩
  · have hk := hk k rfl
    constructor
    · intro h
      simp only [List.replicate_zero, List.nil_append] at hs
      simp only [MArray.insertExc, MArray.insertMove, dif_pos hd, if_pos hp, if_true, accU32_of_lt hf.1,
        accU32_of_lt hf.2, hs] at h
      cases h
    · intro h; omega
  · have hk : k = j * (num * (a.extents.drop (dim + 1)).prod) + m := by simpa using hk
    constructor
    · intro _
      refine lt_of_lt_of_le ?_ (Nat.mul_le_mul_right _ hj)
      rw [Nat.succ_mul]; omega
    · intro _
      rcases hg with ⟨b, hb1, _⟩ | hg
      · simp only [List.replicate_zero, List.nil_append] at hs
        simp only [MArray.insertExc, MArray.insertMove, dif_pos hd, if_pos hp, if_true, accU32_of_lt hf.1,
          accU32_of_lt hf.2, hs] at hb1
        split at hb1 <;> cases hb1
      · exact hg

example : (⟨[2, 2], 4, [1, 2, 3, 4]⟩ : MArray Nat).insertExc true 1 1 2 9 true (some 3) =
    .threw [2, 2] 4 [some 1, some 2, some 3, some 4] [] ∧
    (⟨[2, 2], 4, [1, 2, 3, 4]⟩ : MArray Nat).insertExc true 1 1 2 9 true (some 4) =
    .done ⟨[2, 4], 8, [1, 9, 9, 2, 3, 9, 9, 4]⟩ := by decide

/-- Copying instead, it throws exactly when one of the copy constructions of the new array's elements does. -/
theorem c07_reaches_caller_copy (a : MArray α) (hwf : a.WF) (dim pos num : Nat) (val : α) (hd : dim < a.extents.length)
    (hp : pos ≤ a.extents[dim]) (hf : Fits32 a.extents dim) (k : Nat) :
    a.insertExc false dim pos num val true (some k) = .threw a.extents a.total (a.data.map some) [] ↔
      k < (a.extents.take dim).prod * ((a.extents[dim] + num) * (a.extents.drop (dim + 1)).prod) := by
  have hb := loop_bound a hwf dim pos hd hp
  have hg := c07_strong_guarantee false a hwf dim pos num val hd hp true (some k)
  rw [accU32_of_lt hf.1, accU32_of_lt hf.2] at hb
  have hsum : pos * (a.extents.drop (dim + 1)).prod + num * (a.extents.drop (dim + 1)).prod +
      (a.extents[dim] - pos) * (a.extents.drop (dim + 1)).prod =
      (a.extents[dim] + num) * (a.extents.drop (dim + 1)).prod := by
    rw [← Nat.add_mul, ← Nat.add_mul]; congr 1; omega
  have hc := copyLoop_spec (pos * (a.extents.drop (dim + 1)).prod) (num * (a.extents.drop (dim + 1)).prod)
    ((a.extents[dim] - pos) * (a.extents.drop (dim + 1)).prod) val _ a.data (some k) [] 0 rfl hb
  rw [hsum] at hc
  rcases hc with ⟨w, hs, hk⟩ | ⟨new, m, hs, hk, hm⟩
  · have hk := hk k rfl
    constructor
    · intro h
      simp only [MArray.insertExc, MArray.insertCopy, dif_pos hd, if_pos hp, if_true, accU32_of_lt hf.1,
        accU32_of_lt hf.2, hs, Bool.false_eq_true, if_false] at h
      cases h
    · intro h; omega
  · have hk : k = m := by simpa using hk
    subst hk
    refine ⟨fun _ => hm, fun _ => ?_⟩
    rcases hg with ⟨b, hb1, _⟩ | hg
    · simp only [MArray.insertExc, MArray.insertCopy, dif_pos hd, if_pos hp, if_true, accU32_of_lt hf.1,
        accU32_of_lt hf.2, hs, Bool.false_eq_true, if_false, le_refl] at hb1
      cases hb1
    · exact hg

example : (⟨[2, 2], 4, [1, 2, 3, 4]⟩ : MArray Nat).insertExc false 1 1 2 9 true (some 7) =
    .threw [2, 2] 4 [some 1, some 2, some 3, some 4] [] ∧
    (⟨[2, 2], 4, [1, 2, 3, 4]⟩ : MArray Nat).insertExc false 1 1 2 9 true (some 8) =
    .done ⟨[2, 4], 8, [1, 9, 9, 2, 3, 9, 9, 4]⟩ := by decide

end Verif.Marr
