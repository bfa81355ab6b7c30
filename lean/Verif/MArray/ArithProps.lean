import Verif.MArray.ArithLemmas
import Mathlib.Algebra.Field.Basic
import Mathlib.Algebra.Order.Field.Rat

/-! # Properties C08-C10: sums, broadcasting, scalar arithmetic -/

namespace Verif.Marr

/-! ## C08 -/

/-- `sum()` adds all elements in iteration order, starting from zero. -/
theorem c08_sum_all [AddCommMonoid K] (a : MArray K) : a.sumAll (· + ·) 0 = a.data.sum := by
  unfold MArray.sumAll
  have : ∀ (l : List K) (z : K), l.foldl (· + ·) z = z + l.sum := by
    intro l
    induction l with
    | nil => intro z; simp
    | cons x l ih => intro z; simp [ih, add_assoc]
  rw [this, zero_add]

example : (⟨[2, 2], 4, [1, 2, 3, 4]⟩ : MArray Nat).sumAll (· + ·) 0 = 10 := by decide

/-- `sum(dim)[idx]` accumulates `m[idx with k inserted at dim]` over `k` in increasing order, whatever the addition is
(so also in floating point). Missing from the full claim: results whose extents after the first multiply to 2^31 or more,
where the subscript used for accumulation is wrong (see `c08_sum_violated`). -/
theorem c08_sum_partial (add : α → α → α) (zero : α) (a : MArray α) (hwf : a.WF) (dim : Nat)
    (hrank : 1 < a.extents.length) (hd : dim < a.extents.length)
    (hb : (a.extents.eraseIdx dim).tail.prod < 2 ^ 31) :
    ∃ s, a.sum add zero dim = .ok s ∧ s.extents = a.extents.eraseIdx dim ∧ s.WF ∧
      ∀ idx, InRange s.extents idx → ∀ vals : Nat → α,
        (∀ k < a.extents[dim], a.at (idx.insertIdx dim k) = .ok (vals k)) →
        s.at idx = .ok (((List.range a.extents[dim]).map vals).foldl add zero) := by
  have hA : (a.extents.take dim).length = dim := by simp; omega
  have hs := split_exts a.extents dim hd
  have her : a.extents.eraseIdx dim = a.extents.take dim ++ a.extents.drop (dim + 1) := List.eraseIdx_eq_take_drop_succ ..
  have hprod : (a.extents.eraseIdx dim).prod = (a.extents.take dim).prod * (a.extents.drop (dim + 1)).prod := by
    rw [her, List.prod_append]
  have hne : a.extents.eraseIdx dim ≠ [] := by
    intro h0
    have := congrArg List.length h0
    rw [List.length_eraseIdx, if_pos hd] at this
    simp at this; omega
  obtain ⟨s, h1, h2, h3⟩ := sum_core add zero a hwf _ _ _ hs _ hprod hne (bumpSum (some dim) a.extents)
    (fun idx => idx.eraseIdx dim) (fun idx h => eraseIdx_inRange h dim)
    (by
      rw [List.length_eraseIdx, if_pos hd, List.eraseIdx_replicate, if_pos hd])
    (by
      intro ia k ib h4 h5
      have : ia.length = dim := by omega
      rw [her]; subst this
      rw [eraseIdx_split, rowMajor_append _ _ _ _ (by omega)])
    (by
      intro idx h
      rw [hA, bumpSum_some h dim hd]; exact ⟨rfl, rfl⟩)
    hb
  refine ⟨⟨a.extents.eraseIdx dim, accU64 (a.extents.eraseIdx dim), s⟩, ?_, rfl, ?_, ?_⟩
  · simp only [MArray.sum, if_pos hd, h1]
  · exact ⟨accU64_eq _, by simp only [accU64_eq]; exact h2⟩
  · intro idx hin vals hv
    simp only at hin
    rw [at_eq _ _ hin.length_eq]
    simp only
    rw [her] at hin
    have hlen := hin.length_eq
    rw [List.length_append] at hlen
    have hsplit : idx = idx.take dim ++ idx.drop dim := (List.take_append_drop dim idx).symm
    have hia : (idx.take dim).length = (a.extents.take dim).length := by rw [List.length_take]; omega
    rw [hsplit, InRange.append_iff hia] at hin
    have hrow : rowMajor (a.extents.eraseIdx dim) idx =
        rowMajor (a.extents.take dim) (idx.take dim) * (a.extents.drop (dim + 1)).prod +
          rowMajor (a.extents.drop (dim + 1)) (idx.drop dim) := by
      rw [her]; conv_lhs => rw [hsplit]
      rw [rowMajor_append _ _ _ _ hia]
    rw [hrow, h3 _ _ hin.1 hin.2 vals ?_]
    · rfl
    · intro k hk
      rw [← hv k hk]
      congr 1
      rw [insertIdx_split _ _ _ (by omega)]

example : (⟨[2, 3], 6, [1, 2, 3, 4, 5, 6]⟩ : MArray Nat).sum (· + ·) 0 0 = .ok ⟨[3], 3, [5, 7, 9]⟩ ∧
    (⟨[2, 3], 6, [1, 2, 3, 4, 5, 6]⟩ : MArray Nat).sum (· + ·) 0 1 = .ok ⟨[2], 2, [6, 15]⟩ := by decide

/-- `sum_same_rank(dim)` has extent 1 in `dim` and the same sums. Missing from the full claim: as for `sum`. -/
theorem c08_sum_same_rank_partial (add : α → α → α) (zero : α) (a : MArray α) (hwf : a.WF) (dim : Nat)
    (hd : dim < a.extents.length) (hb : (a.extents.set dim 1).tail.prod < 2 ^ 31) :
    ∃ s, a.sumSameRank add zero dim = .ok s ∧ s.extents = a.extents.set dim 1 ∧ s.WF ∧
      ∀ idx, InRange s.extents idx → ∀ vals : Nat → α,
        (∀ k < a.extents[dim], a.at (idx.set dim k) = .ok (vals k)) →
        s.at idx = .ok (((List.range a.extents[dim]).map vals).foldl add zero) := by
  have hA : (a.extents.take dim).length = dim := by simp; omega
  have hs := split_exts a.extents dim hd
  have her : a.extents.set dim 1 = a.extents.take dim ++ 1 :: a.extents.drop (dim + 1) := by
    rw [List.set_eq_take_append_cons_drop, if_pos hd]
  have hprod : (a.extents.set dim 1).prod = (a.extents.take dim).prod * (a.extents.drop (dim + 1)).prod := by
    rw [her]; simp
  have hne : a.extents.set dim 1 ≠ [] := by rw [her]; simp
  obtain ⟨s, h1, h2, h3⟩ := sum_core add zero a hwf _ _ _ hs _ hprod hne (bumpSame (some dim) a.extents)
    (fun idx => idx.set dim 0) (fun idx h => set_inRange h dim 1 0 (by omega))
    (by simp [List.set_replicate_self])
    (by
      intro ia k ib h4 h5
      have h6 : ia.length = dim := by omega
      have : (ia ++ k :: ib).set dim 0 = ia ++ 0 :: ib := by rw [← h6]; simp
      rw [her, this, rowMajor_append _ _ _ _ (by omega)]
      simp [rowMajor])
    (by
      intro idx h
      rw [hA, bumpSame_some h dim hd]; exact ⟨rfl, rfl⟩)
    hb
  refine ⟨⟨a.extents.set dim 1, accU64 (a.extents.set dim 1), s⟩, ?_, rfl, ?_, ?_⟩
  · simp only [MArray.sumSameRank, h1]
  · exact ⟨accU64_eq _, by simp only [accU64_eq]; exact h2⟩
  · intro idx hin vals hv
    simp only at hin
    rw [at_eq _ _ hin.length_eq]
    simp only
    rw [her] at hin
    obtain ⟨ia, k0, ib, rfl, hia, hib⟩ := split_idx _ _ _ idx hin.length_eq
    rw [InRange.append_iff hia, inRange_cons] at hin
    have hk0 : k0 = 0 := by omega
    subst hk0
    rw [her, rowMajor_append _ _ _ _ hia]
    simp only [rowMajor, List.prod_cons, Nat.one_mul, Nat.zero_mul, Nat.zero_add]
    rw [h3 _ _ hin.1 hin.2.2 vals ?_]
    · rfl
    · intro k hk
      rw [← hv k hk]
      congr 1
      have h6 : ia.length = dim := by omega
      rw [← h6]; simp

example : (⟨[2, 3], 6, [1, 2, 3, 4, 5, 6]⟩ : MArray Nat).sumSameRank (· + ·) 0 0 = .ok ⟨[1, 3], 3, [5, 7, 9]⟩ := by decide

/-- Summing an array of shape {1, 1, 2^31} over its first dimension leaves the result buffer. -/
theorem c08_sum_violated : ∃ a : MArray Nat, a.WF ∧ a.sum (· + ·) 0 0 = .ub := by
  obtain ⟨n, hn⟩ : ∃ n : Nat, n = 2 ^ 31 := ⟨_, rfl⟩
  refine ⟨⟨[1, 1, n], n, List.replicate n 1⟩, ⟨by simp, by simp⟩, ?_⟩
  have hp : accU64 [1, n] = n := by simp [accU64]
  simp only [MArray.sum, List.length_cons, List.length_nil, Nat.zero_lt_succ, if_true, List.eraseIdx_zero,
    List.tail_cons, hp]
  have hz : List.replicate (0 + 1 + 1) 0 = [0, 0] := rfl
  rw [hz, sumLoop_escape n hn _ _ (by simp; omega) (by simp; omega) (by simp)]

/-! ## C09 -/

/-- `a op b` throws exactly when two trailing-aligned extents differ and neither is 1. -/
theorem c09_throws_iff (op : α → β → γ) (a : MArray α) (b : MArray β) :
    a.applyOp op b = .throws ↔ ∃ k, Clash a.extents b.extents k := by
  have h := resultExtents_none_iff a.extents.reverse b.extents.reverse
  unfold Clash
  rw [← h]
  unfold MArray.applyOp
  cases hr : resultExtents a.extents.reverse b.extents.reverse with
  | none => simp
  | some r =>
    simp only [reduceCtorEq, iff_false]
    split <;> simp

example : ∃ k, Clash [2, 3] [2] k := ⟨0, 3, 2, by decide⟩

/-- When the shapes are compatible the result has the larger rank and the stretched extents, and its element at `idx` is
`a[..] op b[..]` at the operands' indices. -/
theorem c09_broadcast (op : α → β → γ) (a : MArray α) (b : MArray β) (ha : a.WF) (hb : b.WF)
    (hc : ¬ ∃ k, Clash a.extents b.extents k) :
    ∃ c, a.applyOp op b = .ok c ∧ c.WF ∧
      c.extents.length = max a.extents.length b.extents.length ∧
      (∀ k x y : Nat, a.extents.reverse[k]? = some x → b.extents.reverse[k]? = some y →
        c.extents.reverse[k]? = some (if x = 1 then y else x)) ∧
      (∀ k x : Nat, a.extents.reverse[k]? = some x → b.extents.reverse[k]? = none → c.extents.reverse[k]? = some x) ∧
      (∀ k y : Nat, a.extents.reverse[k]? = none → b.extents.reverse[k]? = some y → c.extents.reverse[k]? = some y) ∧
      ∀ idx, InRange c.extents idx → ∃ x y, a.at (operandIdx a.extents idx) = .ok x ∧
        b.at (operandIdx b.extents idx) = .ok y ∧ c.at idx = .ok (op x y) := by
  cases hr : resultExtents a.extents.reverse b.extents.reverse with
  | none =>
    exact absurd ((resultExtents_none_iff _ _).1 hr) hc
  | some r =>
    have hlenr := resultExtents_length hr
    obtain ⟨hc1, hc2⟩ := resultExtents_compat hr
    have hl1 : a.data.length = a.extents.reverse.prod := by rw [ha.2, ha.1, List.prod_reverse]
    have hl2 : b.data.length = b.extents.reverse.prod := by rw [hb.2, hb.1, List.prod_reverse]
    have hz1 : restr a.extents.reverse (ldig r 0) = List.replicate a.extents.length 0 := by
      have : ∀ (x1 : List Nat) (n : Nat), x1.length ≤ n → restr x1 (List.replicate n 0) = List.replicate x1.length 0 := by
        intro x1
        induction x1 with
        | nil => intro n _; simp [restr]
        | cons x x1 ih =>
          intro n hn
          cases n with
          | zero => simp at hn
          | succ n => simp [List.replicate_succ, restr, ih n (by simpa using hn)]
      rw [ldig_zero, this _ _ (by rw [hlenr]; exact Nat.le_max_left _ _)]; simp
    have hz2 : restr b.extents.reverse (ldig r 0) = List.replicate b.extents.length 0 := by
      have : ∀ (x1 : List Nat) (n : Nat), x1.length ≤ n → restr x1 (List.replicate n 0) = List.replicate x1.length 0 := by
        intro x1
        induction x1 with
        | nil => intro n _; simp [restr]
        | cons x x1 ih =>
          intro n hn
          cases n with
          | zero => simp at hn
          | succ n => simp [List.replicate_succ, restr, ih n (by simpa using hn)]
      rw [ldig_zero, this _ _ (by rw [hlenr]; exact Nat.le_max_right _ _)]; simp
    have hloop : ∃ out, applyLoop op a.extents.reverse b.extents.reverse a.data b.data (accU64 r.reverse)
        (List.replicate a.extents.length 0) (List.replicate b.extents.length 0) = some out ∧ out.length = r.prod ∧
        ∀ t < r.prod, ∃ x y, a.data[strideOffset a.extents.reverse (restr a.extents.reverse (ldig r t)) 1]? = some x ∧
          b.data[strideOffset b.extents.reverse (restr b.extents.reverse (ldig r t)) 1]? = some y ∧
          out[t]? = some (op x y) := by
      rw [accU64_eq, List.prod_reverse]
      by_cases hpos : ∀ e ∈ r, 0 < e
      · obtain ⟨out, h1, h2, h3⟩ := applyLoop_spec op _ _ r a.data b.data hr hpos hl1 hl2 r.prod 0
        rw [hz1, hz2] at h1
        exact ⟨out, h1, h2, by simpa using h3⟩
      · have hz : r.prod = 0 := by
          simp only [not_forall] at hpos
          obtain ⟨e, he, h0⟩ := hpos
          have : e = 0 := by omega
          subst this
          exact prod_zero_of_mem he
        rw [hz]
        exact ⟨[], rfl, rfl, by omega⟩
    obtain ⟨out, h1, h2, h3⟩ := hloop
    refine ⟨⟨r.reverse, accU64 r.reverse, out⟩, ?_, ?_, ?_, ?_, ?_, ?_, ?_⟩
    · simp only [MArray.applyOp, hr, h1]
    · exact ⟨accU64_eq _, by simp [accU64_eq, h2, List.prod_reverse]⟩
    · simp [hlenr]
    · intro k x y hx hy
      simp only [List.reverse_reverse, resultExtents_get hr k, hx, hy]
    · intro k x hx hy
      simp only [List.reverse_reverse, resultExtents_get hr k, hx, hy]
    · intro k y hx hy
      simp only [List.reverse_reverse, resultExtents_get hr k, hx, hy]
    · intro idx hin
      simp only at hin
      have hin2 : InRange r idx.reverse := by
        have := List.rel_reverse hin
        rw [List.reverse_reverse] at this
        exact this
      have hrow : rowMajor r.reverse idx = strideOffset r idx.reverse 1 := by
        rw [← strideOffset_reverse _ _ hin.length_eq]; simp
      have hlt := strideOffset_lt hin2
      obtain ⟨x, y, h4, h5, h6⟩ := h3 _ hlt
      rw [ldig_strideOffset hin2] at h4 h5
      have hlen : idx.length = r.length := by simpa using hin2.length_eq
      have hr1 : InRange a.extents.reverse (restr a.extents.reverse idx.reverse) := restr_inRange hin2 hc1
      have hr2 : InRange b.extents.reverse (restr b.extents.reverse idx.reverse) := restr_inRange hin2 hc2
      have q1 := restr_eq a.extents.reverse idx.reverse (by simp [hlen, hlenr])
      have q2 := restr_eq b.extents.reverse idx.reverse (by simp [hlen, hlenr])
      simp only [List.reverse_reverse] at q1 q2
      have p1 : strideOffset a.extents.reverse (restr a.extents.reverse idx.reverse) 1 = rowMajor a.extents (operandIdx a.extents idx) := by
        rw [← q1, ← strideOffset_reverse _ _ (by simpa using hr1.length_eq)]; simp
      have p2 : strideOffset b.extents.reverse (restr b.extents.reverse idx.reverse) 1 = rowMajor b.extents (operandIdx b.extents idx) := by
        rw [← q2, ← strideOffset_reverse _ _ (by simpa using hr2.length_eq)]; simp
      refine ⟨x, y, ?_, ?_, ?_⟩
      · rw [at_eq a _ (by rw [← q1]; simpa using hr1.length_eq), ← p1, h4]; rfl
      · rw [at_eq b _ (by rw [← q2]; simpa using hr2.length_eq), ← p2, h5]; rfl
      · rw [at_eq _ _ hin.length_eq]
        simp only [hrow, h6]; rfl

example : (⟨[2, 1], 2, [10, 20]⟩ : MArray Nat).applyOp (· + ·) ⟨[3], 3, [1, 2, 3]⟩ =
    .ok ⟨[2, 3], 6, [11, 12, 13, 21, 22, 23]⟩ ∧ ¬ ∃ k, Clash [2, 1] [3] k := by
  refine ⟨by decide, ?_⟩
  rintro ⟨k, x, y, h1, h2, h3, h4, h5⟩
  match k with
  | 0 => simp at h1; omega
  | k + 1 => simp at h2

/-- The element-by-element path taken for equal extents gives the same result as the general one. -/
theorem c09_fast_path (op : α → α → α) (a b : MArray α) (ha : a.WF) (hb : b.WF) :
    a.binOp op b = a.applyOp op b := by
  unfold MArray.binOp
  split
  · next he =>
    have hlen : a.data.length = b.data.length := by rw [ha.2, ha.1, hb.2, hb.1, he]
    rw [if_pos hlen]
    have hnc : ¬ ∃ k, Clash a.extents b.extents k := by
      rintro ⟨k, x, y, h1, h2, h3, _⟩
      rw [he, h2] at h1; exact h3 (Option.some.inj h1).symm
    obtain ⟨c, hc, hcw, hcl, hck, _, _, hat⟩ := c09_broadcast op a b ha hb hnc
    rw [hc]
    have hce : c.extents = a.extents := by
      have : c.extents.reverse = a.extents.reverse := by
        apply List.ext_getElem?
        intro k
        cases hk : a.extents.reverse[k]? with
        | none =>
          rw [List.getElem?_eq_none_iff] at hk ⊢
          rw [List.length_reverse, hcl, ← he, Nat.max_self]; simpa using hk
        | some x =>
          rw [hck k x x hk (by rw [← he]; exact hk)]
          congr 1; split <;> omega
      simpa using congrArg List.reverse this
    congr 1
    refine MArray.ext_at ⟨ha.1, by simp [hlen, hb.2, hb.1, ha.1, he]⟩ hcw hce.symm ?_
    intro idx hin
    obtain ⟨x, y, h1, h2, h3⟩ := hat idx (by rw [hce]; exact hin)
    have hop : operandIdx a.extents idx = idx := by
      have : ∀ (l i : List Nat), InRange l i → List.zipWith (fun e i => if e = 1 then 0 else i) l i = i := by
        intro l
        induction l with
        | nil => intro i h; rw [InRange.nil_iff] at h; subst h; rfl
        | cons e l ih =>
          intro i h
          cases i with
          | nil => simp [InRange] at h
          | cons j i =>
            rw [inRange_cons] at h
            simp only [List.zipWith_cons_cons, ih i h.2]
            congr 1; split <;> omega
      unfold operandIdx
      rw [hin.length_eq, Nat.sub_self, List.drop_zero, this _ _ hin]
    rw [hop] at h1
    rw [← he, hop] at h2
    have hl2 : idx.length = b.extents.length := by rw [← he]; exact hin.length_eq
    rw [at_eq a _ hin.length_eq] at h1
    rw [at_eq b _ hl2, ← he] at h2
    rw [h3, at_eq _ _ hin.length_eq]
    simp only [List.getElem?_zipWith]
    cases hx : a.data[rowMajor a.extents idx]? with
    | none => rw [hx] at h1; simp at h1
    | some x' =>
      cases hy : b.data[rowMajor a.extents idx]? with
      | none => rw [hy] at h2; simp at h2
      | some y' => rw [hx] at h1; rw [hy] at h2; simp at h1 h2; subst h1; subst h2; rfl
  · rfl

example : (⟨[2], 2, [10, 20]⟩ : MArray Nat).binOp (· - ·) ⟨[2], 2, [1, 2]⟩ = .ok ⟨[2], 2, [9, 18]⟩ := by decide

/-! ## C10 -/

/-- Each scalar operator applies its operation to each element and keeps the shape. Missing from the full claim:
`f / a` (see `c10_scalar_div_violated`). -/
theorem c10_scalar_partial [Field K] (a : MArray K) (f : K) :
    (a.addScalar f).data = a.data.map (fun x => x + f) ∧ (MArray.scalarAdd f a).data = a.data.map (fun x => f + x) ∧
    (a.subScalar f).data = a.data.map (fun x => x - f) ∧ (MArray.scalarSub f a).data = a.data.map (fun x => f - x) ∧
    (a.mulScalar f).data = a.data.map (fun x => x * f) ∧ (MArray.scalarMul f a).data = a.data.map (fun x => f * x) ∧
    (a.divScalar f).data = a.data.map (fun x => x / f) ∧
    (∀ b ∈ [a.addScalar f, MArray.scalarAdd f a, a.subScalar f, MArray.scalarSub f a, a.mulScalar f,
      MArray.scalarMul f a, a.divScalar f, MArray.scalarDiv f a], b.extents = a.extents ∧ b.total = a.total) := by
  refine ⟨rfl, ?_, rfl, ?_, rfl, ?_, rfl, ?_⟩
  · simp [MArray.scalarAdd, MArray.mapData, add_comm]
  · simp [MArray.scalarSub, MArray.neg, MArray.mapData, sub_eq_neg_add]
  · simp [MArray.scalarMul, MArray.mapData, mul_comm]
  · intro b hb
    simp only [List.mem_cons, List.not_mem_nil, or_false] at hb
    rcases hb with h | h | h | h | h | h | h | h <;> subst h <;> exact ⟨rfl, rfl⟩

example : (MArray.scalarSub 5 (⟨[2], 2, [1, 2]⟩ : MArray Rat)).data = [4, 3] := by decide +kernel

/-- `f / a` computes `a / f`. -/
theorem c10_scalar_div_violated : ∃ (a : MArray Rat) (f : Rat),
    (MArray.scalarDiv f a).data ≠ a.data.map (fun x => f / x) :=
  ⟨⟨[1], 1, [2]⟩, 1, by decide +kernel⟩

end Verif.Marr
