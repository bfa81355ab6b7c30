import Verif.MArray.Lemmas

/-! # Properties C01-C05, C11, C12 of `marray` -/

namespace Verif.Marr

/-! ## C01 -/

/-- Every in-range multi-index addresses an element between `begin()` and `end()`. -/
theorem c01_in_bounds (a : MArray α) (hwf : a.WF) (idx : List Nat) (h : InRange a.extents idx) :
    chainedOffset a.extents idx < a.data.length ∧ ∃ x, a.at idx = .ok x := by
  rw [chainedOffset_eq _ _ h.length_eq]
  obtain ⟨hb, ha⟩ := at_ok hwf h
  exact ⟨hb, _, ha⟩

example : InRange [2, 3] [1, 2] ∧ chainedOffset [2, 3] [1, 2] = 5 := by decide

/-- Different multi-indices address different elements. -/
theorem c01_injective (exts i j : List Nat) (hi : InRange exts i) (hj : InRange exts j)
    (h : chainedOffset exts i = chainedOffset exts j) : i = j := by
  rw [chainedOffset_eq _ _ hi.length_eq, chainedOffset_eq _ _ hj.length_eq] at h
  exact rowMajor_inj hi hj h

example : InRange [2, 3] [0, 2] ∧ InRange [2, 3] [1, 0] ∧ chainedOffset [2, 3] [0, 2] ≠ chainedOffset [2, 3] [1, 0] := by
  decide

/-- Every element is addressed by some in-range multi-index. -/
theorem c01_surjective (a : MArray α) (hwf : a.WF) (p : Nat) (hp : p < a.data.length) :
    ∃ idx, InRange a.extents idx ∧ chainedOffset a.extents idx = p := by
  rw [hwf.2, hwf.1] at hp
  refine ⟨unflat a.extents p, unflat_inRange _ _ hp, ?_⟩
  rw [chainedOffset_eq _ _ (unflat_inRange _ _ hp).length_eq, rowMajor_unflat _ _ hp]

example : (⟨[2, 3], 6, [10, 11, 12, 13, 14, 15]⟩ : MArray Nat).WF ∧ chainedOffset [2, 3] [1, 1] = 4 := by decide

/-- The index-list subscript addresses the same element as chained subscripts. Missing from the full claim: shapes whose
extents after the first multiply to 2^31 or more (see `c01_list_subscript_violated`). -/
theorem c01_list_subscript_partial (a : MArray α) (idx : List Nat) (h : InRange a.extents idx) (hr : a.extents ≠ [])
    (hb : a.extents.tail.prod < 2 ^ 31) : a.atList idx = a.at idx := by
  simp only [MArray.atList, MArray.at, if_pos h.length_eq, listOffset_eq h hr hb, chainedOffset_eq _ _ h.length_eq]

example : (⟨[2, 3], 6, [10, 11, 12, 13, 14, 15]⟩ : MArray Nat).atList [1, 1] = .ok 14 := by decide

/-- The product of the trailing extents is accumulated in an `int`: on the shape {2, 2^31} the index list {1, 0} does
not address the element of `m[1][0]`. -/
theorem c01_list_subscript_violated :
    ∃ exts idx, InRange exts idx ∧ chainedOffset exts idx < exts.prod ∧
      ∀ off, listOffset exts idx = some off → off ≠ chainedOffset exts idx ∧ ¬ off < exts.prod :=
  ⟨[2, 2 ^ 31], [1, 0], by decide, by decide, by decide⟩

/-- `getCoordinate` recovers each index of an element. -/
theorem c01_getCoordinate (a : MArray α) (hwf : a.WF) (idx : List Nat) (h : InRange a.extents idx)
    (dim : Nat) (hd : dim < a.extents.length) :
    a.getCoordinate (chainedOffset a.extents idx) dim = idx[dim]? := by
  rw [chainedOffset_eq _ _ h.length_eq, MArray.getCoordinate, hwf.1]
  exact coordLoop_eq h dim hd

example : (⟨[2, 3], 6, [10, 11, 12, 13, 14, 15]⟩ : MArray Nat).getCoordinate 5 1 = some 2 := by decide

/-! ## C02 -/

/-- Reading after `insert`. Missing from the full claim: shapes for which the product of the extents before or after
`dim` does not fit 32 bits (see `c02_insert_violated`). -/
theorem c02_insert_partial (a : MArray α) (hwf : a.WF) (dim pos num : Nat) (val : α) (hd : dim < a.extents.length)
    (hpos : pos ≤ a.extents[dim]) (hf : Fits32 a.extents dim) :
    ∃ b, a.insert dim pos num val = .ok b ∧ b.extents = a.extents.set dim (a.extents[dim] + num) ∧ b.WF ∧
      ∀ idx, InRange b.extents idx → ∀ k, idx[dim]? = some k →
        b.at idx = if k < pos then a.at idx else if k < pos + num then .ok val else a.at (idx.set dim (k - num)) := by
  have hA : (a.extents.take dim).length = dim := by simp; omega
  have hs := split_exts a.extents dim hd
  obtain ⟨b, hb, hbe, hbw, hbg⟩ := insert_split _ _ _ pos num val a hwf hs hf.1 hf.2 hpos
  rw [hA] at hb
  have hset : a.extents.set dim (a.extents[dim] + num) =
      a.extents.take dim ++ (a.extents[dim] + num) :: a.extents.drop (dim + 1) := by
    rw [List.set_eq_take_append_cons_drop, if_pos hd]
  refine ⟨b, hb, by rw [hbe, hset], hbw, ?_⟩
  intro idx hin k hk
  rw [hbe] at hin
  obtain ⟨ia, k', ib, rfl, hia, hib⟩ := split_idx _ _ _ idx hin.length_eq
  rw [InRange.append_iff hia, inRange_cons] at hin
  have hkk : k' = k := by
    have : dim = ia.length := by omega
    subst this; simpa using hk
  subst hkk
  have hil : ia.length = dim := by omega
  have hl1 : (ia ++ k' :: ib).length = b.extents.length := by rw [hbe]; simp [hia, hib]
  have hl2 : (ia ++ k' :: ib).length = a.extents.length := by simp [hia, hib]; omega
  have hst : (ia ++ k' :: ib).set dim (k' - num) = ia ++ (k' - num) :: ib := by
    rw [← hil]; simp
  rw [hst, at_eq b _ hl1, at_eq a _ hl2, at_eq a _ (by simpa using hl2), hbe, hbg ia k' ib hin.1 hin.2.1 hin.2.2, ← hs]
  split
  · rfl
  · split <;> rfl

example : (⟨[2, 2], 4, [1, 2, 3, 4]⟩ : MArray Nat).insert 1 1 1 9 = .ok ⟨[2, 3], 6, [1, 9, 2, 3, 9, 4]⟩ := by decide

/-- The product of the trailing extents is accumulated in 32 bits: inserting a slice in the first dimension of an empty
array of shape {0, 2^32} ends normally, with extents {1, 2^32} and no element behind the new index. -/
theorem c02_insert_violated :
    ∃ (a b : MArray Nat), a.WF ∧ a.insert 0 0 1 7 = .ok b ∧ InRange b.extents [0, 0] ∧ b.at [0, 0] = .ub :=
  ⟨⟨[0, 2 ^ 32], 0, []⟩, ⟨[1, 2 ^ 32], 0, []⟩, by decide, by decide, by decide, by decide⟩

/-- Outside the documented arguments `insert` is undefined (failed assertion), never a wrong normal result. -/
theorem c02_insert_bad_arguments (a : MArray α) (dim pos num : Nat) (val : α)
    (h : ∀ hd : dim < a.extents.length, a.extents[dim] < pos) : a.insert dim pos num val = .ub := by
  unfold MArray.insert
  by_cases hd : dim < a.extents.length
  · have := h hd
    simp only [dif_pos hd, if_neg (show ¬ pos ≤ a.extents[dim] by omega)]
  · simp only [dif_neg hd]

example : (⟨[2, 2], 4, [1, 2, 3, 4]⟩ : MArray Nat).insert 1 3 1 9 = .ub := by decide

/-! ## C03 -/

/-- Reading after `erase`. Missing from the full claim: shapes for which the product of the extents before or after
`dim` does not fit 32 bits (see `c03_erase_violated`). -/
theorem c03_erase_partial (a : MArray α) (hwf : a.WF) (dim pos num : Nat) (hd : dim < a.extents.length)
    (hpos : pos < a.extents[dim]) (hnum : pos + num ≤ a.extents[dim]) (hf : Fits32 a.extents dim) :
    ∃ b, a.erase dim pos num = .ok b ∧ b.extents = a.extents.set dim (a.extents[dim] - num) ∧ b.WF ∧
      ∀ idx, InRange b.extents idx → ∀ k, idx[dim]? = some k →
        b.at idx = if k < pos then a.at idx else a.at (idx.set dim (k + num)) := by
  have hA : (a.extents.take dim).length = dim := by simp; omega
  have hs := split_exts a.extents dim hd
  obtain ⟨b, hb, hbe, hbw, hbg⟩ := erase_split _ _ _ pos num a hwf hs hf.1 hf.2 hpos hnum
  rw [hA] at hb
  have hset : a.extents.set dim (a.extents[dim] - num) =
      a.extents.take dim ++ (a.extents[dim] - num) :: a.extents.drop (dim + 1) := by
    rw [List.set_eq_take_append_cons_drop, if_pos hd]
  refine ⟨b, hb, by rw [hbe, hset], hbw, ?_⟩
  intro idx hin k hk
  rw [hbe] at hin
  obtain ⟨ia, k', ib, rfl, hia, hib⟩ := split_idx _ _ _ idx hin.length_eq
  rw [InRange.append_iff hia, inRange_cons] at hin
  have hil : ia.length = dim := by omega
  have hkk : k' = k := by
    subst hil; simpa using hk
  subst hkk
  have hl1 : (ia ++ k' :: ib).length = b.extents.length := by rw [hbe]; simp [hia, hib]
  have hl2 : (ia ++ k' :: ib).length = a.extents.length := by simp [hia, hib]; omega
  have hst : (ia ++ k' :: ib).set dim (k' + num) = ia ++ (k' + num) :: ib := by
    rw [← hil]; simp
  rw [hst, at_eq b _ hl1, at_eq a _ hl2, at_eq a _ (by simpa using hl2), hbe, hbg ia k' ib hin.1 hin.2.1 hin.2.2, ← hs]
  split <;> rfl

example : (⟨[2, 3], 6, [1, 9, 2, 3, 9, 4]⟩ : MArray Nat).erase 1 1 1 = .ok ⟨[2, 2], 4, [1, 2, 3, 4]⟩ := by decide

/-- The product of the trailing extents is accumulated in 32 bits: whatever an array of shape {2, 2^32} holds, after erasing
its first row the remaining row has no elements. -/
theorem c03_erase_wraps_violated (d : List α) (hd : d.length = 2 ^ 33) :
    (⟨[2, 2 ^ 32], 2 ^ 33, d⟩ : MArray α).WF ∧
    (⟨[2, 2 ^ 32], 2 ^ 33, d⟩ : MArray α).erase 0 0 1 = .ok ⟨[1, 2 ^ 32], 0, []⟩ ∧
    InRange [1, 2 ^ 32] [0, 0] ∧ (⟨[1, 2 ^ 32], 0, []⟩ : MArray α).at [0, 0] = .ub := by
  refine ⟨⟨show 2 ^ 33 = [2, 2 ^ 32].prod by decide, hd⟩, ?_, by decide, rfl⟩
  have h1 : accU32 ([2, 2 ^ 32].take 0) = 1 := by decide
  have h2 : accU32 ([2, 2 ^ 32].drop 1) = 0 := by decide
  simp only [MArray.erase, List.length_cons, List.length_nil, Nat.zero_add, h1, h2]
  simp [eraseLoop, takeExact]

theorem c03_erase_violated :
    ∃ a b : MArray Nat, a.WF ∧ a.erase 0 0 1 = .ok b ∧ InRange b.extents [0, 0] ∧ b.at [0, 0] = .ub :=
  ⟨_, _, c03_erase_wraps_violated (List.replicate (2 ^ 33) 0) (List.length_replicate ..)⟩

/-- Outside the documented arguments `erase` is undefined (failed assertion), never a wrong normal result. -/
theorem c03_erase_bad_arguments (a : MArray α) (dim pos num : Nat)
    (h : ∀ hd : dim < a.extents.length, a.extents[dim] ≤ pos ∨ a.extents[dim] < pos + num) : a.erase dim pos num = .ub := by
  unfold MArray.erase
  split
  · rename_i hd
    have := h hd
    dsimp only
    rw [if_neg (by omega)]
  · rfl

example : (⟨[2, 2], 4, [1, 2, 3, 4]⟩ : MArray Nat).erase 1 1 2 = .ub := by decide

/-- Erasing what was inserted restores the array exactly. Missing from the full claim: products beyond 32 bits, and nothing inserted at the end
(see `c03_nothing_at_end_violated`). -/
theorem c03_erase_insert_partial (a : MArray α) (hwf : a.WF) (dim pos num : Nat) (val : α)
    (hd : dim < a.extents.length) (hpos : pos ≤ a.extents[dim]) (hnum : 0 < num ∨ pos < a.extents[dim]) (hf : Fits32 a.extents dim) :
    (a.insert dim pos num val).bind (fun b => b.erase dim pos num) = .ok a := by
  have hA : (a.extents.take dim).length = dim := by simp; omega
  have hs := split_exts a.extents dim hd
  obtain ⟨b, hb, hbe, hbw, hbg⟩ := insert_split _ _ _ pos num val a hwf hs hf.1 hf.2 hpos
  obtain ⟨c, hc, hce, hcw, hcg⟩ := erase_split _ _ _ pos num b hbw hbe hf.1 hf.2 (by omega) (by omega)
  rw [hA] at hb hc
  rw [hb, Outcome.bind_ok, hc]
  rw [Nat.add_sub_cancel] at hce hcg
  congr 1
  refine MArray.ext_at hcw hwf (by rw [hce, ← hs]) ?_
  intro idx hin
  have hl := hin.length_eq
  rw [hce] at hin
  obtain ⟨ia, k, ib, rfl, hia, hib⟩ := split_idx _ _ _ idx hin.length_eq
  rw [InRange.append_iff hia, inRange_cons] at hin
  rw [at_eq c _ hl, at_eq a _ (by rw [hs, ← hce]; exact hl), hce, hcg ia k ib hin.1 hin.2.1 hin.2.2,
    hbg ia k ib hin.1 (by omega) hin.2.2, hbg ia (k + num) ib hin.1 (by omega) hin.2.2, ← hs]
  by_cases c1 : k < pos
  · rw [if_pos c1, if_pos c1]
  · rw [if_neg c1, if_neg (by omega), if_neg (by omega), Nat.add_sub_cancel]

example : ((⟨[2, 2], 4, [1, 2, 3, 4]⟩ : MArray Nat).insert 0 2 3 9).bind (fun b => b.erase 0 2 3) =
    .ok ⟨[2, 2], 4, [1, 2, 3, 4]⟩ := by decide

/-- No entries inserted at the end are not erased again: `erase` requires a position before the end. -/
theorem c03_nothing_at_end_violated (a : MArray α) (hwf : a.WF) (dim : Nat) (val : α) (hd : dim < a.extents.length) (hf : Fits32 a.extents dim) :
    ∃ b, a.insert dim a.extents[dim] 0 val = .ok b ∧ b.erase dim a.extents[dim] 0 = .ub := by
  obtain ⟨b, hb, he, -⟩ := c02_insert_partial a hwf dim a.extents[dim] 0 val hd le_rfl hf
  refine ⟨b, hb, c03_erase_bad_arguments b dim _ 0 fun hd' => .inl ?_⟩
  simp [he]

example : ((⟨[2], 2, [1, 2]⟩ : MArray Nat).insert 0 2 0 9).bind (fun b => b.erase 0 2 0) = .ub := by decide

/-! ## C04 -/

/-- Resizing one dimension. Missing from the full claim: products beyond 32 bits. -/
theorem c04_resizeDim_partial [Inhabited α] (a : MArray α) (hwf : a.WF) (dim size : Nat) (hd : dim < a.extents.length)
    (hf : Fits32 a.extents dim) :
    ∃ b, a.resizeDim dim size = .ok b ∧ b.extents = a.extents.set dim size ∧ b.WF ∧
      ∀ idx, InRange b.extents idx → b.at idx = if InRange a.extents idx then a.at idx else .ok default := by
  have hA : (a.extents.take dim).length = dim := by simp; omega
  have hs := split_exts a.extents dim hd
  obtain ⟨b, hb, hbe, hbw, hbg⟩ := resizeDim_split _ _ _ size a hwf hs hf.1 hf.2
  rw [hA] at hb
  have hset : a.extents.set dim size = a.extents.take dim ++ size :: a.extents.drop (dim + 1) := by
    rw [List.set_eq_take_append_cons_drop, if_pos hd]
  refine ⟨b, hb, by rw [hbe, hset], hbw, ?_⟩
  intro idx hin
  rw [hbe] at hin
  obtain ⟨ia, k, ib, rfl, hia, hib⟩ := split_idx _ _ _ idx hin.length_eq
  rw [InRange.append_iff hia, inRange_cons] at hin
  have hl1 : (ia ++ k :: ib).length = b.extents.length := by rw [hbe]; simp [hia, hib]
  have hl2 : (ia ++ k :: ib).length = a.extents.length := by simp [hia, hib]; omega
  have hiff : InRange a.extents (ia ++ k :: ib) ↔ k < a.extents[dim] := by
    conv_lhs => rw [hs]
    rw [InRange.append_iff hia, inRange_cons]
    exact ⟨fun h => h.2.1, fun h => ⟨hin.1, h, hin.2.2⟩⟩
  rw [at_eq b _ hl1, at_eq a _ hl2, hbe, hbg ia k ib hin.1 hin.2.1 hin.2.2, ← hs]
  by_cases c : k < a.extents[dim]
  · rw [if_pos c, if_pos (hiff.2 c)]
  · rw [if_neg c, if_neg (fun h => c (hiff.1 h))]; rfl

example : (⟨[2, 2], 4, [1, 2, 3, 4]⟩ : MArray Nat).resizeDim 1 3 = .ok ⟨[2, 3], 6, [1, 2, 0, 3, 4, 0]⟩ := by decide

/-- Resizing all dimensions: requested extents, common part kept, everything else default. Missing from the full claim:
products beyond 32 bits (see `c04_resize_violated`). -/
theorem c04_resize_partial [Inhabited α] (a : MArray α) (hwf : a.WF) (new : List Nat)
    (hl : new.length = a.extents.length) (hf : ResizeFits a.extents new) :
    ∃ b, a.resize new = .ok b ∧ b.extents = new ∧ b.WF ∧
      ∀ idx, InRange new idx → b.at idx = if InRange a.extents idx then a.at idx else .ok default := by
  obtain ⟨b, hb, hbe, hbw, hbg⟩ := resizeLoop_split new [] a.extents a hwf rfl hl.symm
    (by intro d hd; simpa using hf d hd)
  simp only [List.nil_append, List.length_nil] at hb hbe hbg
  refine ⟨b, by simp [MArray.resize, hl, hb], hbe, hbw, ?_⟩
  intro idx hin
  have h1 := hbg [] idx inRange_nil hin
  simp only [List.nil_append] at h1
  rw [at_eq b _ (by rw [hbe]; exact hin.length_eq), hbe, h1, at_eq a _ (by rw [← hl]; exact hin.length_eq)]
  split <;> rfl

example : (⟨[2, 2], 4, [1, 2, 3, 4]⟩ : MArray Nat).resize [3, 1] = .ok ⟨[3, 1], 3, [1, 3, 0]⟩ := by decide

/-- A wrong number of extents is refused. -/
theorem c04_resize_wrong_rank [Inhabited α] (a : MArray α) (new : List Nat) (hl : new.length ≠ a.extents.length) :
    a.resize new = .throws := by
  simp [MArray.resize, hl]

example : (⟨[2, 2], 4, [1, 2, 3, 4]⟩ : MArray Nat).resize [4] = .throws := by decide

/-- Growing an empty array of shape {0, 2^32} to {1, 2^32} ends normally without the elements. -/
theorem c04_resize_violated :
    ∃ (a b : MArray Nat), a.WF ∧ a.resize [1, 2 ^ 32] = .ok b ∧ InRange [1, 2 ^ 32] [0, 0] ∧ b.at [0, 0] = .ub :=
  ⟨⟨[0, 2 ^ 32], 0, []⟩, ⟨[1, 2 ^ 32], 0, []⟩, by decide, by decide, by decide, by decide⟩

/-! ## C05 -/

/-- `reshape` accepts exactly the lists of rank many extents with product `size()`, keeps the element sequence and sets
the extents. Missing from the full claim: new extents whose product is 2^32 or more (see `c05_reshape_violated`). -/
theorem c05_reshape_partial (a : MArray α) (new : List Nat) (hf : new.prod < 2 ^ 32) :
    ((∃ b, a.reshape new = .ok b) ↔ new.length = a.extents.length ∧ new.prod = a.total) ∧
    (∀ b, a.reshape new = .ok b → b.extents = new ∧ b.data = a.data ∧ b.total = a.total) ∧
    (¬ (new.length = a.extents.length ∧ new.prod = a.total) → a.reshape new = .throws) := by
  unfold MArray.reshape
  rw [accU32_of_lt hf]
  by_cases h1 : new.length = a.extents.length <;> by_cases h2 : new.prod = a.total <;> simp [h1, h2]

example : (⟨[2, 3], 6, [1, 2, 3, 4, 5, 6]⟩ : MArray Nat).reshape [3, 2] = .ok ⟨[3, 2], 6, [1, 2, 3, 4, 5, 6]⟩ ∧
    (⟨[2, 3], 6, [1, 2, 3, 4, 5, 6]⟩ : MArray Nat).reshape [3, 3] = .throws := by decide

/-- The product of the requested extents is accumulated in 32 bits: an array with two elements accepts the extents
{2^31+1, 2}, whose product is 2^32+2. -/
theorem c05_reshape_violated :
    ∃ (a b : MArray Nat) (new : List Nat), a.WF ∧ a.reshape new = .ok b ∧ new.prod ≠ a.total ∧
      ∃ idx, InRange b.extents idx ∧ b.at idx = .ub :=
  ⟨⟨[1, 2], 2, [5, 6]⟩, ⟨[2 ^ 31 + 1, 2], 2, [5, 6]⟩, [2 ^ 31 + 1, 2], by decide, by decide, by decide,
    [1, 0], by decide, by decide⟩

/-! ## C11 -/

/-- `front()` and the non-const `back()` of a non-empty array. Missing from the full claim: the const `back()`
(see `c11_const_back_violated`). -/
theorem c11_front_back_partial (a : MArray α) (hwf : a.WF) (hne : a.data ≠ []) :
    a.front = .ok (a.data.head hne) ∧ a.back = .ok (a.data.getLast hne) := by
  have hpos : 0 < a.data.length := List.length_pos_iff.2 hne
  constructor
  · simp [MArray.front, List.head_eq_getElem, List.getElem?_eq_getElem hpos]
  · have ht : a.total ≠ 0 := by rw [← hwf.2]; omega
    simp only [MArray.back, if_neg ht]
    simp only [← hwf.2, List.getLast_eq_getElem]
    rw [List.getElem?_eq_getElem (by omega)]; rfl

example : (⟨[1, 2], 2, [5, 6]⟩ : MArray Nat).front = .ok 5 ∧ (⟨[1, 2], 2, [5, 6]⟩ : MArray Nat).back = .ok 6 := by decide

/-- The const `back()` returns the number `size()-1`, not the last element. -/
theorem c11_const_back_violated : ∃ (a : MArray Nat) (hne : a.data ≠ []), a.WF ∧
    a.backConst id ≠ .ok (a.data.getLast hne) :=
  ⟨⟨[1, 2], 2, [5, 6]⟩, by decide, by decide, by decide⟩

/-! ## C12 -/

/-- Construction from a nested list throws exactly when the list is not rectangular with the declared extents (or their
number is wrong); otherwise each value sits at its index. -/
theorem c12_nested (rank : Nat) (dims : List Nat) (init : Nest α rank) :
    (MArray.ofNest rank dims init = .throws ↔ ¬ (dims.length = rank ∧ Rectangular rank dims init)) ∧
    (dims.length = rank ∧ Rectangular rank dims init →
      ∃ a, MArray.ofNest rank dims init = .ok a ∧ a.extents = dims ∧ a.WF ∧
        ∀ idx, InRange dims idx → a.at idx = .ofOption (Nest.get? rank init idx)) := by
  unfold MArray.ofNest
  by_cases hd : dims.length = rank
  · have hiff := shapeOk_iff rank dims init hd
    simp only [hd, ne_eq, not_true_eq_false, if_false, true_and]
    by_cases hs : shapeOk rank dims init = true
    · refine ⟨?_, ?_⟩
      · simp [hs, hiff.1 hs]
      · intro _
        refine ⟨⟨dims, accU64 dims, flattenNest rank init⟩, by simp [hs], rfl, ?_, ?_⟩
        · exact ⟨accU64_eq _, by simp only [accU64_eq]; exact flattenNest_length rank dims init hd hs⟩
        · intro idx hin
          rw [at_eq _ _ hin.length_eq]
          congr 1
          exact flattenNest_get rank dims init hd hs idx hin
    · have hn : ¬ Rectangular rank dims init := fun h => hs (hiff.2 h)
      simp [hs, hn]
  · simp [hd]

/-- In-range positions of a rectangular list do hold a value. -/
theorem c12_nested_defined (rank : Nat) (dims : List Nat) (init : Nest α rank) (hd : dims.length = rank)
    (hr : Rectangular rank dims init) (idx : List Nat) (hin : InRange dims idx) :
    ∃ x, Nest.get? rank init idx = some x := by
  have hs := (shapeOk_iff rank dims init hd).2 hr
  rw [← flattenNest_get rank dims init hd hs idx hin]
  exact ⟨_, List.getElem?_eq_getElem (by rw [flattenNest_length rank dims init hd hs]; exact rowMajor_lt hin)⟩

example : (MArray.ofNest 2 [2, 2] ([[1, 2], [3, 4]] : List (List Nat))) = .ok ⟨[2, 2], 4, [1, 2, 3, 4]⟩ ∧
    (MArray.ofNest 2 [2, 2] ([[1, 2], [3]] : List (List Nat))) = .throws := by decide

/-- Assignment from a nested list throws exactly when the list is not rectangular with the extents of the array; otherwise the array
keeps its extents and each value sits at its index. -/
theorem c12_assign (a : MArray α) (hw : a.WF) (init : Nest α a.extents.length) :
    (a.assignNest init = .throws ↔ ¬ Rectangular a.extents.length a.extents init) ∧
    (Rectangular a.extents.length a.extents init →
      ∃ b, a.assignNest init = .ok b ∧ b.extents = a.extents ∧ b.WF ∧
        ∀ idx, InRange a.extents idx → b.at idx = .ofOption (Nest.get? a.extents.length init idx)) := by
  unfold MArray.assignNest
  have hiff := shapeOk_iff a.extents.length a.extents init rfl
  by_cases hs : shapeOk a.extents.length a.extents init = true
  · refine ⟨?_, ?_⟩
    · simp [hs, hiff.1 hs]
    · intro _
      refine ⟨{ a with data := flattenNest _ init }, by simp [hs], rfl, ?_, ?_⟩
      · exact ⟨hw.1, by rw [flattenNest_length _ _ init rfl hs]; exact hw.1.symm⟩
      · intro idx hin
        rw [at_eq { a with data := flattenNest _ init } idx hin.length_eq]
        congr 1
        exact flattenNest_get _ _ init rfl hs idx hin
  · have hr : ¬ Rectangular a.extents.length a.extents init := fun h => hs (hiff.2 h)
    simp [hs, hr]

example : (MArray.assignNest ⟨[2, 2], 4, [0, 0, 0, 0]⟩ ([[1, 2], [3, 4]] : List (List Nat))) = .ok ⟨[2, 2], 4, [1, 2, 3, 4]⟩ ∧
    (MArray.assignNest ⟨[2, 2], 4, [0, 0, 0, 0]⟩ ([[1, 2], [3]] : List (List Nat))) = .throws := by decide

/-- Construction from a range throws exactly when the lengths differ; otherwise the k-th element is the k-th value. -/
theorem c12_range (rank : Nat) (dims : List Nat) (src : List α) :
    (MArray.ofRange rank dims src = .throws ↔ ¬ (dims.length = rank ∧ src.length = dims.prod)) ∧
    (dims.length = rank ∧ src.length = dims.prod →
      ∃ a, MArray.ofRange rank dims src = .ok a ∧ a.extents = dims ∧ a.WF ∧ a.data = src) := by
  unfold MArray.ofRange
  rw [accU64_eq]
  by_cases hd : dims.length = rank
  · by_cases hl : src.length = dims.prod
    · simp only [hd, hl, ne_eq, not_true_eq_false, if_false, and_self, iff_false]
      refine ⟨by simp, fun _ => ⟨_, rfl, rfl, ⟨rfl, hl⟩, rfl⟩⟩
    · simp [hd, hl]
  · simp [hd]

example : MArray.ofRange 2 [1, 2] [7, 8] = .ok ⟨[1, 2], 2, [7, 8]⟩ ∧ MArray.ofRange 2 [1, 2] [7] = .throws := by decide

end Verif.Marr
