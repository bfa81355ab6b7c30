import Verif.MArray.Wide
import Verif.MArray.Props

/-! # C109: sizes that do not fit 64 bits -/

namespace Verif.Marr

variable {α : Type}

theorem acc64_eq (l : List Nat) : acc64 l = l.prod % 2 ^ 64 := by
  have := foldl_mul_mod l (2 ^ 64) 1
  simpa [acc64] using this

theorem chain64_eq (exts idx : List Nat) (h : idx.length = exts.length) (off : Nat) (ho : off < 2 ^ 64) :
    chain64 exts idx off = chain exts idx off % 2 ^ 64 := by
  have key : ∀ (exts idx : List Nat) (off off' : Nat), idx.length = exts.length → off = off' % 2 ^ 64 → chain64 exts idx off = chain exts idx off' % 2 ^ 64 := by
    intro exts
    induction exts with
    | nil => intro idx off off' h e; cases idx <;> simp_all [chain, chain64]
    | cons x es ih =>
      intro idx off off' h e
      cases idx with
      | nil => simp at h
      | cons j js =>
        simp only [chain, chain64]
        refine ih js _ _ (by simpa using h) ?_
        rw [e, Nat.mod_add_mod, Nat.add_mod, Nat.mod_mul_mod, ← Nat.add_mod]
  exact key exts idx off off h (Nat.mod_eq_of_lt ho).symm

theorem offset64_eq {exts idx : List Nat} (h : InRange exts idx) (hs : ∀ i ∈ idx, i < 2 ^ 64) : offset64 exts idx = chainedOffset exts idx % 2 ^ 64 := by
  cases idx with
  | nil => rfl
  | cons i is =>
    cases exts with
    | nil => exact absurd h.length_eq (by simp)
    | cons e es =>
      have hl := h.length_eq
      simp only [List.length_cons, Nat.add_right_cancel_iff] at hl
      exact chain64_eq es is hl i (hs i List.mem_cons_self)

/-- Extents are 64-bit numbers. -/
def Sizes (dims : List Nat) : Prop := ∀ e ∈ dims, e < 2 ^ 64

theorem Sizes.index {dims idx : List Nat} (hd : Sizes dims) (h : InRange dims idx) : ∀ i ∈ idx, i < 2 ^ 64 := by
  intro i hi
  unfold Sizes at hd
  induction h with
  | nil => simp at hi
  | cons hie _ ih =>
    rcases List.mem_cons.1 hi with rfl | hi
    · exact lt_trans hie (hd _ List.mem_cons_self)
    · exact ih (fun e he => hd e (List.mem_cons_of_mem _ he)) hi

/-- If the number of elements fits 64 bits, an array is made exactly if there is room for all its elements, and it has them all. -/
theorem c109_construct_partial [Inhabited α] (mem rank : Nat) (dims : List Nat) (hl : dims.length = rank) (hp : dims.prod < 2 ^ 64) :
    (mem < dims.prod → (ofDims64 mem rank dims : Outcome (MArray α)) = .throws) ∧
    (dims.prod ≤ mem → ∃ a : MArray α, ofDims64 mem rank dims = .ok a ∧ a.extents = dims ∧ a.WF ∧ MArray.ofDims rank dims = .ok a) := by
  have e : acc64 dims = dims.prod := by rw [acc64_eq, Nat.mod_eq_of_lt hp]
  constructor
  · intro h
    unfold ofDims64
    rw [if_neg (not_not.2 hl), if_pos (by rw [e]; exact h)]
  · intro h
    refine ⟨⟨dims, dims.prod, List.replicate dims.prod default⟩, ?_, rfl, ⟨rfl, List.length_replicate ..⟩, ?_⟩
    · unfold ofDims64
      rw [if_neg (not_not.2 hl), if_neg (by rw [e]; omega), e]
    · unfold MArray.ofDims
      rw [if_neg (not_not.2 hl), accU64_eq]

example : (ofDims64 5 2 [2, 3] : Outcome (MArray Nat)) = .throws ∧ (ofDims64 6 2 [2, 3] : Outcome (MArray Nat)) = .ok ⟨[2, 3], 6, [0, 0, 0, 0, 0, 0]⟩ := by
  decide

/-- In such arrays the offsets do not wrap: subscripts read what they should. -/
theorem c109_subscript_partial (a : MArray α) (hwf : a.WF) (hs : Sizes a.extents) (hp : a.extents.prod < 2 ^ 64) (idx : List Nat)
    (h : InRange a.extents idx) : a.at64 idx = a.at idx ∧ ∃ x, a.at64 idx = .ok x := by
  obtain ⟨hb, x, hx⟩ := c01_in_bounds a hwf idx h
  have e : a.at64 idx = a.at idx := by
    unfold MArray.at64 MArray.at
    rw [offset64_eq h (hs.index h), Nat.mod_eq_of_lt]
    rw [hwf.2, hwf.1] at hb
    exact lt_trans hb hp
  exact ⟨e, x, e.trans hx⟩

example : (⟨[2, 3], 6, [10, 11, 12, 13, 14, 15]⟩ : MArray Nat).at64 [1, 1] = .ok 14 := by decide

/-- Full statement: every array that is made has an element of its own for each index. For extents with a larger product, an index has no element or
two have the same, whenever the array is made, and this is not refused. -/
theorem c109_construct_violated [Inhabited α] (mem : Nat) (dims : List Nat) (hs : Sizes dims) (hp : 2 ^ 64 ≤ dims.prod) :
    (dims.prod % 2 ^ 64 ≤ mem → ∃ a : MArray α, ofDims64 mem dims.length dims = .ok a) ∧
    ∀ a : MArray α, ofDims64 mem dims.length dims = .ok a →
      (∃ idx, InRange dims idx ∧ a.at64 idx = .ub) ∨
      ∃ i j, InRange dims i ∧ InRange dims j ∧ i ≠ j ∧ offset64 dims i = offset64 dims j := by
  constructor
  · intro h
    refine ⟨⟨dims, acc64 dims, List.replicate (acc64 dims) default⟩, ?_⟩
    unfold ofDims64
    rw [if_neg (not_not.2 rfl), if_neg (by rw [acc64_eq]; omega)]
  · intro a ha
    have ea : a = ⟨dims, acc64 dims, List.replicate (acc64 dims) default⟩ := by
      unfold ofDims64 at ha
      rw [if_neg (not_not.2 rfl)] at ha
      by_cases hm : acc64 dims > mem
      · rw [if_pos hm] at ha; exact absurd ha (by simp)
      · rw [if_neg hm] at ha; exact (Outcome.ok.inj ha).symm
    have r0 := unflat_inRange dims 0 (by omega)
    rcases Nat.eq_or_lt_of_le hp with heq | hlt
    · left
      refine ⟨unflat dims 0, r0, ?_⟩
      have hz : acc64 dims = 0 := by rw [acc64_eq, ← heq, Nat.mod_self]
      unfold MArray.at64
      rw [ea, if_pos r0.length_eq, hz]
      rfl
    · right
      have r1 := unflat_inRange dims (2 ^ 64) hlt
      have c0 : chainedOffset dims (unflat dims 0) = 0 := by
        rw [chainedOffset_eq _ _ r0.length_eq, rowMajor_unflat dims 0 (by omega)]
      have c1 : chainedOffset dims (unflat dims (2 ^ 64)) = 2 ^ 64 := by
        rw [chainedOffset_eq _ _ r1.length_eq, rowMajor_unflat dims _ hlt]
      refine ⟨unflat dims 0, unflat dims (2 ^ 64), r0, r1, ?_, ?_⟩
      · intro h
        rw [h, c1] at c0
        exact absurd c0 (by norm_num)
      · rw [offset64_eq r0 (hs.index r0), offset64_eq r1 (hs.index r1), c0, c1, Nat.mod_self, Nat.zero_mod]

/-- An array of 2^64 elements takes no memory at all. -/
theorem c109_empty_violated (mem : Nat) : ∃ a : MArray Nat, ofDims64 mem 2 [2 ^ 32, 2 ^ 32] = .ok a ∧ a.data = [] ∧
    ∀ i j, InRange [2 ^ 32, 2 ^ 32] [i, j] → a.at64 [i, j] = .ub := by
  have hz : acc64 [2 ^ 32, 2 ^ 32] = 0 := by decide
  refine ⟨⟨[2 ^ 32, 2 ^ 32], 0, []⟩, ?_, rfl, fun i j _ => by simp [MArray.at64, Outcome.ofOption]⟩
  unfold ofDims64
  rw [if_neg (by simp), hz, if_neg (by omega)]
  rfl

example : InRange [2 ^ 32, 2 ^ 32] [0, 0] ∧ Sizes [2 ^ 32, 2 ^ 32] ∧ 2 ^ 64 ≤ [2 ^ 32, 2 ^ 32].prod := by
  refine ⟨by decide, ?_, by decide⟩
  intro e he
  simp at he
  omega

theorem insertLoop_length {posC numC remC : Nat} {val : α} {k : Nat} {rd d : List α} (h : insertLoop posC numC remC val k rd = some d) :
    d.length = k * (posC + numC + remC) := by
  induction k generalizing rd d with
  | zero => simp [insertLoop] at h; simp [← h]
  | succ k ih =>
    simp only [insertLoop, takeExact] at h
    by_cases h1 : posC ≤ rd.length
    · by_cases h2 : remC ≤ (rd.drop posC).length
      · rw [if_pos h1, if_pos h2] at h
        cases h3 : insertLoop posC numC remC val k ((rd.drop posC).drop remC) with
        | none => simp [h3, -List.drop_drop] at h
        | some r =>
          simp [h3, -List.drop_drop] at h
          rw [← h]
          have := ih h3
          simp at h2
          simp only [List.length_append, List.length_take, List.length_replicate, List.length_drop, this]
          rw [Nat.min_eq_left h1, Nat.min_eq_left h2]
          ring
      · rw [if_pos h1, if_neg h2] at h; simp at h
    · rw [if_neg h1] at h; simp at h

/-- If the new number of elements fits 64 bits and there is room for them, `insert` does what it does without limits on sizes; if there is no room it
throws. -/
theorem c109_insert_partial (mem : Nat) (a : MArray α) (dim pos num : Nat) (val : α) (hd : dim < a.extents.length)
    (hpos : pos ≤ a.extents[dim]) (hf : Fits32 a.extents dim) (h0 : a.extents[dim] + num < 2 ^ 64)
    (hp : (a.extents.take dim).prod * (a.extents[dim] + num) * (a.extents.drop (dim + 1)).prod < 2 ^ 64) :
    a.insert64 mem dim pos num val =
      if (a.extents.take dim).prod * (a.extents[dim] + num) * (a.extents.drop (dim + 1)).prod ≤ mem then a.insert dim pos num val else .throws := by
  unfold MArray.insert64 MArray.insert
  simp only [dif_pos hd, if_pos hpos, accU32_of_lt hf.1, accU32_of_lt hf.2]
  generalize hI : (a.extents.take dim).prod = I at hp ⊢
  generalize hC : (a.extents.drop (dim + 1)).prod = C at hp ⊢
  rw [Nat.mod_eq_of_lt h0]
  have ht : I * (a.extents[dim] + num) % 2 ^ 64 * C % 2 ^ 64 = I * (a.extents[dim] + num) * C := by
    rw [Nat.mod_mul_mod, Nat.mod_eq_of_lt hp]
  rw [ht]
  by_cases hm : I * (a.extents[dim] + num) * C ≤ mem
  · rw [if_pos hm, if_neg (by omega)]
    rcases Nat.eq_zero_or_pos I with hz | hz
    · subst hz
      simp [insertLoop]
    · have h1 : (a.extents[dim] + num) * C < 2 ^ 64 :=
        lt_of_le_of_lt (by rw [Nat.mul_assoc]; exact Nat.le_mul_of_pos_left _ hz) hp
      have part : ∀ x, x ≤ a.extents[dim] + num → x * C % 2 ^ 64 = x * C :=
        fun x hx => Nat.mod_eq_of_lt (lt_of_le_of_lt (Nat.mul_le_mul_right _ hx) h1)
      rw [part pos (by omega), part num (by omega), part _ (by omega)]
      cases hl : insertLoop (pos * C) (num * C) ((a.extents[dim] - pos) * C) val I a.data with
      | none => rfl
      | some d =>
        have : d.length = I * (a.extents[dim] + num) * C := by
          rw [insertLoop_length hl, ← Nat.add_mul, ← Nat.add_mul, Nat.mul_assoc]
          congr 2
          omega
        simp only
        rw [if_neg (by omega)]
  · rw [if_neg hm, if_pos (by omega)]

example : (⟨[2, 2], 4, [1, 2, 3, 4]⟩ : MArray Nat).insert64 6 1 1 1 9 = .ok ⟨[2, 3], 6, [1, 9, 2, 3, 9, 4]⟩ ∧
    (⟨[2, 2], 4, [1, 2, 3, 4]⟩ : MArray Nat).insert64 5 1 1 1 9 = .throws := by decide

theorem insert64_ub (mem : Nat) (a : MArray α) (dim pos num : Nat) (val : α) (hd : dim < a.extents.length) (hpos : pos ≤ a.extents[dim])
    {iterations chunk newTotal : Nat} (hi : accU32 (a.extents.take dim) = iterations) (hc : accU32 (a.extents.drop (dim + 1)) = chunk)
    (ht : iterations * ((a.extents[dim] + num) % 2 ^ 64) % 2 ^ 64 * chunk % 2 ^ 64 = newTotal) (hm : newTotal ≤ mem)
    (hw : newTotal < iterations * (pos * chunk % 2 ^ 64 + num * chunk % 2 ^ 64 + (a.extents[dim] - pos) * chunk % 2 ^ 64)) :
    a.insert64 mem dim pos num val = .ub := by
  unfold MArray.insert64
  simp only [dif_pos hd, if_pos hpos, hi, hc, ht]
  rw [if_neg (by omega)]
  split
  · next d hl =>
    rw [if_pos]
    rw [insertLoop_length hl]
    exact hw
  · rfl

/-- Full statement: `insert` throws if the new number of elements does not fit. Growing {2^31, 0, 2^31} to {2^31, 4, 2^31} asks for no memory and writes
2^64 elements. -/
theorem c109_insert_violated (mem : Nat) (val : Nat) : (⟨[2 ^ 31, 0, 2 ^ 31], 0, []⟩ : MArray Nat).WF ∧ Fits32 [2 ^ 31, 0, 2 ^ 31] 1 ∧
    (⟨[2 ^ 31, 0, 2 ^ 31], 0, []⟩ : MArray Nat).insert64 mem 1 0 4 val = .ub := by
  refine ⟨by decide, by decide, ?_⟩
  exact insert64_ub mem ⟨[2 ^ 31, 0, 2 ^ 31], 0, []⟩ 1 0 4 val (by decide) (Nat.zero_le _) (iterations := 2 ^ 31) (chunk := 2 ^ 31) (newTotal := 0)
    (by decide) (by decide) (by decide) (Nat.zero_le _) (by decide)

end Verif.Marr
