import Verif.Alloc.Lemmas

/-! # Properties C16, C17 of `aligned_allocator` -/

namespace Verif.Alloc

/-! ## C17 -/

/-- `allocate(n)` throws exactly when the bytes for `n` objects and the padding do not fit in `size_t`; otherwise the
request is the exact byte count. -/
theorem c17_no_overflow (alignPow sizeofT n p : Nat) (mem : Nat → Nat) (ha : alignPow < 32) (hs : 0 < sizeofT) :
    (allocate alignPow sizeofT n p mem = .throws ↔ 2 ^ 64 ≤ n * sizeofT + 2 ^ alignPow) ∧
    (allocate alignPow sizeofT n p mem ≠ .throws →
      needed alignPow sizeofT n = n * sizeofT + 2 ^ alignPow ∧ n * sizeofT + 2 ^ alignPow < 2 ^ 64) := by
  have hpow : 2 ^ alignPow < 2 ^ 32 := Nat.pow_lt_pow_right (by omega) ha
  have key : n > maxSize alignPow sizeofT ↔ 2 ^ 64 ≤ n * sizeofT + 2 ^ alignPow := by
    rw [maxSize, getAlign_eq ha, gt_iff_lt, Nat.div_lt_iff_lt_mul hs]; omega
  have h1 : allocate alignPow sizeofT n p mem = .throws ↔ n > maxSize alignPow sizeofT := by
    unfold allocate; split
    · simp_all
    · simp_all
  refine ⟨h1.trans key, fun h => ?_⟩
  have hlt : n * sizeofT + 2 ^ alignPow < 2 ^ 64 := by
    have := mt (h1.trans key).2 h; omega
  refine ⟨?_, hlt⟩
  rw [needed, getAlign_eq ha, Nat.mod_eq_of_lt (Nat.lt_of_le_of_lt (Nat.le_add_right _ _) hlt), Nat.mod_eq_of_lt hlt]

example : needed 5 8 1000 = 8032 ∧ maxSize 5 8 = (2 ^ 64 - 33) / 8 := by decide

/-- `max_size()` is the largest accepted count. -/
theorem c17_max_size_is_threshold (alignPow sizeofT n p : Nat) (mem : Nat → Nat) :
    allocate alignPow sizeofT n p mem = .throws ↔ maxSize alignPow sizeofT < n := by
  unfold allocate; split <;> simp_all

example : maxSize 5 8 < 2 ^ 61 := by decide

/-! ## C16 -/

/-- What `allocate` does when it does not throw, for every alignment the constructor accepts. -/
private theorem allocate_ok (alignPow sizeofT n p : Nat) (mem : Nat → Nat) (ha : alignPow < 32) (hs : 0 < sizeofT)
    (hfit : n ≤ maxSize alignPow sizeofT) (hp : p + needed alignPow sizeofT n < 2 ^ 64) :
    needed alignPow sizeofT n = n * sizeofT + 2 ^ alignPow ∧
    allocate alignPow sizeofT n p mem = .ok ⟨p - p % 2 ^ alignPow + 2 ^ alignPow,
      fun a => if a = p - p % 2 ^ alignPow + 2 ^ alignPow - 1 then (2 ^ alignPow - p % 2 ^ alignPow) % 2 ^ 8 else mem a⟩ := by
  have hne : allocate alignPow sizeofT n p mem ≠ .throws := by
    rw [ne_eq, c17_max_size_is_threshold]; omega
  obtain ⟨hneed, _⟩ := (c17_no_overflow alignPow sizeofT n p mem ha hs).2 hne
  rw [hneed] at hp
  refine ⟨hneed, ?_⟩
  have hle : p % 2 ^ alignPow ≤ p := Nat.mod_le _ _
  have hret : ((p &&& (2 ^ 64 - 1 - (getAlign alignPow - 1))) + getAlign alignPow) % 2 ^ 64 =
      p - p % 2 ^ alignPow + 2 ^ alignPow := by
    rw [getAlign_eq ha, and_mask p alignPow (by omega) (by omega), Nat.mod_eq_of_lt (by omega)]
  simp only [allocate, if_neg (by omega : ¬ n > maxSize alignPow sizeofT), hret]
  simp only [getAlign_eq ha]

/-- For every alignment: if the system hands out `needed` bytes at `p`, the returned address is a multiple of the
alignment, the bytes of `n` objects and the byte before them lie inside the block, and only bytes of the block before the
objects are written. -/
theorem c16_aligned (alignPow sizeofT n p : Nat) (mem : Nat → Nat) (ha : alignPow < 32)
    (hs : 0 < sizeofT) (hp0 : 0 < p) (hfit : n ≤ maxSize alignPow sizeofT)
    (hp : p + needed alignPow sizeofT n < 2 ^ 64) :
    ∃ a, allocate alignPow sizeofT n p mem = .ok a ∧ 2 ^ alignPow ∣ a.ret ∧
      p ≤ a.ret - 1 ∧ a.ret - 1 < a.ret ∧ a.ret + n * sizeofT ≤ p + needed alignPow sizeofT n ∧
      ∀ x, a.mem x ≠ mem x → p ≤ x ∧ x < a.ret := by
  obtain ⟨hneed, hok⟩ := allocate_ok alignPow sizeofT n p mem ha hs hfit hp
  rw [hneed] at hp ⊢
  have hpos : 0 < 2 ^ alignPow := Nat.two_pow_pos _
  have hmod : p % 2 ^ alignPow < 2 ^ alignPow := Nat.mod_lt _ hpos
  have hle : p % 2 ^ alignPow ≤ p := Nat.mod_le _ _
  refine ⟨_, hok, Nat.dvd_add (Nat.dvd_sub_mod _) (Nat.dvd_refl _), ?_, ?_, ?_, ?_⟩
  · dsimp only; omega
  · dsimp only; omega
  · dsimp only; omega
  · intro x hx
    dsimp only at hx ⊢
    by_cases hxe : x = p - p % 2 ^ alignPow + 2 ^ alignPow - 1
    · omega
    · exact absurd (if_neg hxe) hx

example : (1003 : Nat) + needed 12 8 10 < 2 ^ 64 ∧ 10 ≤ maxSize 12 8 := by decide

/-- `deallocate` after any use of the objects gives back the block exactly if the returned address is less than 256 bytes after its start. Missing from
the full claim: the other blocks (see `c16_violated`). -/
theorem c16_release_partial (alignPow sizeofT n p : Nat) (mem : Nat → Nat) (ha : alignPow < 32)
    (hs : 0 < sizeofT) (hp0 : 0 < p) (hfit : n ≤ maxSize alignPow sizeofT)
    (hp : p + needed alignPow sizeofT n < 2 ^ 64) :
    ∃ a, allocate alignPow sizeofT n p mem = .ok a ∧
      ∀ mem', (∀ x, ¬ (a.ret ≤ x ∧ x < a.ret + n * sizeofT) → mem' x = a.mem x) →
        (deallocate mem' a.ret = some p ↔ a.ret - p < 256) := by
  obtain ⟨hneed, hok⟩ := allocate_ok alignPow sizeofT n p mem ha hs hfit hp
  have hpos : 0 < 2 ^ alignPow := Nat.two_pow_pos _
  have hmod : p % 2 ^ alignPow < 2 ^ alignPow := Nat.mod_lt _ hpos
  have hle : p % 2 ^ alignPow ≤ p := Nat.mod_le _ _
  refine ⟨_, hok, ?_⟩
  intro mem' hmem
  dsimp only at hmem ⊢
  have := hmem (p - p % 2 ^ alignPow + 2 ^ alignPow - 1) (by omega)
  rw [if_pos rfl] at this
  rw [deallocate, if_neg (by omega), this, Option.some.injEq]
  omega

example : (1003 : Nat) + needed 12 8 10 < 2 ^ 64 ∧ 10 ≤ maxSize 12 8 := by decide

/-- For alignments up to 2^7, 32 being the one the library uses, every block is given back. -/
theorem c16_round_trip_partial (alignPow sizeofT n p : Nat) (mem : Nat → Nat) (ha : alignPow < 8)
    (hs : 0 < sizeofT) (hp0 : 0 < p) (hfit : n ≤ maxSize alignPow sizeofT)
    (hp : p + needed alignPow sizeofT n < 2 ^ 64) :
    ∃ a, allocate alignPow sizeofT n p mem = .ok a ∧
      ∀ mem', (∀ x, ¬ (a.ret ≤ x ∧ x < a.ret + n * sizeofT) → mem' x = a.mem x) → deallocate mem' a.ret = some p := by
  have hpow : 2 ^ alignPow ≤ 2 ^ 7 := Nat.pow_le_pow_right (by omega) (by omega)
  obtain ⟨-, hok⟩ := allocate_ok alignPow sizeofT n p mem (by omega) hs hfit hp
  obtain ⟨a, h1, h2⟩ := c16_release_partial alignPow sizeofT n p mem (by omega) hs hp0 hfit hp
  refine ⟨a, h1, fun mem' hm => (h2 mem' hm).2 ?_⟩
  rw [hok] at h1
  cases h1
  dsimp only
  omega

example : (1003 : Nat) + needed 5 8 10 < 2 ^ 64 ∧ 10 ≤ maxSize 5 8 := by decide

/-- The offset is stored in one byte, so with an alignment of 2^8 a block that already starts at a multiple of 256 is
released at the wrong address, although the constructor accepts every exponent below 32. -/
theorem c16_violated : ∃ a, allocate 8 8 1 1024 (fun _ => 0) = .ok a ∧ deallocate a.mem a.ret ≠ some 1024 :=
  ⟨_, rfl, by decide⟩

end Verif.Alloc
