import Verif.Interact.Cache

namespace Verif.Cache

/-- The distance between neighbouring vectors. -/
abbrev stride (numneu : Nat) : Nat := numneu * numneu + padding numneu

theorem parity (n : Nat) : n * n % 2 = n % 2 := by
  rcases Nat.mod_two_eq_zero_or_one n with h | h <;> simp [Nat.mul_mod, h]

theorem stride_mod (n : Nat) (h : 2 ≤ n) : stride n % 4 = 0 := by
  have hv : 4 ≤ n * n := Nat.mul_le_mul h h
  unfold stride padding
  generalize n * n = v at *
  dsimp only
  rw [if_pos (by omega)]
  by_cases ho : v % 2 ≠ 0
  · rw [if_pos ho]
    split
    · omega
    · split <;> omega
  · rw [if_neg ho]
    split <;> omega

theorem padding_le (n : Nat) : padding n ≤ 3 := by
  unfold padding
  generalize n * n = v
  dsimp only
  split
  · split
    · split
      · omega
      · split <;> omega
    · split <;> omega
  · omega

/-- Aligned at offset `off`, in the sense of the check. -/
def Good (numneu addr off : Nat) : Prop :=
  if numneu * numneu % 2 = 0 then (addr + 8 * off) % 32 = 0 else (addr + 8 * (off + 1)) % 32 = 0

theorem good_next {n addr off : Nat} (h : 2 ≤ n) (hg : Good n addr off) : Good n addr (off + stride n) := by
  have hs := stride_mod n h
  unfold Good at *
  generalize stride n = s at *
  split at hg <;> split <;> omega

theorem good_first {n addr : Nat} (h : 2 ≤ n) (ha : addr % 8 = 0) : Good n addr (firstOffset n addr) ∧ firstOffset n addr ≤ 3 := by
  unfold Good firstOffset
  generalize n * n = v at *
  dsimp only
  rw [if_pos (show 1 < n by omega)]
  by_cases ho : v % 2 ≠ 0
  · rw [if_pos ho, if_neg (by omega)]
    split <;> omega
  · rw [if_neg ho, if_pos (by omega)]
    split <;> omega

theorem not_misplaced {n addr off : Nat} (hg : Good n addr off) : misplaced n addr off = false := by
  have hp := parity n
  unfold Good at hg
  unfold misplaced
  simp only [Bool.and_eq_false_iff, Bool.or_eq_false_iff, decide_eq_false_iff_not]
  right
  split at hg
  · constructor
    · left; omega
    · right; omega
  · constructor
    · right; omega
    · left; omega

theorem placeRow_ok {n addr : Nat} (h : 2 ≤ n) : ∀ (k off : Nat), Good n addr off →
    placeRow n addr k off = .ok ((List.range k).map fun i => off + i * stride n, off + k * stride n) := by
  intro k
  induction k with
  | zero => intro off _; simp [placeRow]
  | succ k ih =>
    intro off hg
    unfold placeRow
    rw [if_neg (by simp [not_misplaced hg]), ih _ (good_next h hg)]
    simp only [Outcome.bind, Outcome.ok.injEq, Prod.mk.injEq]
    refine ⟨?_, ?_⟩
    · rw [List.range_succ_eq_map, List.map_cons, List.map_map]
      simp only [Nat.zero_mul, Nat.add_zero, List.cons.injEq, true_and]
      apply List.map_congr_left
      intro i _
      simp only [Function.comp, Nat.succ_eq_add_one, Nat.add_mul, Nat.one_mul]
      omega
    · simp only [Nat.add_mul, Nat.one_mul]; omega

theorem good_many {n addr off : Nat} (h : 2 ≤ n) (hg : Good n addr off) : ∀ k, Good n addr (off + k * stride n)
  | 0 => by simpa using hg
  | k + 1 => by
    have := good_next h (good_many h hg k)
    rw [Nat.add_mul, Nat.one_mul, ← Nat.add_assoc]
    exact this

theorem placeRows_ok {n addr ne : Nat} (h : 2 ≤ n) : ∀ (r off : Nat), Good n addr off →
    placeRows n addr ne r off = .ok ((List.range r).map fun i => (List.range ne).map fun j => off + (i * ne + j) * stride n) := by
  intro r
  induction r with
  | zero => intro off _; simp [placeRows]
  | succ r ih =>
    intro off hg
    unfold placeRows
    rw [placeRow_ok h ne off hg]
    simp only [Outcome.bind]
    rw [ih _ (good_many h hg ne)]
    simp only [Outcome.ok.injEq]
    rw [List.range_succ_eq_map, List.map_cons, List.map_map]
    simp only [Nat.zero_mul, Nat.zero_add, List.cons.injEq, true_and]
    apply List.map_congr_left
    intro i _
    apply List.map_congr_left
    intro j _
    simp only [Nat.succ_eq_add_one, Nat.add_mul, Nat.one_mul]
    omega

theorem flatten_grid (f : Nat → Nat) (ne : Nat) : ∀ r, ((List.range r).map fun i => (List.range ne).map fun j => f (i * ne + j)).flatten =
    (List.range (r * ne)).map f
  | 0 => by simp
  | r + 1 => by
    rw [List.range_succ, List.map_append, List.flatten_append, flatten_grid f ne r, Nat.add_mul, Nat.one_mul, List.range_add,
      List.map_append]
    simp [List.map_map, Function.comp_def]

/-- C47: for every number of flavours of two or more, all particle types and energies and every 8-byte aligned store, the cache is built
without the fatal error and is sound. -/
theorem c47_layout_sound (numneu nrhos ne addr : Nat) (hn : 2 ≤ numneu) (ha : addr % 8 = 0) :
    ∃ l, build numneu nrhos ne addr = .ok l ∧ l.addr = addr ∧ Sound l numneu nrhos ne := by
  obtain ⟨hg, hf⟩ := good_first hn ha
  have hb := placeRows_ok (ne := ne) hn nrhos _ hg
  refine ⟨⟨addr, storeSize numneu (nrhos * ne), numneu,
    (List.range nrhos).map fun i => (List.range ne).map fun j => firstOffset numneu addr + (i * ne + j) * stride numneu⟩, ?_, rfl, ?_⟩
  · unfold build; rw [hb]; rfl
  · have hmem : ∀ row ∈ ((List.range nrhos).map fun i => (List.range ne).map fun j => firstOffset numneu addr + (i * ne + j) * stride numneu),
        ∀ off ∈ row, ∃ k, k < nrhos * ne ∧ off = firstOffset numneu addr + k * stride numneu := by
      intro row hrow off hoff
      simp only [List.mem_map, List.mem_range] at hrow
      obtain ⟨i, hi, rfl⟩ := hrow
      simp only [List.mem_map, List.mem_range] at hoff
      obtain ⟨j, hj, rfl⟩ := hoff
      refine ⟨i * ne + j, ?_, rfl⟩
      calc i * ne + j < i * ne + ne := by omega
        _ = (i + 1) * ne := by rw [Nat.add_mul, Nat.one_mul]
        _ ≤ nrhos * ne := Nat.mul_le_mul_right _ hi
    constructor
    · refine ⟨by simp, ?_⟩
      intro row hrow
      simp only [List.mem_map] at hrow
      obtain ⟨i, _, rfl⟩ := hrow
      simp
    · rfl
    · intro row hrow off hoff
      obtain ⟨k, hk, rfl⟩ := hmem row hrow off hoff
      simp only [storeSize, headroom]
      rw [if_pos (by omega)]
      have h1 : k * padding numneu ≤ (nrhos * ne - 1) * padding numneu := Nat.mul_le_mul_right _ (by omega)
      have h2 : k * (numneu * numneu) + numneu * numneu ≤ nrhos * ne * (numneu * numneu) := by
        have : (k + 1) * (numneu * numneu) ≤ nrhos * ne * (numneu * numneu) := Nat.mul_le_mul_right _ hk
        rwa [Nat.add_mul, Nat.one_mul] at this
      have h3 : k * stride numneu = k * (numneu * numneu) + k * padding numneu := Nat.mul_add _ _ _
      omega
    · dsimp only
      rw [flatten_grid (fun k => firstOffset numneu addr + k * stride numneu), List.pairwise_map]
      refine List.Pairwise.imp ?_ List.pairwise_lt_range
      intro a b hab
      have : (a + 1) * stride numneu ≤ b * stride numneu := Nat.mul_le_mul_right _ hab
      rw [Nat.add_mul, Nat.one_mul] at this
      have h4 : numneu * numneu ≤ stride numneu := Nat.le_add_right _ _
      omega
    · intro _ row hrow off hoff
      obtain ⟨k, hk, rfl⟩ := hmem row hrow off hoff
      exact good_many hn hg k

/-- Three flavours, both types, five energies, an address aligned to 8 bytes only. -/
example : build 3 2 2 1000 = .ok ⟨1000, 48, 3, [[2, 14], [26, 38]]⟩ := by decide

example : build 4 1 3 1000 = .ok ⟨1000, 51, 4, [[3, 19, 35]]⟩ := by decide

/-- C47: the subtractions in the code do not wrap, given at least one type and energy. -/
theorem c47_no_wrap (numneu nrhos ne : Nat) (h : 2 ≤ numneu) (hr : 1 ≤ nrhos) (he : 1 ≤ ne) :
    1 ≤ nrhos * ne ∧ 1 ≤ numneu * numneu ∧ ((numneu * numneu - 1) * 8) % 32 ≤ 32 ∧ (numneu * numneu * 8) % 32 ≤ 32 ∧ padding numneu ≤ 3 := by
  have : 4 ≤ numneu * numneu := Nat.mul_le_mul h h
  exact ⟨Nat.mul_le_mul hr he, by omega, by omega, by omega, padding_le numneu⟩

example : padding 3 = 3 ∧ padding 4 = 0 ∧ padding 5 = 3 ∧ padding 6 = 0 := by decide

/-- C47, reuse, partial: set up again with any earlier cache made for the same number of flavours, the cache is sound. Missing: the number
of flavours is not compared, so after reading a state with another number of flavours into the object the old vectors stay
(`c47_stale_cache_violated`). -/
theorem c47_set_up_again_partial (old : Option Layout) (numneu nrhos ne addr : Nat) (hn : 2 ≤ numneu)
    (ha : addr % 8 = 0) (hold : ∀ l, old = some l → ∃ nrhos' ne', Sound l numneu nrhos' ne') :
    ∃ l, setUp old numneu nrhos ne addr = .ok l ∧ Sound l numneu nrhos ne := by
  obtain ⟨l, hl, _, hs⟩ := c47_layout_sound numneu nrhos ne addr hn ha
  unfold setUp
  split
  · rename_i o
    obtain ⟨nrhos', ne', ho⟩ := hold o rfl
    split
    · rename_i hx
      exact ⟨o, rfl, ⟨hx, ho.dim, ho.inside, ho.apart, ho.aligned⟩⟩
    · exact ⟨l, hl, hs⟩
  · exact ⟨l, hl, hs⟩

example : setUp (some ⟨1000, 48, 3, [[2, 14], [26, 38]]⟩) 3 2 3 64 = .ok ⟨64, 72, 3, [[3, 15, 27], [39, 51, 63]]⟩ := by decide

/-- C47, disagreement: a cache built for three flavours is kept when set up for four; its vectors have nine components and do not even
have room for sixteen. -/
theorem c47_stale_cache_violated :
    ∃ l, build 3 1 2 1000 = .ok l ∧ setUp (some l) 4 1 2 2000 = .ok l ∧ ¬Sound l 4 1 2 ∧ ¬(∀ row ∈ l.offsets, ∀ off ∈ row, off + 4 * 4 ≤ l.size) := by
  refine ⟨⟨1000, 24, 3, [[2, 14]]⟩, by decide, by decide, fun h => ?_, by decide⟩
  have := h.dim
  simp at this

/-- C47: `round_up_to_aligned` is the least multiple of four that is not smaller. -/
theorem c47_round_up (n : Nat) : roundUp n % 4 = 0 ∧ n ≤ roundUp n ∧ ∀ m, m % 4 = 0 → n ≤ m → roundUp n ≤ m := by
  unfold roundUp
  split
  · exact ⟨by omega, by omega, fun m _ _ => by omega⟩
  · exact ⟨by omega, by omega, fun m _ _ => by omega⟩

example : roundUp 5 = 8 ∧ roundUp 8 = 8 ∧ roundUp 0 = 0 := by decide

end Verif.Cache
