import Verif.MArray.OwnLemmas

/-!
# C81: storage of arrays

The full claim: whatever sequence of constructions, assignments, swaps, changes of shape and destructions a program performs, and
whichever of them throw, every block is released exactly once, through an allocator equal to the one it came from and with the
size it was obtained with, after exactly its elements were destroyed. `Owned` says this of a state; `bad` is a misuse.
-/

namespace Verif.Marr.Own

/-- The arrays an operation names are alive. -/
def Op.Valid (s : State) : Op → Prop
  | .copy i _ | .move i | .destroy i | .rebuild i _ _ => ∃ a, Live s i a
  | .copyAssign i j _ | .moveAssign i j _ | .swap i j => (∃ a, Live s i a) ∧ ∃ b, Live s j b
  | _ => True

/-- The cases in which the code keeps the claim. -/
def Op.Kept (t : Traits) (s : State) : Op → Prop
  -- the nested lists have the right shape and no element throws
  | .newNest _ n shapeOk f => n = 0 ∨ f = .noMemory ∨ (shapeOk = true ∧ (constructed t n f).2 = false)
  -- the range has the right size and the elements are of trivial type
  | .newRange _ n sizeOk f => n = 0 ∨ f = .noMemory ∨ (sizeOk = true ∧ t.trivialType = true)
  -- no element throws
  | .copyAssign i j f => i = j ∨ ∀ b, Live s j b → (constructed t b.total f).2 = false
  -- the allocators are equal, or propagate to an array that has no block, or do not propagate and no element throws
  | .moveAssign i j f => i = j ∨ ∀ a b, Live s i a → Live s j b → a.alloc = b.alloc ∨ (t.propMove = true ∧ a.data = none) ∨
      (t.propMove = false ∧ (constructed t b.total f).2 = false)
  -- the allocators are equal or swapped too
  | .swap i j => ∀ a b, Live s i a → Live s j b → t.propSwap = true ∨ a.alloc = b.alloc
  | _ => True

/-- States reachable by operations the code handles properly, exceptions included. -/
inductive Reach (t : Traits) : State → Prop
  | start : Reach t start
  | step {s s' : State} {threw : Bool} (op : Op) : Reach t s → op.Valid s → op.Kept t s → op.exec t s = .ok (s', threw) → Reach t s'

private theorem step_owned (t : Traits) (s : State) (h : Owned t s) (hf : Fresh s.mem) (op : Op) (hv : op.Valid s) (hk : op.Kept t s) :
    ∃ s' threw, op.exec t s = .ok (s', threw) ∧ Owned t s' ∧ Fresh s'.mem := by
  -- construction of a new array in a new block
  have build : ∀ al n f extra, ((constructed t n f).2 = true → extra = 0) →
      ∃ s' threw, fill t s (s.mem.allocate al n) s.mem.next n f extra al n (fun m1 =>
        .ok (⟨m1, s.arrs ++ [some ⟨some s.mem.next, n, al⟩]⟩, false)) = .ok (s', threw) ∧ Owned t s' ∧ Fresh s'.mem := by
    intro al n f extra he
    cases hc : (constructed t n f).2 with
    | false => exact ⟨_, _, fill_done _ _ _ _ _ _ _ _ _ _ hc, owned_push h hf al n, fresh_withBlock hf al n⟩
    | true =>
      rw [he hc]
      exact ⟨_, _, fill_threw _ _ _ _ _ _ _ hc, owned_threw h hf, fresh_threw hf⟩
  -- replacing the block of an array
  have assign : ∀ i j a b al f, Live s i a → Live s j b → (constructed t b.total f).2 = false →
      ∃ s' threw, assignElements t s i a b al f = .ok (s', threw) ∧ Owned t s' ∧ Fresh s'.mem := by
    intro i j a b al f hi hj hc
    unfold assignElements
    by_cases hm : f = .noMemory
    · rw [if_pos hm]; exact ⟨_, _, rfl, h, hf⟩
    · obtain ⟨m, hm1, ho, hfm⟩ := owned_replace h hf hi al b.total
      rw [if_neg hm, if_pos (readable_of_owned h hj), fill_done _ _ _ _ _ _ _ _ _ _ hc, hm1]
      exact ⟨_, _, rfl, ho, hfm⟩
  cases op with
  | newEmpty al => exact ⟨_, _, rfl, owned_push_empty h al, hf⟩
  | newSized al n f =>
    unfold Op.exec
    dsimp only
    by_cases hn : n = 0
    · rw [if_pos hn]; exact ⟨_, _, rfl, owned_push_empty h al, hf⟩
    · rw [if_neg hn]
      by_cases hm : f = .noMemory
      · rw [if_pos hm]; exact ⟨_, _, rfl, h, hf⟩
      · rw [if_neg hm]; exact build al n f 0 (fun _ => rfl)
  | newNoInit al n f =>
    unfold Op.exec
    dsimp only
    by_cases ht : t.trivialType = true
    · rw [if_pos ht]
      by_cases hn : n = 0
      · rw [if_pos hn]; exact ⟨_, _, rfl, owned_push_empty h al, hf⟩
      · rw [if_neg hn]
        by_cases hm : f = .noMemory
        · rw [if_pos hm]; exact ⟨_, _, rfl, h, hf⟩
        · rw [if_neg hm, withBlock_eq_allocate t _ _ _ ht]
          exact ⟨_, _, rfl, owned_push h hf al n, fresh_withBlock hf al n⟩
    · rw [if_neg ht]; exact ⟨_, _, rfl, h, hf⟩
  | newNest al n shapeOk f =>
    unfold Op.exec
    dsimp only
    by_cases hn : n = 0
    · rw [if_pos hn]
      split
      · exact ⟨_, _, rfl, owned_push_empty h al, hf⟩
      · exact ⟨_, _, rfl, h, hf⟩
    · rw [if_neg hn]
      by_cases hm : f = .noMemory
      · rw [if_pos hm]; exact ⟨_, _, rfl, h, hf⟩
      · rcases hk with hk | hk | ⟨hs, hc⟩
        · exact absurd hk hn
        · exact absurd hk hm
        · rw [if_neg hm, if_neg (by simp [hs])]
          exact build al n f 1 (fun e => by rw [hc] at e; simp at e)
  | newRange al n sizeOk f =>
    unfold Op.exec
    dsimp only
    by_cases hn : n = 0
    · rw [if_pos hn]
      split
      · exact ⟨_, _, rfl, owned_push_empty h al, hf⟩
      · exact ⟨_, _, rfl, h, hf⟩
    · rw [if_neg hn]
      by_cases hm : f = .noMemory
      · rw [if_pos hm]; exact ⟨_, _, rfl, h, hf⟩
      · rcases hk with hk | hk | ⟨hs, ht⟩
        · exact absurd hk hn
        · exact absurd hk hm
        · rw [if_neg hm, if_neg (by simp [hs]), if_pos ht, withBlock_eq_allocate t _ _ _ ht]
          exact ⟨_, _, rfl, owned_push h hf al n, fresh_withBlock hf al n⟩
  | copy i f =>
    obtain ⟨a, ha⟩ := hv
    have ha' : s.arrs[i]? = some (some a) := ha
    simp only [Op.exec, ha']
    by_cases hn : a.total = 0
    · rw [if_pos hn]; exact ⟨_, _, rfl, owned_push_empty h _, hf⟩
    · rw [if_neg hn]
      by_cases hm : f = .noMemory
      · rw [if_pos hm]; exact ⟨_, _, rfl, h, hf⟩
      · rw [if_neg hm, if_pos (readable_of_owned h ha)]
        exact build _ _ f 0 (fun _ => rfl)
  | move i =>
    obtain ⟨a, ha⟩ := hv
    have ha' : s.arrs[i]? = some (some a) := ha
    simp only [Op.exec, ha']
    exact ⟨_, _, rfl, owned_move h ha, hf⟩
  | destroy i =>
    obtain ⟨a, ha⟩ := hv
    have ha' : s.arrs[i]? = some (some a) := ha
    simp only [Op.exec, ha']
    cases hd : a.data with
    | none =>
      rw [if_neg (by simp)]
      exact ⟨_, _, rfl, owned_swap_empty h ha hd none (by simp), hf⟩
    | some p =>
      rw [if_pos (by simp), destroyBuffer_some t _ _ _ _ (h.block i a ha p hd)]
      exact ⟨_, _, rfl, owned_drop h ha hd none (by simp), fresh_without hf p⟩
  | copyAssign i j f =>
    obtain ⟨⟨a, ha⟩, ⟨b, hb⟩⟩ := hv
    have ha' : s.arrs[i]? = some (some a) := ha
    have hb' : s.arrs[j]? = some (some b) := hb
    simp only [Op.exec, ha', hb']
    by_cases hij : i = j
    · rw [if_pos hij]; exact ⟨_, _, rfl, h, hf⟩
    · rw [if_neg hij]
      rcases hk with hk | hk
      · exact absurd hk hij
      · exact assign i j a b _ f ha hb (hk b hb)
  | moveAssign i j f =>
    obtain ⟨⟨a, ha⟩, ⟨b, hb⟩⟩ := hv
    have ha' : s.arrs[i]? = some (some a) := ha
    have hb' : s.arrs[j]? = some (some b) := hb
    simp only [Op.exec, ha', hb']
    by_cases hij : i = j
    · rw [if_pos hij]; exact ⟨_, _, rfl, h, hf⟩
    · rw [if_neg hij]
      rcases hk with hk | hk
      · exact absurd hk hij
      · by_cases hp : t.propMove = true
        · rw [if_pos hp]
          refine ⟨_, _, rfl, owned_exchange h ha hb b.alloc b.alloc (fun _ => rfl) ?_ (fun e => absurd e hij), hf⟩
          rcases hk a b ha hb with hk | ⟨_, hk⟩ | ⟨hk, _⟩
          · exact fun _ => hk.symm
          · exact fun e => absurd hk e
          · rw [hp] at hk; simp at hk
        · rw [if_neg hp]
          by_cases hal : a.alloc = b.alloc
          · rw [if_pos hal]
            exact ⟨_, _, rfl, owned_exchange h ha hb a.alloc b.alloc (fun _ => hal) (fun _ => hal.symm) (fun e => absurd e hij), hf⟩
          · rw [if_neg hal]
            rcases hk a b ha hb with hk | ⟨hk, _⟩ | ⟨_, hk⟩
            · exact absurd hk hal
            · exact absurd hk hp
            · exact assign i j a b _ f ha hb hk
  | swap i j =>
    obtain ⟨⟨a, ha⟩, ⟨b, hb⟩⟩ := hv
    have ha' : s.arrs[i]? = some (some a) := ha
    have hb' : s.arrs[j]? = some (some b) := hb
    simp only [Op.exec, ha', hb']
    by_cases hp : t.propSwap = true
    · rw [if_pos hp]
      refine ⟨_, _, rfl, owned_exchange h ha hb b.alloc a.alloc (fun _ => rfl) (fun _ => rfl) ?_, hf⟩
      rintro rfl
      rw [live_unique ha hb]
      exact ⟨rfl, rfl⟩
    · rw [if_neg hp]
      rcases hk a b ha hb with hk | hk
      · exact absurd hk hp
      · exact ⟨_, _, rfl, owned_exchange h ha hb a.alloc b.alloc (fun _ => hk) (fun _ => hk.symm) (fun _ => ⟨rfl, hk.symm⟩), hf⟩
  | rebuild i n f =>
    obtain ⟨a, ha⟩ := hv
    have ha' : s.arrs[i]? = some (some a) := ha
    simp only [Op.exec, ha']
    by_cases hm : f = .noMemory
    · rw [if_pos hm]; exact ⟨_, _, rfl, h, hf⟩
    · rw [if_neg hm]
      cases hc : (constructed t n f).2 with
      | true => exact ⟨_, _, fill_threw _ _ _ _ _ _ _ hc, owned_threw h hf, fresh_threw hf⟩
      | false =>
        obtain ⟨m, hm1, ho, hfm⟩ := owned_replace h hf ha a.alloc n
        rw [fill_done _ _ _ _ _ _ _ _ _ _ hc, hm1]
        exact ⟨_, _, rfl, ho, hfm⟩

private theorem reach_owned (t : Traits) (s : State) (h : Reach t s) : Owned t s ∧ Fresh s.mem := by
  induction h with
  | start =>
    refine ⟨⟨?_, ?_, ?_, ?_⟩, fun _ _ => rfl⟩
    · intro i a hi; simp [Live, start] at hi
    · intro i a hi; simp [Live, start] at hi
    · intro i j a b hi; simp [Live, start] at hi
    · intro p b hb; simp [start] at hb
  | step op _ hv hk he ih =>
    obtain ⟨s', threw, he', ho, hf⟩ := step_owned t _ ih.1 ih.2 op hv hk
    rw [he] at he'
    injection he' with he'
    injection he' with h1 _
    rw [h1]
    exact ⟨ho, hf⟩

/-- In every reachable state each block belongs to one array, whose allocator and size it has. Missing from the full claim: the
operations that are not `Kept`, see the violations below. -/
theorem c81_owned_partial (t : Traits) (s : State) (h : Reach t s) : Owned t s := (reach_owned t s h).1

/-- No operation misuses storage: neither in the normal course nor when it throws. -/
theorem c81_no_misuse_partial (t : Traits) (s : State) (h : Reach t s) (op : Op) (hv : op.Valid s) (hk : op.Kept t s) :
    ∃ s' threw, op.exec t s = .ok (s', threw) ∧ Reach t s' := by
  obtain ⟨s', threw, he, _, _⟩ := step_owned t s (reach_owned t s h).1 (reach_owned t s h).2 op hv hk
  exact ⟨s', threw, he, .step op h hv hk he⟩

/-- Once all arrays are destroyed nothing is left. -/
theorem c81_nothing_left_partial (t : Traits) (s : State) (h : Reach t s) (hd : ∀ i a, ¬ Live s i a) (p : Nat) : s.mem.blocks p = none := by
  cases hb : s.mem.blocks p with
  | none => rfl
  | some b =>
    obtain ⟨i, a, hi, _⟩ := (c81_owned_partial t s h).noLeak p b hb
    exact absurd hi (hd i a)

/-- Elements of class type, `std::allocator`-like traits. -/
def plain : Traits := ⟨false, false, false, id, false⟩

/-- An array of six elements is made; the third element throws in the first attempt to copy it, the second attempt succeeds. -/
example : ∃ s, Reach plain s ∧ Live s 1 ⟨some 2, 6, 0⟩ :=
  ⟨_, .step (.copy 0 .nothing) (.step (.copy 0 (.element 2)) (.step (.newSized 0 6 .nothing) .start trivial trivial rfl)
    ⟨_, rfl⟩ trivial rfl) ⟨_, rfl⟩ trivial rfl, rfl⟩

/-- It is then moved from, resized and assigned to, and everything is destroyed: the first ten addresses are free again. -/
example : ((run plain start [.newSized 0 6 .nothing, .copy 0 (.element 2), .copy 0 .nothing, .move 0, .rebuild 1 9 .nothing,
      .copyAssign 0 1 .nothing, .destroy 0, .destroy 1, .destroy 2]).bind fun s =>
        .ok ((List.range 10).map s.mem.blocks, s.arrs)) = .ok (List.replicate 10 none, [none, none, none]) := by
  decide

/-! ## Violations -/

/-- An initialiser of the wrong shape is refused after the block was obtained, and nobody owns that block afterwards. -/
theorem c81_shape_leak_violated (t : Traits) (s : State) (h : Reach t s) (al n : Nat) (hn : n ≠ 0) :
    ∃ s', (Op.newNest al n false .nothing).exec t s = .ok (s', true) ∧
      s'.mem.blocks s.mem.next = some ⟨al, n, 0⟩ ∧ ∀ i a, Live s' i a → a.data ≠ some s.mem.next := by
  refine ⟨⟨s.mem.allocate al n, s.arrs⟩, ?_, ?_, ?_⟩
  · simp [Op.exec, hn]
  · simp [Mem.allocate, Mem.put]
  · intro i a hi
    exact fun e => (reach_owned t s h).1.ne_next (reach_owned t s h).2 (i := i) (a := a) hi e rfl

example : Reach plain start := .start

/-- The same for a range of the wrong size. -/
theorem c81_range_leak_violated (t : Traits) (s : State) (h : Reach t s) (al n : Nat) (hn : n ≠ 0) :
    ∃ s', (Op.newRange al n false .nothing).exec t s = .ok (s', true) ∧
      s'.mem.blocks s.mem.next = some ⟨al, n, 0⟩ ∧ ∀ i a, Live s' i a → a.data ≠ some s.mem.next := by
  refine ⟨⟨s.mem.allocate al n, s.arrs⟩, ?_, ?_, ?_⟩
  · simp [Op.exec, hn]
  · simp [Mem.allocate, Mem.put]
  · intro i a hi
    exact fun e => (reach_owned t s h).1.ne_next (reach_owned t s h).2 (i := i) (a := a) hi e rfl

/-- A range of the right size is assigned to elements that do not exist, for every class type and every non-empty array. -/
theorem c81_range_assigns_violated (t : Traits) (ht : t.trivialType = false) (s : State) (al n : Nat) (hn : n ≠ 0) :
    (Op.newRange al n true .nothing).exec t s = .bad .noElement := by
  simp [Op.exec, hn, ht]

example : plain.trivialType = false := rfl

/-- When an element of the nested lists throws, one element too many is destroyed. -/
theorem c81_initializer_throws_violated (t : Traits) (ht : t.trivialType = false) (s : State) (al n k : Nat) (hk : k < n) :
    (Op.newNest al n true (.element k)).exec t s = .bad .noElement := by
  have hn : n ≠ 0 := by omega
  simp [Op.exec, hn, fill, constructed, ht, hk, Mem.build, Mem.allocate, Mem.put, Res.bind, Mem.destroy, Nat.le_of_lt hk,
    show ¬ k + 1 < k by omega]

/-- When an element throws during copy assignment, the new block is released with the old size. -/
theorem c81_assignment_throws_violated :
    (run plain start [.newSized 0 2 .nothing, .newSized 0 3 .nothing, .copyAssign 0 1 (.element 1)]).bind (fun s => .ok s.arrs) =
      .bad .otherSize := by decide

/-- With a propagating allocator, also through the old allocator. -/
theorem c81_assignment_allocator_violated :
    (run { plain with propCopy := true } start
      [.newSized 0 2 .nothing, .newSized 1 2 .nothing, .copyAssign 0 1 (.element 1)]).bind (fun s => .ok s.arrs) =
      .bad .otherAllocator := by decide

/-- Move assignment with a propagating allocator, as `aligned_allocator` is, leaves the old block with the other array but not its
allocator: for elements of trivial type and two alignments, destroying the source misuses storage. -/
theorem c81_move_assignment_violated :
    (run ⟨false, true, false, id, true⟩ start
      [.newSized 4 2 .nothing, .newSized 5 2 .nothing, .moveAssign 0 1 .nothing, .destroy 1]).bind (fun s => .ok s.arrs) =
      .bad .otherAllocator := by decide

/-- Swapping arrays with different allocators that are not swapped does the same. -/
theorem c81_swap_violated :
    (run ⟨false, true, false, id, true⟩ start
      [.newSized 4 2 .nothing, .newSized 5 2 .nothing, .swap 0 1, .destroy 0]).bind (fun s => .ok s.arrs) =
      .bad .otherAllocator := by decide

end Verif.Marr.Own
