import Verif.MArray.Own

namespace Verif.Marr.Own

/-- Array `i` is alive and is `a`. -/
def Live (s : State) (i : Nat) (a : Arr) : Prop := s.arrs[i]? = some (some a)

/-- The elements that must exist in the block of an array of `n` elements; of trivial types none are counted. -/
def elements (t : Traits) (n : Nat) : Nat := if t.trivialType then 0 else n

/-- Every block belongs to exactly one living array, was obtained from that array's allocator with that array's size and holds
that many elements; an array without block is empty. -/
structure Owned (t : Traits) (s : State) : Prop where
  block : ∀ i a, Live s i a → ∀ p, a.data = some p → s.mem.blocks p = some ⟨a.alloc, a.total, elements t a.total⟩
  empty : ∀ i a, Live s i a → a.data = none → a.total = 0
  once : ∀ i j a b, Live s i a → Live s j b → ∀ p, a.data = some p → b.data = some p → i = j
  noLeak : ∀ p b, s.mem.blocks p = some b → ∃ i a, Live s i a ∧ a.data = some p

/-- Addresses not yet handed out are free. -/
def Fresh (m : Mem) : Prop := ∀ p, m.next ≤ p → m.blocks p = none

/-- The memory with one more full block. -/
def withBlock (t : Traits) (m : Mem) (al n : Nat) : Mem :=
  ⟨fun q => if q = m.next then some ⟨al, n, elements t n⟩ else m.blocks q, m.next + 1⟩

def without (m : Mem) (p : Nat) : Mem := ⟨fun q => if q = p then none else m.blocks q, m.next⟩

theorem withBlock_eq_allocate (t : Traits) (m : Mem) (al n : Nat) (ht : t.trivialType = true) :
    m.allocate al n = withBlock t m al n := by
  simp [Mem.allocate, withBlock, Mem.put, elements, ht]

theorem constructed_threw {t : Traits} {n : Nat} {f : Fault} (h : (constructed t n f).2 = true) :
    (constructed t n f).1 < n ∧ t.trivialType = false := by
  unfold constructed at *
  cases f with
  | nothing => simp at h
  | noMemory => simp at h
  | element k =>
    dsimp only at *
    split at h
    · rename_i h1
      rw [if_pos h1]
      simp at h1
      exact ⟨h1.2, h1.1⟩
    · simp at h

theorem constructed_all {t : Traits} {n : Nat} {f : Fault} (h : (constructed t n f).2 = false) : (constructed t n f).1 = n := by
  unfold constructed at *
  cases f with
  | nothing => rfl
  | noMemory => rfl
  | element k =>
    dsimp only at *
    split at h
    · simp at h
    · rename_i h1; rw [if_neg h1]

theorem fill_done (t : Traits) (s : State) (m : Mem) (n : Nat) (f : Fault) (extra al al' size : Nat) (go : Mem → Res Done)
    (h : (constructed t n f).2 = false) :
    fill t s (m.allocate al n) m.next n f extra al' size go = go (withBlock t m al n) := by
  unfold fill
  simp only [h, constructed_all h]
  cases ht : t.trivialType with
  | true => simp [Mem.build, ht, Res.bind, withBlock_eq_allocate t m al n ht]
  | false =>
    simp only [Mem.build, ht, Mem.allocate, Mem.put, Res.bind]
    simp [withBlock, elements, ht]
    congr 1
    simp only [Mem.mk.injEq, and_true]
    funext q
    split <;> rfl

theorem fill_threw (t : Traits) (s : State) (m : Mem) (n : Nat) (f : Fault) (al : Nat) (go : Mem → Res Done)
    (h : (constructed t n f).2 = true) :
    fill t s (m.allocate al n) m.next n f 0 al n go =
      .ok (⟨⟨fun q => if q = m.next then none else m.blocks q, m.next + 1⟩, s.arrs⟩, true) := by
  obtain ⟨hk, ht⟩ := constructed_threw h
  unfold fill
  simp only [h, Mem.build, ht, Mem.allocate, Mem.put, Res.bind, Mem.destroy, Mem.release]
  simp [Nat.le_of_lt hk]
  funext q
  split <;> rfl

theorem destroyBuffer_some (t : Traits) (m : Mem) (p n al : Nat) (h : m.blocks p = some ⟨al, n, elements t n⟩) :
    destroyBuffer t m (some p) n al = .ok (without m p) := by
  unfold destroyBuffer
  cases ht : t.trivialType with
  | true => simp [Mem.destroy, ht, Res.bind, Mem.release, h, elements, without, Mem.put]
  | false =>
    simp [Mem.destroy, ht, Res.bind, Mem.release, h, elements, without, Mem.put]
    funext q
    split <;> rfl

theorem destroyBuffer_none (t : Traits) (m : Mem) (al : Nat) : destroyBuffer t m none 0 al = .ok m := by
  simp [destroyBuffer, Mem.release]

/-! ## Reading the list of arrays -/

theorem live_append {m : Mem} {l : List (Option Arr)} {x : Arr} {i : Nat} {a : Arr} :
    Live ⟨m, l ++ [some x]⟩ i a ↔ Live ⟨m, l⟩ i a ∨ (i = l.length ∧ a = x) := by
  unfold Live
  dsimp only
  rw [List.getElem?_append]
  split
  · constructor
    · exact Or.inl
    · rintro (h | ⟨h, _⟩)
      · exact h
      · omega
  · rename_i hi
    constructor
    · intro h
      by_cases he : i = l.length
      · subst he; simp at h; exact Or.inr ⟨rfl, h.symm⟩
      · rw [List.getElem?_eq_none (by simp; omega)] at h; simp at h
    · rintro (h | ⟨rfl, rfl⟩)
      · rw [List.getElem?_eq_none (by omega)] at h; simp at h
      · simp

theorem live_set {m : Mem} {l : List (Option Arr)} {k : Nat} {x : Option Arr} {i : Nat} {a : Arr} :
    Live ⟨m, l.set k x⟩ i a ↔ (i = k ∧ x = some a ∧ k < l.length) ∨ (i ≠ k ∧ Live ⟨m, l⟩ i a) := by
  unfold Live
  dsimp only
  rw [List.getElem?_set]
  by_cases h : k = i
  · subst h
    rw [if_pos rfl]
    by_cases hl : k < l.length
    · simp [hl]
    · simp [hl]
  · rw [if_neg h]
    constructor
    · intro h1; exact Or.inr ⟨fun e => h e.symm, h1⟩
    · rintro (⟨e, _⟩ | ⟨_, h1⟩)
      · exact absurd e.symm h
      · exact h1

theorem live_lt {s : State} {i : Nat} {a : Arr} (h : Live s i a) : i < s.arrs.length := by
  unfold Live at h
  exact (List.getElem?_eq_some_iff.mp h).1

theorem live_unique {s : State} {i : Nat} {a b : Arr} (h : Live s i a) (h' : Live s i b) : a = b := by
  unfold Live at *
  rw [h] at h'
  simpa using h'

theorem live_mem {m m' : Mem} {l : List (Option Arr)} {i : Nat} {a : Arr} : Live ⟨m, l⟩ i a ↔ Live ⟨m', l⟩ i a := Iff.rfl

/-! ## Keeping the invariant -/

variable {t : Traits} {s : State}

/-- A block owned by a living array is below `next`. -/
theorem Owned.ne_next (h : Owned t s) (hf : Fresh s.mem) {i : Nat} {a : Arr} (ha : Live s i a) {p : Nat} (hp : a.data = some p) :
    p ≠ s.mem.next := by
  intro e
  have := h.block i a ha p hp
  rw [e, hf _ (Nat.le_refl _)] at this
  simp at this

theorem owned_push_empty (h : Owned t s) (al : Nat) : Owned t ⟨s.mem, s.arrs ++ [some ⟨none, 0, al⟩]⟩ := by
  refine ⟨?_, ?_, ?_, ?_⟩
  · intro i a hi p hp
    rcases live_append.mp hi with hi | ⟨_, rfl⟩
    · exact h.block i a hi p hp
    · simp at hp
  · intro i a hi hp
    rcases live_append.mp hi with hi | ⟨_, rfl⟩
    · exact h.empty i a hi hp
    · rfl
  · intro i j a b hi hj p hp hq
    rcases live_append.mp hi with hi | ⟨_, rfl⟩
    · rcases live_append.mp hj with hj | ⟨_, rfl⟩
      · exact h.once i j a b hi hj p hp hq
      · simp at hq
    · simp at hp
  · intro p b hb
    obtain ⟨i, a, hi, hp⟩ := h.noLeak p b hb
    exact ⟨i, a, live_append.mpr (.inl hi), hp⟩

theorem owned_push (h : Owned t s) (hf : Fresh s.mem) (al n : Nat) :
    Owned t ⟨withBlock t s.mem al n, s.arrs ++ [some ⟨some s.mem.next, n, al⟩]⟩ := by
  refine ⟨?_, ?_, ?_, ?_⟩
  · intro i a hi p hp
    rcases live_append.mp hi with hi | ⟨_, rfl⟩
    · simp only [withBlock, if_neg (h.ne_next hf hi hp)]
      exact h.block i a hi p hp
    · simp only [Option.some.injEq] at hp
      simp [withBlock, hp]
  · intro i a hi hp
    rcases live_append.mp hi with hi | ⟨_, rfl⟩
    · exact h.empty i a hi hp
    · simp at hp
  · intro i j a b hi hj p hp hq
    rcases live_append.mp hi with hi | ⟨hi', rfl⟩
    · rcases live_append.mp hj with hj | ⟨_, rfl⟩
      · exact h.once i j a b hi hj p hp hq
      · simp only [Option.some.injEq] at hq
        exact absurd hq.symm (h.ne_next hf hi hp)
    · rcases live_append.mp hj with hj | ⟨hj', rfl⟩
      · simp only [Option.some.injEq] at hp
        exact absurd hp.symm (h.ne_next hf hj hq)
      · omega
  · intro p b hb
    simp only [withBlock] at hb
    split at hb
    · rename_i e
      exact ⟨_, _, live_append.mpr (.inr ⟨rfl, rfl⟩), by simp [e]⟩
    · obtain ⟨i, a, hi, hp⟩ := h.noLeak p b hb
      exact ⟨i, a, live_append.mpr (.inl hi), hp⟩

theorem owned_threw (h : Owned t s) (hf : Fresh s.mem) :
    Owned t ⟨⟨fun q => if q = s.mem.next then none else s.mem.blocks q, s.mem.next + 1⟩, s.arrs⟩ := by
  have e : (fun q => if q = s.mem.next then none else s.mem.blocks q) = s.mem.blocks := by
    funext q
    split
    · rename_i e; rw [e, hf _ (Nat.le_refl _)]
    · rfl
  rw [e]
  exact ⟨h.block, h.empty, h.once, h.noLeak⟩

/-- The block of array `i` disappears together with its pointer. -/
theorem owned_drop (h : Owned t s) {i : Nat} {a : Arr} (hi : Live s i a) {p : Nat} (hp : a.data = some p) (x : Option Arr)
    (hx : ∀ b, x = some b → b.data = none ∧ b.total = 0) : Owned t ⟨without s.mem p, s.arrs.set i x⟩ := by
  refine ⟨?_, ?_, ?_, ?_⟩
  · intro k b hk q hq
    rcases live_set.mp hk with ⟨_, he, _⟩ | ⟨hne, hk⟩
    · rw [(hx b he).1] at hq; simp at hq
    · have : q ≠ p := fun e => hne (h.once k i b a hk hi p (e ▸ hq) hp)
      simp only [without, if_neg this]
      exact h.block k b hk q hq
  · intro k b hk hq
    rcases live_set.mp hk with ⟨_, he, _⟩ | ⟨hne, hk⟩
    · exact (hx b he).2
    · exact h.empty k b hk hq
  · intro k l b c hk hl q hq hq'
    rcases live_set.mp hk with ⟨_, he, _⟩ | ⟨hne, hk⟩
    · rw [(hx b he).1] at hq; simp at hq
    · rcases live_set.mp hl with ⟨_, he, _⟩ | ⟨hne', hl⟩
      · rw [(hx c he).1] at hq'; simp at hq'
      · exact h.once k l b c hk hl q hq hq'
  · intro q b hb
    simp only [without] at hb
    split at hb
    · simp at hb
    · rename_i hne
      obtain ⟨k, c, hk, hc⟩ := h.noLeak q b hb
      refine ⟨k, c, live_set.mpr (.inr ⟨?_, hk⟩), hc⟩
      rintro rfl
      rw [live_unique hk hi, hp] at hc
      simp only [Option.some.injEq] at hc
      exact hne hc.symm

/-- An array without block is replaced by one without block, or destroyed. -/
theorem owned_swap_empty (h : Owned t s) {i : Nat} {a : Arr} (hi : Live s i a) (hp : a.data = none) (x : Option Arr)
    (hx : ∀ b, x = some b → b.data = none ∧ b.total = 0) : Owned t ⟨s.mem, s.arrs.set i x⟩ := by
  refine ⟨?_, ?_, ?_, ?_⟩
  · intro k b hk q hq
    rcases live_set.mp hk with ⟨_, he, _⟩ | ⟨hne, hk⟩
    · rw [(hx b he).1] at hq; simp at hq
    · exact h.block k b hk q hq
  · intro k b hk hq
    rcases live_set.mp hk with ⟨_, he, _⟩ | ⟨hne, hk⟩
    · exact (hx b he).2
    · exact h.empty k b hk hq
  · intro k l b c hk hl q hq hq'
    rcases live_set.mp hk with ⟨_, he, _⟩ | ⟨hne, hk⟩
    · rw [(hx b he).1] at hq; simp at hq
    · rcases live_set.mp hl with ⟨_, he, _⟩ | ⟨hne', hl⟩
      · rw [(hx c he).1] at hq'; simp at hq'
      · exact h.once k l b c hk hl q hq hq'
  · intro q b hb
    obtain ⟨k, c, hk, hc⟩ := h.noLeak q b hb
    refine ⟨k, c, live_set.mpr (.inr ⟨?_, hk⟩), hc⟩
    rintro rfl
    rw [live_unique hk hi, hp] at hc
    simp at hc

/-- An array without block gets a new one. -/
theorem owned_fill_empty (h : Owned t s) (hf : Fresh s.mem) {i : Nat} {a : Arr} (hi : Live s i a) (hp : a.data = none) (al n : Nat) :
    Owned t ⟨withBlock t s.mem al n, s.arrs.set i (some ⟨some s.mem.next, n, al⟩)⟩ := by
  refine ⟨?_, ?_, ?_, ?_⟩
  · intro k b hk q hq
    rcases live_set.mp hk with ⟨_, he, _⟩ | ⟨hne, hk⟩
    · simp only [Option.some.injEq] at he
      subst he
      simp only [Option.some.injEq] at hq
      simp [withBlock, hq]
    · simp only [withBlock, if_neg (h.ne_next hf hk hq)]
      exact h.block k b hk q hq
  · intro k b hk hq
    rcases live_set.mp hk with ⟨_, he, _⟩ | ⟨hne, hk⟩
    · simp only [Option.some.injEq] at he
      subst he
      simp at hq
    · exact h.empty k b hk hq
  · intro k l b c hk hl q hq hq'
    rcases live_set.mp hk with ⟨e1, he, _⟩ | ⟨hne, hk⟩
    · rcases live_set.mp hl with ⟨e2, _, _⟩ | ⟨hne', hl⟩
      · omega
      · simp only [Option.some.injEq] at he
        subst he
        simp only [Option.some.injEq] at hq
        exact absurd hq.symm (h.ne_next hf hl hq')
    · rcases live_set.mp hl with ⟨_, he, _⟩ | ⟨hne', hl⟩
      · simp only [Option.some.injEq] at he
        subst he
        simp only [Option.some.injEq] at hq'
        exact absurd hq'.symm (h.ne_next hf hk hq)
      · exact h.once k l b c hk hl q hq hq'
  · intro q b hb
    simp only [withBlock] at hb
    split at hb
    · rename_i e
      exact ⟨i, _, live_set.mpr (.inl ⟨rfl, rfl, live_lt hi⟩), by simp [e]⟩
    · obtain ⟨k, c, hk, hc⟩ := h.noLeak q b hb
      refine ⟨k, c, live_set.mpr (.inr ⟨?_, hk⟩), hc⟩
      rintro rfl
      rw [live_unique hk hi, hp] at hc
      simp at hc

/-- An array gets a new block and its old one is released. -/
theorem owned_replace (h : Owned t s) (hf : Fresh s.mem) {i : Nat} {a : Arr} (hi : Live s i a) (al n : Nat) :
    ∃ m, destroyBuffer t (withBlock t s.mem al n) a.data a.total a.alloc = .ok m ∧
      Owned t ⟨m, s.arrs.set i (some ⟨some s.mem.next, n, al⟩)⟩ ∧ Fresh m := by
  cases hd : a.data with
  | none =>
    refine ⟨_, by rw [h.empty i a hi hd]; exact destroyBuffer_none .., owned_fill_empty h hf hi hd al n, ?_⟩
    intro q hq
    simp only [withBlock] at hq ⊢
    rw [if_neg (by omega)]
    exact hf q (by omega)
  | some p =>
    have hne := h.ne_next hf hi hd
    refine ⟨_, destroyBuffer_some t _ p _ _ ?_, ?_, ?_⟩
    · simp only [withBlock, if_neg hne]
      exact h.block i a hi p hd
    · have h1 := owned_drop h hi hd (some ⟨none, 0, a.alloc⟩) (by rintro b ⟨⟩; exact ⟨rfl, rfl⟩)
      have hf1 : Fresh (without s.mem p) := by
        intro q hq
        simp only [without] at hq ⊢
        split
        · rfl
        · exact hf q hq
      have h2 := owned_fill_empty h1 hf1 (i := i) (a := ⟨none, 0, a.alloc⟩)
        (live_set.mpr (.inl ⟨rfl, rfl, live_lt hi⟩)) rfl al n
      have e : withBlock t (without s.mem p) al n = without (withBlock t s.mem al n) p := by
        simp only [withBlock, without, Mem.mk.injEq, and_true]
        funext q
        by_cases h1 : q = p
        · subst h1; simp [hne]
        · simp [h1]
      simp only [List.set_set] at h2
      rw [e] at h2
      exact h2
    · intro q hq
      simp only [without, withBlock] at hq ⊢
      split
      · rfl
      · rw [if_neg (by omega)]; exact hf q (by omega)

/-- Two arrays exchange their blocks, and the allocators go along wherever there is a block. -/
theorem owned_exchange (h : Owned t s) {i j : Nat} {a b : Arr} (hi : Live s i a) (hj : Live s j b) (ai aj : Nat)
    (hai : b.data ≠ none → ai = b.alloc) (haj : a.data ≠ none → aj = a.alloc) (hij : i = j → ai = a.alloc ∧ aj = a.alloc) :
    Owned t ⟨s.mem, (s.arrs.set i (some ⟨b.data, b.total, ai⟩)).set j (some ⟨a.data, a.total, aj⟩)⟩ := by
  have key : ∀ k c, Live ⟨s.mem, (s.arrs.set i (some ⟨b.data, b.total, ai⟩)).set j (some ⟨a.data, a.total, aj⟩)⟩ k c →
      (k = j ∧ c = ⟨a.data, a.total, aj⟩) ∨ (k ≠ j ∧ k = i ∧ c = ⟨b.data, b.total, ai⟩) ∨ (k ≠ j ∧ k ≠ i ∧ Live s k c) := by
    intro k c hk
    rcases live_set.mp hk with ⟨e, he, _⟩ | ⟨hne, hk⟩
    · simp only [Option.some.injEq] at he
      exact .inl ⟨e, he.symm⟩
    · rcases live_set.mp hk with ⟨e, he, _⟩ | ⟨hne', hk⟩
      · simp only [Option.some.injEq] at he
        exact .inr (.inl ⟨hne, e, he.symm⟩)
      · exact .inr (.inr ⟨hne, hne', hk⟩)
  refine ⟨?_, ?_, ?_, ?_⟩
  · intro k c hk p hp
    rcases key k c hk with ⟨_, rfl⟩ | ⟨_, _, rfl⟩ | ⟨_, _, hk⟩
    · rw [haj (by rw [show a.data = some p from hp]; simp)]
      exact h.block i a hi p hp
    · rw [hai (by rw [show b.data = some p from hp]; simp)]
      exact h.block j b hj p hp
    · exact h.block k c hk p hp
  · intro k c hk hp
    rcases key k c hk with ⟨_, rfl⟩ | ⟨_, _, rfl⟩ | ⟨_, _, hk⟩
    · exact h.empty i a hi hp
    · exact h.empty j b hj hp
    · exact h.empty k c hk hp
  · intro k l c d hk hl p hp hq
    rcases key k c hk with ⟨e1, rfl⟩ | ⟨n1, e1, rfl⟩ | ⟨n1, n1', hk⟩
    · rcases key l d hl with ⟨e2, rfl⟩ | ⟨n2, e2, rfl⟩ | ⟨n2, n2', hl⟩
      · omega
      · have := h.once i j a b hi hj p hp hq; omega
      · have := h.once i l a d hi hl p hp hq; omega
    · rcases key l d hl with ⟨e2, rfl⟩ | ⟨n2, e2, rfl⟩ | ⟨n2, n2', hl⟩
      · have := h.once j i b a hj hi p hp hq; omega
      · omega
      · have := h.once j l b d hj hl p hp hq; omega
    · rcases key l d hl with ⟨e2, rfl⟩ | ⟨n2, e2, rfl⟩ | ⟨n2, n2', hl⟩
      · have := h.once k i c a hk hi p hp hq; omega
      · have := h.once k j c b hk hj p hp hq; omega
      · exact h.once k l c d hk hl p hp hq
  · intro p c hc
    obtain ⟨k, d, hk, hd⟩ := h.noLeak p c hc
    by_cases hki : k = i
    · subst hki
      cases live_unique hk hi
      exact ⟨j, _, live_set.mpr (.inl ⟨rfl, rfl, by simpa using live_lt hj⟩), hd⟩
    · by_cases hkj : k = j
      · subst hkj
        cases live_unique hk hj
        exact ⟨i, _, live_set.mpr (.inr ⟨fun e => hki e.symm, live_set.mpr (.inl ⟨rfl, rfl, live_lt hi⟩)⟩), hd⟩
      · exact ⟨k, d, live_set.mpr (.inr ⟨hkj, live_set.mpr (.inr ⟨hki, hk⟩)⟩), hd⟩

/-- A moved-from array hands its block to a new array. -/
theorem owned_move (h : Owned t s) {i : Nat} {a : Arr} (hi : Live s i a) :
    Owned t ⟨s.mem, s.arrs.set i (some ⟨none, 0, a.alloc⟩) ++ [some a]⟩ := by
  have key : ∀ k c, Live ⟨s.mem, s.arrs.set i (some ⟨none, 0, a.alloc⟩) ++ [some a]⟩ k c →
      (k = s.arrs.length ∧ c = a) ∨ (k = i ∧ c = ⟨none, 0, a.alloc⟩) ∨ (k ≠ i ∧ Live s k c) := by
    intro k c hk
    rcases live_append.mp hk with hk | ⟨e, rfl⟩
    · rcases live_set.mp hk with ⟨e, he, _⟩ | ⟨hne', hk⟩
      · simp only [Option.some.injEq] at he
        exact .inr (.inl ⟨e, he.symm⟩)
      · exact .inr (.inr ⟨hne', hk⟩)
    · exact .inl ⟨by simpa using e, rfl⟩
  refine ⟨?_, ?_, ?_, ?_⟩
  · intro k c hk p hp
    rcases key k c hk with ⟨_, rfl⟩ | ⟨_, rfl⟩ | ⟨_, hk⟩
    · exact h.block i _ hi p hp
    · simp at hp
    · exact h.block k c hk p hp
  · intro k c hk hp
    rcases key k c hk with ⟨_, rfl⟩ | ⟨_, rfl⟩ | ⟨_, hk⟩
    · exact h.empty i _ hi hp
    · rfl
    · exact h.empty k c hk hp
  · intro k l c d hk hl p hp hq
    rcases key k c hk with ⟨e1, e1'⟩ | ⟨_, rfl⟩ | ⟨n1, hk''⟩
    · subst e1'
      rcases key l d hl with ⟨e2, rfl⟩ | ⟨_, rfl⟩ | ⟨n2, hl⟩
      · omega
      · simp at hq
      · exact absurd (h.once i l _ d hi hl p hp hq) (fun e => n2 e.symm)
    · simp at hp
    · have hk' := hk''
      rcases key l d hl with ⟨e2, rfl⟩ | ⟨_, rfl⟩ | ⟨n2, hl⟩
      · exact absurd (h.once k i c _ hk' hi p hp hq) n1
      · simp at hq
      · exact h.once k l c d hk'' hl p hp hq
  · intro p c hc
    obtain ⟨k, d, hk, hd⟩ := h.noLeak p c hc
    by_cases hki : k = i
    · subst hki
      cases live_unique hk hi
      exact ⟨s.arrs.length, _, live_append.mpr (.inr ⟨by simp, rfl⟩), hd⟩
    · exact ⟨k, d, live_append.mpr (.inl (live_set.mpr (.inr ⟨hki, hk⟩))), hd⟩

theorem readable_of_owned (h : Owned t s) {i : Nat} {a : Arr} (hi : Live s i a) : readable t s.mem a.data a.total = true := by
  unfold readable
  cases hd : a.data with
  | none => simp [h.empty i a hi hd]
  | some p =>
    simp only [h.block i a hi p hd, elements]
    cases t.trivialType <;> simp

theorem fresh_withBlock (hf : Fresh s.mem) (al n : Nat) : Fresh (withBlock t s.mem al n) := by
  intro q hq
  simp only [withBlock] at hq ⊢
  rw [if_neg (by omega)]
  exact hf q (by omega)

theorem fresh_threw (hf : Fresh s.mem) : Fresh ⟨fun q => if q = s.mem.next then none else s.mem.blocks q, s.mem.next + 1⟩ := by
  intro q hq
  dsimp only at hq ⊢
  rw [if_neg (by omega)]
  exact hf q (by omega)

theorem fresh_without (hf : Fresh s.mem) (p : Nat) : Fresh (without s.mem p) := by
  intro q hq
  simp only [without] at hq ⊢
  split
  · rfl
  · exact hf q hq

end Verif.Marr.Own
