import Verif.Base

/-!
# Who owns which buffer (marray.h, constructors, assignments, destructor)

Only storage is modelled here: which blocks were obtained from which allocator, how many elements live in each, and which
array points to which block. The contents are in `Model.lean` and `Heap.lean`. Addresses are never reused, so using a block
after its release is always noticed. Allocators are numbers; two allocators compare equal when they are the same number, and a
moved-from allocator keeps its value (as the standard demands). Releasing a null pointer of size zero does nothing, as in
`std::allocator` and `aligned_allocator`.
-/

namespace Verif.Marr.Own

/-- Ways to misuse storage. -/
inductive Misuse where
  /-- the block is not live -/
  | notLive
  /-- released through another allocator than it was obtained from -/
  | otherAllocator
  /-- released with another size -/
  | otherSize
  /-- released while elements live in it -/
  | elementsLeft
  /-- destroying, reading or assigning an element that was never constructed -/
  | noElement
  deriving DecidableEq, Repr

/-- Result of a step. -/
inductive Res (α : Type u) where
  | ok (a : α)
  | bad (why : Misuse)
  deriving DecidableEq, Repr

def Res.bind : Res α → (α → Res β) → Res β
  | .ok a, f => f a
  | .bad w, _ => .bad w

/-- A block of memory: its allocator, its size and the number of elements constructed in it, counted from the front. -/
structure Block where
  alloc : Nat
  size : Nat
  built : Nat
  deriving DecidableEq, Repr

structure Mem where
  blocks : Nat → Option Block
  next : Nat

/-- What the template parameters fix: the three propagation traits, `select_on_container_copy_construction`, and whether the
elements are of trivial type (nothing happens on construction and destruction, and copying never throws). -/
structure Traits where
  propCopy : Bool
  propMove : Bool
  propSwap : Bool
  select : Nat → Nat
  trivialType : Bool

def Mem.put (m : Mem) (p : Nat) (b : Option Block) : Mem := { m with blocks := fun q => if q = p then b else m.blocks q }

/-- `allocator_traits::allocate`. -/
def Mem.allocate (m : Mem) (al n : Nat) : Mem := { blocks := (m.put m.next (some ⟨al, n, 0⟩)).blocks, next := m.next + 1 }

/-- Construct `k` elements at the front of an empty block. -/
def Mem.build (t : Traits) (m : Mem) (p k : Nat) : Res Mem :=
  if t.trivialType then .ok m
  else match m.blocks p with
    | some b => if b.built = 0 ∧ k ≤ b.size then .ok (m.put p (some { b with built := k })) else .bad .noElement
    | none => .bad .notLive

/-- Destroy the first `k` elements of a block, which must be all there are. -/
def Mem.destroy (t : Traits) (m : Mem) (p k : Nat) : Res Mem :=
  if t.trivialType then .ok m
  else match m.blocks p with
    | some b => if b.built = k then .ok (m.put p (some { b with built := 0 }))
      else if k < b.built then .bad .elementsLeft else .bad .noElement
    | none => .bad .notLive

/-- `allocator_traits::deallocate`. -/
def Mem.release (m : Mem) (al : Nat) (p : Option Nat) (n : Nat) : Res Mem :=
  match p with
  | none => if n = 0 then .ok m else .bad .notLive
  | some p => match m.blocks p with
    | none => .bad .notLive
    | some b =>
      if b.alloc ≠ al then .bad .otherAllocator
      else if b.size ≠ n then .bad .otherSize
      else if b.built ≠ 0 then .bad .elementsLeft
      else .ok (m.put p none)

/-- marray.h:1346-1350 `destroy_buffer`. -/
def destroyBuffer (t : Traits) (m : Mem) (p : Option Nat) (n al : Nat) : Res Mem :=
  match p with
  | none => if n = 0 then m.release al none n else .bad .notLive
  | some q => (m.destroy t q n).bind fun m1 => m1.release al (some q) n

/-- The members of an array that matter here. -/
structure Arr where
  data : Option Nat
  total : Nat
  alloc : Nat
  deriving DecidableEq, Repr

/-- All arrays ever made; `none` once destroyed. -/
structure State where
  mem : Mem
  arrs : List (Option Arr)

def start : State := ⟨⟨fun _ => none, 0⟩, []⟩

/-- What goes wrong during one operation. -/
inductive Fault where
  | nothing
  /-- the allocator throws -/
  | noMemory
  /-- constructing or assigning element number `k` throws -/
  | element (k : Nat)
  deriving DecidableEq, Repr

/-- Number of elements constructed out of `n`, and whether that ended with an exception. -/
def constructed (t : Traits) (n : Nat) (f : Fault) : Nat × Bool :=
  match f with
  | .element k => if !t.trivialType && decide (k < n) then (k, true) else (n, false)
  | _ => (n, false)

/-- Result of an operation: the state and whether an exception reached the caller. -/
abbrev Done := State × Bool

/-- Construct `n` elements in a new block at `p`; the catch block destroys `extra` more than were constructed and releases
with allocator `al` and size `size`. -/
def fill (t : Traits) (s : State) (m : Mem) (p n : Nat) (f : Fault) (extra al size : Nat) (go : Mem → Res Done) : Res Done :=
  let (k, threw) := constructed t n f
  (m.build t p k).bind fun m1 =>
  if threw then (m1.destroy t p (k + extra)).bind fun m2 => (m2.release al (some p) size).bind fun m3 => .ok (⟨m3, s.arrs⟩, true)
  else go m1

/-- `copy_init_buffer` reads the first `n` elements of the source. -/
def readable (t : Traits) (m : Mem) (src : Option Nat) (n : Nat) : Bool :=
  n == 0 || match src with
    | none => false
    | some q => match m.blocks q with
      | none => false
      | some b => decide (n ≤ b.size) && (t.trivialType || decide (n ≤ b.built))

inductive Op where
  /-- marray.h:649-653 -/
  | newEmpty (al : Nat)
  /-- marray.h:658-695 -/
  | newSized (al n : Nat) (f : Fault)
  /-- marray.h:697-722, only for trivial types (`static_assert`) -/
  | newNoInit (al n : Nat) (f : Fault)
  /-- marray.h:727-744; `shapeOk` tells whether the nested lists have the shape -/
  | newNest (al n : Nat) (shapeOk : Bool) (f : Fault)
  /-- marray.h:757-775; `sizeOk` tells whether the range has `n` elements -/
  | newRange (al n : Nat) (sizeOk : Bool) (f : Fault)
  /-- marray.h:778-788 -/
  | copy (i : Nat) (f : Fault)
  /-- marray.h:791-798 -/
  | move (i : Nat)
  /-- marray.h:800-803 -/
  | destroy (i : Nat)
  /-- marray.h:805-812 with 483-508: `*i = *j` -/
  | copyAssign (i j : Nat) (f : Fault)
  /-- marray.h:814-821 with 510-538: `*i = std::move(*j)` -/
  | moveAssign (i j : Nat) (f : Fault)
  /-- marray.h:916-925 with 540-544 -/
  | swap (i j : Nat)
  /-- `insert` and `erase` (hence `resize`): marray.h:948-1163; `n` is the new size -/
  | rebuild (i n : Nat) (f : Fault)

/-- marray.h:483-508 and the copying branch of 523-537: new block from `al`, elements of `b`, old block destroyed. The catch block
releases with the array's own allocator and the array's own, not the new, size. -/
def assignElements (t : Traits) (s : State) (i : Nat) (a b : Arr) (al : Nat) (f : Fault) : Res Done :=
  if f = .noMemory then .ok (s, true)
  else if readable t s.mem b.data b.total then
    fill t s (s.mem.allocate al b.total) s.mem.next b.total f 0 a.alloc a.total fun m1 =>
      (destroyBuffer t m1 a.data a.total a.alloc).bind fun m2 =>
      .ok (⟨m2, s.arrs.set i (some ⟨some s.mem.next, b.total, al⟩)⟩, false)
  else .bad .noElement

def Op.exec (t : Traits) (s : State) : Op → Res Done
  | .newEmpty al => .ok (⟨s.mem, s.arrs ++ [some ⟨none, 0, al⟩]⟩, false)
  | .newSized al n f =>
    if n = 0 then .ok (⟨s.mem, s.arrs ++ [some ⟨none, 0, al⟩]⟩, false)
    else if f = .noMemory then .ok (s, true)
    else fill t s (s.mem.allocate al n) s.mem.next n f 0 al n fun m1 =>
      .ok (⟨m1, s.arrs ++ [some ⟨some s.mem.next, n, al⟩]⟩, false)
  | .newNoInit al n f =>
    if t.trivialType then
      if n = 0 then .ok (⟨s.mem, s.arrs ++ [some ⟨none, 0, al⟩]⟩, false)
      else if f = .noMemory then .ok (s, true)
      else .ok (⟨s.mem.allocate al n, s.arrs ++ [some ⟨some s.mem.next, n, al⟩]⟩, false)
    else .ok (s, false)
  | .newNest al n shapeOk f =>
    if n = 0 then
      if shapeOk then .ok (⟨s.mem, s.arrs ++ [some ⟨none, 0, al⟩]⟩, false) else .ok (s, true)
    else if f = .noMemory then .ok (s, true)
    -- line 733 throws outside the `try`: the block stays
    else if !shapeOk then .ok (⟨s.mem.allocate al n, s.arrs⟩, true)
    -- line 353 advances `write_ptr` before the element is constructed
    else fill t s (s.mem.allocate al n) s.mem.next n f 1 al n fun m1 =>
      .ok (⟨m1, s.arrs ++ [some ⟨some s.mem.next, n, al⟩]⟩, false)
  | .newRange al n sizeOk f =>
    if n = 0 then
      if sizeOk then .ok (⟨s.mem, s.arrs ++ [some ⟨none, 0, al⟩]⟩, false) else .ok (s, true)
    else if f = .noMemory then .ok (s, true)
    -- lines 762-763 throw outside the `try`: the block stays
    else if !sizeOk then .ok (⟨s.mem.allocate al n, s.arrs⟩, true)
    -- line 768 assigns to elements that were never constructed
    else if t.trivialType then .ok (⟨s.mem.allocate al n, s.arrs ++ [some ⟨some s.mem.next, n, al⟩]⟩, false)
    else .bad .noElement
  | .copy i f => match s.arrs[i]? with
    | some (some a) =>
      let al := t.select a.alloc
      if a.total = 0 then .ok (⟨s.mem, s.arrs ++ [some ⟨none, 0, al⟩]⟩, false)
      else if f = .noMemory then .ok (s, true)
      else if readable t s.mem a.data a.total then
        fill t s (s.mem.allocate al a.total) s.mem.next a.total f 0 al a.total fun m1 =>
          .ok (⟨m1, s.arrs ++ [some ⟨some s.mem.next, a.total, al⟩]⟩, false)
      else .bad .noElement
    | _ => .bad .notLive
  | .move i => match s.arrs[i]? with
    | some (some a) => .ok (⟨s.mem, s.arrs.set i (some ⟨none, 0, a.alloc⟩) ++ [some a]⟩, false)
    | _ => .bad .notLive
  | .destroy i => match s.arrs[i]? with
    | some (some a) =>
      if a.data.isSome then
        (destroyBuffer t s.mem a.data a.total a.alloc).bind fun m => .ok (⟨m, s.arrs.set i none⟩, false)
      else .ok (⟨s.mem, s.arrs.set i none⟩, false)
    | _ => .bad .notLive
  | .copyAssign i j f => match s.arrs[i]?, s.arrs[j]? with
    | some (some a), some (some b) =>
      if i = j then .ok (s, false) else assignElements t s i a b (if t.propCopy then b.alloc else a.alloc) f
    | _, _ => .bad .notLive
  | .moveAssign i j f => match s.arrs[i]?, s.arrs[j]? with
    | some (some a), some (some b) =>
      if i = j then .ok (s, false)
      else if t.propMove then
        .ok (⟨s.mem, (s.arrs.set i (some ⟨b.data, b.total, b.alloc⟩)).set j (some ⟨a.data, a.total, b.alloc⟩)⟩, false)
      else if a.alloc = b.alloc then
        .ok (⟨s.mem, (s.arrs.set i (some ⟨b.data, b.total, a.alloc⟩)).set j (some ⟨a.data, a.total, b.alloc⟩)⟩, false)
      else assignElements t s i a b a.alloc f
    | _, _ => .bad .notLive
  | .swap i j => match s.arrs[i]?, s.arrs[j]? with
    | some (some a), some (some b) =>
      let (ai, aj) := if t.propSwap then (b.alloc, a.alloc) else (a.alloc, b.alloc)
      .ok (⟨s.mem, (s.arrs.set i (some ⟨b.data, b.total, ai⟩)).set j (some ⟨a.data, a.total, aj⟩)⟩, false)
    | _, _ => .bad .notLive
  | .rebuild i n f => match s.arrs[i]? with
    | some (some a) =>
      if f = .noMemory then .ok (s, true)
      else fill t s (s.mem.allocate a.alloc n) s.mem.next n f 0 a.alloc n fun m1 =>
        (destroyBuffer t m1 a.data a.total a.alloc).bind fun m2 =>
        .ok (⟨m2, s.arrs.set i (some ⟨some s.mem.next, n, a.alloc⟩)⟩, false)
    | _ => .bad .notLive

/-- A history; an exception is caught by the caller, who goes on. -/
def run (t : Traits) (s : State) : List Op → Res State
  | [] => .ok s
  | op :: ops => (op.exec t s).bind fun r => run t r.1 ops

end Verif.Marr.Own
