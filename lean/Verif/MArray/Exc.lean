import Verif.MArray.Model

/-!
# `marray::insert` when an element operation throws (marray.h:948-1056)

Element storage is modelled explicitly. The old buffer is a list of cells, `some v` for an element holding `v` and
`none` for a moved-from element. The new buffer is the list of elements constructed so far; destroying removes from its
front (the code walks forward), and constructing, destroying or reading what is not there is undefined behaviour.
`budget` is the number of element constructions that succeed before one throws (`none`: none throws).
-/

namespace Verif.Marr

/-- How `insert` ends. -/
inductive InsertResult (α : Type u) where
  /-- normal return -/
  | done (a : MArray α)
  /-- an exception leaves `insert`; the array's members at that moment and the constructed elements of the new buffer
  that were not destroyed before it was deallocated -/
  | threw (extents : List Nat) (total : Nat) (cells : List (Option α)) (leaked : List α)
  | ub
  deriving DecidableEq, Repr

/-- The two buffers and the read position. -/
structure Bufs (α : Type u) where
  old : List (Option α)
  new : List α
  rd : Nat
  deriving DecidableEq, Repr

/-- Move-construct `n` elements (marray.h:963-964, 969-970); moving from a moved-from element is flagged as `none`. -/
def moveSeg : (n : Nat) → Bufs α → Option (Bufs α)
  | 0, s => some s
  | n + 1, s => match s.old[s.rd]? with
    | some (some v) => moveSeg n ⟨s.old.set s.rd none, s.new ++ [v], s.rd + 1⟩
    | _ => none

/-- Copy-construct up to `n` copies of `val` (marray.h:966-967): the number constructed, the rest of the budget, and
whether a construction threw. -/
def fillSeg (val : α) : (n : Nat) → (newJ : Nat) → (budget : Option Nat) → List α → List α × Nat × Option Nat × Bool
  | 0, newJ, b, new => (new, newJ, b, false)
  | _ + 1, newJ, some 0, new => (new, newJ, some 0, true)
  | n + 1, newJ, some (b + 1), new => fillSeg val n (newJ + 1) (some b) (new ++ [val])
  | n + 1, newJ, none, new => fillSeg val n (newJ + 1) none (new ++ [val])

/-- Where the construction loop stopped. -/
inductive LoopEnd (α : Type u) where
  | finished (s : Bufs α)
  | threwAt (i newJ : Nat) (s : Bufs α)
  | ub

/-- The `try` block of marray.h:960-972. `i` is the loop counter, `left` the iterations still to do. -/
def moveLoop (posC numC remC : Nat) (val : α) : (left i : Nat) → (budget : Option Nat) → Bufs α → LoopEnd α
  | 0, _, _, s => .finished s
  | left + 1, i, budget, s =>
    match moveSeg posC s with
    | none => .ub
    | some s1 =>
      match fillSeg val numC 0 budget s1.new with
      | (new, newJ, _, true) => .threwAt i newJ { s1 with new := new }
      | (new, _, budget', false) =>
        match moveSeg remC { s1 with new := new } with
        | none => .ub
        | some s2 => moveLoop posC numC remC val left (i + 1) budget' s2

/-- Move `n` elements back and destroy them in the new buffer (marray.h:982-985, 992-995). -/
def putBack : (n : Nat) → Bufs α → Option (Bufs α)
  | 0, s => some s
  | n + 1, s => match s.new with
    | v :: new => if s.rd < s.old.length then putBack n ⟨s.old.set s.rd (some v), new, s.rd + 1⟩ else none
    | [] => none

/-- Destroy `n` elements of the new buffer (marray.h:987-988). -/
def destroySeg (n : Nat) (s : Bufs α) : Option (Bufs α) :=
  if n ≤ s.new.length then some { s with new := s.new.drop n } else none

/-- The `catch` block (marray.h:978-996), from `i_` with `more` further iterations before the broken one. -/
def rollback (posC numC remC newJ : Nat) : (more : Nat) → Bufs α → Option (Bufs α)
  | 0, s => (putBack posC s).bind (destroySeg newJ)
  | more + 1, s =>
    (putBack posC s).bind fun s1 => (destroySeg numC s1).bind fun s2 => (putBack remC s2).bind fun s3 =>
      rollback posC numC remC newJ more s3

/-- marray.h:948-1003: `insert` with element moves that cannot throw. `allocOk = false`: `allocate` throws. -/
def MArray.insertMove (a : MArray α) (dim pos num : Nat) (val : α) (allocOk : Bool) (budget : Option Nat) :
    InsertResult α :=
  if h : dim < a.extents.length then
    let e := a.extents[dim]
    if pos ≤ e then
      let iterations := accU32 (a.extents.take dim)
      let remainder := e - pos
      let chunk := accU32 (a.extents.drop (dim + 1))
      let cells := a.data.map some
      if allocOk then
        match moveLoop (pos * chunk) (num * chunk) (remainder * chunk) val iterations 0 budget ⟨cells, [], 0⟩ with
        | .finished s => .done ⟨a.extents.set dim (e + num), iterations * (e + num) * chunk, s.new⟩
        | .threwAt i newJ s =>
          match rollback (pos * chunk) (num * chunk) (remainder * chunk) newJ i ⟨s.old, s.new, 0⟩ with
          | some r => .threw a.extents a.total r.old r.new
          | none => .ub
        | .ub => .ub
      else .threw a.extents a.total cells []
    else .ub
  else .ub

/-- Copy-construct elements one after the other (marray.h:1018-1026): `src` are the values to be constructed, `w` is
`write_pos - new_data`, advanced after each success. The flag says that a construction threw. -/
def copySeg : (src : List α) → (budget : Option Nat) → (new : List α) → (w : Nat) → List α × Nat × Option Nat × Bool
  | [], b, new, w => (new, w, b, false)
  | _ :: _, some 0, new, w => (new, w, some 0, true)
  | v :: src, some (b + 1), new, w => copySeg src (some b) (new ++ [v]) (w + 1)
  | v :: src, none, new, w => copySeg src none (new ++ [v]) (w + 1)

/-- marray.h:1016-1028. `none`: reading past the old buffer. The flag says that a construction threw. -/
def copyLoop (posC numC remC : Nat) (val : α) : (left : Nat) → (rd : List α) → (budget : Option Nat) → (new : List α) →
    (w : Nat) → Option (List α × Nat × Bool)
  | 0, _, _, new, w => some (new, w, false)
  | left + 1, rd, b, new, w =>
    (takeExact posC rd).bind fun first => (takeExact remC (rd.drop posC)).bind fun second =>
      match copySeg (first ++ List.replicate numC val ++ second) b new w with
      | (new', w', _, true) => some (new', w', true)
      | (new', w', b', false) => copyLoop posC numC remC val left ((rd.drop posC).drop remC) b' new' w'

/-- marray.h:1005-1040: `insert` by copying; every construction may throw. -/
def MArray.insertCopy (a : MArray α) (dim pos num : Nat) (val : α) (allocOk : Bool) (budget : Option Nat) :
    InsertResult α :=
  if h : dim < a.extents.length then
    let e := a.extents[dim]
    if pos ≤ e then
      let iterations := accU32 (a.extents.take dim)
      let remainder := e - pos
      let chunk := accU32 (a.extents.drop (dim + 1))
      let cells := a.data.map some
      if allocOk then
        match copyLoop (pos * chunk) (num * chunk) (remainder * chunk) val iterations a.data budget [] 0 with
        | some (new, _, false) => .done ⟨a.extents.set dim (e + num), iterations * (e + num) * chunk, new⟩
        | some (new, w, true) =>
          if w ≤ new.length then .threw a.extents a.total cells (new.drop w) else .ub
        | none => .ub
      else .threw a.extents a.total cells []
    else .ub
  else .ub

/-- marray.h:1048-1056: moving is chosen only if the element type's move operations cannot throw. -/
def MArray.insertExc (nothrowMove : Bool) (a : MArray α) (dim pos num : Nat) (val : α) (allocOk : Bool)
    (budget : Option Nat) : InsertResult α :=
  if nothrowMove then a.insertMove dim pos num val allocOk budget else a.insertCopy dim pos num val allocOk budget

end Verif.Marr
