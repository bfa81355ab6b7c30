import Verif.MArray.Model

/-!
# Histories of operations on several arrays of one rank (marray.h)

A heap is the list of live arrays; constructors append to it. Operations name arrays by position. An exception leaves
the heap as it was: every `throw` in these functions happens before anything is changed.
-/

namespace Verif.Marr

/-- The operations of C06. -/
inductive Op (α : Type u) (rank : Nat) where
  /-- marray.h:649-653 -/
  | newEmpty
  /-- marray.h:658-695 -/
  | newDims (dims : List Nat)
  /-- marray.h:757-775 -/
  | newRange (dims : List Nat) (src : List α)
  /-- marray.h:727-744 -/
  | newNest (dims : List Nat) (init : Nest α rank)
  /-- marray.h:778-789 -/
  | copy (i : Nat)
  /-- marray.h:791-799 -/
  | move (i : Nat)
  /-- marray.h:916-925 -/
  | swap (i j : Nat)
  /-- marray.h:805-812 with 483-508: `*i = *j` -/
  | copyAssign (i j : Nat)
  /-- marray.h:814-821 with 510-538; `steal` is true when the buffers are exchanged (equal or propagating allocators),
  false when the elements are copied -/
  | moveAssign (i j : Nat) (steal : Bool)
  | insert (i dim pos num : Nat) (val : α)
  | erase (i dim pos num : Nat)
  | resizeDim (i dim size : Nat)
  | resize (i : Nat) (newExtents : List Nat)
  | reshape (i : Nat) (newExtents : List Nat)

/-- Replace array `i` by the result of an operation on it; an unknown `i` is not a C++ program (`ub`). -/
def onSlot (h : List (MArray α)) (i : Nat) (f : MArray α → Outcome (MArray α)) : Outcome (List (MArray α)) :=
  match h[i]? with
  | none => .ub
  | some a => (f a).map (fun b => h.set i b)

/-- One operation. -/
def Op.exec [Inhabited α] {rank : Nat} (h : List (MArray α)) : Op α rank → Outcome (List (MArray α))
  | .newEmpty => .ok (h ++ [MArray.empty rank])
  | .newDims dims => (MArray.ofDims rank dims).map (fun a => h ++ [a])
  | .newRange dims src => (MArray.ofRange rank dims src).map (fun a => h ++ [a])
  | .newNest dims init => (MArray.ofNest rank dims init).map (fun a => h ++ [a])
  | .copy i => match h[i]? with
    | none => .ub
    | some a => .ok (h ++ [a])
  | .move i => match h[i]? with
    | none => .ub
    | some a => .ok (h.set i ⟨List.replicate rank 0, 0, []⟩ ++ [a])
  | .swap i j => match h[i]?, h[j]? with
    | some a, some b => .ok ((h.set i b).set j a)
    | _, _ => .ub
  | .copyAssign i j => match h[i]?, h[j]? with
    | some _, some b => .ok (h.set i b)
    | _, _ => .ub
  | .moveAssign i j steal => match h[i]?, h[j]? with
    | some a, some b => if steal then .ok ((h.set i b).set j a) else .ok (h.set i b)
    | _, _ => .ub
  | .insert i dim pos num val => onSlot h i (fun a => a.insert dim pos num val)
  | .erase i dim pos num => onSlot h i (fun a => a.erase dim pos num)
  | .resizeDim i dim size => onSlot h i (fun a => a.resizeDim dim size)
  | .resize i ne => onSlot h i (fun a => a.resize ne)
  | .reshape i ne => onSlot h i (fun a => a.reshape ne)

end Verif.Marr
