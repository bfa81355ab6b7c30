import Verif.MArray.Model
import Verif.MArray.Heap

/-!
# Vocabulary of the array properties

A multi-index is in range when it has one coordinate per dimension, each smaller than the extent. An array is well
formed when the stored size, the product of the extents and the number of elements between `begin()` and `end()` agree.
-/

namespace Verif.Marr

/-- One coordinate per dimension, each below its extent. -/
def InRange (exts idx : List Nat) : Prop := List.Forall₂ (fun i e => i < e) idx exts

instance (exts idx : List Nat) : Decidable (InRange exts idx) := by unfold InRange; infer_instance

/-- `size()` = product of the extents = number of elements. -/
def MArray.WF (a : MArray α) : Prop := a.total = a.extents.prod ∧ a.data.length = a.total

instance (a : MArray α) : Decidable a.WF := by unfold MArray.WF; infer_instance

/-- The products the code accumulates in 32 bits around dimension `dim` are representable. -/
def Fits32 (exts : List Nat) (dim : Nat) : Prop :=
  (exts.take dim).prod < 2 ^ 32 ∧ (exts.drop (dim + 1)).prod < 2 ^ 32

instance (exts : List Nat) (dim : Nat) : Decidable (Fits32 exts dim) := by unfold Fits32; infer_instance

/-- The products the code accumulates in 32 bits while resizing all dimensions in turn are representable. -/
def ResizeFits (old new : List Nat) : Prop :=
  ∀ d < new.length, (new.take d).prod < 2 ^ 32 ∧ (old.drop (d + 1)).prod < 2 ^ 32

instance (old new : List Nat) : Decidable (ResizeFits old new) := by unfold ResizeFits; infer_instance

/-- The 32-bit products of one operation are representable. -/
def Op.Fits {rank : Nat} (h : List (MArray α)) : Op α rank → Prop
  | .insert i dim _ _ _ => ∀ a, h[i]? = some a → Fits32 a.extents dim
  | .erase i dim _ _ => ∀ a, h[i]? = some a → Fits32 a.extents dim
  | .resizeDim i dim _ => ∀ a, h[i]? = some a → Fits32 a.extents dim
  | .resize i ne => ∀ a, h[i]? = some a → ResizeFits a.extents ne
  | .reshape _ ne => ne.prod < 2 ^ 32
  | _ => True

/-- Heaps reachable from no arrays at all by any sequence of operations, each of which ended normally or threw, with
representable 32-bit products. -/
inductive Reachable [Inhabited α] (rank : Nat) : List (MArray α) → Prop
  | start : Reachable rank []
  | done {h h' : List (MArray α)} (op : Op α rank) : Reachable rank h → op.Fits h → op.exec h = .ok h' →
      Reachable rank h'
  | caught {h : List (MArray α)} (op : Op α rank) : Reachable rank h → op.Fits h → op.exec h = .throws →
      Reachable rank h

/-- As `Reachable`, without the condition on products. -/
inductive ReachableAny [Inhabited α] (rank : Nat) : List (MArray α) → Prop
  | start : ReachableAny rank []
  | done {h h' : List (MArray α)} (op : Op α rank) : ReachableAny rank h → op.exec h = .ok h' → ReachableAny rank h'

/-- Follow indices into a nested list: the value reached at full depth. -/
def Nest.get? : (n : Nat) → Nest α n → List Nat → Option α
  | 0, (x : α), [] => some x
  | n + 1, (l : List (Nest α n)), i :: is => match l[i]? with
    | some x => Nest.get? n x is
    | none => none
  | _, _, _ => none

/-- Follow indices into a nested list: the length of the list reached. -/
def Nest.lenAt? : (n : Nat) → Nest α n → List Nat → Option Nat
  | _ + 1, (l : List (Nest α _)), [] => some l.length
  | n + 1, (l : List (Nest α n)), i :: is => match l[i]? with
    | some x => Nest.lenAt? n x is
    | none => none
  | _, _, _ => none

/-- A nested list of depth `n` is rectangular with the given extents: every list met at depth `d` (following in-range
indices) has `exts[d]` entries. -/
def Rectangular (n : Nat) (exts : List Nat) (init : Nest α n) : Prop :=
  ∀ (path : List Nat) (h : path.length < exts.length), InRange (exts.take path.length) path →
    Nest.lenAt? n init path = some exts[path.length]

/-- The pair of extents `k` places from the end cannot be reconciled. -/
def Clash (e1 e2 : List Nat) (k : Nat) : Prop :=
  ∃ x y, e1.reverse[k]? = some x ∧ e2.reverse[k]? = some y ∧ x ≠ y ∧ x ≠ 1 ∧ y ≠ 1

/-- Index of an operand for a result index: leading dimensions it does not have are dropped, along a dimension of
extent 1 the coordinate is 0. -/
def operandIdx (exts idx : List Nat) : List Nat :=
  List.zipWith (fun e i => if e = 1 then 0 else i) exts (idx.drop (idx.length - exts.length))

end Verif.Marr
