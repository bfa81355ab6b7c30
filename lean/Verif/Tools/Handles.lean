import Verif.Base

/-!
# Model of `H5Handle` and `H5File` (`/repo/include/nuSQuIDS/tools.h`)

A program is a sequence of operations on handle objects, each identified by a number (its storage). The HDF5 library is a
log of the release calls it receives. Operations on an object that is not alive, or constructing an object where one is
alive, are not C++ programs with defined behaviour: the model answers `ub`.
-/

namespace Verif.Tools

/-- The second constructor argument of `H5Handle`: a real HDF5 close function, the do-nothing function used for non-owning
handles (nuSQuIDS.cpp 1732), or a null pointer. -/
inductive Deleter where
  | close
  | nothing
  | null
  deriving DecidableEq, Repr

/-- `H5Handle` (tools.h 269-306): the members. -/
structure Handle where
  id : Int
  deleter : Deleter
  deriving DecidableEq, Repr

/-- The program state: live objects, and the identifiers passed to a close function, latest first. -/
structure HState where
  live : Nat → Option Handle
  released : List Int

def HState.init : HState := ⟨fun _ => none, []⟩

/-- Replace the content of one object. -/
def HState.put (s : HState) (h : Nat) (v : Option Handle) : HState :=
  { s with live := fun k => if k = h then v else s.live k }

/-- The operations on handles. -/
inductive HOp where
  | make (h : Nat) (id : Int) (d : Deleter)  -- H5Handle h(id, d, desc)
  | default (h : Nat)                        -- H5Handle h
  | moveNew (h src : Nat)                    -- H5Handle h(std::move(src))
  | moveAssign (h src : Nat)                 -- h = std::move(src)
  | destroy (h : Nat)                        -- ~H5Handle
  deriving Repr

/-- `~H5Handle` (tools.h 289-292): `if(id>=0) (*deleter)(id)`. -/
def runDestructor (s : HState) (v : Handle) : Outcome HState :=
  if 0 ≤ v.id then
    match v.deleter with
    | .close => .ok { s with released := v.id :: s.released }
    | .nothing => .ok s
    | .null => .ub
  else .ok s

/-- One operation. Constructor tools.h 275-283 (throws on a negative identifier; the object never comes to life), default
constructor 270, move constructor 285-288, move assignment 294-300 (swap unless it is the same object), destructor. -/
def hstep (s : HState) : HOp → Outcome HState
  | .make h id d =>
    if (s.live h).isSome then .ub
    else if id < 0 then .throws
    else .ok (s.put h (some ⟨id, d⟩))
  | .default h => if (s.live h).isSome then .ub else .ok (s.put h (some ⟨-1, .null⟩))
  | .moveNew h src =>
    if (s.live h).isSome then .ub
    else match s.live src with
      | none => .ub
      | some v => .ok ((s.put src (some { v with id := -1 })).put h (some v))
  | .moveAssign h src =>
    match s.live h, s.live src with
    | some a, some b => if src ≠ h then .ok ((s.put h (some b)).put src (some a)) else .ok s
    | _, _ => .ub
  | .destroy h =>
    match s.live h with
    | none => .ub
    | some v => (runDestructor s v).map fun s => s.put h none

/-- A program: an exception from a constructor is caught and the program goes on with the state unchanged. `none` after
undefined behaviour. -/
def hrun : HState → List HOp → Option HState
  | s, [] => some s
  | s, op :: ops =>
    match hstep s op with
    | .ok s' => hrun s' ops
    | .throws => hrun s ops
    | .ub => none

/-- `std::swap(a, b)` through a temporary `t`: move construction, two move assignments, destruction of the temporary. -/
def swapOps (a b t : Nat) : List HOp := [.moveNew t a, .moveAssign a b, .moveAssign b t, .destroy t]

/-! ## `H5File` -/

/-- Operations on `H5File` objects (tools.h 257-266): constructor 259, move constructor 261, move assignment 263, destructor
264. -/
inductive FOp where
  | make (f : Nat) (id : Int)
  | moveNew (f src : Nat)
  | moveAssign (f src : Nat)
  | destroy (f : Nat)
  deriving Repr

structure FState where
  live : Nat → Option Int
  released : List Int

def FState.init : FState := ⟨fun _ => none, []⟩

def FState.put (s : FState) (f : Nat) (v : Option Int) : FState :=
  { s with live := fun k => if k = f then v else s.live k }

/-- One operation on `H5File`s. The constructor takes any identifier; the moved-from object keeps the identifier 0; the
destructor calls `H5Fclose` unconditionally. -/
def fstep (s : FState) : FOp → Outcome FState
  | .make f id => if (s.live f).isSome then .ub else .ok (s.put f (some id))
  | .moveNew f src =>
    if (s.live f).isSome then .ub
    else match s.live src with
      | none => .ub
      | some v => .ok ((s.put src (some 0)).put f (some v))
  | .moveAssign f src =>
    match s.live f, s.live src with
    | some a, some b => .ok ((s.put f (some b)).put src (some a))
    | _, _ => .ub
  | .destroy f =>
    match s.live f with
    | none => .ub
    | some id => .ok ({ s with released := id :: s.released }.put f none)

def frun : FState → List FOp → Option FState
  | s, [] => some s
  | s, op :: ops =>
    match fstep s op with
    | .ok s' => frun s' ops
    | .throws => frun s ops
    | .ub => none

end Verif.Tools
