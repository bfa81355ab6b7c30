import Verif.Base

/-!
# `CrossSectionLibrary` (include/nuSQuIDS/xsections.h 598-621, src/xsections.cpp 900-925)

A target is the value of the enumeration `PDGCode` (an `int32_t`), an entry a `shared_ptr`, null or pointing to the object with a given
number. The `unordered_map` is the list of its pairs.
-/

namespace Verif.XS

/-- `std::shared_ptr<const NeutrinoCrossSections>`: null, or an object. -/
abbrev Ptr := Option Nat

/-- `CrossSectionLibrary::data` (xsections.h 620). -/
abbrev Lib := List (Int × Ptr)

/-- `hasTarget` (xsections.cpp 907-910). -/
def hasTarget (l : Lib) (t : Int) : Bool := (l.find? fun e => e.1 == t).isSome

/-- `crossSectionForTarget` (xsections.cpp 900-905): a null pointer if the target is not there. -/
def crossSectionForTarget (l : Lib) (t : Int) : Ptr :=
  match l.find? fun e => e.1 == t with
  | none => none
  | some e => e.2

/-- The calls that change a library: `addTarget` given an object to move from (the new object is number `x`) or a pointer. -/
inductive LibOp where
  | addObject (t : Int) (x : Nat)
  | addPointer (t : Int) (p : Ptr)
  deriving DecidableEq, Repr

/-- How a call ends. -/
inductive Ended where
  | returned
  | threw
  deriving DecidableEq, Repr

/-- `data.emplace(target, p)`: nothing is replaced. -/
def emplace (l : Lib) (t : Int) (p : Ptr) : Lib :=
  match l.find? fun e => e.1 == t with
  | some _ => l
  | none => (t, p) :: l

/-- `addTarget`, both overloads (xsections.h 608-618). -/
def libStep (l : Lib) : LibOp → Lib × Ended
  | .addObject t x => if hasTarget l t then (l, .threw) else (emplace l t (some x), .returned)
  | .addPointer t p => if hasTarget l t then (l, .threw) else (emplace l t p, .returned)

/-- A history of calls on a library; the caller catches exceptions. -/
def libRun : Lib → List LibOp → Lib × List Ended
  | l, [] => (l, [])
  | l, op :: ops =>
    let (l', e) := libStep l op
    let (l'', es) := libRun l' ops
    (l'', e :: es)

/-- `loadDefaultCrossSections` (xsections.cpp 912-925): proton, neutron, electron; the file names are replaced by object numbers. -/
def loadDefault (p n g : Nat) : Lib := (libRun [] [.addObject 2212 p, .addObject 2112 n, .addObject 11 g]).1

end Verif.XS
