import Verif.Lifecycle.Model

/-!
# The settings of the integrator in the atmospheric object (include/nuSQuIDS/nuSQuIDS.h 1676-1750, 1813-1822; src/nuSQuIDS.cpp 97-98, 188, 1253-1257)

Each zenith has an integrator of its own with a step, bounds of the step, two error bounds and a method. SQuIDS keeps them and the integration does not
change them. An evolution that ends with an exception is not considered here.
-/

namespace Verif.Atm.Integ

open Life (Status)

/-- The numbers that can be set: `Set_h`, `Set_h_max`, `Set_h_min`, `Set_abs_error`, `Set_rel_error`. -/
inductive What where
  | h | hMax | hMin | abs | rel
deriving DecidableEq

/-- The settings of one node. `method` is the GSL step function. -/
structure Node where
  value : What → Rat
  method : Nat

/-- What SQuIDS starts with, one kilometre, and the largest double. -/
structure Start where
  squids : Node
  km : Rat
  most : Rat

def Node.put (s : Node) (w : What) (v : Rat) : Node := { s with value := fun w' => if w' = w then v else s.value w' }

/-- A node after `init(xini)` (97-98) or `init(E_vector, xini)` (188). -/
def Start.node (d : Start) (single : Bool) : Node :=
  if single then (d.squids.put .h d.km).put .hMax d.most else d.squids.put .hMax d.most

/-- The calls: a setter for all nodes, its overload with an index, the setter of a node that `GetnuSQuIDS(ci)` returns, `Set_GSL_step`, `EvolveState` with the
nodes whose tracks run backwards, and `ReadStateHDF5` of a file with `k` zeniths, of one energy each or of several. -/
inductive Call where
  | all (w : What) (v : Rat)
  | one (w : What) (v : Rat) (idx : Nat)
  | node (ci : Nat) (w : What) (v : Rat)
  | method (m : Nat)
  | evolve (backwards : Nat → Bool)
  | read (k : Nat) (single : Bool)

/-- `for(BaseSQUIDS& nsq : nusq_array) nsq.Set_h(h);` and so on. -/
def each (f : Node → Node) : List Node → List Node
  | [] => []
  | s :: l => f s :: each f l

/-- The arrow of time in every `nuSQUIDS::EvolveState` (src/nuSQuIDS.cpp 1253-1257); `i` is the number of the first node. -/
def flip (backwards : Nat → Bool) : Nat → List Node → List Node
  | _, [] => []
  | i, s :: l => (if backwards i then s.put .h (-1 * s.value .h) else s) :: flip backwards (i + 1) l

/-- The overloads with an index do not check it; `GetnuSQuIDS` does. -/
def step (d : Start) (l : List Node) : Call → List Node × Status
  | .all w v => (each (fun s => s.put w v) l, .ok)
  | .one w v idx =>
    match l[idx]? with
    | some s => (l.set idx (s.put w v), .ok)
    | none => (l, .ub)
  | .node ci w v =>
    if ci ≥ l.length then (l, .throws)
    else
      match l[ci]? with
      | some s => (l.set ci (s.put w v), .ok)
      | none => (l, .ub)
  | .method m => (each (fun s => { s with method := m }) l, .ok)
  | .evolve b => (flip b 0 l, .ok)
  | .read k single => (List.replicate k (d.node single), .ok)

/-- What a history of calls leads to from an object of `k` zeniths, if none of them was undefined. -/
inductive Run (d : Start) (k : Nat) (single : Bool) : List Call → List Node → Prop where
  | start : Run d k single [] (List.replicate k (d.node single))
  | call {h : List Call} {l : List Node} (c : Call) (hr : Run d k single h l) (hc : (step d l c).2 ≠ .ub) : Run d k single (h ++ [c]) (step d l c).1

/-! ## Specification -/

/-- The call gives the setting `w` of zenith `i` the value `v`. -/
def Call.Gives (c : Call) (i : Nat) (w : What) (v : Rat) : Prop := c = .all w v ∨ c = .one w v i ∨ c = .node i w v

/-- The call is about the setting `w` of zenith `i`, or makes new nodes. -/
def Call.Touches (c : Call) (i : Nat) (w : What) : Prop := (∃ v, c.Gives i w v) ∨ ∃ k single, c = .read k single

/-- How often the track of zenith `i` was run backwards. -/
def backs (i : Nat) : List Call → Nat
  | [] => 0
  | .evolve b :: l => (if b i then 1 else 0) + backs i l
  | _ :: l => backs i l

/-- The number of zeniths after a history. -/
def zeniths (k : Nat) : List Call → Nat
  | [] => k
  | .read k' _ :: l => zeniths k' l
  | _ :: l => zeniths k l

/-- What a value becomes: a step is turned around by every evolution backwards, the others stay. -/
def turned (w : What) (n : Nat) (v : Rat) : Rat := if w = .h then (-1) ^ n * v else v

end Verif.Atm.Integ
