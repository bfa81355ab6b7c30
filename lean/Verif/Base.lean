/-!
# Common vocabulary of the models

`Outcome` separates the three ways a C++ call can end in these models: a normal return, an exception that reaches
the caller, and undefined behaviour (out-of-range access, failed `assert`, use of an indeterminate value).
-/

namespace Verif

/-- How a modelled call ends. `throws` is a C++ exception reaching the caller; `ub` is undefined behaviour or a failed
`assert` (which aborts in debug builds and is undefined behaviour with `NDEBUG`). -/
inductive Outcome (α : Type u) where
  | ok (a : α)
  | throws
  | ub
  deriving DecidableEq, Repr

namespace Outcome

/-- Sequencing: an exception or undefined behaviour ends the computation. -/
def bind {α : Type u} {β : Type v} (x : Outcome α) (f : α → Outcome β) : Outcome β :=
  match x with
  | ok a => f a
  | throws => throws
  | ub => ub

def map {α : Type u} {β : Type v} (f : α → β) (x : Outcome α) : Outcome β :=
  match x with
  | ok a => ok (f a)
  | throws => throws
  | ub => ub

/-- Reading through an optional storage cell: a missing cell is undefined behaviour. -/
def ofOption {α : Type u} (x : Option α) : Outcome α :=
  match x with
  | some a => ok a
  | none => ub

@[simp] theorem bind_ok {α : Type u} {β : Type v} (a : α) (f : α → Outcome β) : (ok a).bind f = f a := rfl
@[simp] theorem bind_throws {α : Type u} {β : Type v} (f : α → Outcome β) : (throws : Outcome α).bind f = throws := rfl
@[simp] theorem bind_ub {α : Type u} {β : Type v} (f : α → Outcome β) : (ub : Outcome α).bind f = ub := rfl
@[simp] theorem map_ok {α : Type u} {β : Type v} (a : α) (f : α → β) : (ok a).map f = ok (f a) := rfl
@[simp] theorem ofOption_some {α : Type u} (a : α) : ofOption (some a) = ok a := rfl
@[simp] theorem ofOption_none {α : Type u} : ofOption (none : Option α) = ub := rfl

end Outcome

end Verif
