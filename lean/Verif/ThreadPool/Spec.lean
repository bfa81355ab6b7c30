import Verif.ThreadPool.Model

/-! Vocabulary for the progress properties of the pool. -/

namespace Verif.Pool

/-- Some thread of the program can take a step by itself: no new call of `enqueue`, no spurious wake-up and no start of
the destructor is needed. -/
def CanMove (s : State) : Prop := ∃ e s', e ≠ .call ∧ (∀ i, e ≠ .spurious i) ∧ e ≠ .dtorStart ∧ step s e = some s'

/-- Run a list of events. -/
def run (s : State) : List Ev → Option State
  | [] => some s
  | e :: es => (step s e).bind fun s' => run s' es

end Verif.Pool
