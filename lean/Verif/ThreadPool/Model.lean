/-!
# `ThreadPool` (include/nuSQuIDS/ThreadPool.h:39-121)

A small-step transition system. Threads are the workers, any number of callers of `enqueue`, and the thread running the
destructor. Each step is one access of a thread to the mutex, the condition variable or, while holding the mutex, the
queue and the stop flag; releasing the mutex is part of the step that ends the locked region. An event names the thread
that moves and the choice the operating system makes (which waiter `notify_one` wakes, spurious wake-ups).

Simplifications: the task of the `j`-th call of `enqueue` is the number `j`; a task that itself calls `enqueue` is
represented by another caller; what a task computes is not represented (exceptions of the task are kept by its
`packaged_task`, line 93); thread creation does not fail. `accepted`, `started` and `ran` record history and do not
influence the steps.
-/

namespace Verif.Pool

/-- Who holds `queue_mutex`. -/
inductive Holder where
  | worker (i : Nat) | client (j : Nat) | dtor
  deriving DecidableEq, Repr

/-- Program point of a worker (ThreadPool.h:62-84). -/
inductive WPc where
  /-- about to lock `queue_mutex`, line 69 -/
  | want
  /-- holds the mutex, about to evaluate the predicate of `wait`, lines 70-71 -/
  | check
  /-- asleep in `wait` -/
  | waiting
  /-- woken, has to take the mutex again inside `wait` -/
  | woken
  /-- outside the lock, executing task `t`, line 78 -/
  | running (t : Nat)
  /-- returned, line 73 -/
  | exited
  deriving DecidableEq, Repr

/-- Program point of a call of `enqueue` (ThreadPool.h:88-110). -/
inductive CPc where
  /-- about to lock, line 99 -/
  | want
  /-- holds the mutex, lines 101-105 -/
  | locked
  /-- the task is in the queue, about to call `notify_one`, line 107 -/
  | notify
  /-- returned normally -/
  | returned
  /-- left by the exception of line 103 -/
  | threw
  deriving DecidableEq, Repr

/-- Program point of the destructor (ThreadPool.h:113-122). -/
inductive DPc where
  | notStarted | want | locked | notify | joining | done
  deriving DecidableEq, Repr

structure State where
  queue : List Nat
  stop : Bool
  mutex : Option Holder
  workers : List WPc
  clients : List CPc
  dtor : DPc
  /-- tasks put into the queue, in that order -/
  accepted : List Nat
  /-- tasks taken from the queue, in that order -/
  started : List Nat
  /-- completed executions: task and worker -/
  ran : List (Nat × Nat)
  deriving DecidableEq, Repr

/-- The constructor (ThreadPool.h:58-62) with `n` workers. -/
def init (n : Nat) : State :=
  ⟨[], false, none, List.replicate n .want, [], .notStarted, [], [], []⟩

inductive Ev where
  /-- somebody calls `enqueue` -/
  | call
  | clientLock (j : Nat)
  | clientBody (j : Nat)
  /-- `notify_one`, waking the given waiter; `none` if nobody waits -/
  | clientNotify (j : Nat) (w : Option Nat)
  | workerLock (i : Nat)
  | workerCheck (i : Nat)
  | workerFinish (i : Nat)
  | spurious (i : Nat)
  | dtorStart
  | dtorLock
  | dtorSet
  | dtorNotify
  | dtorJoin
  deriving DecidableEq, Repr

/-- Effect of `notify_all` on one worker. -/
def WPc.wake : WPc → WPc
  | .waiting => .woken
  | w => w

/-- One step; `none` if the event is not possible in the state. -/
def step (s : State) : Ev → Option State
  | .call => some { s with clients := s.clients ++ [.want] }
  | .clientLock j =>
    if s.clients[j]? = some .want ∧ s.mutex = none then
      some { s with clients := s.clients.set j .locked, mutex := some (.client j) }
    else none
  | .clientBody j =>                                        -- lines 101-106
    if s.clients[j]? = some .locked then
      if s.stop then some { s with clients := s.clients.set j .threw, mutex := none }
      else some { s with clients := s.clients.set j .notify, mutex := none, queue := s.queue ++ [j],
                         accepted := s.accepted ++ [j] }
    else none
  | .clientNotify j none =>                                 -- line 107, nobody waiting
    if s.clients[j]? = some .notify ∧ WPc.waiting ∉ s.workers then
      some { s with clients := s.clients.set j .returned }
    else none
  | .clientNotify j (some i) =>                             -- line 107
    if s.clients[j]? = some .notify ∧ s.workers[i]? = some .waiting then
      some { s with clients := s.clients.set j .returned, workers := s.workers.set i .woken }
    else none
  | .workerLock i =>                                        -- line 69, or re-acquiring inside wait
    if (s.workers[i]? = some .want ∨ s.workers[i]? = some .woken) ∧ s.mutex = none then
      some { s with workers := s.workers.set i .check, mutex := some (.worker i) }
    else none
  | .workerCheck i =>                                       -- lines 70-76
    if s.workers[i]? = some .check then
      match s.queue with
      | [] =>
        if s.stop then some { s with workers := s.workers.set i .exited, mutex := none }
        else some { s with workers := s.workers.set i .waiting, mutex := none }
      | t :: q => some { s with workers := s.workers.set i (.running t), mutex := none, queue := q,
                                started := s.started ++ [t] }
    else none
  | .workerFinish i =>                                      -- line 79
    match s.workers[i]? with
    | some (.running t) => some { s with workers := s.workers.set i .want, ran := s.ran ++ [(t, i)] }
    | _ => none
  | .spurious i =>
    if s.workers[i]? = some .waiting then some { s with workers := s.workers.set i .woken } else none
  | .dtorStart => if s.dtor = .notStarted then some { s with dtor := .want } else none
  | .dtorLock =>                                            -- line 115
    if s.dtor = .want ∧ s.mutex = none then some { s with dtor := .locked, mutex := some .dtor } else none
  | .dtorSet =>                                             -- line 116
    if s.dtor = .locked then some { s with dtor := .notify, mutex := none, stop := true } else none
  | .dtorNotify =>                                          -- line 118
    if s.dtor = .notify then some { s with dtor := .joining, workers := s.workers.map WPc.wake } else none
  | .dtorJoin =>                                            -- lines 119-120
    if s.dtor = .joining ∧ ∀ w ∈ s.workers, w = .exited then some { s with dtor := .done } else none

/-- States reachable by a pool of `n` workers under any interleaving. -/
inductive Reachable (n : Nat) : State → Prop
  | start : Reachable n (init n)
  | next {s s' : State} (e : Ev) : Reachable n s → step s e = some s' → Reachable n s'

end Verif.Pool
