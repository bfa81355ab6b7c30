import Verif.ThreadPool.Lemmas

/-! # Properties C13-C15 of `ThreadPool` -/

namespace Verif.Pool

/-- A complete history of a pool with two workers: one call is accepted, run and the pool destroyed; a second call comes
after the stop and throws. -/
def demo : List Ev :=
  [.workerLock 0, .workerCheck 0, .call, .clientLock 0, .clientBody 0, .workerLock 1, .workerCheck 1,
   .clientNotify 0 (some 0), .dtorStart, .dtorLock, .dtorSet, .call, .clientLock 1, .clientBody 1, .workerLock 0,
   .workerCheck 0, .dtorNotify, .workerFinish 1, .workerLock 1, .workerCheck 1, .dtorJoin]

/-! ## C13 -/

/-- When the destructor of a pool with at least one worker has returned, each task whose `enqueue` returned normally has
been run exactly once; a task whose `enqueue` threw has not been run. -/
theorem c13_exactly_once (n : Nat) (hn : 1 ≤ n) (s : State) (h : Reachable n s) (hd : s.dtor = .done) (j : Nat) :
    (s.clients[j]? = some .returned → (s.ran.map Prod.fst).count j = 1) ∧
    (s.clients[j]? = some .threw → j ∉ s.ran.map Prod.fst) := by
  have hi := inv_of_reachable h
  have hex := hi.fin hd
  have hq : s.queue = [] := by
    have : 0 < s.workers.length := by rw [hi.len]; omega
    have h0 : s.workers[0]? = some s.workers[0] := List.getElem?_eq_getElem this
    exact (hi.ex 0 (by rw [h0, hex 0 _ h0])).2
  have hf : s.workers.filterMap WPc.task? = [] := by
    apply List.filterMap_eq_nil_iff.2
    intro w hw
    obtain ⟨i, hw⟩ := List.mem_iff_getElem?.1 hw
    rw [hex i w hw]; rfl
  have hp := hi.once
  rw [hf, List.append_nil] at hp
  have ho := hi.order
  rw [hq, List.append_nil] at ho
  rw [← ho] at hp
  refine ⟨fun hr => ?_, fun ht hm => ?_⟩
  · have hm : j ∈ s.accepted := (hi.acc j).2 (Or.inr hr)
    rw [← hp.count_eq]
    have h1 := List.nodup_iff_count.1 hi.nodup j
    have h2 := List.count_pos_iff.2 hm
    omega
  · have := (hi.acc j).1 (hp.mem_iff.2 hm)
    rw [ht] at this; simp at this

example : (run (init 2) demo).map (fun s => (s.dtor, s.clients, s.ran)) = some (.done, [.returned, .threw], [(0, 1)]) := by
  decide

/-- At every moment no task has been run twice, every task that was run had been accepted, and no task is both finished
and still queued or running. -/
theorem c13_no_duplicates (n : Nat) (s : State) (h : Reachable n s) (t : Nat) :
    (s.ran.map Prod.fst).count t + s.workers.count (.running t) + s.queue.count t ≤ 1 ∧
    (t ∈ s.ran.map Prod.fst → s.clients[t]? = some .notify ∨ s.clients[t]? = some .returned) := by
  have hi := inv_of_reachable h
  have hcount : s.workers.count (.running t) = (s.workers.filterMap WPc.task?).count t := by
    generalize s.workers = ws
    induction ws with
    | nil => rfl
    | cons w ws ih => cases w <;> simp_all [WPc.task?, List.count_cons, List.filterMap_cons]
  have hc := hi.once.count_eq t
  rw [List.count_append] at hc
  have ho : s.accepted.count t = s.started.count t + s.queue.count t := by rw [hi.order, List.count_append]
  have hle : s.accepted.count t ≤ 1 := List.nodup_iff_count.1 hi.nodup t
  refine ⟨by omega, fun hm => ?_⟩
  have h1 : t ∈ s.started := hi.once.mem_iff.2 (List.mem_append_left _ hm)
  exact (hi.acc t).1 (by rw [hi.order]; exact List.mem_append_left _ h1)

example : (run (init 2) (demo.take 10)).map (fun s => (s.workers, s.queue, s.ran)) =
    some ([.woken, .running 0], [], []) := by decide

/-! ## C14 -/

/-- Tasks are taken in the order in which they were accepted. -/
theorem c14_fifo (n : Nat) (s : State) (h : Reachable n s) : s.started <+: s.accepted :=
  ⟨s.queue, (inv_of_reachable h).order.symm⟩

/-- A worker that takes a task takes the oldest accepted task not yet taken. -/
theorem c14_takes_oldest (n : Nat) (s s' : State) (h : Reachable n s) (i t : Nat)
    (hs : step s (.workerCheck i) = some s') (ht : s'.workers[i]? = some (.running t)) :
    s.accepted[s.started.length]? = some t ∧ ∀ j k, s.accepted[k]? = some j → k < s.started.length → j ∈ s.started := by
  have hi := inv_of_reachable h
  constructor
  · simp only [step] at hs
    split at hs
    · rename_i hc
      split at hs
      · split at hs <;>
        · simp only [Option.some.injEq] at hs; subst hs
          simp [getElem?_set_of hc] at ht
      · rename_i t' q hq
        simp only [Option.some.injEq] at hs; subst hs
        simp [getElem?_set_of hc] at ht
        subst ht
        rw [hi.order, hq]; simp
    · cases hs
  · intro j k hk hlt
    rw [hi.order, List.getElem?_append_left hlt] at hk
    exact List.mem_of_getElem? hk

/-- Two tasks waiting, two workers: the first worker to look takes the first task. -/
example : (run (init 2) [.call, .call, .clientLock 1, .clientBody 1, .clientLock 0, .clientBody 0, .workerLock 1,
    .workerCheck 1]).map (fun s => (s.accepted, s.started, s.workers)) = some ([1, 0], [1], [.want, .running 1]) := by
  decide

/-- The record of accepted tasks grows exactly when a call of `enqueue` puts its task into the queue. -/
theorem c14_accepted_at_push (s s' : State) (e : Ev) (hs : step s e = some s') :
    s'.accepted = s.accepted ∨ ∃ j, e = .clientBody j ∧ s'.accepted = s.accepted ++ [j] ∧ s'.queue = s.queue ++ [j] := by
  cases e with
  | clientBody j =>
    simp only [step] at hs
    split at hs
    · split at hs
      · simp only [Option.some.injEq] at hs; subst hs; exact Or.inl rfl
      · simp only [Option.some.injEq] at hs; subst hs; exact Or.inr ⟨j, rfl, rfl, rfl⟩
    · cases hs
  | clientNotify j w =>
    left
    cases w <;>
    · simp only [step] at hs
      split at hs
      · simp only [Option.some.injEq] at hs; subst hs; rfl
      · cases hs
  | workerCheck i =>
    left
    simp only [step] at hs
    split at hs
    · split at hs
      · split at hs <;> (simp only [Option.some.injEq] at hs; subst hs; rfl)
      · simp only [Option.some.injEq] at hs; subst hs; rfl
    · cases hs
  | call => left; simp only [step, Option.some.injEq] at hs; subst hs; rfl
  | _ =>
    left
    simp only [step] at hs
    split at hs
    · simp only [Option.some.injEq] at hs; subst hs; rfl
    · cases hs

example : (run (init 1) [.call, .clientLock 0, .clientBody 0]).map (fun s => (s.accepted, s.queue)) =
    some ([0], [0]) := by decide

/-! ## C15 -/

/-- After the stop request no reachable state is stuck: until the destructor has returned some thread can move. -/
theorem c15_progress (n : Nat) (s : State) (h : Reachable n s) (hs : s.stop = true) (hd : s.dtor ≠ .done) :
    CanMove s := by
  have hi := inv_of_reachable h
  rcases hi.st.1 hs with h1 | h1 | h1
  · exact ⟨.dtorNotify, _, by simp, by simp, by simp, by simp only [step, h1, if_true]; rfl⟩
  · by_cases hall : ∀ w ∈ s.workers, w = .exited
    · exact ⟨.dtorJoin, _, by simp, by simp, by simp, by simp only [step, h1, true_and, if_pos hall]; rfl⟩
    · obtain ⟨w, hw, hne⟩ : ∃ w, w ∈ s.workers ∧ w ≠ .exited :=
        Classical.byContradiction fun hn => hall fun w hw => Classical.byContradiction fun hne => hn ⟨w, hw, hne⟩
      obtain ⟨i, hw⟩ := List.mem_iff_getElem?.1 hw
      refine canMove_of_awake hi hw ?_ hne
      intro e; exact hi.nw (Or.inl h1) i (e ▸ hw)
  · exact absurd h1 hd

private theorem run_bounded {n : Nat} (evs : List Ev) : ∀ (s s' : State), Reachable n s → run s evs = some s' →
    Ev.call ∉ evs → (s.stop = true ∨ ∀ i, Ev.spurious i ∉ evs) → evs.length ≤ work s := by
  induction evs with
  | nil => intro s s' _ _ _ _; simp
  | cons e es ih =>
    intro s s' h hr hc hsp
    simp only [run, Option.bind_eq_some_iff] at hr
    obtain ⟨s1, h1, h2⟩ := hr
    have hi := inv_of_reachable h
    have hlt := work_decreases e hi h1 (by rintro rfl; simp at hc) (by
      rintro i rfl
      rcases hsp with h | h
      · exact h
      · exact absurd (List.mem_cons_self ..) (h i))
    have hst : s1.stop = true ∨ ∀ i, Ev.spurious i ∉ es := by
      rcases hsp with h | h
      · left
        have i1 := inv_step e hi h1
        clear ih hlt
        cases e with
        | clientNotify j w =>
          cases w <;>
          · simp only [step] at h1
            split at h1
            · simp only [Option.some.injEq] at h1; subst h1; exact h
            · cases h1
        | clientBody j =>
          simp only [step, h, if_true] at h1
          split at h1
          · simp only [Option.some.injEq] at h1; subst h1; rfl
          · cases h1
        | workerCheck i =>
          simp only [step, h, if_true] at h1
          split at h1
          · split at h1 <;> (simp only [Option.some.injEq] at h1; subst h1; rfl)
          · cases h1
        | call => simp at hc
        | dtorSet =>
          simp only [step] at h1
          split at h1
          · simp only [Option.some.injEq] at h1; subst h1; rfl
          · cases h1
        | _ =>
          simp only [step] at h1
          split at h1
          · simp only [Option.some.injEq] at h1; subst h1; exact h
          · cases h1
      · right; intro i hm; exact h i (List.mem_cons_of_mem _ hm)
    have := ih s1 s' (.next e h h1) h2 (fun hm => hc (List.mem_cons_of_mem _ hm)) hst
    simp only [List.length_cons]; omega

/-- After the stop request the number of steps that can follow is bounded, as long as nobody starts new calls; spurious
wake-ups are allowed. With `c15_progress`: every execution that keeps moving reaches the end of the destructor. -/
theorem c15_terminates (n : Nat) (s : State) (h : Reachable n s) (hs : s.stop = true) :
    ∃ bound, ∀ evs s', run s evs = some s' → Ev.call ∉ evs → evs.length ≤ bound :=
  ⟨work s, fun evs s' hr hc => run_bounded evs s s' h hr hc (Or.inl hs)⟩

/-- When the destructor has returned all workers have exited and, if there was a worker, nothing is left in the queue. -/
theorem c15_clean_end (n : Nat) (s : State) (h : Reachable n s) (hd : s.dtor = .done) :
    s.workers = List.replicate n .exited ∧ (1 ≤ n → s.queue = []) := by
  have hi := inv_of_reachable h
  have hex := hi.fin hd
  refine ⟨?_, fun hn => ?_⟩
  · rw [List.eq_replicate_iff]
    refine ⟨hi.len, fun w hw => ?_⟩
    obtain ⟨i, hw⟩ := List.mem_iff_getElem?.1 hw
    exact hex i w hw
  · have : 0 < s.workers.length := by rw [hi.len]; omega
    have h0 : s.workers[0]? = some s.workers[0] := List.getElem?_eq_getElem this
    exact (hi.ex 0 (by rw [h0, hex 0 _ h0])).2

example : (run (init 2) (demo.take 11)).map (fun s => (s.stop, s.dtor, s.workers)) =
    some (true, .notify, [.woken, .running 0]) ∧
    (run (init 2) demo).map (fun s => (s.workers, s.queue)) = some ([.exited, .exited], []) := by decide

/-- No lost wake-up: also before the stop, while a task is queued and there is a worker, some thread can move without
the help of a spurious wake-up. -/
theorem c15_no_lost_wakeup (n : Nat) (hn : 1 ≤ n) (s : State) (h : Reachable n s) (hq : s.queue ≠ []) : CanMove s := by
  have hi := inv_of_reachable h
  rcases hi.wake hq with ⟨j, hj⟩ | ⟨i, w, hw, hne⟩ | h0
  · exact canMove_of_notify hj
  · refine canMove_of_awake hi hw hne ?_
    rintro rfl
    exact hq (hi.ex i hw).2
  · omega

/-- Without new calls and spurious wake-ups only boundedly many steps can follow from any reachable state; so the pool
comes to rest, and by `c15_no_lost_wakeup` it does so with an empty queue. -/
theorem c15_comes_to_rest (n : Nat) (s : State) (h : Reachable n s) :
    ∃ bound, ∀ evs s', run s evs = some s' → Ev.call ∉ evs → (∀ i, Ev.spurious i ∉ evs) → evs.length ≤ bound :=
  ⟨work s, fun evs s' hr hc hsp => run_bounded evs s s' h hr hc (Or.inr hsp)⟩

/-- One worker asleep, a task queued by a call that has not yet notified: the notification is the move. -/
example : (run (init 1) [.workerLock 0, .workerCheck 0, .call, .clientLock 0, .clientBody 0]).map
    (fun s => (s.workers, s.queue, (step s (.clientNotify 0 (some 0))).isSome)) = some ([.waiting], [0], true) := by
  decide

/-- The condition on the number of workers is needed: a pool without workers leaves its task in the queue. -/
example : (run (init 0) [.call, .clientLock 0, .clientBody 0, .clientNotify 0 none, .dtorStart, .dtorLock, .dtorSet,
    .dtorNotify, .dtorJoin]).map (fun s => (s.dtor, s.queue)) = some (.done, [0]) := by decide

end Verif.Pool
