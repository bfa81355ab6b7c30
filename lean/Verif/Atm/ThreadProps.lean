import Verif.Atm.Model
import Verif.Lifecycle.GuardProps
import Verif.ThreadPool.Props

/-! C60: evolution with several threads and with one. -/

namespace Verif.Atm

open Life (Status Xs)

/-- A pool of `n` threads was given one task for each of `k` nodes and has been destroyed; `order` are the tasks in the order they
finished. Any interleaving of the threads is allowed. -/
def FinishedIn (n k : Nat) (order : List Nat) : Prop :=
  ∃ s : Pool.State, Pool.Reachable n s ∧ s.dtor = .done ∧ s.clients = List.replicate k .returned ∧ order = s.ran.map Prod.fst

/-- Every task ran exactly once. -/
theorem finished_once {n k : Nat} (hn : 1 ≤ n) {order : List Nat} (h : FinishedIn n k order) : order.Nodup ∧ ∀ j, j ∈ order ↔ j < k := by
  obtain ⟨s, hr, hd, hc, rfl⟩ := h
  have hret : ∀ j, j < k → s.clients[j]? = some .returned := by
    intro j hj
    rw [hc, List.getElem?_replicate, if_pos hj]
  constructor
  · rw [List.nodup_iff_count]
    intro j
    have := (Pool.c13_no_duplicates n s hr j).1
    omega
  · intro j
    constructor
    · intro hm
      have h2 := (Pool.c13_no_duplicates n s hr j).2 hm
      apply Classical.byContradiction
      intro hj
      have : s.clients[j]? = none := by
        rw [hc, List.getElem?_replicate, if_neg hj]
      rw [this] at h2
      simp at h2
    · intro hj
      have := (Pool.c13_exactly_once n hn s hr hd j).1 (hret j hj)
      exact List.count_pos_iff.1 (by omega)

section
variable {σ : Type} (f : σ → σ × Status)

theorem forAll_ok : ∀ l : List σ, (forAll f l).2 = .ok → (∀ x ∈ l, (f x).2 = .ok) ∧ (forAll f l).1 = l.map fun x => (f x).1 := by
  intro l
  induction l with
  | nil => intro _; exact ⟨by simp, rfl⟩
  | cons x xs ih =>
    intro h
    rcases hx : f x with ⟨x', st⟩
    cases st
    · simp only [forAll, hx] at h ⊢
      obtain ⟨h1, h2⟩ := ih h
      refine ⟨?_, ?_⟩
      · intro y hy
        rcases List.mem_cons.1 hy with rfl | hy
        · rw [hx]
        · exact h1 y hy
      · rw [List.map_cons, hx, h2]
    · simp [forAll, hx] at h
    · simp [forAll, hx] at h

theorem forAll_all_ok (l : List σ) (h : ∀ x ∈ l, (f x).2 = .ok) : forAll f l = (l.map fun x => (f x).1, .ok) := by
  induction l with
  | nil => rfl
  | cons x xs ih =>
    have hx : f x = ((f x).1, .ok) := by rw [← h x (List.mem_cons_self ..)]
    unfold forAll
    rw [hx, ih fun y hy => h y (List.mem_cons_of_mem _ hy)]
    rfl

/-- What a loop that stops does: the nodes up to the failing one were treated, the rest are as before. -/
theorem forAll_prefix (l : List σ) : ∃ k, (forAll f l).1 = (l.map fun x => (f x).1).take k ++ l.drop k := by
  induction l with
  | nil => exact ⟨0, rfl⟩
  | cons x xs ih =>
    obtain ⟨k, hk⟩ := ih
    unfold forAll
    split
    · rename_i x' hx
      refine ⟨k + 1, ?_⟩
      simp [hk, hx]
    · rename_i x' st _ hx
      exact ⟨1, by simp [hx]⟩

/-- The result of tasks that each run once and do not touch memory they must not. -/
theorem inTasks_spec : ∀ (order : List Nat) (l : List σ), order.Nodup → (∀ j ∈ order, j < l.length) →
    (∀ j ∈ order, ∀ x, l[j]? = some x → (f x).2 ≠ .ub) →
    (inTasks f order l).2 = .ok ∧ (inTasks f order l).1.length = l.length ∧
      ∀ j : Nat, (inTasks f order l).1[j]? = if j ∈ order then l[j]?.map fun x => (f x).1 else l[j]? := by
  intro order
  induction order with
  | nil => intro l _ _ _; exact ⟨rfl, rfl, by simp [inTasks]⟩
  | cons j js ih =>
    intro l hn hlt hub
    obtain ⟨hj, hn⟩ := List.nodup_cons.1 hn
    have hjl := hlt j (List.mem_cons_self ..)
    have hget : l[j]? = some l[j] := List.getElem?_eq_getElem hjl
    unfold inTasks
    rw [hget]
    dsimp only
    have hne := hub j (List.mem_cons_self ..) _ hget
    split
    · rename_i y hy
      rw [hy] at hne
      exact absurd rfl hne
    · rename_i y st _ hy
      obtain ⟨h1, h2, h3⟩ := ih (l.set j y) hn (fun i hi => by rw [List.length_set]; exact hlt i (List.mem_cons_of_mem _ hi)) (by
        intro i hi x hx
        have : i ≠ j := fun e => hj (e ▸ hi)
        rw [List.getElem?_set_ne this.symm] at hx
        exact hub i (List.mem_cons_of_mem _ hi) x hx)
      refine ⟨h1, by rw [h2, List.length_set], ?_⟩
      intro i
      rw [h3 i]
      by_cases hij : i = j
      · subst hij
        rw [if_neg hj, if_pos (List.mem_cons_self ..), List.getElem?_set_self hjl, hget, Option.map_some, hy]
      · rw [List.getElem?_set_ne (Ne.symm hij)]
        simp [hij]

theorem inTasks_once {order : List Nat} {l : List σ} (hn : order.Nodup) (hm : ∀ j, j ∈ order ↔ j < l.length)
    (hub : ∀ x ∈ l, (f x).2 ≠ .ub) : inTasks f order l = (l.map fun x => (f x).1, .ok) := by
  obtain ⟨h1, h2, h3⟩ := inTasks_spec f order l hn (fun j hj => (hm j).1 hj) fun j _ x hx => hub x (List.mem_of_getElem? hx)
  refine Prod.ext ?_ h1
  apply List.ext_getElem?
  intro i
  rw [h3 i, List.getElem?_map]
  by_cases hi : i ∈ order
  · rw [if_pos hi]
  · rw [if_neg hi, List.getElem?_eq_none (by have := mt (hm i).2 hi; omega)]
    rfl

end

/-- The object with the number of threads set. -/
def Sky.withThreads (a : Sky) (n : Nat) : Sky := { a with threads := some n }

theorem prepare_threads (dflt : Option Xs) (a : Sky) (m : Nat) :
    prepare dflt (a.withThreads m) = ((prepare dflt a).1.withThreads m, (prepare dflt a).2) := by
  unfold prepare Sky.withThreads
  dsimp only
  split
  · rfl
  · split
    · split <;> rfl
    · rfl

theorem forAll_length {σ : Type} (g : σ → σ × Status) (l : List σ) : (forAll g l).1.length = l.length := by
  induction l with
  | nil => rfl
  | cons x xs ih => unfold forAll; split <;> simp [ih]

theorem prepare_length (dflt : Option Xs) (a : Sky) : (prepare dflt a).1.nodes.length = a.nodes.length := by
  unfold prepare
  split
  · rfl
  · rename_i s l hl
    split
    · split
      · simp only [forAll_length, hl, List.length_cons]
      · simp only [hl, List.length_cons]
    · rfl

theorem evolve_flags (dflt : Option Xs) (a : Sky) (order : List Nat) (h : (evolve dflt a order).2 = .ok) :
    a.iini = some true ∧ a.iatm = true ∧ (prepare dflt a).2 = .ok := by
  unfold evolve at h
  split at h
  · simp at h
  · simp at h
  · rename_i hi
    split at h
    · simp at h
    · rename_i hat
      refine ⟨hi, by simpa using hat, ?_⟩
      split at h
      · rename_i hp; rw [hp]
      · exact h

theorem evolve_eq (dflt : Option Xs) (a : Sky) (n : Nat) (order : List Nat) (hi : a.iini = some true) (hat : a.iatm = true)
    (hp : (prepare dflt a).2 = .ok) :
    evolve dflt (a.withThreads n) order =
      (let r := if n = 1 then forAll (Life.evolveState dflt) (prepare dflt a).1.nodes
        else inTasks (Life.evolveState dflt) order (prepare dflt a).1.nodes
       ({ (prepare dflt a).1.withThreads n with nodes := r.1 }, r.2)) := by
  unfold evolve
  have h1 : (a.withThreads n).iini = some true := hi
  have h2 : (a.withThreads n).iatm = true := hat
  rw [h1, h2, prepare_threads, hp]
  rfl

/-- C60, partial: if evolution with one thread succeeds then with any number of threads and any interleaving it leaves the same object
and succeeds too. Missing: errors (`c60_error_violated`). -/
theorem c60_threads_do_not_matter_partial (dflt : Option Xs) (a : Sky) (n : Nat) (hn : 1 ≤ n) (order : List Nat)
    (ho : FinishedIn n a.nodes.length order) (hok : (evolve dflt (a.withThreads 1) []).2 = .ok) :
    evolve dflt (a.withThreads n) order = ((evolve dflt (a.withThreads 1) []).1.withThreads n, .ok) := by
  obtain ⟨hi, hat, hp⟩ := evolve_flags dflt _ _ hok
  rw [prepare_threads] at hp
  have e1 := evolve_eq dflt a 1 [] hi hat hp
  rw [e1] at hok ⊢
  rw [evolve_eq dflt a n order hi hat hp]
  simp only [if_true] at hok ⊢
  obtain ⟨hall, _⟩ := forAll_ok _ _ hok
  have key : (if n = 1 then forAll (Life.evolveState dflt) (prepare dflt a).1.nodes
      else inTasks (Life.evolveState dflt) order (prepare dflt a).1.nodes) = forAll (Life.evolveState dflt) (prepare dflt a).1.nodes := by
    by_cases h1 : n = 1
    · rw [if_pos h1]
    · rw [if_neg h1]
      obtain ⟨hnd, hm⟩ := finished_once hn ho
      rw [inTasks_once _ hnd (by rw [prepare_length]; exact hm) (fun x hx => by rw [hall x hx]; simp), forAll_all_ok _ _ hall]
  rw [key, hok]
  rfl

/-- C60 with failing nodes, partial: several threads treat every node and report nothing; one thread treats the nodes up to the first
failing one, with the same results. -/
theorem c60_failing_nodes_partial {σ : Type} (f : σ → σ × Status) (l : List σ) (n : Nat) (hn : 1 ≤ n) (order : List Nat)
    (ho : FinishedIn n l.length order) (hub : ∀ x ∈ l, (f x).2 ≠ .ub) :
    inTasks f order l = (l.map fun x => (f x).1, .ok) ∧ ∃ k, (forAll f l).1 = (inTasks f order l).1.take k ++ l.drop k := by
  obtain ⟨hnd, hm⟩ := finished_once hn ho
  have := inTasks_once f hnd hm hub
  refine ⟨this, ?_⟩
  rw [this]
  exact forAll_prefix f l

/-! ## A concrete object -/

/-- Two zeniths, one energy, three flavours. -/
def twoSky (found : Option Bool) : Outcome Sky :=
  create found (.multi [5] 3 .neutrino false none) ⟨1, false⟩ [⟨7, 0, 100, 0⟩, ⟨8, 0, 50, 0⟩]

def aexec (dflt : Option Xs) : Sky → List AOp → Sky × List Status
  | a, [] => (a, [])
  | a, op :: ops =>
    let r := astep dflt a op
    let q := aexec dflt r.1 ops
    (q.1, r.2 :: q.2)

theorem arun_append {dflt : Option Xs} {found : Option Bool} {c : Life.Ctor} {earth : Life.BodyRef} {trs : List Life.TrackRef} :
    ∀ (ops : List AOp) (tr : List (AOp × Status)) (a : Sky), ARun dflt found c earth trs tr a →
    (∀ st ∈ (aexec dflt a ops).2, st ≠ .ub) → ARun dflt found c earth trs (tr ++ ops.zip (aexec dflt a ops).2) (aexec dflt a ops).1 := by
  intro ops
  induction ops with
  | nil => intro tr a h _; simpa [aexec] using h
  | cons op ops ih =>
    intro tr a h hub
    simp only [aexec, List.mem_cons] at hub
    have h1 := ARun.call tr a (astep dflt a op).1 op (astep dflt a op).2 h rfl (hub _ (Or.inl rfl))
    have := ih _ _ h1 fun st hst => hub st (Or.inr hst)
    simpa [aexec] using this

/-- A two-thread run of two tasks. -/
def twoTasks : List Pool.Ev :=
  [.call, .clientLock 0, .clientBody 0, .clientNotify 0 none, .call, .clientLock 1, .clientBody 1, .clientNotify 1 none,
    .workerLock 0, .workerCheck 0, .workerLock 1, .workerCheck 1, .workerFinish 1, .workerFinish 0, .dtorStart, .dtorLock, .dtorSet,
    .dtorNotify, .workerLock 0, .workerCheck 0, .workerLock 1, .workerCheck 1, .dtorJoin]

theorem reachable_run {n : Nat} : ∀ (evs : List Pool.Ev) (s s' : Pool.State), Pool.Reachable n s → Pool.run s evs = some s' →
    Pool.Reachable n s' := by
  intro evs
  induction evs with
  | nil => intro s s' h hr; simp only [Pool.run, Option.some.injEq] at hr; exact hr ▸ h
  | cons e es ih =>
    intro s s' h hr
    simp only [Pool.run, Option.bind_eq_some_iff] at hr
    obtain ⟨m, h1, h2⟩ := hr
    exact ih m s' (.next e h h1) h2

theorem two_finished : FinishedIn 2 2 [1, 0] := by
  have h : ∃ s, Pool.run (Pool.init 2) twoTasks = some s ∧ s.dtor = .done ∧ s.clients = List.replicate 2 .returned ∧
      [1, 0] = s.ran.map Prod.fst := ⟨_, rfl, by decide, by decide, by decide⟩
  obtain ⟨s, h1, h2, h3, h4⟩ := h
  exact ⟨s, reachable_run _ _ _ .start h1, h2, h3, h4⟩

/-- What is left to see of an object: how each node's clock stands and whether it has a state. -/
def clocks (a : Sky) : List (Rat × Bool) := a.nodes.map fun s => (s.t, s.istate)

/-- Serial and threaded evolution of the concrete object. -/
example : ∃ a, twoSky none = .ok a ∧
    (evolve none ((aexec none a [.setInitial [2, 1, 3] .flavor]).1.withThreads 1) []).2 = .ok ∧
    clocks (evolve none ((aexec none a [.setInitial [2, 1, 3] .flavor]).1.withThreads 1) []).1 = [(100, true), (50, true)] ∧
    clocks (evolve none ((aexec none a [.setInitial [2, 1, 3] .flavor]).1.withThreads 2) [1, 0]).1 = [(100, true), (50, true)] :=
  ⟨_, rfl, by decide +kernel, by decide +kernel, by decide +kernel⟩

/-- C60 fails for errors. After a mixing angle was changed the nodes have no state (src/nuSQuIDS.cpp 2848): with one thread `EvolveState`
throws; with two threads it returns normally, having evolved nothing. -/
theorem c60_error_violated : ∃ tr a, ARun none none (.multi [5] 3 .neutrino false none) ⟨1, false⟩ [⟨7, 0, 100, 0⟩, ⟨8, 0, 50, 0⟩] tr a ∧
    FinishedIn 2 a.nodes.length [1, 0] ∧ (evolve none (a.withThreads 1) []).2 = .throws ∧
    (evolve none (a.withThreads 2) [1, 0]).2 = .ok ∧
    clocks (evolve none (a.withThreads 2) [1, 0]).1 = [(0, false), (0, false)] := by
  have h : ∃ a, twoSky none = .ok a ∧
      (∀ st ∈ (aexec none a [.setInitial [2, 1, 3] .flavor, .setAngle 0 1 2]).2, st ≠ .ub) ∧
      (aexec none a [.setInitial [2, 1, 3] .flavor, .setAngle 0 1 2]).1.nodes.length = 2 ∧
      (evolve none ((aexec none a [.setInitial [2, 1, 3] .flavor, .setAngle 0 1 2]).1.withThreads 1) []).2 = .throws ∧
      (evolve none ((aexec none a [.setInitial [2, 1, 3] .flavor, .setAngle 0 1 2]).1.withThreads 2) [1, 0]).2 = .ok ∧
      clocks (evolve none ((aexec none a [.setInitial [2, 1, 3] .flavor, .setAngle 0 1 2]).1.withThreads 2) [1, 0]).1 =
        [(0, false), (0, false)] :=
    ⟨_, rfl, by decide +kernel, by decide +kernel, by decide +kernel, by decide +kernel, by decide +kernel⟩
  obtain ⟨a, h1, h2, h3, h4, h5, h6⟩ := h
  refine ⟨_, _, arun_append [.setInitial [2, 1, 3] .flavor, .setAngle 0 1 2] [] a (.start a h1) h2, ?_, h4, h5, h6⟩
  rw [h3]
  exact two_finished

end Verif.Atm
