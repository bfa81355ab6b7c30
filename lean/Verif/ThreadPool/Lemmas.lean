import Verif.ThreadPool.Spec

/-! Invariants of the pool. -/

namespace Verif.Pool

def WPc.task? : WPc → Option Nat
  | .running t => some t
  | _ => none

theorem filterMap_set_perm {f : α → Option β} {l : List α} {i : Nat} {a : α} (b : α) (h : l[i]? = some a) :
    ((f a).toList ++ (l.set i b).filterMap f).Perm ((f b).toList ++ l.filterMap f) := by
  induction l generalizing i with
  | nil => simp at h
  | cons x l ih =>
    cases i with
    | zero =>
      simp at h; subst h
      simp only [List.set_cons_zero, List.filterMap_cons]
      cases f x <;> cases f b <;> simp [List.Perm.swap]
    | succ i =>
      have := ih (by simpa using h)
      simp only [List.set_cons_succ, List.filterMap_cons]
      cases hx : f x with
      | none => simpa using this
      | some y =>
        simp only []
        refine (List.perm_middle).trans ?_
        refine (List.Perm.cons y this).trans ?_
        exact (List.perm_middle).symm

theorem sum_set {w : α → Nat} {l : List α} {i : Nat} {a : α} (b : α) (h : l[i]? = some a) :
    ((l.set i b).map w).sum + w a = (l.map w).sum + w b := by
  induction l generalizing i with
  | nil => simp at h
  | cons x l ih =>
    cases i with
    | zero => simp at h; subst h; simp; omega
    | succ i =>
      have := ih (by simpa using h)
      simp only [List.set_cons_succ, List.map_cons, List.sum_cons]; omega

structure Inv (n : Nat) (s : State) : Prop where
  len : s.workers.length = n
  order : s.accepted = s.started ++ s.queue
  nodup : s.accepted.Nodup
  acc : ∀ j : Nat, j ∈ s.accepted ↔ s.clients[j]? = some .notify ∨ s.clients[j]? = some .returned
  once : s.started.Perm (s.ran.map Prod.fst ++ s.workers.filterMap WPc.task?)
  mw : ∀ i, s.mutex = some (.worker i) ↔ s.workers[i]? = some .check
  mc : ∀ j, s.mutex = some (.client j) ↔ s.clients[j]? = some .locked
  md : s.mutex = some .dtor ↔ s.dtor = .locked
  st : s.stop = true ↔ s.dtor = .notify ∨ s.dtor = .joining ∨ s.dtor = .done
  ex : ∀ i : Nat, s.workers[i]? = some .exited → s.stop = true ∧ s.queue = []
  nw : s.dtor = .joining ∨ s.dtor = .done → ∀ i : Nat, s.workers[i]? ≠ some .waiting
  wake : s.queue ≠ [] → (∃ j : Nat, s.clients[j]? = some .notify) ∨ (∃ (i : Nat) (w : WPc), s.workers[i]? = some w ∧ w ≠ .waiting) ∨ n = 0
  fin : s.dtor = .done → ∀ (i : Nat) (w : WPc), s.workers[i]? = some w → w = .exited

theorem inv_init (n : Nat) : Inv n (init n) := by
  constructor <;> simp [init, List.getElem?_replicate, WPc.task?]

theorem lt_of_some {l : List α} {i : Nat} {a : α} (h : l[i]? = some a) : i < l.length := by
  have := List.getElem?_eq_some_iff.1 h; exact this.1

theorem getElem?_set_of {l : List α} {i : Nat} {a b : α} (h : l[i]? = some a) (k : Nat) :
    (l.set i b)[k]? = if i = k then some b else l[k]? := by
  rw [List.getElem?_set]
  split
  · rw [if_pos (lt_of_some h)]
  · rfl

theorem inv_step {n : Nat} {s s' : State} (e : Ev) (hi : Inv n s) (h : step s e = some s') : Inv n s' := by
  obtain ⟨len, order, nodup, acc, once, mw, mc, md, st, ex, nw, wake, fin⟩ := hi
  cases e with
  | call =>
    simp only [step, Option.some.injEq] at h; subst h
    have hg : ∀ (j : Nat) (c : CPc), c ≠ CPc.want → ((s.clients ++ [CPc.want])[j]? = some c ↔ s.clients[j]? = some c) := by
      intro j c hc
      rw [List.getElem?_append]; split
      · rfl
      · rename_i hl
        rw [List.getElem?_eq_none (by omega : s.clients.length ≤ j)]
        simp [List.getElem?_singleton]; intro _; exact fun h => hc h.symm
    refine ⟨len, order, nodup, ?_, once, mw, ?_, md, st, ex, nw, ?_, fin⟩
    · intro j; simp only [hg _ _ (by decide : CPc.notify ≠ CPc.want), hg _ _ (by decide : CPc.returned ≠ CPc.want), acc]
    · intro j; simp only [hg _ _ (by decide : CPc.locked ≠ CPc.want), mc]
    · intro hq; simp only [hg _ _ (by decide : CPc.notify ≠ CPc.want)]; exact wake hq
  | clientLock j => 
    simp only [step] at h
    split at h
    · rename_i hc
      obtain ⟨hc, hm⟩ := hc
      simp only [Option.some.injEq] at h; subst h
      have hg := fun k => getElem?_set_of (b := CPc.locked) hc k
      refine ⟨len, order, nodup, ?_, once, ?_, ?_, ?_, st, ex, nw, ?_, fin⟩
      · intro k; simp only [hg]; split
        · subst_vars; rw [acc, hc]; simp
        · exact acc k
      · intro i; simp only [hm] at mw; simp [← mw]
      · intro k; simp only [hg]; split
        · subst_vars; simp
        · simp only [hm] at mc; simp [← mc]; assumption
      · simp only [hm] at md; simp [← md]
      · intro hq; rcases wake hq with ⟨k, hk⟩ | h
        · left; refine ⟨k, ?_⟩; simp only [hg]; split
          · subst_vars; rw [hc] at hk; cases hk
          · exact hk
        · exact Or.inr h
    · cases h
  | clientBody j =>
    simp only [step] at h
    split at h
    · rename_i hc
      have hm : s.mutex = some (.client j) := (mc j).2 hc
      have hjn : j ∉ s.accepted := by rw [acc, hc]; simp
      split at h
      · simp only [Option.some.injEq] at h; subst h
        have hg := fun k => getElem?_set_of (b := CPc.threw) hc k
        refine ⟨len, order, nodup, ?_, once, ?_, ?_, ?_, st, ex, nw, ?_, fin⟩
        · intro k; simp only [hg]; split
          · subst_vars; simp [hjn]
          · exact acc k
        · intro i; have := mw i; simp only [hm] at this; simp [← this]
        · intro k; simp only [hg]; split
          · simp
          · have := mc k; simp only [hm] at this; simp [← this]; assumption
        · simp only [hm] at md; simp [← md]
        · intro hq; rcases wake hq with ⟨k, hk⟩ | h
          · left; refine ⟨k, ?_⟩; simp only [hg]; split
            · subst_vars; rw [hc] at hk; cases hk
            · exact hk
          · exact Or.inr h
      · rename_i hs
        simp only [Option.some.injEq] at h; subst h
        have hg := fun k => getElem?_set_of (b := CPc.notify) hc k
        refine ⟨len, ?_, ?_, ?_, once, ?_, ?_, ?_, st, ?_, nw, ?_, fin⟩
        · rw [order]; simp
        · exact List.nodup_append.2 ⟨nodup, by simp, by intro a ha b hb; simp at hb; subst hb; intro e; exact hjn (e ▸ ha)⟩
        · intro k; simp only [hg, List.mem_append, List.mem_singleton]; split
          · subst_vars; simp
          · rw [acc]; constructor
            · rintro (h | h)
              · exact h
              · exact absurd h.symm ‹_›
            · exact Or.inl
        · intro i; have := mw i; simp only [hm] at this; simp [← this]
        · intro k; simp only [hg]; split
          · simp
          · have := mc k; simp only [hm] at this; simp [← this]; assumption
        · simp only [hm] at md; simp [← md]
        · intro i hi; exact absurd (ex i hi).1 hs
        · intro _; left; exact ⟨j, by simp [hg]⟩
    · cases h
  | clientNotify j w =>
    cases w with
    | none =>
      simp only [step] at h
      split at h
      · rename_i hc
        obtain ⟨hc, hnw⟩ := hc
        simp only [Option.some.injEq] at h; subst h
        have hg := fun k => getElem?_set_of (b := CPc.returned) hc k
        refine ⟨len, order, nodup, ?_, once, mw, ?_, md, st, ex, nw, ?_, fin⟩
        · intro k; simp only [hg]; split
          · subst_vars; rw [acc, hc]; simp
          · exact acc k
        · intro k; simp only [hg]; split
          · subst_vars; rw [mc, hc]; simp
          · exact mc k
        · intro hq
          right
          cases hw : s.workers with
          | nil => right; rw [← len, hw]; rfl
          | cons x ws =>
            left
            refine ⟨0, x, by simp, ?_⟩
            intro hx; apply hnw; rw [hw, ← hx]; simp
      · cases h
    | some i =>
      simp only [step] at h
      split at h
      · rename_i hc
        obtain ⟨hc, hw⟩ := hc
        simp only [Option.some.injEq] at h; subst h
        have hg := fun k => getElem?_set_of (b := CPc.returned) hc k
        have hgw := fun k => getElem?_set_of (b := WPc.woken) hw k
        refine ⟨by simpa using len, order, nodup, ?_, ?_, ?_, ?_, md, st, ?_, ?_, ?_, ?_⟩
        · intro k; simp only [hg]; split
          · subst_vars; rw [acc, hc]; simp
          · exact acc k
        · have := filterMap_set_perm (f := WPc.task?) WPc.woken hw
          simp only [WPc.task?, Option.toList_none, List.nil_append] at this
          exact once.trans (List.Perm.append_left _ this.symm)
        · intro k; simp only [hgw]; split
          · subst_vars; rw [mw, hw]; simp
          · exact mw k
        · intro k; simp only [hg]; split
          · subst_vars; rw [mc, hc]; simp
          · exact mc k
        · intro k; simp only [hgw]; split
          · simp
          · exact ex k
        · intro hd k; simp only [hgw]; split
          · simp
          · exact nw hd k
        · intro _; right; left; exact ⟨i, .woken, by simp [hgw], by decide⟩
        · intro hd k w; simp only [hgw]
          have := fin hd i _ hw; cases this
      · cases h
  | workerLock i =>
    simp only [step] at h
    split at h
    · rename_i hc
      obtain ⟨hc, hm⟩ := hc
      simp only [Option.some.injEq] at h; subst h
      obtain ⟨a, ha, hc⟩ : ∃ a, (a = WPc.want ∨ a = WPc.woken) ∧ s.workers[i]? = some a := by
        rcases hc with h | h
        · exact ⟨_, Or.inl rfl, h⟩
        · exact ⟨_, Or.inr rfl, h⟩
      have hgw := fun k => getElem?_set_of (b := WPc.check) hc k
      refine ⟨by simpa using len, order, nodup, acc, ?_, ?_, ?_, ?_, st, ?_, ?_, ?_, ?_⟩
      · have := filterMap_set_perm (f := WPc.task?) WPc.check hc
        have ha' : a.task? = none := by rcases ha with rfl | rfl <;> rfl
        simp only [ha', show WPc.task? WPc.check = none from rfl, Option.toList_none, List.nil_append] at this
        exact once.trans (List.Perm.append_left _ this.symm)
      · intro k; simp only [hgw]; split
        · subst_vars; simp
        · simp only [hm] at mw; simp [← mw]; assumption
      · intro k; simp only [hm] at mc; simp [← mc]
      · simp only [hm] at md; simp [← md]
      · intro k; simp only [hgw]; split
        · simp
        · exact ex k
      · intro hd k; simp only [hgw]; split
        · simp
        · exact nw hd k
      · intro _; right; left; exact ⟨i, .check, by simp [hgw], by decide⟩
      · intro hd k w
        have := fin hd i _ hc; subst this
        rcases ha with h | h <;> cases h
    · cases h
  | workerCheck i =>
    simp only [step] at h
    split at h
    · rename_i hc
      have hm : s.mutex = some (.worker i) := (mw i).2 hc
      split at h
      · rename_i hq
        split at h
        · rename_i hs
          simp only [Option.some.injEq] at h; subst h
          have hgw := fun k => getElem?_set_of (b := WPc.exited) hc k
          refine ⟨by simpa using len, by simpa [hq] using order, nodup, acc, ?_, ?_, ?_, ?_, st, ?_, ?_, ?_, ?_⟩
          · have := filterMap_set_perm (f := WPc.task?) WPc.exited hc
            simp only [WPc.task?, Option.toList_none, List.nil_append] at this
            exact once.trans (List.Perm.append_left _ this.symm)
          · intro k; simp only [hgw]; split
            · simp
            · have := mw k; simp only [hm] at this; simp [← this]; assumption
          · intro k; have := mc k; simp only [hm] at this; simp [← this]
          · simp only [hm] at md; simp [← md]
          · intro k _; exact ⟨hs, hq⟩
          · intro hd k; simp only [hgw]; split
            · simp
            · exact nw hd k
          · intro h; exact absurd hq h
          · intro hd k w; have := fin hd i _ hc; cases this
        · rename_i hs
          simp only [Option.some.injEq] at h; subst h
          have hgw := fun k => getElem?_set_of (b := WPc.waiting) hc k
          refine ⟨by simpa using len, by simpa [hq] using order, nodup, acc, ?_, ?_, ?_, ?_, st, ?_, ?_, ?_, ?_⟩
          · have := filterMap_set_perm (f := WPc.task?) WPc.waiting hc
            simp only [WPc.task?, Option.toList_none, List.nil_append] at this
            exact once.trans (List.Perm.append_left _ this.symm)
          · intro k; simp only [hgw]; split
            · simp
            · have := mw k; simp only [hm] at this; simp [← this]; assumption
          · intro k; have := mc k; simp only [hm] at this; simp [← this]
          · simp only [hm] at md; simp [← md]
          · intro k; simp only [hgw]; split
            · simp
            · exact ex k
          · intro hd; exact absurd (st.2 (Or.inr hd)) hs
          · intro h; exact absurd hq h
          · intro hd k w; have := fin hd i _ hc; cases this
      · rename_i t q hq
        simp only [Option.some.injEq] at h; subst h
        have hgw := fun k => getElem?_set_of (b := WPc.running t) hc k
        refine ⟨by simpa using len, by simpa [hq] using order, nodup, acc, ?_, ?_, ?_, ?_, st, ?_, ?_, ?_, ?_⟩
        · have := filterMap_set_perm (f := WPc.task?) (WPc.running t) hc
          simp only [WPc.task?, Option.toList_none, List.nil_append, Option.toList_some] at this
          refine (List.Perm.append_right [t] once).trans ?_
          rw [List.append_assoc]
          refine List.Perm.append_left _ ?_
          exact (List.perm_append_comm).trans this.symm
        · intro k; simp only [hgw]; split
          · simp
          · have := mw k; simp only [hm] at this; simp [← this]; assumption
        · intro k; have := mc k; simp only [hm] at this; simp [← this]
        · simp only [hm] at md; simp [← md]
        · intro k; simp only [hgw]; split
          · simp
          · intro h; have := (ex k h).2; rw [hq] at this; cases this
        · intro hd k; simp only [hgw]; split
          · simp
          · exact nw hd k
        · intro _; right; left; exact ⟨i, .running t, by simp [hgw], by simp⟩
        · intro hd k w; have := fin hd i _ hc; cases this
    · cases h
  | workerFinish i =>
    simp only [step] at h
    split at h
    · rename_i t hc
      simp only [Option.some.injEq] at h; subst h
      have hgw := fun k => getElem?_set_of (b := WPc.want) hc k
      refine ⟨by simpa using len, order, nodup, acc, ?_, ?_, mc, md, st, ?_, ?_, ?_, ?_⟩
      · have := filterMap_set_perm (f := WPc.task?) WPc.want hc
        simp only [WPc.task?, Option.toList_none, List.nil_append, Option.toList_some] at this
        rw [List.map_append, List.append_assoc]
        exact once.trans (List.Perm.append_left _ this.symm)
      · intro k; simp only [hgw]; split
        · subst_vars; rw [mw, hc]; simp
        · exact mw k
      · intro k; simp only [hgw]; split
        · simp
        · exact ex k
      · intro hd k; simp only [hgw]; split
        · simp
        · exact nw hd k
      · intro _; right; left; exact ⟨i, .want, by simp [hgw], by simp⟩
      · intro hd k w; have := fin hd i _ hc; cases this
    · cases h
  | spurious i =>
    simp only [step] at h
    split at h
    · rename_i hc
      simp only [Option.some.injEq] at h; subst h
      have hgw := fun k => getElem?_set_of (b := WPc.woken) hc k
      refine ⟨by simpa using len, order, nodup, acc, ?_, ?_, mc, md, st, ?_, ?_, ?_, ?_⟩
      · have := filterMap_set_perm (f := WPc.task?) WPc.woken hc
        simp only [WPc.task?, Option.toList_none, List.nil_append] at this
        exact once.trans (List.Perm.append_left _ this.symm)
      · intro k; simp only [hgw]; split
        · subst_vars; rw [mw, hc]; simp
        · exact mw k
      · intro k; simp only [hgw]; split
        · simp
        · exact ex k
      · intro hd k; simp only [hgw]; split
        · simp
        · exact nw hd k
      · intro _; right; left; exact ⟨i, .woken, by simp [hgw], by simp⟩
      · intro hd k w; have := fin hd i _ hc; cases this
    · cases h
  | dtorStart =>
    simp only [step] at h
    split at h
    · rename_i hc
      simp only [Option.some.injEq] at h; subst h
      simp only [hc] at md st
      refine ⟨len, order, nodup, acc, once, mw, mc, ?_, ?_, ex, ?_, wake, ?_⟩ <;> simp_all
    · cases h
  | dtorLock =>
    simp only [step] at h
    split at h
    · rename_i hc
      obtain ⟨hc, hm⟩ := hc
      simp only [Option.some.injEq] at h; subst h
      simp only [hc, hm] at md st mw mc
      refine ⟨len, order, nodup, acc, once, ?_, ?_, ?_, ?_, ex, ?_, wake, ?_⟩ <;> simp_all
    · cases h
  | dtorSet =>
    simp only [step] at h
    split at h
    · rename_i hc
      have hm := md.2 hc
      simp only [Option.some.injEq] at h; subst h
      simp only [hm] at mw mc
      refine ⟨len, order, nodup, acc, once, ?_, ?_, ?_, ?_, ?_, ?_, wake, ?_⟩
      · intro i; simp [← mw]
      · intro i; simp [← mc]
      · simp
      · simp
      · intro i hi; exact ⟨rfl, (ex i hi).2⟩
      · simp
      · simp
    · cases h
  | dtorNotify =>
    simp only [step] at h
    split at h
    · rename_i hc
      simp only [Option.some.injEq] at h; subst h
      have hwk : ∀ w : WPc, w ≠ .woken → w ≠ .waiting → ∀ i : Nat, ((s.workers.map WPc.wake)[i]? = some w ↔
          s.workers[i]? = some w) := by
        intro w h1 h2 i
        rw [List.getElem?_map]
        cases s.workers[i]? with
        | none => simp
        | some v => cases v <;> cases w <;> simp_all [WPc.wake]
      refine ⟨by simpa using len, order, nodup, acc, ?_, ?_, mc, ?_, ?_, ?_, ?_, ?_, ?_⟩
      · have : (s.workers.map WPc.wake).filterMap WPc.task? = s.workers.filterMap WPc.task? := by
          rw [List.filterMap_map]
          congr 1
          funext w; cases w <;> rfl
        rw [this]; exact once
      · intro i; rw [mw, hwk _ (by decide) (by decide)]
      · rw [md, hc]; simp
      · rw [st, hc]; simp
      · intro i; rw [hwk _ (by decide) (by decide)]; exact ex i
      · intro _ i; rw [List.getElem?_map]
        cases s.workers[i]? with
        | none => simp
        | some v => cases v <;> simp [WPc.wake]
      · intro hq; rcases wake hq with h | ⟨i, w, h, hw⟩ | h
        · exact Or.inl h
        · right; left
          refine ⟨i, w.wake, by simp [h], ?_⟩
          cases w <;> simp [WPc.wake]
        · exact Or.inr (Or.inr h)
      · simp
    · cases h
  | dtorJoin =>
    simp only [step] at h
    split at h
    · rename_i hc
      obtain ⟨hc, hall⟩ := hc
      simp only [Option.some.injEq] at h; subst h
      simp only [hc] at md st nw
      refine ⟨len, order, nodup, acc, once, mw, mc, ?_, ?_, ex, ?_, wake, ?_⟩
      · simp_all
      · simp_all
      · intro _; exact nw (by simp)
      · intro _ i w hw; exact hall w (List.mem_of_getElem? hw)
    · cases h

theorem inv_of_reachable {n : Nat} {s : State} (h : Reachable n s) : Inv n s := by
  induction h with
  | start => exact inv_init n
  | next e _ hs ih => exact inv_step e ih hs

/-! Remaining work -/

def WPc.weight (stop : Bool) : WPc → Nat
  | .want => 2
  | .check => 1
  | .waiting => if stop then 3 else 0
  | .woken => 2
  | .running _ => 3
  | .exited => 0

def CPc.weight : CPc → Nat
  | .want => 8
  | .locked => 7
  | .notify => 3
  | .returned => 0
  | .threw => 0

def DPc.weight (n : Nat) : DPc → Nat
  | .notStarted => 3 * n + 6
  | .want => 3 * n + 5
  | .locked => 3 * n + 4
  | .notify => 3
  | .joining => 2
  | .done => 0

/-- An upper bound on the number of steps that can still follow without new calls. -/
def work (s : State) : Nat :=
  3 * s.queue.length + (s.workers.map (WPc.weight s.stop)).sum + (s.clients.map CPc.weight).sum +
    s.dtor.weight s.workers.length

theorem weight_stop_le (ws : List WPc) (b b' : Bool) : (ws.map (WPc.weight b)).sum ≤ (ws.map (WPc.weight b')).sum + 3 * ws.length := by
  induction ws with
  | nil => simp
  | cons w ws ih =>
    have : WPc.weight b w ≤ WPc.weight b' w + 3 := by cases w <;> cases b <;> cases b' <;> simp [WPc.weight]
    simp; omega

theorem weight_wake_le (ws : List WPc) : ((ws.map WPc.wake).map (WPc.weight true)).sum ≤ (ws.map (WPc.weight true)).sum := by
  induction ws with
  | nil => simp
  | cons w ws ih =>
    have : WPc.weight true w.wake ≤ WPc.weight true w := by cases w <;> simp [WPc.weight, WPc.wake]
    simp only [List.map_cons, List.sum_cons]; omega

/-- Every step except a new call and a spurious wake-up before the stop uses up work. -/
theorem work_decreases {n : Nat} {s s' : State} (e : Ev) (hi : Inv n s) (h : step s e = some s') (h1 : e ≠ .call)
    (h2 : ∀ i, e = .spurious i → s.stop = true) : work s' < work s := by
  cases e with
  | call => exact absurd rfl h1
  | clientLock j =>
    simp only [step] at h
    split at h
    · rename_i hc
      simp only [Option.some.injEq] at h; subst h
      have := sum_set (w := CPc.weight) CPc.locked hc.1
      simp only [CPc.weight] at this
      simp only [work]; omega
    · cases h
  | clientBody j =>
    simp only [step] at h
    split at h
    · rename_i hc
      split at h
      · simp only [Option.some.injEq] at h; subst h
        have := sum_set (w := CPc.weight) CPc.threw hc
        simp only [CPc.weight] at this
        simp only [work]; omega
      · simp only [Option.some.injEq] at h; subst h
        have := sum_set (w := CPc.weight) CPc.notify hc
        simp only [CPc.weight] at this
        simp only [work, List.length_append, List.length_singleton]; omega
    · cases h
  | clientNotify j w =>
    cases w with
    | none =>
      simp only [step] at h
      split at h
      · rename_i hc
        simp only [Option.some.injEq] at h; subst h
        have := sum_set (w := CPc.weight) CPc.returned hc.1
        simp only [CPc.weight] at this
        simp only [work]; omega
      · cases h
    | some i =>
      simp only [step] at h
      split at h
      · rename_i hc
        simp only [Option.some.injEq] at h; subst h
        have a := sum_set (w := CPc.weight) CPc.returned hc.1
        have b := sum_set (w := WPc.weight s.stop) WPc.woken hc.2
        simp only [CPc.weight, WPc.weight] at a b
        simp only [work, List.length_set]; split at b <;> omega
      · cases h
  | workerLock i =>
    simp only [step] at h
    split at h
    · rename_i hc
      simp only [Option.some.injEq] at h; subst h
      rcases hc.1 with hc | hc
      all_goals
        have b := sum_set (w := WPc.weight s.stop) WPc.check hc
        simp only [WPc.weight] at b
        simp only [work, List.length_set]; omega
    · cases h
  | workerCheck i =>
    simp only [step] at h
    split at h
    · rename_i hc
      split at h
      · rename_i hq
        split at h
        · simp only [Option.some.injEq] at h; subst h
          have b := sum_set (w := WPc.weight s.stop) WPc.exited hc
          simp only [WPc.weight] at b
          simp only [work, List.length_set]; omega
        · rename_i hs
          simp only [Option.some.injEq] at h; subst h
          have b := sum_set (w := WPc.weight s.stop) WPc.waiting hc
          simp only [WPc.weight, if_neg hs] at b
          simp only [work, List.length_set]; omega
      · rename_i t q hq
        simp only [Option.some.injEq] at h; subst h
        have b := sum_set (w := WPc.weight s.stop) (WPc.running t) hc
        simp only [WPc.weight] at b
        simp only [work, List.length_set, hq, List.length_cons]; omega
    · cases h
  | workerFinish i =>
    simp only [step] at h
    split at h
    · rename_i t hc
      simp only [Option.some.injEq] at h; subst h
      have b := sum_set (w := WPc.weight s.stop) WPc.want hc
      simp only [WPc.weight] at b
      simp only [work, List.length_set]; omega
    · cases h
  | spurious i =>
    simp only [step] at h
    split at h
    · rename_i hc
      simp only [Option.some.injEq] at h; subst h
      have b := sum_set (w := WPc.weight s.stop) WPc.woken hc
      simp only [WPc.weight, if_pos (h2 i rfl)] at b
      simp only [work, List.length_set]; omega
    · cases h
  | dtorStart =>
    simp only [step] at h
    split at h
    · rename_i hc
      simp only [Option.some.injEq] at h; subst h
      simp only [work, hc, DPc.weight]; omega
    · cases h
  | dtorLock =>
    simp only [step] at h
    split at h
    · rename_i hc
      simp only [Option.some.injEq] at h; subst h
      simp only [work, hc.1, DPc.weight]; omega
    · cases h
  | dtorSet =>
    simp only [step] at h
    split at h
    · rename_i hc
      simp only [Option.some.injEq] at h; subst h
      have := weight_stop_le s.workers true s.stop
      simp only [work, hc, DPc.weight]; omega
    · cases h
  | dtorNotify =>
    simp only [step] at h
    split at h
    · rename_i hc
      simp only [Option.some.injEq] at h; subst h
      have hs : s.stop = true := hi.st.2 (Or.inl hc)
      have := weight_wake_le s.workers
      simp only [work, hc, DPc.weight, hs]; omega
    · cases h
  | dtorJoin =>
    simp only [step] at h
    split at h
    · rename_i hc
      simp only [Option.some.injEq] at h; subst h
      simp only [work, hc.1, DPc.weight]; omega
    · cases h

theorem canMove_of_lock {n : Nat} {s : State} (hi : Inv n s) (h : s.mutex ≠ none) : CanMove s := by
  cases hm : s.mutex with
  | none => exact absurd hm h
  | some o =>
    cases o with
    | worker i =>
      have := (hi.mw i).1 hm
      refine ⟨.workerCheck i, ?_⟩
      simp only [step, this, if_true]
      split
      · split <;> exact ⟨_, by simp, by simp, by simp, rfl⟩
      · exact ⟨_, by simp, by simp, by simp, rfl⟩
    | client j =>
      have := (hi.mc j).1 hm
      refine ⟨.clientBody j, ?_⟩
      simp only [step, this, if_true]
      split <;> exact ⟨_, by simp, by simp, by simp, rfl⟩
    | dtor =>
      have := hi.md.1 hm
      exact ⟨.dtorSet, _, by simp, by simp, by simp, by simp only [step, this, if_true]; rfl⟩

theorem canMove_of_notify {s : State} {j : Nat} (h : s.clients[j]? = some .notify) : CanMove s := by
  by_cases hw : WPc.waiting ∈ s.workers
  · obtain ⟨i, hi⟩ := List.mem_iff_getElem?.1 hw
    exact ⟨.clientNotify j (some i), _, by simp, by simp, by simp, by simp only [step, h, hi, and_self, if_true]; rfl⟩
  · refine ⟨.clientNotify j none, { s with clients := s.clients.set j .returned }, by simp, by simp, by simp, ?_⟩
    · simp only [step, h, hw, not_false_eq_true, and_self, if_true]

theorem canMove_of_awake {n : Nat} {s : State} (hi : Inv n s) {i : Nat} {w : WPc} (h : s.workers[i]? = some w)
    (h1 : w ≠ .waiting) (h2 : w ≠ .exited) : CanMove s := by
  by_cases hm : s.mutex = none
  · cases w with
    | want => exact ⟨.workerLock i, _, by simp, by simp, by simp, by simp only [step, h, hm, true_or, and_self, if_true]; rfl⟩
    | woken => exact ⟨.workerLock i, _, by simp, by simp, by simp, by simp only [step, h, hm, or_true, and_self, if_true]; rfl⟩
    | check => rw [(hi.mw i).2 h] at hm; cases hm
    | waiting => exact absurd rfl h1
    | running t => exact ⟨.workerFinish i, _, by simp, by simp, by simp, by simp only [step, h]; rfl⟩
    | exited => exact absurd rfl h2
  · exact canMove_of_lock hi hm

theorem canMove_of_client_want {n : Nat} {s : State} (hi : Inv n s) {j : Nat} (h : s.clients[j]? = some .want) :
    CanMove s := by
  by_cases hm : s.mutex = none
  · exact ⟨.clientLock j, _, by simp, by simp, by simp, by simp only [step, h, hm, and_self, if_true]; rfl⟩
  · exact canMove_of_lock hi hm

end Verif.Pool
