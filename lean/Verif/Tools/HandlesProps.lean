import Verif.Tools.Handles

/-!
# Property C29: each HDF5 identifier is released exactly once
-/

set_option linter.unusedSimpArgs false

namespace Verif.Tools

/-- The object `h` is alive and owns the identifier `i` (a non-owning handle does not). -/
def Owns (s : HState) (h : Nat) (i : Int) : Prop := s.live h = some ⟨i, .close⟩ ∧ 0 ≤ i

/-- The valid identifiers a program hands to owning handles, in order. -/
def handed : List HOp → List Int
  | [] => []
  | .make _ id .close :: ops => if 0 ≤ id then id :: handed ops else handed ops
  | _ :: ops => handed ops

/-! ## Lemmas -/

private theorem handed_append (a b : List HOp) : handed (a ++ b) = handed a ++ handed b := by
  induction a with
  | nil => rfl
  | cons op a ih =>
    rw [List.cons_append]
    cases op with
    | make h id d =>
      cases d with
      | close => simp only [handed]; split <;> simp [ih]
      | nothing => exact ih
      | null => exact ih
    | default => exact ih
    | moveNew => exact ih
    | moveAssign => exact ih
    | destroy => exact ih

private structure Inv (s : HState) (H : List Int) : Prop where
  uniq : ∀ h h' i, Owns s h i → Owns s h' i → h = h'
  own : ∀ h i, Owns s h i → i ∈ H ∧ i ∉ s.released
  done : ∀ i, i ∈ H → (∃ h, Owns s h i) ∨ i ∈ s.released
  rel : ∀ i, i ∈ s.released → i ∈ H
  nodup : s.released.Nodup

private theorem put_live (s : HState) (h : Nat) (v : Option Handle) (k : Nat) :
    (s.put h v).live k = if k = h then v else s.live k := rfl

private theorem put_released (s : HState) (h : Nat) (v : Option Handle) : (s.put h v).released = s.released := rfl

private theorem inv_init : Inv .init [] :=
  ⟨nofun, nofun, nofun, nofun, List.nodup_nil⟩

private theorem inv_step {s s' : HState} {H : List Int} {op : HOp} (hI : Inv s H) (hs : hstep s op = .ok s')
    (hn : (H ++ handed [op]).Nodup) : Inv s' (H ++ handed [op]) := by
  obtain ⟨u, o, d, r, nd⟩ := hI
  cases op with
  | make h id del =>
    simp only [hstep] at hs
    split at hs
    · cases hs
    rename_i hfree
    split at hs
    · cases hs
    rename_i hid
    cases hs
    have hfree' : s.live h = none := by simpa using hfree
    cases del with
    | close =>
      have e : handed [HOp.make h id .close] = [id] := by simp only [handed]; rw [if_pos (by omega)]
      rw [e] at hn ⊢
      have hnew : id ∉ H := by
        intro hm
        rw [List.nodup_append] at hn
        exact hn.2.2 id hm id (List.mem_singleton.2 rfl) rfl
      have ho : ∀ k i, Owns (s.put h (some ⟨id, .close⟩)) k i ↔ (k = h ∧ i = id) ∨ (k ≠ h ∧ Owns s k i) := by
        intro k i
        simp only [Owns, put_live]
        by_cases hk : k = h
        · simp only [hk, if_true, Option.some.injEq, Handle.mk.injEq, and_true, true_and, ne_eq, not_true_eq_false,
            false_and, or_false]
          omega
        · simp [hk]
      refine ⟨?_, ?_, ?_, ?_, nd⟩
      · intro a b i ha hb
        rw [ho] at ha hb
        rcases ha with ⟨rfl, rfl⟩ | ⟨_, ha⟩ <;> rcases hb with ⟨rfl, hb⟩ | ⟨_, hb⟩
        · rfl
        · exact absurd (o _ _ hb).1 hnew
        · subst hb; exact absurd (o _ _ ha).1 hnew
        · exact u a b i ha hb
      · intro a i ha
        rw [ho] at ha
        rcases ha with ⟨rfl, rfl⟩ | ⟨_, ha⟩
        · exact ⟨by simp, fun hm => hnew (r _ hm)⟩
        · exact ⟨List.mem_append_left _ (o _ _ ha).1, (o _ _ ha).2⟩
      · intro i hi
        rcases List.mem_append.1 hi with hi | hi
        · rcases d i hi with ⟨k, hk⟩ | hr
          · refine Or.inl ⟨k, (ho k i).2 (Or.inr ⟨?_, hk⟩)⟩
            rintro rfl
            rw [hk.1] at hfree'
            cases hfree'
          · exact Or.inr hr
        · rw [List.mem_singleton.1 hi]
          exact Or.inl ⟨h, (ho h id).2 (Or.inl ⟨rfl, rfl⟩)⟩
      · exact fun i hi => List.mem_append_left _ (r i hi)
    | nothing =>
      simp only [handed, List.append_nil]
      have ho : ∀ k i, Owns (s.put h (some ⟨id, .nothing⟩)) k i ↔ Owns s k i := by
        intro k i
        simp only [Owns, put_live]
        by_cases hk : k = h
        · simp [hk, hfree']
        · simp [hk]
      exact ⟨fun a b i => by rw [ho, ho]; exact u a b i, fun a i => by rw [ho]; exact o a i,
        fun i hi => by simpa only [ho, put_released] using d i hi, r, nd⟩
    | null =>
      simp only [handed, List.append_nil]
      have ho : ∀ k i, Owns (s.put h (some ⟨id, .null⟩)) k i ↔ Owns s k i := by
        intro k i
        simp only [Owns, put_live]
        by_cases hk : k = h
        · simp [hk, hfree']
        · simp [hk]
      exact ⟨fun a b i => by rw [ho, ho]; exact u a b i, fun a i => by rw [ho]; exact o a i,
        fun i hi => by simpa only [ho, put_released] using d i hi, r, nd⟩
  | default h =>
    simp only [hstep] at hs
    split at hs
    · cases hs
    rename_i hfree
    cases hs
    have hfree' : s.live h = none := by simpa using hfree
    simp only [handed, List.append_nil]
    have ho : ∀ k i, Owns (s.put h (some ⟨-1, .null⟩)) k i ↔ Owns s k i := by
      intro k i
      simp only [Owns, put_live]
      by_cases hk : k = h
      · simp [hk, hfree']
      · simp [hk]
    exact ⟨fun a b i => by rw [ho, ho]; exact u a b i, fun a i => by rw [ho]; exact o a i,
      fun i hi => by simpa only [ho, put_released] using d i hi, r, nd⟩
  | moveNew h src =>
    simp only [hstep] at hs
    split at hs
    · cases hs
    rename_i hfree
    have hfree' : s.live h = none := by simpa using hfree
    cases hv : s.live src with
    | none => rw [hv] at hs; cases hs
    | some v =>
      rw [hv] at hs
      cases hs
      have hne : src ≠ h := by rintro rfl; rw [hv] at hfree'; cases hfree'
      simp only [handed, List.append_nil]
      have ho : ∀ k i, Owns ((s.put src (some { v with id := -1 })).put h (some v)) k i ↔
          (k = h ∧ Owns s src i) ∨ (k ≠ h ∧ k ≠ src ∧ Owns s k i) := by
        intro k i
        simp only [Owns, put_live]
        by_cases hk : k = h
        · simp [hk, hv]
        · by_cases hk2 : k = src
          · simp only [hk, hk2, if_true, if_false, hne]
            constructor
            · rintro ⟨h1, h2⟩
              cases v
              simp only [Option.some.injEq, Handle.mk.injEq] at h1
              omega
            · rintro (⟨h1, _⟩ | ⟨_, h2, _⟩)
              · exact absurd h1 (by simp)
              · exact absurd rfl h2
          · simp [hk, hk2]
      refine ⟨?_, ?_, ?_, r, nd⟩
      · intro a b i ha hb
        rw [ho] at ha hb
        rcases ha with ⟨rfl, ha⟩ | ⟨_, h1, ha⟩ <;> rcases hb with ⟨rfl, hb⟩ | ⟨_, h2, hb⟩
        · rfl
        · exact absurd (u _ _ _ hb ha) h2
        · exact absurd (u _ _ _ ha hb) h1
        · exact u a b i ha hb
      · intro a i ha
        rw [ho] at ha
        rcases ha with ⟨_, ha⟩ | ⟨_, _, ha⟩ <;> exact o _ _ ha
      · intro i hi
        rcases d i hi with ⟨k, hk⟩ | hr
        · left
          by_cases hks : k = src
          · subst hks; exact ⟨h, (ho h i).2 (Or.inl ⟨rfl, hk⟩)⟩
          · refine ⟨k, (ho k i).2 (Or.inr ⟨?_, hks, hk⟩)⟩
            rintro rfl
            rw [hk.1] at hfree'
            cases hfree'
        · exact Or.inr hr
  | moveAssign h src =>
    simp only [handed, List.append_nil]
    simp only [hstep] at hs
    cases hv : s.live h with
    | none => rw [hv] at hs; cases hs
    | some a =>
      cases hw : s.live src with
      | none => rw [hv, hw] at hs; cases hs
      | some b =>
        rw [hv, hw] at hs
        simp only [] at hs
        split at hs
        · rename_i hne
          cases hs
          have ho : ∀ k i, Owns ((s.put h (some b)).put src (some a)) k i ↔
              Owns s (if k = src then h else if k = h then src else k) i := by
            intro k i
            simp only [Owns, put_live]
            by_cases hk : k = src
            · simp [hk, hv]
            · by_cases hk2 : k = h
              · simp [hk, hk2, hw, Ne.symm hne]
              · simp [hk, hk2]
          refine ⟨?_, ?_, ?_, r, nd⟩
          · intro x y i hx hy
            rw [ho] at hx hy
            have := u _ _ _ hx hy
            grind
          · intro x i hx
            rw [ho] at hx
            exact o _ _ hx
          · intro i hi
            rcases d i hi with ⟨k, hk⟩ | hr
            · left
              refine ⟨if k = src then h else if k = h then src else k, (ho _ i).2 ?_⟩
              have : (if (if k = src then h else if k = h then src else k) = src then h
                  else if (if k = src then h else if k = h then src else k) = h then src
                  else if k = src then h else if k = h then src else k) = k := by grind
              rw [this]
              exact hk
            · exact Or.inr hr
        · cases hs
          exact ⟨u, o, d, r, nd⟩
  | destroy h =>
    simp only [handed, List.append_nil]
    simp only [hstep] at hs
    cases hv : s.live h with
    | none => rw [hv] at hs; cases hs
    | some v =>
      rw [hv] at hs
      simp only [runDestructor] at hs
      have hsame : (¬ ∃ i, Owns s h i) → Inv (s.put h none) H := by
        intro hno
        have ho : ∀ k i, Owns (s.put h none) k i ↔ Owns s k i := by
          intro k i
          constructor
          · intro hk
            simp only [Owns, put_live] at hk
            by_cases e : k = h
            · simp [e] at hk
            · simpa [Owns, e] using hk
          · intro hk
            have e : k ≠ h := by rintro rfl; exact hno ⟨i, hk⟩
            simpa [Owns, put_live, e] using hk
        exact ⟨fun a b i => by rw [ho, ho]; exact u a b i, fun a i => by rw [ho]; exact o a i,
          fun i hi => by simpa only [ho, put_released] using d i hi, r, nd⟩
      split at hs
      · rename_i hid
        cases hd : v.deleter with
        | null => rw [hd] at hs; cases hs
        | nothing =>
          rw [hd] at hs
          cases hs
          refine hsame ?_
          rintro ⟨i, hi, _⟩
          rw [hv] at hi
          cases hi
          cases hd
        | close =>
          rw [hd] at hs
          cases hs
          have hown : Owns s h v.id := ⟨by rw [hv]; cases v; cases hd; rfl, hid⟩
          have ho : ∀ k i, Owns (HState.put { s with released := v.id :: s.released } h none) k i ↔
              k ≠ h ∧ Owns s k i := by
            intro k i
            simp only [Owns, put_live]
            by_cases e : k = h
            · simp [e]
            · simp [e]
          refine ⟨?_, ?_, ?_, ?_, ?_⟩
          · intro a b i ha hb
            rw [ho] at ha hb
            exact u a b i ha.2 hb.2
          · intro a i ha
            rw [ho] at ha
            refine ⟨(o _ _ ha.2).1, fun hm => ?_⟩
            rcases List.mem_cons.1 hm with rfl | hm
            · exact ha.1 (u _ _ _ ha.2 hown)
            · exact (o _ _ ha.2).2 hm
          · intro i hi
            rcases d i hi with ⟨k, hk⟩ | hr
            · by_cases e : k = h
              · subst e
                right
                have : i = v.id := by
                  have := hk.1
                  rw [hv] at this
                  cases this
                  rfl
                rw [this]
                exact List.mem_cons_self ..
              · exact Or.inl ⟨k, (ho k i).2 ⟨e, hk⟩⟩
            · exact Or.inr (List.mem_cons_of_mem _ hr)
          · intro i hi
            rcases List.mem_cons.1 hi with rfl | hi
            · exact (o _ _ hown).1
            · exact r i hi
          · exact List.nodup_cons.2 ⟨(o _ _ hown).2, nd⟩
      · rename_i hid
        cases hs
        refine hsame ?_
        rintro ⟨i, hi, h0⟩
        rw [hv] at hi
        cases hi
        exact hid h0

private theorem handed_throws {s : HState} {op : HOp} (h : hstep s op = .throws) : handed [op] = [] := by
  cases op with
  | make k id d =>
    simp only [hstep] at h
    split at h
    · cases h
    split at h
    · rename_i hid
      cases d with
      | close => simp only [handed]; rw [if_neg (by omega)]
      | nothing => rfl
      | null => rfl
    · cases h
  | default => rfl
  | moveNew => rfl
  | moveAssign => rfl
  | destroy => rfl

private theorem inv_run : ∀ (ops : List HOp) (s s' : HState) (H : List Int), Inv s H → hrun s ops = some s' →
    (H ++ handed ops).Nodup → Inv s' (H ++ handed ops) := by
  intro ops
  induction ops with
  | nil =>
    intro s s' H hI hr _
    cases hr
    simpa [handed] using hI
  | cons op ops ih =>
    intro s s' H hI hr hn
    have e : handed (op :: ops) = handed [op] ++ handed ops := handed_append [op] ops
    rw [e, ← List.append_assoc] at hn ⊢
    have hn' : (H ++ handed [op]).Nodup := (List.nodup_append.1 hn).1
    simp only [hrun] at hr
    cases hs : hstep s op with
    | ok s1 =>
      rw [hs] at hr
      exact ih s1 s' _ (inv_step hI hs hn') hr hn
    | throws =>
      rw [hs] at hr
      have he := handed_throws hs
      rw [he, List.append_nil] at hn ⊢
      exact ih s s' _ hI hr hn
    | ub => rw [hs] at hr; cases hr

/-! ## `H5Handle` -/

/-- After any program that hands each identifier over at most once: an identifier has been released at most once, only if it
was handed over, and not while a live handle owns it; an owner is unique; and an identifier that was handed over and has no
owner any more has been released. -/
theorem c29_handle_history (ops : List HOp) (s : HState) (hr : hrun .init ops = some s) (hn : (handed ops).Nodup) :
    (∀ i, s.released.count i ≤ 1) ∧ (∀ i ∈ s.released, i ∈ handed ops) ∧
    (∀ h i, Owns s h i → i ∉ s.released ∧ ∀ h', Owns s h' i → h' = h) ∧
    (∀ i ∈ handed ops, (∀ h, ¬ Owns s h i) → s.released.count i = 1) := by
  obtain ⟨u, o, d, r, nd⟩ := inv_run ops _ _ [] inv_init hr (by simpa using hn)
  simp only [List.nil_append] at *
  refine ⟨fun i => List.nodup_iff_count.1 nd i, r, fun h i hi => ⟨(o h i hi).2, fun h' hh => u _ _ _ hh hi⟩, ?_⟩
  intro i hi hno
  rcases d i hi with ⟨h, hh⟩ | hm
  · exact absurd hh (hno h)
  · have h1 := List.nodup_iff_count.1 nd i
    have h2 := List.count_pos_iff.2 hm
    omega

/-- When all handles are gone, every identifier has been released exactly once. -/
theorem c29_all_released (ops : List HOp) (s : HState) (hr : hrun .init ops = some s) (hn : (handed ops).Nodup)
    (hgone : ∀ h, s.live h = none) (i : Int) : s.released.count i = (handed ops).count i := by
  obtain ⟨h1, h2, _, h4⟩ := c29_handle_history ops s hr hn
  have hno : ∀ h, ¬ Owns s h i := by
    intro h hh
    rw [Owns, hgone h] at hh
    cases hh.1
  by_cases hm : i ∈ handed ops
  · rw [h4 i hm hno]
    have := List.nodup_iff_count.1 hn i
    have := List.count_pos_iff.2 hm
    omega
  · rw [List.count_eq_zero_of_not_mem hm, List.count_eq_zero_of_not_mem (fun hm' => hm (h2 i hm'))]

/-- An invalid identifier makes construction throw; a valid one does not. -/
theorem c29_invalid_throws (s : HState) (h : Nat) (id : Int) (d : Deleter) (hfree : s.live h = none) :
    (hstep s (.make h id d) = .throws ↔ id < 0) ∧ (0 ≤ id → ∃ s', hstep s (.make h id d) = .ok s') := by
  simp only [hstep, hfree, Option.isSome_none, Bool.false_eq_true, if_false]
  constructor
  · split <;> simp_all
  · intro h0
    rw [if_neg (by omega)]
    exact ⟨_, rfl⟩

/-- Destructors are defined: if no program step passes a null close function, destroying a live handle never has undefined
behaviour. -/
theorem c29_destructor_defined (ops : List HOp) (s : HState) (hr : hrun .init ops = some s)
    (hd : ∀ h id, HOp.make h id .null ∉ ops) (h : Nat) (hl : (s.live h).isSome) : hstep s (.destroy h) ≠ .ub := by
  have key : ∀ (ops : List HOp) (s s' : HState), (∀ h v, s.live h = some v → 0 ≤ v.id → v.deleter ≠ .null) →
      (∀ h id, HOp.make h id .null ∉ ops) → hrun s ops = some s' →
      ∀ h v, s'.live h = some v → 0 ≤ v.id → v.deleter ≠ .null := by
    intro ops
    induction ops with
    | nil => intro s s' hI _ hr; cases hr; exact hI
    | cons op ops ih =>
      intro s s' hI hd hr
      have hd' : ∀ h id, HOp.make h id .null ∉ ops := fun h id hm => hd h id (List.mem_cons_of_mem _ hm)
      simp only [hrun] at hr
      cases hs : hstep s op with
      | ub => rw [hs] at hr; cases hr
      | throws => rw [hs] at hr; exact ih s s' hI hd' hr
      | ok s1 =>
        rw [hs] at hr
        refine ih s1 s' ?_ hd' hr
        cases op with
        | make k id d =>
          have hdn : d ≠ .null := by rintro rfl; exact hd k id (List.mem_cons_self ..)
          simp only [hstep] at hs
          split at hs
          · cases hs
          split at hs
          · cases hs
          cases hs
          intro h v hv h0
          rw [put_live] at hv
          split at hv
          · cases hv; exact hdn
          · exact hI h v hv h0
        | default k =>
          simp only [hstep] at hs
          split at hs
          · cases hs
          cases hs
          intro h v hv h0
          rw [put_live] at hv
          split at hv
          · cases hv; simp at h0
          · exact hI h v hv h0
        | moveNew k src =>
          simp only [hstep] at hs
          split at hs
          · cases hs
          cases hv : s.live src with
          | none => rw [hv] at hs; cases hs
          | some w =>
            rw [hv] at hs
            cases hs
            intro h v hv' h0
            rw [put_live, put_live] at hv'
            split at hv'
            · cases hv'; exact hI src _ hv h0
            · split at hv'
              · cases hv'; simp at h0
              · exact hI h v hv' h0
        | moveAssign k src =>
          simp only [hstep] at hs
          cases hv : s.live k with
          | none => rw [hv] at hs; cases hs
          | some a =>
            cases hw : s.live src with
            | none => rw [hv, hw] at hs; cases hs
            | some b =>
              rw [hv, hw] at hs
              simp only [] at hs
              split at hs
              · cases hs
                intro h v hv' h0
                rw [put_live, put_live] at hv'
                split at hv'
                · cases hv'; exact hI k _ hv h0
                · split at hv'
                  · cases hv'; exact hI src _ hw h0
                  · exact hI h v hv' h0
              · cases hs; exact hI
        | destroy k =>
          simp only [hstep] at hs
          cases hv : s.live k with
          | none => rw [hv] at hs; cases hs
          | some w =>
            rw [hv] at hs
            have hlive : s1.live = (s.put k none).live := by
              simp only [runDestructor] at hs
              split at hs
              · cases hd : w.deleter <;> rw [hd] at hs <;> cases hs <;> rfl
              · cases hs; rfl
            intro h v hv' h0
            rw [hlive, put_live] at hv'
            split at hv'
            · cases hv'
            · exact hI h v hv' h0
  have hI := key ops .init s nofun hd hr
  cases hv : s.live h with
  | none => rw [hv] at hl; cases hl
  | some v =>
    simp only [hstep, hv, runDestructor]
    split
    · rename_i h0
      have := hI h v hv h0
      cases hd : v.deleter with
      | close => simp
      | nothing => simp
      | null => exact absurd hd this
    · simp

/-- `std::swap` through a temporary exchanges the two contents and releases nothing. -/
theorem c29_swap (s : HState) (a b t : Nat) (va vb : Handle) (ha : s.live a = some va) (hb : s.live b = some vb)
    (ht : s.live t = none) (hab : a ≠ b) :
    ∃ s', hrun s (swapOps a b t) = some s' ∧ s'.live a = some vb ∧ s'.live b = some va ∧ s'.live t = none ∧
      s'.released = s.released ∧ ∀ k, k ≠ a → k ≠ b → s'.live k = s.live k := by
  have hta : t ≠ a := by rintro rfl; rw [ha] at ht; cases ht
  have htb : t ≠ b := by rintro rfl; rw [hb] at ht; cases ht
  simp only [swapOps, hrun, hstep, ht, ha, Option.isSome_none, Bool.false_eq_true, if_false, put_live, hta, htb,
    hta.symm, htb.symm, hab, hab.symm, if_true, ne_eq, not_false_eq_true, hb, runDestructor, Outcome.map]
  refine ⟨_, rfl, ?_, ?_, ?_, ?_, ?_⟩
  · simp [put_live, hta.symm, hab]
  · simp [put_live, htb.symm, hab]
  · simp [put_live]
  · rfl
  · intro k ha hb
    by_cases hk : k = t
    · simp [put_live, hk, ht]
    · simp [put_live, ha, hb, hk]

/-- A program with a move, a swap and an assignment over a live handle: both identifiers are released once. -/
example : (hrun .init ([.make 0 7 .close, .make 1 9 .close, .make 2 (-1) .close] ++ swapOps 0 1 5 ++
    [.moveNew 3 0, .moveAssign 3 1, .destroy 0, .destroy 1, .destroy 3])).map (·.released) = some [7, 9] := by
  decide +kernel

/-! ## `H5File` -/

/-- Identifiers handed to `H5File` objects. -/
def handedF : List FOp → List Int
  | [] => []
  | .make _ id :: ops => id :: handedF ops
  | _ :: ops => handedF ops

private theorem fput_live (s : FState) (h : Nat) (v : Option Int) (k : Nat) :
    (s.put h v).live k = if k = h then v else s.live k := rfl

private theorem handedF_append (a b : List FOp) : handedF (a ++ b) = handedF a ++ handedF b := by
  induction a with
  | nil => rfl
  | cons op a ih => rw [List.cons_append]; cases op <;> simp [handedF, ih]

private structure FInv (s : FState) (H : List Int) : Prop where
  uniq : ∀ h h' i, i ≠ 0 → s.live h = some i → s.live h' = some i → h = h'
  own : ∀ h i, i ≠ 0 → s.live h = some i → i ∈ H ∧ i ∉ s.released
  done : ∀ i, i ≠ 0 → i ∈ H → (∃ h, s.live h = some i) ∨ i ∈ s.released
  rel : ∀ i, i ≠ 0 → i ∈ s.released → i ∈ H ∧ s.released.count i ≤ 1

private theorem finv_step {s s' : FState} {H : List Int} {op : FOp} (hI : FInv s H) (hs : fstep s op = .ok s')
    (hn : (H ++ handedF [op]).Nodup) : FInv s' (H ++ handedF [op]) := by
  obtain ⟨u, o, d, r⟩ := hI
  cases op with
  | make f id =>
    simp only [fstep] at hs
    split at hs
    · cases hs
    rename_i hfree
    cases hs
    have hfree' : s.live f = none := by simpa using hfree
    simp only [handedF] at hn ⊢
    have hnew : id ∉ H := by
      intro hm
      rw [List.nodup_append] at hn
      exact hn.2.2 id hm id (List.mem_singleton.2 rfl) rfl
    refine ⟨?_, ?_, ?_, ?_⟩
    · intro a b i h0 ha hb
      rw [fput_live] at ha hb
      split at ha <;> split at hb
      · simp_all
      · cases ha; exact absurd (o _ _ h0 hb).1 hnew
      · cases hb; exact absurd (o _ _ h0 ha).1 hnew
      · exact u a b i h0 ha hb
    · intro a i h0 ha
      rw [fput_live] at ha
      split at ha
      · cases ha; exact ⟨by simp, fun hm => hnew (r _ h0 hm).1⟩
      · exact ⟨List.mem_append_left _ (o _ _ h0 ha).1, (o _ _ h0 ha).2⟩
    · intro i h0 hi
      rcases List.mem_append.1 hi with hi | hi
      · rcases d i h0 hi with ⟨k, hk⟩ | hr
        · refine Or.inl ⟨k, ?_⟩
          rw [fput_live, if_neg (by rintro rfl; rw [hk] at hfree'; cases hfree')]
          exact hk
        · exact Or.inr hr
      · rw [List.mem_singleton.1 hi]
        exact Or.inl ⟨f, by rw [fput_live, if_pos rfl]⟩
    · exact fun i h0 hi => ⟨List.mem_append_left _ (r i h0 hi).1, (r i h0 hi).2⟩
  | moveNew f src =>
    simp only [fstep] at hs
    split at hs
    · cases hs
    rename_i hfree
    have hfree' : s.live f = none := by simpa using hfree
    cases hv : s.live src with
    | none => rw [hv] at hs; cases hs
    | some v =>
      rw [hv] at hs
      cases hs
      simp only [handedF, List.append_nil]
      have hne : src ≠ f := by rintro rfl; rw [hv] at hfree'; cases hfree'
      have ho : ∀ k i, i ≠ 0 → (((s.put src (some 0)).put f (some v)).live k = some i ↔
          (k = f ∧ s.live src = some i) ∨ (k ≠ f ∧ k ≠ src ∧ s.live k = some i)) := by
        intro k i h0
        rw [fput_live, fput_live]
        by_cases hk : k = f
        · simp [hk, hv]
        · by_cases hk2 : k = src
          · simp only [hk, hk2, hne, if_true, if_false]
            constructor
            · intro h; cases h; exact absurd rfl h0
            · rintro (⟨h, _⟩ | ⟨_, h, _⟩)
              · exact absurd h (by simp)
              · exact absurd rfl h
          · simp [hk, hk2]
      refine ⟨?_, ?_, ?_, r⟩
      · intro a b i h0 ha hb
        rw [ho _ _ h0] at ha hb
        rcases ha with ⟨rfl, ha⟩ | ⟨_, h1, ha⟩ <;> rcases hb with ⟨rfl, hb⟩ | ⟨_, h2, hb⟩
        · rfl
        · exact absurd (u _ _ _ h0 hb ha) h2
        · exact absurd (u _ _ _ h0 ha hb) h1
        · exact u a b i h0 ha hb
      · intro a i h0 ha
        rw [ho _ _ h0] at ha
        rcases ha with ⟨_, ha⟩ | ⟨_, _, ha⟩ <;> exact o _ _ h0 ha
      · intro i h0 hi
        rcases d i h0 hi with ⟨k, hk⟩ | hr
        · left
          by_cases hks : k = src
          · subst hks; exact ⟨f, (ho f i h0).2 (Or.inl ⟨rfl, hk⟩)⟩
          · refine ⟨k, (ho k i h0).2 (Or.inr ⟨?_, hks, hk⟩)⟩
            rintro rfl
            rw [hk] at hfree'
            cases hfree'
        · exact Or.inr hr
  | moveAssign f src =>
    simp only [handedF, List.append_nil]
    simp only [fstep] at hs
    cases hv : s.live f with
    | none => rw [hv] at hs; cases hs
    | some a =>
      cases hw : s.live src with
      | none => rw [hv, hw] at hs; cases hs
      | some b =>
        rw [hv, hw] at hs
        cases hs
        have ho : ∀ k i, (((s.put f (some b)).put src (some a)).live k = some i ↔
            s.live (if k = src then f else if k = f then src else k) = some i) := by
          intro k i
          rw [fput_live, fput_live]
          by_cases hk : k = src
          · simp [hk, hv]
          · by_cases hk2 : k = f
            · subst hk2; simp [hk, hw]
            · simp [hk, hk2]
        refine ⟨?_, ?_, ?_, r⟩
        · intro x y i h0 hx hy
          rw [ho] at hx hy
          have := u _ _ _ h0 hx hy
          grind
        · intro x i h0 hx
          rw [ho] at hx
          exact o _ _ h0 hx
        · intro i h0 hi
          rcases d i h0 hi with ⟨k, hk⟩ | hr
          · left
            refine ⟨if k = src then f else if k = f then src else k, (ho _ i).2 ?_⟩
            have : (if (if k = src then f else if k = f then src else k) = src then f
                else if (if k = src then f else if k = f then src else k) = f then src
                else if k = src then f else if k = f then src else k) = k := by grind
            rw [this]
            exact hk
          · exact Or.inr hr
  | destroy f =>
    simp only [handedF, List.append_nil]
    simp only [fstep] at hs
    cases hv : s.live f with
    | none => rw [hv] at hs; cases hs
    | some v =>
      rw [hv] at hs
      cases hs
      have ho : ∀ k i, (FState.put { s with released := v :: s.released } f none).live k = some i ↔
          k ≠ f ∧ s.live k = some i := by
        intro k i
        rw [fput_live]
        by_cases e : k = f
        · simp [e]
        · simp [e]
      have hrel : (FState.put { s with released := v :: s.released } f none).released = v :: s.released := rfl
      refine ⟨?_, ?_, ?_, ?_⟩
      · intro a b i h0 ha hb
        rw [ho] at ha hb
        exact u a b i h0 ha.2 hb.2
      · intro a i h0 ha
        rw [ho] at ha
        refine ⟨(o _ _ h0 ha.2).1, fun hm => ?_⟩
        rw [hrel] at hm
        rcases List.mem_cons.1 hm with rfl | hm
        · exact ha.1 (u _ _ _ h0 ha.2 hv)
        · exact (o _ _ h0 ha.2).2 hm
      · intro i h0 hi
        rw [hrel]
        rcases d i h0 hi with ⟨k, hk⟩ | hr
        · by_cases e : k = f
          · subst e
            rw [hv] at hk
            cases hk
            exact Or.inr (List.mem_cons_self ..)
          · exact Or.inl ⟨k, (ho k i).2 ⟨e, hk⟩⟩
        · exact Or.inr (List.mem_cons_of_mem _ hr)
      · intro i h0 hi
        rw [hrel] at hi ⊢
        by_cases e : i = v
        · subst e
          have h1 := o _ _ h0 hv
          refine ⟨h1.1, ?_⟩
          rw [List.count_cons_self, List.count_eq_zero_of_not_mem h1.2]
          omega
        · rcases List.mem_cons.1 hi with hi | hi
          · exact absurd hi e
          · rw [List.count_cons_of_ne (Ne.symm e)]
            exact r i h0 hi

/-- `H5File`: every identifier other than 0 is released exactly once by the time all objects are gone. Missing from the full
claim: validity is not checked (`c29_file_invalid_violated`) and moved-from objects release the identifier 0
(`c29_file_moved_violated`). -/
theorem c29_file_partial (ops : List FOp) (s : FState) (hr : frun .init ops = some s) (hn : (handedF ops).Nodup)
    (hgone : ∀ f, s.live f = none) (i : Int) (hi : i ≠ 0) : s.released.count i = (handedF ops).count i := by
  have key : ∀ (ops : List FOp) (s s' : FState) (H : List Int), FInv s H → frun s ops = some s' →
      (H ++ handedF ops).Nodup → FInv s' (H ++ handedF ops) := by
    intro ops
    induction ops with
    | nil => intro s s' H hI hr _; cases hr; simpa [handedF] using hI
    | cons op ops ih =>
      intro s s' H hI hr hn
      have e : handedF (op :: ops) = handedF [op] ++ handedF ops := handedF_append [op] ops
      rw [e, ← List.append_assoc] at hn ⊢
      have hn' : (H ++ handedF [op]).Nodup := (List.nodup_append.1 hn).1
      simp only [frun] at hr
      cases hs : fstep s op with
      | ok s1 => rw [hs] at hr; exact ih s1 s' _ (finv_step hI hs hn') hr hn
      | ub => rw [hs] at hr; cases hr
      | throws =>
        exfalso
        cases op <;> simp only [fstep] at hs
        · split at hs <;> cases hs
        · split at hs
          · cases hs
          · split at hs <;> cases hs
        · split at hs <;> cases hs
        · split at hs <;> cases hs
  obtain ⟨u, o, d, r⟩ := key ops _ _ [] (by
    refine ⟨?_, ?_, ?_, ?_⟩ <;> simp [FState.init]) hr (by simpa using hn)
  simp only [List.nil_append] at *
  by_cases hm : i ∈ handedF ops
  · rcases d i hi hm with ⟨h, hh⟩ | hrel
    · rw [hgone h] at hh; cases hh
    · have h1 := (r i hi hrel).2
      have h2 := List.count_pos_iff.2 hrel
      have h3 := List.nodup_iff_count.1 hn i
      have h4 := List.count_pos_iff.2 hm
      omega
  · rw [List.count_eq_zero_of_not_mem hm, List.count_eq_zero_of_not_mem (fun h => hm (r i hi h).1)]

example : (frun .init [.make 0 7, .make 1 9, .moveAssign 0 1, .destroy 1, .destroy 0]).map (·.released) =
    some [9, 7] := by decide +kernel

/-- `H5File` accepts the identifier of a file that could not be opened, and then closes it. -/
theorem c29_file_invalid_violated :
    (frun .init [.make 0 (-1), .destroy 0]).map (·.released) = some [-1] := by decide +kernel

/-- A moved-from `H5File` makes the library close the identifier 0, which nobody handed over. -/
theorem c29_file_moved_violated :
    (frun .init [.make 0 7, .moveNew 1 0, .destroy 0, .destroy 1]).map (·.released) = some [7, 0] := by decide +kernel

end Verif.Tools
