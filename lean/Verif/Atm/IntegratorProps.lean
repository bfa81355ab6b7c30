import Verif.Atm.Integrator
import Mathlib.Tactic.Ring
import Mathlib.Data.Rat.Defs

/-! C121: the settings of the integrator. -/

namespace Verif.Atm.Integ

open Life (Status)

theorem each_eq (f : Node → Node) (l : List Node) : each f l = l.map f := by
  induction l with
  | nil => rfl
  | cons s l ih => rw [each, ih, List.map_cons]

theorem flip_get (b : Nat → Bool) (l : List Node) (i j : Nat) :
    (flip b i l)[j]? = l[j]?.map fun s => if b (i + j) then s.put .h (-1 * s.value .h) else s := by
  induction l generalizing i j with
  | nil => simp [flip]
  | cons s l ih =>
    cases j with
    | zero => simp [flip]
    | succ j => simp only [flip, List.getElem?_cons_succ, ih]; rw [show i + 1 + j = i + (j + 1) by omega]

theorem flip_length (b : Nat → Bool) (l : List Node) (i : Nat) : (flip b i l).length = l.length := by
  induction l generalizing i with
  | nil => rfl
  | cons s l ih => simp [flip, ih]

theorem zeniths_append (k : Nat) (h : List Call) (c : Call) : zeniths k (h ++ [c]) = zeniths (zeniths k h) [c] := by
  induction h generalizing k with
  | nil => rfl
  | cons a h ih => cases a <;> exact ih _

theorem backs_append (i : Nat) (h : List Call) (c : Call) : backs i (h ++ [c]) = backs i h + backs i [c] := by
  induction h with
  | nil => simp [backs]
  | cons a h ih => cases a <;> simp [backs] at ih ⊢ <;> omega

/-- What one call does to the setting of one node: it gets the value given, or is turned, or keeps its value. -/
theorem step_value {d : Start} {l : List Node} {c : Call} (hu : (step d l c).2 ≠ .ub) (hn : ∀ k single, c ≠ .read k single) (i : Nat) (s : Node)
    (hs : l[i]? = some s) (w : What) :
    ∃ s', (step d l c).1[i]? = some s' ∧ (∀ v, c.Gives i w v → s'.value w = v) ∧
      ((∀ v, ¬c.Gives i w v) → s'.value w = turned w (backs i [c]) (s.value w)) := by
  have hi : i < l.length := (List.getElem?_eq_some_iff.mp hs).1
  have keep : turned w 0 (s.value w) = s.value w := by unfold turned; split <;> simp
  have setting : ∀ (j : Nat) (w' : What) (v : Rat) (t : Node), l[j]? = some t → (l.set j (t.put w' v))[i]? = some (if j = i then s.put w' v else s) := by
    intro j w' v t ht
    rw [List.getElem?_set]
    split
    · rename_i e
      subst e
      rw [hs] at ht
      cases ht
      simp [hi]
    · exact hs
  cases c with
  | all w' v =>
    refine ⟨s.put w' v, by simp [step, each_eq, hs], ?_, ?_⟩
    · rintro v' (h | h | h)
      · cases h; simp [Node.put]
      · simp at h
      · simp at h
    · intro h
      have hw : w ≠ w' := by rintro rfl; exact h v (.inl rfl)
      rw [show backs i [Call.all w' v] = 0 from rfl, keep]
      simp [Node.put, hw]
  | one w' v j =>
    simp only [step] at hu ⊢
    cases hj : l[j]? with
    | none => rw [hj] at hu; exact absurd rfl hu
    | some t =>
      refine ⟨_, setting j w' v t hj, ?_, ?_⟩
      · rintro v' (h | h | h)
        · simp at h
        · cases h; simp [Node.put]
        · simp at h
      · intro h
        rw [show backs i [Call.one w' v j] = 0 from rfl, keep]
        split
        · rename_i e
          subst e
          have hw : w ≠ w' := by rintro rfl; exact h v (.inr (.inl rfl))
          simp [Node.put, hw]
        · rfl
  | node j w' v =>
    simp only [step] at hu ⊢
    by_cases hj : j ≥ l.length
    · rw [if_pos hj]
      refine ⟨s, hs, ?_, ?_⟩
      · rintro v' (h | h | h)
        · simp at h
        · simp at h
        · cases h; omega
      · intro _
        rw [show backs i [Call.node j w' v] = 0 from rfl, keep]
    · rw [if_neg hj]
      have hj' : l[j]? = some (l[j]'(by omega)) := List.getElem?_eq_getElem (by omega)
      rw [hj']
      refine ⟨_, setting j w' v _ hj', ?_, ?_⟩
      · rintro v' (h | h | h)
        · simp at h
        · simp at h
        · cases h; simp [Node.put]
      · intro h
        rw [show backs i [Call.node j w' v] = 0 from rfl, keep]
        split
        · rename_i e
          subst e
          have hw : w ≠ w' := by rintro rfl; exact h v (.inr (.inr rfl))
          simp [Node.put, hw]
        · rfl
  | method m =>
    refine ⟨{ s with method := m }, by simp [step, each_eq, hs], ?_, ?_⟩
    · rintro v' (h | h | h) <;> simp at h
    · intro _
      rw [show backs i [Call.method m] = 0 from rfl, keep]
  | evolve b =>
    refine ⟨if b i then s.put .h (-1 * s.value .h) else s, by simp [step, flip_get, hs], ?_, ?_⟩
    · rintro v' (h | h | h) <;> simp at h
    · intro _
      simp only [backs, Nat.add_zero]
      cases b i with
      | false => simp only [Bool.false_eq_true, if_false, keep]
      | true =>
        simp only [if_true]
        unfold turned Node.put
        by_cases hw : w = .h
        · subst hw; simp
        · simp [hw]
  | read k single => exact absurd rfl (hn k single)

theorem run_length {d : Start} {k : Nat} {single : Bool} {h : List Call} {l : List Node} (hr : Run d k single h l) : l.length = zeniths k h := by
  induction hr with
  | start => simp [zeniths]
  | call c _ hc ih =>
    rw [zeniths_append, ← ih]
    cases c with
    | all => simp [step, each_eq, zeniths]
    | one w v j => simp only [step]; split <;> simp [zeniths]
    | node j w v =>
      simp only [step]
      split
      · rfl
      · split <;> simp [zeniths]
    | method => simp [step, each_eq, zeniths]
    | evolve => simp [step, flip_length, zeniths]
    | read => simp [step, zeniths]

theorem turned_add (w : What) (m n : Nat) (v : Rat) : turned w m (turned w n v) = turned w (n + m) v := by
  unfold turned
  split
  · rw [pow_add]; ring
  · rfl

/-- From any point of a history on: what a zenith has, turned by the evolutions since, if nothing touches it. -/
theorem run_since {d : Start} {k : Nat} {single : Bool} {pre : List Call} {i : Nat} {w : What} {v : Rat}
    (hp : ∀ l, Run d k single pre l → ∀ s, l[i]? = some s → s.value w = v) {h : List Call} {l : List Node} (hr : Run d k single h l) :
    ∀ post, h = pre ++ post → (∀ c ∈ post, ¬c.Touches i w) → ∀ s, l[i]? = some s → s.value w = turned w (backs i post) v := by
  have keep : turned w 0 v = v := by unfold turned; split <;> simp
  induction hr with
  | start =>
    intro post hh _ s hs
    obtain ⟨rfl, rfl⟩ := List.append_eq_nil_iff.mp hh.symm
    rw [show backs i [] = 0 from rfl, keep]
    exact hp _ .start s hs
  | call c hr hc ih =>
    rename_i h l
    intro post hh ht s hs
    rcases List.eq_nil_or_concat post with rfl | ⟨post', c', rfl⟩
    · rw [List.append_nil] at hh
      subst hh
      rw [show backs i [] = 0 from rfl, keep]
      exact hp _ (.call c hr hc) s hs
    · rw [List.concat_eq_append, ← List.append_assoc] at hh
      obtain ⟨hh2, hc'⟩ := List.append_inj' hh rfl
      cases hc'
      have hn : ∀ k single, c ≠ .read k single := by
        rintro k single rfl
        exact ht (.read k single) (by simp) (.inr ⟨k, single, rfl⟩)
      have hlen : i < l.length := by
        have h1 := (List.getElem?_eq_some_iff.mp hs).1
        have e1 := run_length hr
        have e2 := run_length (.call c hr hc)
        rw [zeniths_append] at e2
        have : zeniths (zeniths k h) [c] = zeniths k h := by
          cases c <;> first | rfl | exact absurd rfl (hn _ _)
        omega
      obtain ⟨s', h1, _, h3⟩ := step_value hc hn i _ (List.getElem?_eq_getElem hlen) w
      rw [h1] at hs
      cases hs
      rw [h3 fun v hv => ht c (by simp) (.inl ⟨v, hv⟩), ih post' hh2 (fun c hc => ht c (by simp [hc])) _ (List.getElem?_eq_getElem hlen), List.concat_eq_append,
        backs_append, turned_add]

/-- C121: a setting of a zenith has the value given last, to all zeniths, to the one with this index or to its node; a step was turned around by every
evolution backwards since. -/
theorem c121_given {d : Start} {k : Nat} {single : Bool} {pre post : List Call} {c : Call} {i : Nat} {w : What} {v : Rat} {l : List Node}
    (hr : Run d k single (pre ++ c :: post) l) (hg : c.Gives i w v) (ht : ∀ c' ∈ post, ¬c'.Touches i w) (hi : i < zeniths k (pre ++ c :: post)) :
    ∃ s, l[i]? = some s ∧ s.value w = turned w (backs i post) v := by
  rw [← run_length hr] at hi
  refine ⟨l[i], List.getElem?_eq_getElem hi, ?_⟩
  refine run_since (pre := pre ++ [c]) (v := v) ?_ hr post (by simp) ht _ (List.getElem?_eq_getElem hi)
  have hn : ∀ k single, c ≠ .read k single := by rintro k single rfl; rcases hg with h | h | h <;> simp at h
  intro l' hr' s hs
  generalize hq : pre ++ [c] = q at hr'
  cases hr' with
  | start => simp at hq
  | call c' hr0 hc =>
    rename_i h l0
    obtain ⟨rfl, hc'⟩ := List.append_inj' hq rfl
    cases hc'
    have hlen : i < l0.length := by
      have h1 := (List.getElem?_eq_some_iff.mp hs).1
      have e1 := run_length hr0
      have e2 := run_length (.call c hr0 hc)
      rw [zeniths_append] at e2
      have : zeniths (zeniths k pre) [c] = zeniths k pre := by
        cases c <;> first | rfl | exact absurd rfl (hn _ _)
      omega
    obtain ⟨s', h1, h2, _⟩ := step_value hc hn i _ (List.getElem?_eq_getElem hlen) w
    rw [h1] at hs
    cases hs
    exact h2 v hg

/-- Three zeniths; the bound of the second is changed by its index, that of the third through its node, and a step is turned. -/
example : ∃ l, Run ⟨⟨fun _ => 0, 0⟩, 5, 1000⟩ 3 false
    [.all .hMax 500, .one .hMax 20 1, .node 2 .hMax 30, .all .h 4, .evolve (fun i => i == 1), .node 7 .h 1] l ∧
    (l.map fun s => (s.value .hMax, s.value .h)) = [(500, 4), (20, -4), (30, 4)] :=
  ⟨_, .call (h := [_, _, _, _, _]) _ (.call (h := [_, _, _, _]) _ (.call (h := [_, _, _]) _ (.call (h := [_, _]) _ (.call (h := [_]) _
    (.call (h := []) _ .start (by decide)) (by decide)) (by decide)) (by decide)) (by decide)) (by decide), by decide +kernel⟩

/-- C121: settings that were never given are those of a new object: no bound on the step, one kilometre as its start with a single energy, and the values of
SQuIDS otherwise. -/
theorem c121_untouched {d : Start} {k : Nat} {single : Bool} {h : List Call} {l : List Node} (hr : Run d k single h l) {i : Nat} {w : What}
    (ht : ∀ c ∈ h, ¬c.Touches i w) (hi : i < zeniths k h) :
    ∃ s, l[i]? = some s ∧ s.value w = turned w (backs i h)
      (if w = .hMax then d.most else if w = .h ∧ single = true then d.km else d.squids.value w) := by
  rw [← run_length hr] at hi
  refine ⟨l[i], List.getElem?_eq_getElem hi, ?_⟩
  refine run_since (pre := []) ?_ hr h rfl ht _ (List.getElem?_eq_getElem hi)
  intro l' hr' s hs
  generalize hq : ([] : List Call) = q at hr'
  cases hr' with
  | call => simp at hq
  | start =>
    have := List.mem_of_getElem? hs
    rw [List.eq_of_mem_replicate this]
    unfold Start.node Node.put
    cases single <;> cases w <;> simp

example (d : Start) : Run d 2 true [] (List.replicate 2 (d.node true)) := .start

/-- C121: the method of every zenith is the one given last. -/
theorem c121_method {d : Start} {k : Nat} {single : Bool} {pre post : List Call} {m : Nat} {l : List Node}
    (hr : Run d k single (pre ++ .method m :: post) l) (ht : ∀ c ∈ post, (∀ m', c ≠ .method m') ∧ ∀ k single, c ≠ .read k single) :
    ∀ s ∈ l, s.method = m := by
  generalize hq : pre ++ .method m :: post = q at hr
  induction hr generalizing post with
  | start => simp at hq
  | call c hr hc ih =>
    rename_i h l
    rcases List.eq_nil_or_concat post with rfl | ⟨post', c', rfl⟩
    · obtain ⟨rfl, hc'⟩ := List.append_inj' hq rfl
      cases hc'
      intro s hs
      simp only [step, each_eq, List.mem_map] at hs
      obtain ⟨s0, _, rfl⟩ := hs
      rfl
    · rw [List.concat_eq_append, ← List.cons_append, ← List.append_assoc] at hq
      obtain ⟨hq2, hc'⟩ := List.append_inj' hq rfl
      cases hc'
      have ih := ih (post := post') (fun c hc => ht c (by simp [hc])) hq2
      obtain ⟨t1, t2⟩ := ht c (by simp)
      have hput : ∀ (j : Nat) (w : What) (v : Rat) (t : Node), l[j]? = some t → ∀ s ∈ l.set j (t.put w v), s.method = m := by
        intro j w v t hj s hs
        rcases List.mem_or_eq_of_mem_set hs with hs | rfl
        · exact ih s hs
        · exact ih t (List.mem_of_getElem? hj)
      cases c with
      | all w v =>
        intro s hs
        simp only [step, each_eq, List.mem_map] at hs
        obtain ⟨s0, h0, rfl⟩ := hs
        exact ih s0 h0
      | one w v j =>
        simp only [step] at hc ⊢
        cases hj : l[j]? with
        | none => rw [hj] at hc; exact absurd rfl hc
        | some t => exact hput j w v t hj
      | node j w v =>
        simp only [step]
        split
        · exact ih
        · split
          · rename_i t hj
            exact hput j w v t hj
          · exact ih
      | method m' => exact absurd rfl (t1 m')
      | evolve b =>
        intro s hs
        obtain ⟨j, hj⟩ := List.mem_iff_getElem?.mp hs
        rw [show (step d l (.evolve b)).1 = flip b 0 l from rfl, flip_get, Option.map_eq_some_iff] at hj
        obtain ⟨s0, h0, rfl⟩ := hj
        have := ih s0 (List.mem_of_getElem? h0)
        split
        · exact this
        · exact this
      | read k single => exact absurd rfl (t2 k single)

example (d : Start) : Run d 2 false [.method 3] (each (fun s => { s with method := 3 }) (List.replicate 2 (d.node false))) :=
  .call (h := []) (.method 3) .start (by simp [step])

/-- C121: through `GetnuSQuIDS` a zenith that does not exist is refused and nothing changes; the overloads with an index are undefined then. -/
theorem c121_refused_violated {d : Start} {k : Nat} {single : Bool} {h : List Call} {l : List Node} (hr : Run d k single h l) (i : Nat) (w : What) (v : Rat) :
    ((step d l (.node i w v)).2 = .throws ↔ zeniths k h ≤ i) ∧ (zeniths k h ≤ i → (step d l (.node i w v)).1 = l) ∧
    ((step d l (.one w v i)).2 = .ub ↔ zeniths k h ≤ i) := by
  rw [← run_length hr]
  have e (h : i < l.length) : l[i]? = some l[i] := List.getElem?_eq_getElem h
  refine ⟨?_, ?_, ?_⟩
  · simp only [step]
    by_cases hi : i ≥ l.length
    · simp [hi]
    · rw [if_neg hi, e (by omega)]
      simp only [reduceCtorEq, false_iff]
      omega
  · intro hi
    simp only [step]
    rw [if_pos hi]
  · simp only [step]
    by_cases hi : l.length ≤ i
    · rw [List.getElem?_eq_none hi]; simp [hi]
    · rw [e (by omega)]
      simp only [reduceCtorEq, false_iff]
      omega

/-- The index is said to be one of energies: the fourth of ten energies is undefined in an object of two zeniths. -/
example (d : Start) : (step d (List.replicate 2 (d.node false)) (.one .hMax 100 3)).2 = .ub := rfl

/-- C121, disagreement: a state file does not carry the settings. Whatever was given to an object, after reading a file, its own among them, it has those of a
new object. -/
theorem c121_file_violated {d : Start} {k : Nat} {single : Bool} {h : List Call} {l : List Node} (hr : Run d k single h l) (k' : Nat) (single' : Bool) :
    Run d k single (h ++ [.read k' single']) (List.replicate k' (d.node single')) :=
  .call (.read k' single') hr (by simp [step])

example : ∃ (l l' : List Node), Run ⟨⟨fun _ => 0, 0⟩, 5, 1000⟩ 2 false [.all .rel 7] l ∧ (l.map fun s => s.value .rel) = [7, 7] ∧
    Run ⟨⟨fun _ => 0, 0⟩, 5, 1000⟩ 2 false [.all .rel 7, .read 2 false] l' ∧ (l'.map fun s => s.value .rel) = [0, 0] :=
  ⟨_, _, .call (h := []) (.all .rel 7) .start (by decide), by decide +kernel,
    c121_file_violated (.call (h := []) (.all .rel 7) .start (by decide)) 2 false, by decide +kernel⟩

end Verif.Atm.Integ
