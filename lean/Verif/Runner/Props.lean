import Verif.Runner.Model

/-!
# C126: what the test script reports

The claim: the report has one entry for each test, in order, that says `Pass` exactly if the test succeeded, with what the test had to say below it; the
numbers in the last line count the entries; a failure shows in the exit status, so that `make test` fails.
-/

namespace Verif.Runner

/-! ## Specification -/

/-- A test with reference output succeeds if it compiles, runs and prints the reference; one that must not compile if the compiler reports the
required error and the test without the offending code compiles and runs. -/
inductive Succeeds : Test → Prop
  | ordinary (name : Line) (out messages : Text) : Succeeds ⟨name, some out, .ordinary true messages true out⟩
  | mustFail (name : Line) (ref said : Text) (found : Nat) : Succeeds ⟨name, some ref, .mustFail (found + 1) true said⟩

/-- The test is found in the list of expected failures. -/
def Listed (expected : Option Text) (name : Line) : Prop := ∃ lines, expected = some lines ∧ ∃ l ∈ lines, name <:+: l

/-- What a verdict has to say about a test. -/
structure Judged (expected : Option Text) (t : Test) (v : Verdict) : Prop where
  pass : v = .pass ↔ Succeeds t
  missing : v = .notRun ↔ t.reference = none
  excused : v = .excused ↔ t.reference ≠ none ∧ ¬Succeeds t ∧ Listed expected t.name

/-- A line reads as the name of a test, a colon in the given column and what belongs to the verdict. -/
def Reads (column : Nat) (name : Line) (v : Verdict) (l : Line) : Prop :=
  ∃ blanks words : Line, l = name ++ blanks ++ [' ', ':', ' '] ++ words ∧ (∀ c ∈ blanks, c = ' ') ∧ (name ++ blanks).length = column ∧
    (v = .pass ↔ words = ['P', 'a', 's', 's']) ∧ (v = .notRun ↔ ['N', 'O', 'T', ' ', 'R', 'U', 'N'] <+: words) ∧
    (v ≠ .pass ∧ v ≠ .notRun ↔ ['F', 'A', 'I', 'L'] <+: words) ∧ (v = .excused ↔ ['(', 'E', 'x', 'p', 'e', 'c', 't', 'e', 'd', ')'] <:+ words)

/-- What a test with a reference leaves in the report: messages of the compiler, the difference to the reference, the number of errors found
(none), or what the cleaned test says. -/
def complaint (diff : Text → Text → Text) (ref : Text) : Kind → Text
  | .ordinary false messages _ _ => messages
  | .ordinary true _ _ printed => diff ref printed
  | .mustFail 0 _ _ => [['0']]
  | .mustFail (_ + 1) _ said => said

/-- No line can be taken for an entry. -/
def Quiet (x : Text) : Prop := ∀ l ∈ x, ∀ lab ∈ [passLabel, failLabel, expectedFailLabel, missingLabel], ¬(':' :: ' ' :: lab) <:+: l

/-! ## Lemmas -/

/-- A text without a character lies on one side of it. -/
theorem infix_split {p a b : Line} {c : Char} (hc : c ∉ p) : p <:+: a ++ c :: b ↔ p <:+: a ∨ p <:+: b := by
  constructor
  · rintro ⟨s, t, h⟩
    rcases List.append_eq_append_iff.1 h with ⟨a', h1, h2⟩ | ⟨c', h1, h2⟩
    · exact Or.inl ⟨s, a', h1.symm⟩
    · cases c' with
      | nil => exact Or.inl ⟨s, [], by simpa using h1⟩
      | cons d c'' =>
        obtain ⟨rfl, rfl⟩ := List.cons.inj (h2 : c :: b = d :: (c'' ++ t))
        rcases List.append_eq_append_iff.1 h1 with ⟨a', h3, h4⟩ | ⟨x, h3, h4⟩
        · exact absurd (h4 ▸ List.mem_append_right a' List.mem_cons_self) hc
        · cases x with
          | nil => exact absurd ((show c :: c'' = p from h4) ▸ List.mem_cons_self) hc
          | cons d x' =>
            obtain ⟨rfl, rfl⟩ := List.cons.inj (h4 : c :: c'' = d :: (x' ++ p))
            exact Or.inr ⟨x', t, rfl⟩
  · rintro (⟨s, t, rfl⟩ | ⟨s, t, rfl⟩)
    · exact ⟨s, t ++ c :: b, by simp⟩
    · exact ⟨a ++ c :: s, t, by simp⟩

/-- A text that begins with the only colon of a line. -/
theorem infix_colon {p a b : Line} {c : Char} (ha : c ∉ a) (hb : c ∉ b) : c :: p <:+: a ++ c :: b ↔ p <+: b := by
  constructor
  · rintro ⟨s, t, h⟩
    rw [List.append_assoc] at h
    rcases List.append_eq_append_iff.1 h with ⟨a', h1, h2⟩ | ⟨c', h1, h2⟩
    · cases a' with
      | nil => exact ⟨t, (List.cons.inj (h2 : c :: (p ++ t) = c :: b)).2⟩
      | cons d a'' =>
        obtain ⟨rfl, _⟩ := List.cons.inj (h2 : c :: (p ++ t) = d :: (a'' ++ c :: b))
        exact absurd (h1 ▸ List.mem_append_right s List.mem_cons_self) ha
    · cases c' with
      | nil => exact ⟨t, (List.cons.inj (h2 : c :: b = c :: (p ++ t))).2.symm⟩
      | cons d c'' =>
        obtain ⟨_, h3⟩ := List.cons.inj (h2 : c :: b = d :: (c'' ++ (c :: p ++ t)))
        exact absurd (h3 ▸ List.mem_append_right c'' List.mem_cons_self) hb
  · rintro ⟨t, rfl⟩
    exact ⟨a, t, by simp⟩

theorem infix_spaces {p : Line} (hp : p ≠ []) (hs : ' ' ∉ p) (k : Nat) : ¬p <:+: List.replicate k ' ' := by
  rintro ⟨s, t, h⟩
  obtain ⟨c, hc⟩ := List.exists_mem_of_ne_nil p hp
  have : c ∈ List.replicate k ' ' := h ▸ List.mem_append_left t (List.mem_append_right s hc)
  exact hs ((List.mem_replicate.1 this).2 ▸ hc)

theorem infix_padded {p a : Line} (hp : p ≠ []) (hs : ' ' ∉ p) (k : Nat) : p <:+: a ++ List.replicate k ' ' ↔ p <:+: a := by
  cases k with
  | zero => simp
  | succ k =>
    rw [List.replicate_succ, infix_split hs]
    exact or_iff_left (infix_spaces hp hs k)

/-- The failures among the verdicts of `judge`. -/
def isFailure : Verdict → Bool
  | .pass | .notRun => false
  | _ => true

theorem label_failure (v : Verdict) : grep failLabel (label v) = isFailure v := by cases v <;> decide +kernel

theorem label_colon (v : Verdict) : ':' ∉ label v := by cases v <;> decide +kernel

theorem entry_failure (w : Nat) {name : Line} (hn : ¬failLabel <:+: name) (v : Verdict) : grep failLabel (entry w name v) = isFailure v := by
  rw [← label_failure v]
  unfold grep entry
  refine decide_eq_decide.2 ?_
  rw [infix_split (by decide), infix_padded (by decide) (by decide), ← List.nil_append (':' :: ' ' :: label v), infix_split (by decide),
    ← List.nil_append (' ' :: label v), infix_split (by decide)]
  have h0 : ¬failLabel <:+: ([] : Line) := by decide
  simp only [hn, h0, false_or]

theorem entry_label (w : Nat) {name : Line} (hn : ':' ∉ name) (v : Verdict) (lab : Line) :
    grep (':' :: ' ' :: lab) (entry w name v) = decide (lab <+: label v) := by
  unfold grep entry
  refine decide_eq_decide.2 ?_
  have e : name ++ List.replicate (w - name.length) ' ' ++ ' ' :: ':' :: ' ' :: label v =
      (name ++ List.replicate (w - name.length) ' ' ++ [' ']) ++ ':' :: (' ' :: label v) := by simp
  rw [e, infix_colon]
  · exact List.cons_prefix_cons.trans (and_iff_right rfl)
  · intro h
    simp only [List.mem_append, List.mem_replicate, List.mem_cons, List.not_mem_nil, or_false] at h
    rcases h with (h | h) | h
    · exact hn h
    · exact absurd h.2 (by decide)
    · exact absurd h (by decide)
  · intro h
    rcases List.mem_cons.1 h with h | h
    · exact absurd h (by decide)
    · exact label_colon v h

theorem isExpected_iff (expected : Option Text) (name : Line) : isExpected expected name = true ↔ Listed expected name := by
  unfold isExpected Listed
  cases expected with
  | none => simp
  | some lines => simp [grep]

/-- The verdict in the report. -/
def final (diff : Text → Text → Text) (expected : Option Text) (t : Test) : Verdict :=
  if isExpected expected t.name && isFailure (judge diff t).1 then .excused else (judge diff t).1

theorem judge_pass {diff : Text → Text → Text} (hd : ∀ a b, diff a b = [] ↔ a = b) (t : Test) : (judge diff t).1 = .pass ↔ Succeeds t := by
  obtain ⟨name, ref, kind⟩ := t
  cases ref with
  | none => simp only [judge, reduceCtorEq, false_iff]; nofun
  | some ref =>
    cases kind with
    | ordinary compiled messages ran printed =>
      cases compiled
      · simp only [judge, Bool.not_false, if_true, reduceCtorEq, false_iff]; nofun
      cases ran
      · simp only [judge, Bool.not_true, Bool.not_false, Bool.false_eq_true, if_false, if_true, reduceCtorEq, false_iff]; nofun
      simp only [judge, Bool.not_true, Bool.false_eq_true, if_false]
      by_cases h : ref = printed
      · subst h
        rw [if_neg (by simp [hd])]
        exact ⟨fun _ => .ordinary _ _ _, fun _ => rfl⟩
      · rw [if_pos (by simpa [hd] using h)]
        simp only [reduceCtorEq, false_iff]
        intro hs
        cases hs
        exact h rfl
    | mustFail found cleaned said =>
      cases found with
      | zero => simp only [judge, if_true, reduceCtorEq, false_iff]; nofun
      | succ found =>
        cases cleaned
        · simp only [judge, Nat.succ_ne_zero, if_false, Bool.false_eq_true, reduceCtorEq, false_iff]; nofun
        · simp only [judge, Nat.succ_ne_zero, if_false, if_true, true_iff]
          exact .mustFail _ _ _ _

theorem judge_missing (diff : Text → Text → Text) (t : Test) : (judge diff t).1 = .notRun ↔ t.reference = none := by
  obtain ⟨name, ref, kind⟩ := t
  cases ref with
  | none => simp [judge]
  | some ref =>
    cases kind with
    | ordinary compiled messages ran printed => simp only [judge]; (repeat' split) <;> simp
    | mustFail found cleaned said => simp only [judge]; (repeat' split) <;> simp

theorem judge_excused (diff : Text → Text → Text) (t : Test) : (judge diff t).1 ≠ .excused := by
  obtain ⟨name, ref, kind⟩ := t
  cases ref with
  | none => simp [judge]
  | some ref =>
    cases kind with
    | ordinary compiled messages ran printed => simp only [judge]; (repeat' split) <;> simp
    | mustFail found cleaned said => simp only [judge]; (repeat' split) <;> simp

theorem final_judged {diff : Text → Text → Text} (hd : ∀ a b, diff a b = [] ↔ a = b) (expected : Option Text) (t : Test) :
    Judged expected t (final diff expected t) := by
  have hp := judge_pass hd t
  have hm := judge_missing diff t
  have hx := judge_excused diff t
  have hl := isExpected_iff expected t.name
  unfold final
  generalize (judge diff t).1 = v at *
  generalize isExpected expected t.name = b at *
  have hf : isFailure v = true ↔ ¬Succeeds t ∧ t.reference ≠ none := by
    rw [← hp, Ne, ← hm]
    cases v <;> simp [isFailure]
  by_cases h : (b && isFailure v) = true
  · rw [if_pos h]
    rw [Bool.and_eq_true] at h
    have h2 := hf.1 h.2
    exact ⟨by simp [h2.1], by simp [h2.2], by simp [h2.1, h2.2, hl.1 h.1]⟩
  · rw [if_neg h]
    refine ⟨hp, hm, ?_⟩
    simp only [hx, false_iff]
    rintro ⟨h1, h2, h3⟩
    exact h (by rw [Bool.and_eq_true]; exact ⟨hl.2 h3, hf.2 ⟨h2, h1⟩⟩)

theorem step_eq (diff : Text → Text → Text) (expected : Option Text) (w : Nat) (s : State) (t : Test) (hn : ¬failLabel <:+: t.name) :
    step diff expected w s t =
      { report := s.report ++ entry w t.name (final diff expected t) ::
          (if (judge diff t).2.getD s.result ≠ [] ∧ isExpected expected t.name = false then (judge diff t).2.getD s.result else [])
        result := (judge diff t).2.getD s.result } := by
  unfold step final
  simp only [entry_failure w hn]

/-- The entries with the lines below them. -/
def blocks (diff : Text → Text → Text) (expected : Option Text) (w : Nat) (tests : List Test) (texts : List Text) : Text :=
  (List.zipWith (fun t x => entry w t.name (final diff expected t) :: x) tests texts).flatten

theorem fold_blocks (diff : Text → Text → Text) (expected : Option Text) (w : Nat) (P : Line → Prop) (tests : List Test)
    (hn : ∀ t ∈ tests, ¬failLabel <:+: t.name) (hP : ∀ t ∈ tests, ∀ x, (judge diff t).2 = some x → ∀ l ∈ x, P l) (s : State) (hs : ∀ l ∈ s.result, P l) :
    ∃ texts : List Text, texts.length = tests.length ∧ (∀ x ∈ texts, ∀ l ∈ x, P l) ∧
      (tests.foldl (step diff expected w) s).report = s.report ++ blocks diff expected w tests texts := by
  induction tests generalizing s with
  | nil => exact ⟨[], rfl, nofun, by simp [blocks]⟩
  | cons t tests ih =>
    rw [List.foldl_cons, step_eq diff expected w s t (hn t List.mem_cons_self)]
    have hr : ∀ l ∈ (judge diff t).2.getD s.result, P l := by
      cases h : (judge diff t).2 with
      | none => exact hs
      | some x => exact hP t List.mem_cons_self x h
    obtain ⟨texts, h1, h2, h3⟩ := ih (fun t ht => hn t (List.mem_cons_of_mem _ ht)) (fun t ht => hP t (List.mem_cons_of_mem _ ht))
      ⟨s.report ++ entry w t.name (final diff expected t) ::
        (if (judge diff t).2.getD s.result ≠ [] ∧ isExpected expected t.name = false then (judge diff t).2.getD s.result else []),
        (judge diff t).2.getD s.result⟩ hr
    rw [h3]
    refine ⟨(if (judge diff t).2.getD s.result ≠ [] ∧ isExpected expected t.name = false then (judge diff t).2.getD s.result else []) :: texts,
      by simp [h1], ?_, by simp only [blocks, List.zipWith_cons_cons, List.flatten_cons, List.append_assoc, List.cons_append]⟩
    intro x hx
    rcases List.mem_cons.1 hx with rfl | hx
    · split
      · exact hr
      · exact nofun
    · exact h2 x hx

theorem blocks_count (diff : Text → Text → Text) (expected : Option Text) (w : Nat) {lab : Line} (tests : List Test)
    (hn : ∀ t ∈ tests, ':' ∉ t.name) (texts : List Text) (hl : texts.length = tests.length) (hq : ∀ x ∈ texts, ∀ l ∈ x, ¬(':' :: ' ' :: lab) <:+: l) :
    count (blocks diff expected w tests texts) lab = tests.countP fun t => decide (lab <+: label (final diff expected t)) := by
  induction tests generalizing texts with
  | nil => cases texts with
    | nil => rfl
    | cons x texts => cases hl
  | cons t tests ih =>
    cases texts with
    | nil => cases hl
    | cons x texts =>
      have hz : List.countP (grep (':' :: ' ' :: lab)) x = 0 := by
        rw [List.countP_eq_zero]
        intro l h
        simpa [grep] using hq x List.mem_cons_self l h
      have hrec := ih (fun t ht => hn t (List.mem_cons_of_mem _ ht)) texts (Nat.succ.inj hl) fun x hx => hq x (List.mem_cons_of_mem _ hx)
      unfold count at hrec ⊢
      rw [blocks, List.zipWith_cons_cons, List.flatten_cons, List.cons_append, List.countP_cons, List.countP_append, hz, Nat.zero_add,
        entry_label w (hn t List.mem_cons_self), List.countP_cons]
      exact congrArg (· + _) hrec

theorem judge_text {diff : Text → Text → Text} (hd : ∀ a b, diff a b = [] ↔ a = b) (t : Test) :
    (judge diff t).2 = t.reference.map fun ref => complaint diff ref t.kind := by
  obtain ⟨name, ref, kind⟩ := t
  cases ref with
  | none => rfl
  | some ref =>
    cases kind with
    | ordinary compiled messages ran printed =>
      cases compiled
      · rfl
      cases ran
      · rfl
      by_cases h : ref = printed
      · subst h
        have : diff ref ref = [] := (hd _ _).2 rfl
        simp [judge, complaint, this]
      · have : diff ref printed ≠ [] := fun h' => h ((hd _ _).1 h')
        simp [judge, complaint, this]
    | mustFail found cleaned said =>
      cases found with
      | zero => rfl
      | succ found => cases cleaned <;> simp [judge, complaint]

theorem longest_le (tests : List Test) : ∀ t ∈ tests, t.name.length ≤ longest tests := by
  suffices h : ∀ (l : List Test) (w : Nat), (∀ t ∈ l, t.name.length ≤ l.foldl (fun w t => if t.name.length > w then t.name.length else w) w) ∧
      w ≤ l.foldl (fun w t => if t.name.length > w then t.name.length else w) w from (h tests 0).1
  intro l
  induction l with
  | nil => exact fun w => ⟨nofun, Nat.le_refl _⟩
  | cons t l ih =>
    intro w
    rw [List.foldl_cons]
    obtain ⟨h1, h2⟩ := ih (if t.name.length > w then t.name.length else w)
    have h3 : t.name.length ≤ (if t.name.length > w then t.name.length else w) ∧ w ≤ (if t.name.length > w then t.name.length else w) := by
      split <;> omega
    refine ⟨fun u hu => ?_, Nat.le_trans h3.2 h2⟩
    rcases List.mem_cons.1 hu with rfl | hu
    · exact Nat.le_trans h3.1 h2
    · exact h1 u hu

theorem entry_reads {w : Nat} {name : Line} (h : name.length ≤ w) (v : Verdict) : Reads w name v (entry w name v) := by
  refine ⟨List.replicate (w - name.length) ' ', label v, by simp [entry], fun c hc => (List.mem_replicate.1 hc).2,
    by rw [List.length_append, List.length_replicate]; omega, ?_⟩
  cases v <;> decide +kernel

/-! ## Properties -/

/-- C126: the report has one entry for each test, in order, that says whether it succeeded. -/
theorem c126_entries (diff : Text → Text → Text) (hd : ∀ a b, diff a b = [] ↔ a = b) (expected : Option Text) (tests : List Test)
    (hn : ∀ t ∈ tests, ¬failLabel <:+: t.name) :
    ∃ (v : Test → Verdict) (line : Test → Line) (column : Nat), (∀ t ∈ tests, Judged expected t (v t) ∧ Reads column t.name (v t) (line t)) ∧
      ∃ texts : List Text, texts.length = tests.length ∧
        run diff expected tests = (List.zipWith (fun t x => line t :: x) tests texts).flatten := by
  obtain ⟨texts, h1, _, h3⟩ := fold_blocks diff expected (longest tests) (fun _ => True) tests hn (fun _ _ _ _ _ _ => trivial) ⟨[], []⟩ (fun _ _ => trivial)
  exact ⟨final diff expected, fun t => entry (longest tests) t.name (final diff expected t), longest tests,
    fun t ht => ⟨final_judged hd expected t, entry_reads (longest_le tests t ht) _⟩, texts, h1, h3⟩

/-- C126, partial: if all references are there, below an entry stands what that test has to say, unless its failure was expected. Missing: tests
without reference (`c126_stale_violated`). -/
theorem c126_report_partial (diff : Text → Text → Text) (hd : ∀ a b, diff a b = [] ↔ a = b) (expected : Option Text) (tests : List Test)
    (hn : ∀ t ∈ tests, ¬failLabel <:+: t.name) (ref : Test → Text) (hr : ∀ t ∈ tests, t.reference = some (ref t)) :
    ∃ (v : Test → Verdict) (line : Test → Line) (column : Nat) (x : Test → Text),
      (∀ t ∈ tests, Judged expected t (v t) ∧ Reads column t.name (v t) (line t)) ∧
      (∀ t ∈ tests, (Listed expected t.name → x t = []) ∧ (¬Listed expected t.name → x t = complaint diff (ref t) t.kind)) ∧
      run diff expected tests = tests.flatMap fun t => line t :: x t := by
  refine ⟨final diff expected, fun t => entry (longest tests) t.name (final diff expected t), longest tests,
    fun t => if isExpected expected t.name then [] else complaint diff (ref t) t.kind,
    fun t ht => ⟨final_judged hd expected t, entry_reads (longest_le tests t ht) _⟩, fun t _ => ?_, ?_⟩
  · rw [← isExpected_iff]
    exact ⟨fun h => if_pos h, fun h => if_neg h⟩
  · unfold run
    suffices h : ∀ w s, (tests.foldl (step diff expected w) s).report = s.report ++ tests.flatMap fun t =>
        entry w t.name (final diff expected t) :: if isExpected expected t.name then [] else complaint diff (ref t) t.kind from h _ _
    intro w s
    induction tests generalizing s with
    | nil => simp
    | cons t tests ih =>
      rw [List.foldl_cons, ih (fun t ht => hn t (List.mem_cons_of_mem _ ht)) (fun t ht => hr t (List.mem_cons_of_mem _ ht)),
        step_eq diff expected w s t (hn t List.mem_cons_self), judge_text hd, hr t List.mem_cons_self, List.flatMap_cons]
      simp only [Option.map_some, Option.getD_some, List.append_assoc, List.cons_append]
      congr 3
      cases isExpected expected t.name
      · by_cases h : complaint diff (ref t) t.kind = [] <;> simp [h]
      · simp

/-- C126, partial: the numbers count the entries if nothing a test says looks like one. Missing: tests that say such things
(`c126_statistics_violated`). -/
theorem c126_statistics_partial (diff : Text → Text → Text) (hd : ∀ a b, diff a b = [] ↔ a = b) (expected : Option Text) (tests : List Test)
    (h0 : tests ≠ []) (hn : ∀ t ∈ tests, ¬failLabel <:+: t.name ∧ ':' ∉ t.name)
    (hq : ∀ t ∈ tests, ∀ ref, t.reference = some ref → Quiet (complaint diff ref t.kind)) :
    ∃ v : Test → Verdict, (∀ t ∈ tests, Judged expected t (v t)) ∧ statistics (run diff expected tests) tests =
      { tests := tests.length
        pass := tests.countP fun t => v t = .pass
        fail := tests.countP fun t => v t ≠ .pass ∧ v t ≠ .notRun
        expectedFail := tests.countP fun t => v t = .excused
        notRun := tests.countP fun t => v t = .notRun } := by
  refine ⟨final diff expected, fun t _ => final_judged hd expected t, ?_⟩
  obtain ⟨texts, h1, h2, h3⟩ := fold_blocks diff expected (longest tests)
    (fun l => ∀ lab ∈ [passLabel, failLabel, expectedFailLabel, missingLabel], ¬(':' :: ' ' :: lab) <:+: l) tests (fun t ht => (hn t ht).1) (by
      intro t ht x hx
      rw [judge_text hd] at hx
      cases hr : t.reference with
      | none => rw [hr] at hx; cases hx
      | some ref =>
        rw [hr] at hx
        obtain rfl := Option.some.inj hx
        exact hq t ht ref hr) ⟨[], []⟩ nofun
  have hc : ∀ lab ∈ [passLabel, failLabel, expectedFailLabel, missingLabel],
      count (run diff expected tests) lab = tests.countP fun t => decide (lab <+: label (final diff expected t)) := by
    intro lab hl
    rw [run, h3]
    exact blocks_count diff expected _ tests (fun t ht => (hn t ht).2) texts h1 fun x hx l hlx => h2 x hx l hlx lab hl
  have k1 : ∀ v, decide (passLabel <+: label v) = decide (v = .pass) := fun v => by cases v <;> decide +kernel
  have k2 : ∀ v, decide (failLabel <+: label v) = decide (v ≠ .pass ∧ v ≠ .notRun) := fun v => by cases v <;> decide +kernel
  have k3 : ∀ v, decide (expectedFailLabel <+: label v) = decide (v = .excused) := fun v => by cases v <;> decide +kernel
  have k4 : ∀ v, decide (missingLabel <+: label v) = decide (v = .notRun) := fun v => by cases v <;> decide +kernel
  unfold statistics
  rw [hc _ (by simp), hc _ (by simp), hc _ (by simp), hc _ (by simp), if_neg (by simpa using h0)]
  simp only [k1, k2, k3, k4]

/-! ## Instances and violations -/

/-- A `diff` that prints the new text. -/
def show_ (a b : Text) : Text := if a = b then [] else ['@'] :: b

theorem show_iff (a b : Text) : show_ a b = [] ↔ a = b := by
  unfold show_
  split <;> simp_all

def good : Test := ⟨['a'], some [['1']], .ordinary true [] true [['1']]⟩
def bad : Test := ⟨['b', 'b'], some [['1']], .ordinary true [] true [['2']]⟩
def broken : Test := ⟨['c'], some [], .ordinary false [['?']] false []⟩
def lost : Test := ⟨['d'], none, .ordinary true [] true [['3']]⟩

/-- Four tests, one of which fails as expected, meet the hypotheses of the statistics. -/
example : (∀ t ∈ [good, bad, broken, lost], ¬failLabel <:+: t.name ∧ ':' ∉ t.name) ∧
    (∀ t ∈ [good, bad, broken, lost], ∀ ref, t.reference = some ref → Quiet (complaint show_ ref t.kind)) ∧
    statistics (run show_ (some [['b', 'b']]) [good, bad, broken, lost]) [good, bad, broken, lost] = ⟨4, 1, 2, 1, 1⟩ := by
  refine ⟨by decide, ?_, by decide +kernel⟩
  intro t ht ref hr l hl lab hlab
  have hlen : l.length ≤ 1 := by
    simp only [List.mem_cons, List.not_mem_nil, or_false] at ht
    rcases ht with rfl | rfl | rfl | rfl <;> cases hr <;> revert l <;> decide
  intro h
  have := h.length_le
  simp only [List.length_cons] at this
  omega

/-- Those with references meet the hypotheses of the report; the last fails and says so below its entry. -/
example : (∀ t ∈ [good, bad, broken], ¬failLabel <:+: t.name) ∧ (∀ t ∈ [good, bad, broken], t.reference = some (t.reference.getD [])) ∧
    run show_ none [good, bad, broken] =
      [entry 2 ['a'] .pass, entry 2 ['b', 'b'] .differs, ['@'], ['2'], entry 2 ['c'] .notCompiled, ['?']] := by decide +kernel

/-- Below the entry of a test that was not run stands what the test before it had to say. -/
theorem c126_stale_violated : ∃ tests : List Test, (∀ t ∈ tests, ¬failLabel <:+: t.name) ∧
    run show_ none tests = [entry 1 ['c'] .notCompiled, ['?'], entry 1 ['d'] .notRun, ['?']] :=
  ⟨[broken, lost], by decide, by decide +kernel⟩

/-- One test that fails, but both a success and a failure are counted, because the test prints what looks like an entry. -/
theorem c126_statistics_violated : ∃ t : Test, ¬Succeeds t ∧ t.reference ≠ none ∧ ':' ∉ t.name ∧
    statistics (run show_ none [t]) [t] = ⟨1, 1, 1, 0, 0⟩ :=
  ⟨⟨['a'], some [], .ordinary true [] true [[':', ' ', 'P', 'a', 's', 's']]⟩, nofun, by decide, by decide, by decide +kernel⟩

/-- A failure is excused because the name is part of the name of another test. -/
theorem c126_listed_violated : ∃ (t : Test) (other : Line), other ≠ t.name ∧ ¬Succeeds t ∧
    run show_ (some [other]) [t] = [entry t.name.length t.name .excused] :=
  ⟨broken, ['c', '2'], by decide, nofun, by decide +kernel⟩

/-- Without tests the script says that there is one. -/
theorem c126_none_violated (diff : Text → Text → Text) (expected : Option Text) : statistics (run diff expected []) [] = ⟨1, 0, 0, 0, 0⟩ := rfl

/-- The script succeeds although a test fails. -/
theorem c126_status_violated : ∃ tests : List Test, (∃ t ∈ tests, t.reference ≠ none ∧ ¬Succeeds t) ∧
    (statistics (run show_ none tests) tests).fail = 1 ∧ exitStatus (statistics (run show_ none tests) tests) = 0 :=
  ⟨[good, bad], ⟨bad, by simp, by decide, nofun⟩, by decide +kernel, rfl⟩

end Verif.Runner
