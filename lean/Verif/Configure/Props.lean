import Verif.Configure.Lemmas

/-!
# The script `configure` (C129)
-/

namespace Verif.Configure

/-- C129: after any options of the help text every variable has the value last given to it, directly or through the package, or the one before. -/
theorem c129_options (s : Vars) (l : List Opt) (h : ∀ o ∈ l, o.valid) : ∃ s', readOptions s (l.map Opt.render) = .inl s' ∧
    (∀ k, s'.value k = final l k (s.value k)) ∧ (s'.bindings = true ↔ s.bindings = true ∨ .bindings ∈ l) := by
  refine ⟨l.foldl Opt.apply s, ?_, fold_value s l, ?_⟩
  · have := read_append s l h []
    rwa [List.append_nil] at this
  · rw [fold_bindings]
    simp

/-- A later directory of headers replaces the one of the package, the directory of the library stays. -/
example : (∀ o ∈ [Opt.both .gsl ['/', 'g'], .one .gslInc ['/', 'h']], o.valid) ∧
    final [Opt.both .gsl ['/', 'g'], .one .gslInc ['/', 'h']] .gslInc [] = ['/', 'h'] ∧
    final [Opt.both .gsl ['/', 'g'], .one .gslInc ['/', 'h']] .gslLib [] = ['/', 'g', '/', 'l', 'i', 'b'] := by
  simp [Opt.valid, final, Opt.gives, includeOf, libraryOf]

/-- C129: `--help` or `-h` after such options ends the script with success. -/
theorem c129_help (s : Vars) (l : List Opt) (h : ∀ o ∈ l, o.valid) (v : List Char) (hv : v = "--help".toList ∨ v = "-h".toList)
    (rest : List (List Char)) : readOptions s (l.map Opt.render ++ v :: rest) = .inr 0 := by
  rw [read_append s l h]
  have : readOption (l.foldl Opt.apply s) v = .help := by
    unfold readOption
    rw [if_pos]
    simpa [helpLong, helpShort] using hv
  simp only [readOptions, this]

example : ['-', 'h'] = "--help".toList ∨ ['-', 'h'] = "-h".toList := by simp

/-- C129, partial: anything else ends it with an error, and nothing is configured. Missing: arguments that begin like the option for the bindings
(`c129_bindings_violated`). -/
theorem c129_refuses_partial (s : Vars) (l : List Opt) (h : ∀ o ∈ l, o.valid) (v : List Char) (hh : v ≠ "--help".toList ∧ v ≠ "-h".toList)
    (ho : ∀ o : Opt, o.valid → v ≠ o.render) (hb : ¬"--with-python-bindings".toList <+: v) (rest : List (List Char)) :
    readOptions s (l.map Opt.render ++ v :: rest) = .inr 1 := by
  rw [read_append s l h]
  have key : ∀ k : Key, ¬after (textOf k) v ≠ [] := fun k hne =>
    ho (.one k (after (textOf k) v)) hne (by show v = (written k).toList ++ _; rw [written_eq]; exact after_ne hne)
  have key2 : ∀ p : Package, ¬after (textBoth p) v ≠ [] := fun p hne =>
    ho (.both p (after (textBoth p) v)) hne (by show v = (writtenBoth p).toList ++ _; rw [writtenBoth_eq]; exact after_ne hne)
  have hb' : ¬bindingsText.isPrefixOf v = true := by
    rw [List.isPrefixOf_iff_prefix, ← bindings_eq]
    exact hb
  have : readOption (l.foldl Opt.apply s) v = .refuse := by
    unfold readOption
    have h0 : ¬(v = helpLong ∨ v = helpShort) := by simpa [helpLong, helpShort] using hh
    rw [if_neg h0]
    rw [if_neg (show ¬after textPrefix v ≠ [] from key .prefixDir)]
    rw [if_neg (show ¬after textLibdir v ≠ [] from key .libdir)]
    rw [if_neg (show ¬after textWithGsl v ≠ [] from key2 .gsl)]
    rw [if_neg (show ¬after textWithGslIncdir v ≠ [] from key .gslInc)]
    rw [if_neg (show ¬after textWithGslLibdir v ≠ [] from key .gslLib)]
    rw [if_neg (show ¬after textWithHdf5 v ≠ [] from key2 .hdf5)]
    rw [if_neg (show ¬after textWithHdf5Incdir v ≠ [] from key .hdf5Inc)]
    rw [if_neg (show ¬after textWithHdf5Libdir v ≠ [] from key .hdf5Lib)]
    rw [if_neg (show ¬after textWithSquids v ≠ [] from key2 .squids)]
    rw [if_neg (show ¬after textWithSquidsIncdir v ≠ [] from key .squidsInc)]
    rw [if_neg (show ¬after textWithSquidsLibdir v ≠ [] from key .squidsLib)]
    rw [if_neg hb']
    rw [if_neg (show ¬after textWithBoost v ≠ [] from key2 .boost)]
    rw [if_neg (show ¬after textWithBoostLibdir v ≠ [] from key .boostLib)]
    rw [if_neg (show ¬after textWithBoostIncdir v ≠ [] from key .boostInc)]
    rw [if_neg (show ¬after textPythonBin v ≠ [] from key .pythonBin)]
    rw [if_neg (show ¬after textPythonModuleDir v ≠ [] from key .moduleDir)]
  simp only [readOptions, this]

/-- An option without its value is such an argument. -/
example : ("--prefix=".toList ≠ "--help".toList ∧ "--prefix=".toList ≠ "-h".toList) ∧ (∀ o : Opt, o.valid → "--prefix=".toList ≠ o.render) ∧
    ¬"--with-python-bindings".toList <+: "--prefix=".toList := by
  refine ⟨by simp, ?_, by simp⟩
  have e : "--prefix=".toList = textPrefix := by simp [textPrefix]
  rw [e]
  intro o ho
  cases o with
  | one k v =>
    show _ ≠ (written k).toList ++ v
    rw [written_eq]
    have ho : v ≠ [] := ho
    cases k <;> first | exact ne_of_clash (by decide) | exact fun h => ho (List.self_eq_append_right.1 h)
  | both p v =>
    show _ ≠ (writtenBoth p).toList ++ v
    rw [writtenBoth_eq]
    cases p <;> exact ne_of_clash (by decide)
  | bindings =>
    show _ ≠ "--with-python-bindings".toList
    rw [bindings_eq, ← List.append_nil bindingsText]
    exact ne_of_clash (by decide)

/-- C129, disagreement: `--with-python-bindings=no` is accepted and switches the bindings on. -/
theorem c129_bindings_violated (s : Vars) : (∀ o : Opt, o.valid → "--with-python-bindings=no".toList ≠ o.render) ∧
    readOptions s ["--with-python-bindings=no".toList] = .inl { s with bindings := true } := by
  constructor
  · rw [no_eq]
    intro o _
    cases o with
    | one k v =>
      show _ ≠ (written k).toList ++ v
      rw [written_eq]
      cases k <;> exact ne_of_clash (by decide)
    | both p v =>
      show _ ≠ (writtenBoth p).toList ++ v
      rw [writtenBoth_eq]
      cases p <;> exact ne_of_clash (by decide)
    | bindings =>
      show _ ≠ "--with-python-bindings".toList
      rw [bindings_eq]
      simp
  · have := read_bindings s ['=', 'n', 'o']
    rw [no_eq]
    simp only [readOptions, this]

/-! ## Packages -/

/-- C129, partial: a copy given by both its directories is used, whatever else is installed. A package of which nothing is given is the one found
automatically. Without either nothing is configured. Missing: one directory alone, a copy of GSL without static library, a copy of SQuIDS without
headers (`c129_copy_violated`). -/
theorem c129_copy_partial {D : Type} (k : Files D) (i l : D) (auto : Option (D × D)) :
    (HasGsl k i l → k.has l .gslA = true → choose (checkGsl k) (some i) (some l) auto = .inl (i, l)) ∧
    (HasHdf5 k i l → choose (checkHdf5 k) (some i) (some l) auto = .inl (i, l)) ∧
    (HasSquids k i l → choose (checkSquids k) (some i) (some l) auto = .inl (i, l)) ∧
    (∀ check : D → D → Bool, (∀ c, auto = some c → choose check none none auto = .inl c) ∧ (auto = none → choose check none none auto = .inr 1)) ∧
    (auto = none → (¬HasGsl k i l → choose (checkGsl k) (some i) (some l) auto = .inr 1) ∧
      (¬HasHdf5 k i l → choose (checkHdf5 k) (some i) (some l) auto = .inr 1)) := by
  refine ⟨?_, ?_, ?_, ?_, ?_⟩
  · rintro ⟨⟨h1, h2⟩, h3, _⟩ h4
    simp [choose, checkGsl, h1, h2, h3, h4]
  · rintro ⟨⟨h1, h2⟩, h3, h4, h5⟩
    simp [choose, checkHdf5, h1, h2, h3, h4, h5]
  · rintro ⟨⟨h1, _⟩, h3, h4⟩
    simp [choose, checkSquids, h1, h3, h4]
  · intro check
    exact ⟨fun c h => by rw [h]; rfl, fun h => by rw [h]; rfl⟩
  · rintro rfl
    constructor
    · intro h
      have : checkGsl k i l = false := by
        refine Bool.eq_false_iff.2 fun hc => ?_
        simp only [checkGsl, Bool.and_eq_true] at hc
        exact h ⟨hc.1.1, hc.1.2, .inl hc.2⟩
      simp [choose, this]
    · intro h
      have : checkHdf5 k i l = false := by
        refine Bool.eq_false_iff.2 fun hc => ?_
        simp only [checkHdf5, Bool.and_eq_true] at hc
        exact h ⟨hc.1.1.1, hc.1.1.2, hc.1.2, hc.2⟩
      simp [choose, this]

example : HasGsl (D := Nat) ⟨fun _ => true, fun d => d + 10, fun d f => (d == 11 && f == .gslVersion) || (d == 2 && f == .gslA)⟩ 1 2 := by
  refine ⟨⟨rfl, rfl⟩, rfl, .inl rfl⟩

/-- C129, disagreement: one directory alone is ignored, a copy of GSL with a shared library only is replaced by another one, and a directory without the
headers of SQuIDS is accepted. -/
theorem c129_copy_violated : (∀ (D : Type) (check : D → D → Bool) (i : D) (auto : Option (D × D)), choose check (some i) none auto = choose check none none auto ∧
      choose check none (some i) auto = choose check none none auto) ∧
    (∃ k : Files Nat, HasGsl k 1 2 ∧ choose (checkGsl k) (some 1) (some 2) (some (3, 4)) = .inl (3, 4)) ∧
    ∃ k : Files Nat, (∀ d, k.has d .squidsHeader = false) ∧ choose (checkSquids k) (some 1) (some 2) none = .inl (1, 2) :=
  ⟨fun _ _ _ _ => ⟨rfl, rfl⟩, ⟨⟨fun _ => true, id, fun d f => (d == 1 && f == .gslVersion) || (d == 2 && f == .gslSo)⟩, ⟨⟨rfl, rfl⟩, rfl, .inr rfl⟩, rfl⟩,
    ⟨⟨fun _ => true, id, fun _ f => f == .squidsA⟩, fun _ => rfl, rfl⟩⟩

/-! ## Searches -/

/-- C129, partial: HDF5 is found if one of the directories has the library and one has the header, and what is used are the first of each kind. No
library, no success. Missing: that the directory of headers has the header (`c129_hdf5_violated`). -/
theorem c129_hdf5_partial {D : Type} (k : Disk D) (lib : D) (libs incs : List D) :
    (∀ l i, findHdf5 k lib libs incs = some (l, i) → ∃ pre post, lib :: libs = pre ++ l :: post ∧ (k.isDir l = true ∧ (k.libA l = true ∨ k.libSo l = true)) ∧
      (∀ x ∈ pre, ¬(k.isDir x = true ∧ (k.libA x = true ∨ k.libSo x = true))) ∧ k.isDir i = true ∧
      ((∃ x ∈ incs ++ [k.up l], k.isDir x = true ∧ k.version x = true) →
        k.version i = true ∧ ∃ pre post, incs ++ [k.up l] = pre ++ i :: post ∧ ∀ x ∈ pre, ¬(k.isDir x = true ∧ k.version x = true))) ∧
    ((∃ l ∈ lib :: libs, k.isDir l = true ∧ (k.libA l = true ∨ k.libSo l = true)) → (∃ i ∈ incs, k.isDir i = true ∧ k.version i = true) →
      (findHdf5 k lib libs incs).isSome = true) := by
  have hl := forBreak_first (fun d => k.isDir d && (k.libA d || k.libSo d)) lib (lib :: libs)
  constructor
  · intro l i h
    unfold findHdf5 at h
    dsimp only at h
    split at h
    · exact absurd h (by simp)
    rename_i hl1
    split at h
    · exact absurd h (by simp)
    rename_i hi1
    have h := Option.some.inj h
    have e1 := (Prod.mk.inj h).1
    have e2 := (Prod.mk.inj h).2
    rw [e1] at hl1 hi1 e2 hl
    rw [e2] at hi1
    have hi := forBreak_first (fun d => k.isDir d && k.version d) l (incs ++ [k.up l])
    rw [e2] at hi
    rcases hl with ⟨pre, d, post, h1, h2, h3, h4⟩ | ⟨h1, h2⟩
    · subst h4
      refine ⟨pre, post, h1, by simpa using h2, fun x hx => by simpa using h3 x hx, by simpa using hi1, fun ⟨x, hx, hx'⟩ => ?_⟩
      rcases hi with ⟨pre', d', post', g1, g2, g3, g4⟩ | ⟨g1, _⟩
      · subst g4
        simp only [Bool.and_eq_true] at g2
        exact ⟨g2.2, pre', post', g1, fun x hx => by simpa using g3 x hx⟩
      · have := g1 x hx
        simp [hx'] at this
    · exfalso
      have : l ∈ lib :: libs := by
        rw [h2, List.getLastD_eq_getLast?, List.getLast?_eq_some_getLast (by simp)]
        exact List.getLast_mem _
      have := h1 l this
      simp only [Bool.or_eq_true, Bool.not_eq_true', not_or, Bool.not_eq_false] at hl1
      rcases hl1.2 with h6 | h6 <;> simp [hl1.1, h6] at this
  · rintro ⟨l, hm, h1, h2⟩ ⟨i, him, h3, h4⟩
    unfold findHdf5
    dsimp only
    rcases hl with ⟨pre, d, post, g1, g2, g3, g4⟩ | ⟨g1, _⟩
    · rw [g4]
      simp only [Bool.and_eq_true] at g2
      rw [if_neg (by simp [g2.1, g2.2])]
      rcases forBreak_first (fun d => k.isDir d && k.version d) d (incs ++ [k.up d]) with ⟨pre', d', post', f1, f2, f3, f4⟩ | ⟨f1, _⟩
      · simp only [Bool.and_eq_true] at f2
        rw [f4, if_neg (by simp [f2.1])]
        rfl
      · have := f1 i (by simp [him])
        simp [h3, h4] at this
    · have := g1 l hm
      rcases h2 with h2 | h2 <;> simp [h1, h2] at this

/-- Two directories of libraries of which the second has the library. -/
example : findHdf5 (D := Nat) ⟨fun _ => true, fun d => d == 2, fun _ => false, fun d => d == 7, fun d => d + 5⟩ 1 [2] [3] = some (2, 7) := by decide

/-- C129, disagreement: a directory without the header of HDF5 is accepted. -/
theorem c129_hdf5_violated : ∃ (k : Disk Nat) (lib : Nat), (∀ d, k.version d = false) ∧ (findHdf5 k lib [] []).isSome = true :=
  ⟨⟨fun _ => true, fun _ => true, fun _ => true, fun _ => false, fun d => d + 1⟩, 0, fun _ => rfl, rfl⟩

/-- C129, partial: a Python library is reported exactly if one of the directories has one, and the one reported is there. Missing: that the linker is
told its directory (`c129_python_violated`). -/
theorem c129_python_partial {D V : Type} (isDir : D → Bool) (holds : D → V → Nat → Bool) (h3 : ∀ d v e, holds d v e = true → e < 3) (vs : List V) (first : D)
    (dirs : List D) :
    ((findPython isDir holds vs first dirs).isSome = true ↔ ∃ d ∈ first :: dirs, isDir d = true ∧ ∃ v ∈ vs, ∃ e, holds d v e = true) ∧
    ∀ l d v e, findPython isDir holds vs first dirs = some (l, d, v, e) → d ∈ first :: dirs ∧ v ∈ vs ∧ isDir d = true ∧ holds d v e = true := by
  have hs := outer_snd isDir holds vs (first, none) (first :: dirs)
  constructor
  · constructor
    · intro h
      rcases hs with h1 | ⟨d, hd, v, hv, e, h1, h2, _⟩
      · unfold findPython at h
        generalize pythonOuter isDir holds vs (first, none) (first :: dirs) = r at h h1
        obtain ⟨a, b⟩ := r
        cases h1
        simp at h
      · exact ⟨d, hd, h1, v, hv, e, h2⟩
    · rintro ⟨d, hd, h1, v, hv, e, h2⟩
      have := outer_some isDir holds vs (first, none) (first :: dirs) (.inr ⟨d, hd, h1, v, hv, e, h3 d v e h2, h2⟩)
      unfold findPython
      generalize pythonOuter isDir holds vs (first, none) (first :: dirs) = r at this
      obtain ⟨a, b⟩ := r
      cases b with
      | none => simp at this
      | some b => rfl
  · intro l d v e h
    unfold findPython at h
    rcases hs with h1 | ⟨d', hd, v', hv, e', h1, h2, h4⟩
    · generalize pythonOuter isDir holds vs (first, none) (first :: dirs) = r at h h1
      obtain ⟨a, b⟩ := r
      cases h1
      simp at h
    · generalize pythonOuter isDir holds vs (first, none) (first :: dirs) = r at h h4
      obtain ⟨a, b⟩ := r
      cases h4
      simp only [Option.some.injEq, Prod.mk.injEq] at h
      obtain ⟨_, rfl, rfl, rfl⟩ := h
      exact ⟨hd, hv, h1, h2⟩

/-- The library is in the second of three directories. -/
example : (∀ d v e, (d == 1 && v == 0 && e == 1 : Bool) = true → e < 3) ∧
    findPython (D := Nat) (V := Nat) (fun _ => true) (fun d v e => d == 1 && v == 0 && e == 1) [0, 9] 0 [1, 2] = some (2, 1, 0, 1) := by
  refine ⟨fun d v e h => ?_, by decide⟩
  simp only [Bool.and_eq_true, beq_iff_eq] at h
  omega

/-- C129, disagreement: what the linker is told is always the last directory that was looked at. It need not have a library. -/
theorem c129_python_violated {D V : Type} (isDir : D → Bool) (holds : D → V → Nat → Bool) (vs : List V) (first : D) (dirs : List D) :
    (∀ l r, findPython isDir holds vs first dirs = some (l, r) → l = dirs.getLastD first) ∧
    ∃ (holds : Nat → Nat → Nat → Bool) (l : Nat) (r : Nat × Nat × Nat), findPython (fun _ => true) holds [0] 0 [1] = some (l, r) ∧ ∀ v e, holds l v e = false := by
  constructor
  · intro l r h
    have h1 := outer_fst isDir holds vs (first, none) (first :: dirs)
    unfold findPython at h
    generalize pythonOuter isDir holds vs (first, none) (first :: dirs) = q at h h1
    obtain ⟨a, b⟩ := q
    cases b with
    | none => simp at h
    | some b =>
      simp only [Option.some.injEq, Prod.mk.injEq] at h
      rw [← h.1]
      exact h1.trans (by cases dirs <;> rfl)
  · exact ⟨fun d _ _ => d == 0, 1, (0, 0, 0), by decide, fun _ _ => rfl⟩

/-! ## Prefix and version -/

/-- C129, partial: a prefix that exists is used as it is, absolutely. Missing: one that does not exist yet (`c129_prefix_violated`). -/
theorem c129_prefix_partial {D : Type} (resolve : D → Option D) (here pre d : D) (h : resolve pre = some d) : resolvePrefix resolve here pre = d := by
  unfold resolvePrefix
  rw [h]
  rfl

example : (fun d => if d = 1 then some 7 else none : Nat → Option Nat) 1 = some 7 := rfl

/-- C129, disagreement: for a prefix that cannot be entered everything is installed into the directory of the source, whatever was asked for. -/
theorem c129_prefix_violated {D : Type} (resolve : D → Option D) (here pre : D) (h : resolve pre = none) : resolvePrefix resolve here pre = here := by
  unfold resolvePrefix
  rw [h]
  rfl

example : (fun d => if d = 1 then some 7 else none : Nat → Option Nat) 2 = none := rfl

/-- C129: the number of the version and its three parts determine each other. -/
theorem c129_version (major minor patch : Nat) (h1 : minor < 1000) (h2 : patch < 100) :
    versionOf (major * 100000 + minor * 100 + patch) = (major, minor, patch) := by
  unfold versionOf
  refine Prod.ext ?_ (Prod.ext ?_ ?_) <;> dsimp only <;> omega

/-- The version of this source (349). -/
example : versionOf 101100 = (1, 11, 0) := rfl

end Verif.Configure
