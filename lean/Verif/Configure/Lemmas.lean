import Verif.Configure.Spec

/-!
# Lemmas about the script `configure`
-/

namespace Verif.Configure

theorem after_self (p v : List Char) : after p (p ++ v) = v := by
  unfold after
  rw [if_pos (by simp [List.isPrefixOf_iff_prefix]), List.drop_left]

theorem after_ne {p v : List Char} (h : after p v ≠ []) : v = p ++ after p v := by
  unfold after at h ⊢
  split at h
  · rename_i hp
    rw [if_pos hp]
    obtain ⟨t, ht⟩ := List.isPrefixOf_iff_prefix.1 hp
    rw [← ht, List.drop_left]
  · exact absurd rfl h

/-- Two texts that differ where both have a character. -/
def clash : List Char → List Char → Bool
  | a :: p, b :: q => a != b || clash p q
  | _, _ => false

theorem not_prefix {p q : List Char} (v : List Char) (h : clash p q = true) : ¬p <+: q ++ v := by
  induction p generalizing q with
  | nil => simp [clash] at h
  | cons a p ih =>
    cases q with
    | nil => simp [clash] at h
    | cons b q =>
      rw [List.cons_append, List.cons_prefix_cons]
      rintro ⟨rfl, h2⟩
      simp only [clash, bne_self_eq_false, Bool.false_or] at h
      exact ih h h2

theorem no {p q v : List Char} (h : clash p q = true) : ¬after p (q ++ v) ≠ [] := by
  intro hne
  exact not_prefix v h ⟨_, (after_ne hne).symm⟩

theorem no_help {q v : List Char} (h1 : clash helpLong q = true) (h2 : clash helpShort q = true) : ¬(q ++ v = helpLong ∨ q ++ v = helpShort) := by
  rintro (h | h)
  · exact not_prefix v h1 (h ▸ List.prefix_rfl)
  · exact not_prefix v h2 (h ▸ List.prefix_rfl)

theorem no_bindings {q v : List Char} (h : clash bindingsText q = true) : ¬bindingsText.isPrefixOf (q ++ v) = true := by
  rw [List.isPrefixOf_iff_prefix]
  exact not_prefix v h

theorem yes {p v : List Char} (h : v ≠ []) : after p (p ++ v) ≠ [] := by rwa [after_self]

theorem ne_of_clash {p q v : List Char} (h : clash p q = true) : p ≠ q ++ v := fun e => not_prefix v h (e ▸ List.prefix_rfl)

theorem no_eq : "--with-python-bindings=no".toList = bindingsText ++ ['=', 'n', 'o'] := by simp [bindingsText]

/-- The text before the value, as the model has it. -/
def textOf : Key → List Char
  | .prefixDir => textPrefix
  | .libdir => textLibdir
  | .gslInc => textWithGslIncdir
  | .gslLib => textWithGslLibdir
  | .hdf5Inc => textWithHdf5Incdir
  | .hdf5Lib => textWithHdf5Libdir
  | .squidsInc => textWithSquidsIncdir
  | .squidsLib => textWithSquidsLibdir
  | .boostInc => textWithBoostIncdir
  | .boostLib => textWithBoostLibdir
  | .pythonBin => textPythonBin
  | .moduleDir => textPythonModuleDir

def textBoth : Package → List Char
  | .gsl => textWithGsl
  | .hdf5 => textWithHdf5
  | .squids => textWithSquids
  | .boost => textWithBoost

theorem written_eq (k : Key) : (written k).toList = textOf k := by
  cases k <;> simp [written, textOf, textPrefix, textLibdir, textWithGslIncdir, textWithGslLibdir, textWithHdf5Incdir, textWithHdf5Libdir,
    textWithSquidsIncdir, textWithSquidsLibdir, textWithBoostLibdir, textWithBoostIncdir, textPythonBin, textPythonModuleDir]

theorem writtenBoth_eq (p : Package) : (writtenBoth p).toList = textBoth p := by
  cases p <;> simp [writtenBoth, textBoth, textWithGsl, textWithHdf5, textWithSquids, textWithBoost]

theorem bindings_eq : "--with-python-bindings".toList = bindingsText := by simp [bindingsText]

/-- What one option does. -/
def Opt.apply (s : Vars) : Opt → Vars
  | .one k v => s.set k v
  | .both p dir => (s.set (includeOf p) (dir ++ includeDir)).set (libraryOf p) (dir ++ libDir)
  | .bindings => { s with bindings := true }

theorem read_bindings (s : Vars) (v : List Char) : readOption s (bindingsText ++ v) = .next { s with bindings := true } := by
  unfold readOption
  rw [if_neg (no_help (by decide) (by decide))]
  iterate 11 rw [if_neg (no (by decide))]
  rw [if_pos (by simp [List.isPrefixOf_iff_prefix])]

theorem read_render (s : Vars) (o : Opt) (h : o.valid) : readOption s o.render = .next (o.apply s) := by
  cases o with
  | one k v =>
    have h : v ≠ [] := h
    show readOption s ((written k).toList ++ v) = _
    rw [written_eq]
    cases k <;> dsimp only [textOf] <;> unfold readOption <;> rw [if_neg (no_help (by decide) (by decide))] <;>
      repeat (first | rw [if_pos (yes h), after_self]; rfl | rw [if_neg (no (by decide))] | rw [if_neg (no_bindings (by decide))])
  | both p dir =>
    have h : dir ≠ [] := h
    show readOption s ((writtenBoth p).toList ++ dir) = _
    rw [writtenBoth_eq]
    cases p <;> dsimp only [textBoth] <;> unfold readOption <;> rw [if_neg (no_help (by decide) (by decide))] <;>
      repeat (first | rw [if_pos (yes h), after_self]; rfl | rw [if_neg (no (by decide))] | rw [if_neg (no_bindings (by decide))])
  | bindings =>
    have := read_bindings s []
    rw [List.append_nil] at this
    unfold Opt.render
    rw [bindings_eq]
    exact this

theorem read_append (s : Vars) (l : List Opt) (h : ∀ o ∈ l, o.valid) (rest : List (List Char)) :
    readOptions s (l.map Opt.render ++ rest) = readOptions (l.foldl Opt.apply s) rest := by
  induction l generalizing s with
  | nil => rfl
  | cons o l ih =>
    simp only [List.map_cons, List.cons_append, readOptions, read_render s o (h o (by simp)), List.foldl_cons]
    exact ih _ fun x hx => h x (by simp [hx])

theorem apply_value (s : Vars) (o : Opt) (k : Key) : (o.apply s).value k = (o.gives k).getD (s.value k) := by
  cases o with
  | one a v =>
    simp only [Opt.apply, Vars.set, Opt.gives]
    split <;> rfl
  | both p dir =>
    have e1 : "/include".toList = includeDir := by simp [includeDir]
    have e2 : "/lib".toList = libDir := by simp [libDir]
    simp only [Opt.apply, Vars.set, Opt.gives, e1, e2]
    by_cases h1 : k = includeOf p
    · subst h1
      have : includeOf p ≠ libraryOf p := by cases p <;> decide
      rw [if_neg this, if_pos rfl, if_pos rfl]
      rfl
    · by_cases h2 : k = libraryOf p
      · rw [if_pos h2, if_neg h1, if_pos h2]
        rfl
      · rw [if_neg h2, if_neg h1, if_neg h1, if_neg h2]
        rfl
  | bindings => rfl

theorem fold_value (s : Vars) (l : List Opt) (k : Key) : (l.foldl Opt.apply s).value k = final l k (s.value k) := by
  induction l generalizing s with
  | nil => rfl
  | cons o l ih =>
    rw [List.foldl_cons, ih, apply_value]
    unfold final
    rw [List.filterMap_cons]
    cases h : o.gives k with
    | none => rfl
    | some v =>
      dsimp only
      rw [List.getLast?_cons]
      cases (l.filterMap (·.gives k)).getLast? <;> rfl

theorem fold_bindings (s : Vars) (l : List Opt) : (l.foldl Opt.apply s).bindings = (s.bindings || l.contains .bindings) := by
  induction l generalizing s with
  | nil => simp
  | cons o l ih =>
    rw [List.foldl_cons, ih]
    cases o <;> simp [Opt.apply, Vars.set]

theorem forBreak_first {D : Type} (good : D → Bool) (old : D) (l : List D) :
    (∃ pre d post, l = pre ++ d :: post ∧ good d = true ∧ (∀ x ∈ pre, good x = false) ∧ forBreak good old l = d) ∨
    ((∀ x ∈ l, good x = false) ∧ forBreak good old l = l.getLastD old) := by
  induction l generalizing old with
  | nil => exact .inr ⟨by simp, rfl⟩
  | cons a l ih =>
    by_cases h : good a = true
    · exact .inl ⟨[], a, l, rfl, h, by simp, by simp [forBreak, h]⟩
    · have h' : good a = false := by simpa using h
      rcases ih a with ⟨pre, d, post, h1, h2, h3, h4⟩ | ⟨h1, h2⟩
      · exact .inl ⟨a :: pre, d, post, by simp [h1], h2, by simpa [h'] using h3, by simp [forBreak, h', h4]⟩
      · refine .inr ⟨by simpa [h'] using h1, ?_⟩
        simp only [forBreak, h', Bool.false_eq_true, if_false, h2]
        cases l <;> rfl

theorem inner_holds {D V : Type} (isDir : D → Bool) (holds : D → V → Nat → Bool) (d : D) (r : Option (D × V × Nat)) (vs : List V) :
    pythonInner isDir holds d r vs = r ∨ ∃ v ∈ vs, ∃ e, isDir d = true ∧ holds d v e = true ∧ pythonInner isDir holds d r vs = some (d, v, e) := by
  induction vs with
  | nil => exact .inl rfl
  | cons v l ih =>
    simp only [pythonInner]
    by_cases h : isDir d = true
    · rw [if_pos h]
      split
      · rename_i h0
        exact .inr ⟨v, by simp, 0, h, h0, rfl⟩
      split
      · rename_i h0
        exact .inr ⟨v, by simp, 1, h, h0, rfl⟩
      split
      · rename_i h0
        exact .inr ⟨v, by simp, 2, h, h0, rfl⟩
      rcases ih with ih | ⟨w, hw, e, h1⟩
      · exact .inl ih
      · exact .inr ⟨w, by simp [hw], e, h1⟩
    · rw [if_neg h]
      rcases ih with ih | ⟨w, hw, e, h1⟩
      · exact .inl ih
      · exact .inr ⟨w, by simp [hw], e, h1⟩

theorem inner_some {D V : Type} (isDir : D → Bool) (holds : D → V → Nat → Bool) (d : D) (r : Option (D × V × Nat)) (vs : List V) (hd : isDir d = true)
    {v : V} (hv : v ∈ vs) {e : Nat} (he : e < 3) (h : holds d v e = true) : (pythonInner isDir holds d r vs).isSome = true := by
  induction vs with
  | nil => simp at hv
  | cons w l ih =>
    simp only [pythonInner, if_pos hd]
    split
    · rfl
    split
    · rfl
    split
    · rfl
    rename_i h0 h1 h2
    rcases List.mem_cons.1 hv with rfl | hv
    · match e, he with
      | 0, _ => exact absurd h h0
      | 1, _ => exact absurd h h1
      | 2, _ => exact absurd h h2
    · exact ih hv

theorem outer_fst {D V : Type} (isDir : D → Bool) (holds : D → V → Nat → Bool) (vs : List V) (r : D × Option (D × V × Nat)) (l : List D) :
    (pythonOuter isDir holds vs r l).1 = l.getLastD r.1 := by
  induction l generalizing r with
  | nil => rfl
  | cons d l ih =>
    simp only [pythonOuter, ih]
    cases l <;> rfl

theorem outer_snd {D V : Type} (isDir : D → Bool) (holds : D → V → Nat → Bool) (vs : List V) (r : D × Option (D × V × Nat)) (l : List D) :
    (pythonOuter isDir holds vs r l).2 = r.2 ∨
      ∃ d ∈ l, ∃ v ∈ vs, ∃ e, isDir d = true ∧ holds d v e = true ∧ (pythonOuter isDir holds vs r l).2 = some (d, v, e) := by
  induction l generalizing r with
  | nil => exact .inl rfl
  | cons d l ih =>
    simp only [pythonOuter]
    rcases ih (d, pythonInner isDir holds d r.2 vs) with h | ⟨d', hd', v, hv, e, h⟩
    · rcases inner_holds isDir holds d r.2 vs with h' | ⟨v, hv, e, h1, h2, h3⟩
      · exact .inl (h.trans h')
      · exact .inr ⟨d, by simp, v, hv, e, h1, h2, h.trans h3⟩
    · exact .inr ⟨d', by simp [hd'], v, hv, e, h⟩

theorem outer_some {D V : Type} (isDir : D → Bool) (holds : D → V → Nat → Bool) (vs : List V) (r : D × Option (D × V × Nat)) (l : List D)
    (h : r.2.isSome = true ∨ ∃ d ∈ l, isDir d = true ∧ ∃ v ∈ vs, ∃ e < 3, holds d v e = true) : (pythonOuter isDir holds vs r l).2.isSome = true := by
  induction l generalizing r with
  | nil => simpa [pythonOuter] using h
  | cons d l ih =>
    simp only [pythonOuter]
    refine ih _ ?_
    rcases h with h | ⟨d', hd', h1, v, hv, e, he, h2⟩
    · left
      rcases inner_holds isDir holds d r.2 vs with h' | ⟨v, _, e, _, _, h3⟩
      · show (pythonInner isDir holds d r.2 vs).isSome = true
        rw [h']
        exact h
      · show (pythonInner isDir holds d r.2 vs).isSome = true
        rw [h3]
        rfl
    · rcases List.mem_cons.1 hd' with rfl | hd'
      · exact .inl (inner_some isDir holds _ r.2 vs h1 hv he h2)
      · exact .inr ⟨d', hd', h1, v, hv, e, he, h2⟩

end Verif.Configure
