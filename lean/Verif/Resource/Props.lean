import Verif.Resource.Model

/-!
# C124: where the data are

The claim: the library finds the data in the directory named in the environment; without that, the library as built finds those of the source
directory and the library as installed those that were installed with it. Installing changes nothing else in the library.
-/

namespace Verif.Resource

/-! ## Specification -/

/-- The text `pat` is found at an offset. -/
def FoundAt (pat s : List Char) (j : Nat) : Prop := ∃ a b, s = a ++ pat ++ b ∧ a.length = j

/-- No proper beginning of a text is an end of it, so that two occurrences do not overlap. -/
def NoBorder (pat : List Char) : Prop := ∀ j, 0 < j → j < pat.length → pat.drop j ≠ pat.take (pat.length - j)

/-! ## Lemmas -/

theorem foundAt_iff (pat s : List Char) (j : Nat) : FoundAt pat s j ↔ j ≤ s.length ∧ pat <+: s.drop j := by
  constructor
  · rintro ⟨a, b, rfl, rfl⟩
    refine ⟨by simp only [List.length_append]; omega, b, ?_⟩
    rw [List.append_assoc, List.drop_left]
  · rintro ⟨hj, b, hb⟩
    exact ⟨s.take j, b, by rw [List.append_assoc, hb, List.take_append_drop], by rw [List.length_take]; omega⟩

theorem sedFrom_skip (pat rep a s : List Char) : sedFrom pat rep a.length (a ++ s) = sedFrom pat rep 0 s := by
  induction a with
  | nil => rfl
  | cons c a ih => exact ih

theorem sedFrom_found (pat rep s : List Char) (hp : pat ≠ []) : sedFrom pat rep 0 (pat ++ s) = rep ++ sedFrom pat rep 0 s := by
  cases pat with
  | nil => exact absurd rfl hp
  | cons c p =>
    rw [List.cons_append, sedFrom, if_pos (by rw [List.isPrefixOf_iff_prefix]; exact ⟨s, rfl⟩)]
    congr 1
    rw [List.length_cons, Nat.add_sub_cancel]
    exact sedFrom_skip (c :: p) rep p s

theorem sedFrom_other (pat rep : List Char) (c : Char) (s : List Char) (h : ¬pat <+: c :: s) :
    sedFrom pat rep 0 (c :: s) = c :: sedFrom pat rep 0 s := by
  rw [sedFrom, if_neg (by rw [List.isPrefixOf_iff_prefix]; exact h)]

/-- Two occurrences of a text without borders do not overlap. -/
theorem no_overlap {pat s : List Char} (hb : NoBorder pat) {j : Nat} (h0 : 0 < j) (hj : j < pat.length) (h : pat <+: (pat ++ s).drop j) : False := by
  obtain ⟨t, ht⟩ := h
  apply hb j h0 hj
  have h1 := congrArg (List.take (pat.length - j)) ht
  rw [List.take_append_of_le_length (by omega), List.drop_append_of_le_length (by omega),
    List.take_append_of_le_length (by rw [List.length_drop]; omega), List.take_of_length_le (l := pat.drop j) (by rw [List.length_drop]; exact Nat.le_refl _)] at h1
  exact h1.symm

/-- Induction over what `sed` does to a text. -/
theorem sed_induction (pat : List Char) (hp : pat ≠ []) {P : List Char → Prop} (nil : P []) (found : ∀ s, P s → P (pat ++ s))
    (other : ∀ c s, ¬pat <+: c :: s → P s → P (c :: s)) (s : List Char) : P s := by
  generalize hn : s.length = k
  induction k using Nat.strongRecOn generalizing s with
  | _ k ih =>
    cases s with
    | nil => exact nil
    | cons c s =>
      by_cases h : pat <+: c :: s
      · obtain ⟨t, ht⟩ := h
        rw [← ht]
        refine found t (ih t.length ?_ t rfl)
        have : 0 < pat.length := List.length_pos_iff.2 hp
        rw [← hn, ← ht, List.length_append]
        omega
      · exact other c s h (ih s.length (by rw [← hn, List.length_cons]; omega) s rfl)

theorem sed_length (pat rep : List Char) (hp : pat ≠ []) (hl : rep.length = pat.length) (s : List Char) :
    (sedFrom pat rep 0 s).length = s.length := by
  induction s using sed_induction pat hp with
  | nil => rfl
  | found s ih => rw [sedFrom_found _ _ _ hp, List.length_append, List.length_append, ih, hl]
  | other c s h ih => rw [sedFrom_other _ _ _ _ h, List.length_cons, List.length_cons, ih]

/-- Every occurrence is replaced. -/
theorem sed_replaces (pat rep : List Char) (hp : pat ≠ []) (hl : rep.length = pat.length) (hb : NoBorder pat) (s : List Char) :
    ∀ j, FoundAt pat s j → FoundAt rep (sedFrom pat rep 0 s) j := by
  simp only [foundAt_iff, sed_length pat rep hp hl]
  have hpos : 0 < pat.length := List.length_pos_iff.2 hp
  induction s using sed_induction pat hp with
  | nil =>
    rintro j ⟨_, h⟩
    rw [List.drop_nil] at h
    exact absurd (List.prefix_nil.1 h) hp
  | found s ih =>
    rintro j ⟨hj, h⟩
    refine ⟨hj, ?_⟩
    rw [sedFrom_found _ _ _ hp]
    by_cases h0 : j = 0
    · subst h0; exact ⟨_, rfl⟩
    by_cases h1 : j < pat.length
    · exact (no_overlap hb (by omega) h1 h).elim
    · obtain ⟨k, rfl⟩ : ∃ k, j = pat.length + k := ⟨j - pat.length, by omega⟩
      rw [List.drop_length_add_append] at h
      rw [← hl, List.drop_length_add_append]
      exact (ih k ⟨by rw [List.length_append] at hj; omega, h⟩).2
  | other c s h ih =>
    rintro j ⟨hj, h'⟩
    refine ⟨hj, ?_⟩
    rw [sedFrom_other _ _ _ _ h]
    cases j with
    | zero => exact absurd h' h
    | succ j => exact (ih j ⟨by rw [List.length_cons] at hj; omega, h'⟩).2

/-- Every character is that of before or one of a replacement. -/
theorem sed_keeps (pat rep : List Char) (hp : pat ≠ []) (hl : rep.length = pat.length) (s : List Char) :
    ∀ i, (sedFrom pat rep 0 s)[i]? = s[i]? ∨ ∃ j, FoundAt pat s j ∧ j ≤ i ∧ i < j + pat.length ∧ (sedFrom pat rep 0 s)[i]? = rep[i - j]? := by
  induction s using sed_induction pat hp with
  | nil => exact fun i => Or.inl rfl
  | found s ih =>
    intro i
    rw [sedFrom_found _ _ _ hp]
    by_cases hi : i < pat.length
    · exact Or.inr ⟨0, ⟨[], s, rfl, rfl⟩, Nat.zero_le _, by omega, by rw [List.getElem?_append_left (by omega), Nat.sub_zero]⟩
    · rw [List.getElem?_append_right (by omega), List.getElem?_append_right (by omega), hl]
      rcases ih (i - pat.length) with h | ⟨j, ⟨a, b, hs, ha⟩, h1, h2, h3⟩
      · exact Or.inl h
      · refine Or.inr ⟨pat.length + j, ⟨pat ++ a, b, by rw [hs]; simp only [List.append_assoc], by rw [List.length_append, ha]⟩, by omega, by omega, ?_⟩
        rw [h3, show i - (pat.length + j) = i - pat.length - j by omega]
  | other c s h ih =>
    intro i
    rw [sedFrom_other _ _ _ _ h]
    cases i with
    | zero => exact Or.inl rfl
    | succ i =>
      rw [List.getElem?_cons_succ, List.getElem?_cons_succ]
      rcases ih i with h | ⟨j, ⟨a, b, hs, ha⟩, h1, h2, h3⟩
      · exact Or.inl h
      · exact Or.inr ⟨j + 1, ⟨c :: a, b, by rw [hs]; rfl, by rw [List.length_cons, ha]⟩, by omega, by omega, by rw [h3, Nat.add_sub_add_right]⟩

theorem sed_absent (pat rep : List Char) (s : List Char) (h : ∀ j, ¬FoundAt pat s j) : sedFrom pat rep 0 s = s := by
  induction s with
  | nil => rfl
  | cons c s ih =>
    rw [sedFrom_other, ih]
    · rintro j ⟨a, b, hs, ha⟩
      exact h (j + 1) ⟨c :: a, b, by rw [hs]; rfl, by rw [List.length_cons, ha]⟩
    · rintro ⟨t, ht⟩
      exact h 0 ⟨[], t, ht.symm, rfl⟩

theorem container_border : NoBorder (container flagOff) := by
  intro j h0 hj
  have key : ∀ j : Fin 79, 0 < j.val → (container flagOff).drop j.val ≠ (container flagOff).take ((container flagOff).length - j.val) := by decide +kernel
  exact key ⟨j, hj⟩ h0

theorem container_length (c : Char) : (container c).length = 79 := rfl

theorem container_flag (c : Char) : (container c)[flagPrefix.length]? = some c := rfl

theorem container_ne (c : Char) : container c ≠ [] := by
  intro h
  have := container_length c
  rw [h] at this
  exact absurd this (by decide)

/-- The two texts differ in the flag only. -/
theorem container_differs (c d : Char) (i : Nat) (h : (container c)[i]? ≠ (container d)[i]?) : i = flagPrefix.length := by
  apply Classical.byContradiction
  intro hne
  apply h
  unfold container
  by_cases hi : i < flagPrefix.length
  · rw [List.getElem?_append_left hi, List.getElem?_append_left hi]
  · rw [List.getElem?_append_right (by omega), List.getElem?_append_right (by omega)]
    obtain ⟨k, hk⟩ : ∃ k, i - flagPrefix.length = k + 1 := ⟨i - flagPrefix.length - 1, by omega⟩
    rw [hk, List.getElem?_cons_succ, List.getElem?_cons_succ]

theorem found_get {pat s : List Char} {j : Nat} (h : FoundAt pat s j) {i : Nat} (hi : i < pat.length) : s[j + i]? = pat[i]? := by
  obtain ⟨a, b, rfl, rfl⟩ := h
  rw [List.append_assoc, List.getElem?_append_right (by omega), Nat.add_sub_cancel_left, List.getElem?_append_left hi]

/-! ## Properties -/

/-- A directory named in the environment is used whatever the library, even if the name is empty. -/
theorem c124_environment (path : String) (library : List Char) (offset : Nat) (source pre : String) :
    getResourcePath (some path) library offset source pre = some path := rfl

/-- The library as built, wherever its flag is, uses the data of the source; the same library once installed uses the installed ones. -/
theorem c124_installed (library : List Char) (offset : Nat) (source pre : String) (h : FoundAt (container 'A') library offset) :
    getResourcePath none library offset source pre = some (source ++ "/data/") ∧
    getResourcePath none (install library) offset source pre = some (pre ++ "/share/nuSQuIDS/") := by
  have h' := sed_replaces (container flagOff) (container flagOn) (container_ne _) rfl container_border library offset h
  have e1 := found_get h (i := flagPrefix.length) (by decide)
  have e2 := found_get h' (i := flagPrefix.length) (by decide)
  unfold getResourcePath getInstallBit install
  dsimp only
  rw [e1, e2, container_flag, container_flag]
  exact ⟨rfl, rfl⟩

/-- Nothing moves when the library is installed, and only the flags change, from `A` to `B`. -/
theorem c124_only_flag (library : List Char) :
    (install library).length = library.length ∧
    ∀ i, (install library)[i]? ≠ library[i]? → library[i]? = some 'A' ∧ (install library)[i]? = some 'B' ∧
      ∃ offset, FoundAt (container 'A') library offset ∧ i = offset + flagPrefix.length := by
  refine ⟨sed_length (container flagOff) (container flagOn) (container_ne _) rfl _, fun i hi => ?_⟩
  rcases sed_keeps (container flagOff) (container flagOn) (container_ne _) rfl library i with h | ⟨j, hf, h1, h2, h3⟩
  · exact absurd h hi
  · have hs : library[i]? = (container flagOff)[i - j]? := by
      have := found_get hf (i := i - j) (by omega)
      rwa [Nat.add_sub_cancel' h1] at this
    have hi' : (container flagOn)[i - j]? ≠ (container flagOff)[i - j]? := by
      rw [← h3, ← hs]; exact hi
    have hk := container_differs _ _ _ hi'
    have e : (install library)[i]? = (container flagOn)[i - j]? := h3
    rw [e, hs, hk]
    exact ⟨rfl, rfl, j, hf, by omega⟩

/-- Installing an installed library changes nothing. -/
theorem c124_again (library : List Char) : install (install library) = install library := by
  apply sed_absent
  intro j hf
  have hb : ∀ i : Fin 79, (container flagOff)[i.val]? ≠ some 'B' := by decide
  have same : ∀ i, i < 79 → library[j + i]? = (container flagOff)[i]? := by
    intro i hi
    have h1 := found_get hf (i := i) hi
    apply Classical.byContradiction
    intro hne
    have h2 := (c124_only_flag library).2 (j + i) (by rw [h1]; exact fun h => hne h.symm)
    rw [h1] at h2
    exact hb ⟨i, hi⟩ h2.2.1
  have hfl : FoundAt (container flagOff) library j := by
    rw [foundAt_iff]
    have hlen : j + 79 ≤ library.length := by
      have := same 78 (by decide)
      apply Classical.byContradiction
      intro hn
      rw [List.getElem?_eq_none (by omega)] at this
      exact absurd this (by decide)
    refine ⟨by omega, ?_⟩
    rw [List.prefix_iff_eq_take]
    apply List.ext_getElem?
    intro i
    by_cases hi : i < 79
    · rw [List.getElem?_take, if_pos (by rw [container_length]; exact hi), List.getElem?_drop, same i hi]
    · rw [List.getElem?_eq_none (by rw [container_length]; omega), List.getElem?_eq_none]
      rw [List.length_take, container_length]
      omega
  have h' := sed_replaces (container flagOff) (container flagOn) (container_ne _) rfl container_border library j hfl
  have e1 := found_get hf (i := flagPrefix.length) (by decide)
  have e2 := found_get h' (i := flagPrefix.length) (by decide)
  have e3 : (install library)[j + flagPrefix.length]? = some flagOn := e2
  rw [e3, container_flag] at e1
  exact absurd e1 (by decide)

/-- A library with something around its flag, and one half of it before. -/
example : FoundAt (container 'A') ("NUSQUIDS_".toList ++ container 'A' ++ "AB".toList) 9 ∧
    getResourcePath none (install ("NUSQUIDS_".toList ++ container 'A' ++ "AB".toList)) 9 "/src" "/usr" = some "/usr/share/nuSQuIDS/" := by
  have h : FoundAt (container 'A') ("NUSQUIDS_".toList ++ container 'A' ++ "AB".toList) 9 := ⟨_, _, rfl, by decide⟩
  refine ⟨h, ?_⟩
  rw [(c124_installed _ _ _ _ h).2]
  rfl

/-- The two letters behind the flag stay as they are. -/
example : (install (container 'A' ++ "AB".toList))[79]? = some 'A' := by
  apply Classical.byContradiction
  intro hne
  obtain ⟨h0, h1, k, hf, hk⟩ := (c124_only_flag (container 'A' ++ "AB".toList)).2 79 (by
    intro h; exact hne (h.trans rfl))
  have := (foundAt_iff _ _ _).1 hf
  have hk' : k = 40 := by
    have : flagPrefix.length = 39 := rfl
    omega
  subst hk'
  have hl := this.2.length_le
  rw [List.length_drop, List.length_append, container_length] at hl
  have : "AB".toList.length = 2 := by decide
  omega

end Verif.Resource
