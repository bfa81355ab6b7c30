import Verif.StateIO.Model

/-!
# Names of stored parameters (C58)
-/

namespace Verif.StateIO

theorem digits_inj {a b : Nat} (h : Nat.toDigits 10 a = Nat.toDigits 10 b) : a = b := by
  have := congrArg (fun l => Nat.ofDigitChars 10 l 0) h
  simpa only [Nat.ofDigitChars_ten_toDigits] using this

theorem digits_short {a : Nat} : (Nat.toDigits 10 a).length ≤ 1 ↔ a < 10 := by
  simpa using Nat.length_toDigits_le_iff (b := 10) (n := a) (k := 1) (by decide) (by decide)

theorem digits_two {a : Nat} : (Nat.toDigits 10 a).length ≤ 2 ↔ a < 100 := by
  simpa using Nat.length_toDigits_le_iff (b := 10) (n := a) (k := 2) (by decide) (by decide)

theorem digits_pos (a : Nat) : 0 < (Nat.toDigits 10 a).length := by
  rw [← Nat.toList_repr, List.length_pos_iff]
  intro h
  exact Nat.repr_ne_empty (String.toList_eq_nil_iff.mp h)

/-- The digits of two increasing numbers of at most two digits can be told apart. -/
theorem digits_pair_inj {a b c d : Nat} (hab : a < b) (hcd : c < d) (hb : b < 100) (hd : d < 100)
    (h : Nat.toDigits 10 a ++ Nat.toDigits 10 b = Nat.toDigits 10 c ++ Nat.toDigits 10 d) : a = c ∧ b = d := by
  by_cases hlen : (Nat.toDigits 10 a).length = (Nat.toDigits 10 c).length
  · obtain ⟨h1, h2⟩ := List.append_inj h hlen
    exact ⟨digits_inj h1, digits_inj h2⟩
  · exfalso
    have hl := congrArg List.length h
    simp only [List.length_append] at hl
    have a0 := digits_pos a
    have b0 := digits_pos b
    have c0 := digits_pos c
    have d0 := digits_pos d
    have a2 := digits_two.mpr (show a < 100 by omega)
    have b2 := digits_two.mpr hb
    have c2 := digits_two.mpr (show c < 100 by omega)
    have d2 := digits_two.mpr hd
    have a1 : (Nat.toDigits 10 a).length ≤ 1 ↔ a < 10 := digits_short
    have b1 : (Nat.toDigits 10 b).length ≤ 1 ↔ b < 10 := digits_short
    have c1 : (Nat.toDigits 10 c).length ≤ 1 ↔ c < 10 := digits_short
    have d1 : (Nat.toDigits 10 d).length ≤ 1 ↔ d < 10 := digits_short
    omega

theorem thLabel_toList (i j : Nat) : (thLabel i j).toList = 't' :: 'h' :: (Nat.toDigits 10 (i + 1) ++ Nat.toDigits 10 (j + 1)) := by
  simp [thLabel, String.toList_append, ← Nat.toList_repr, toString]

theorem deltaLabel_toList (i j : Nat) :
    (deltaLabel i j).toList = 'd' :: 'e' :: 'l' :: 't' :: 'a' :: (Nat.toDigits 10 (i + 1) ++ Nat.toDigits 10 (j + 1)) := by
  simp [deltaLabel, String.toList_append, ← Nat.toList_repr, toString]

theorem dmLabel_toList (i : Nat) : (dmLabel i).toList = 'd' :: 'm' :: (Nat.toDigits 10 (i + 1) ++ ['1', 's', 'q']) := by
  simp [dmLabel, String.toList_append, ← Nat.toList_repr, toString]

theorem thLabel_inj {i j i' j' : Nat} (h1 : i < j) (h2 : j < 99) (h1' : i' < j') (h2' : j' < 99) (h : thLabel i j = thLabel i' j') :
    i = i' ∧ j = j' := by
  have h := congrArg String.toList h
  simp only [thLabel_toList, List.cons.injEq, true_and] at h
  have := digits_pair_inj (by omega) (by omega) (by omega) (by omega) h
  omega

theorem deltaLabel_inj {i j i' j' : Nat} (h1 : i < j) (h2 : j < 99) (h1' : i' < j') (h2' : j' < 99)
    (h : deltaLabel i j = deltaLabel i' j') : i = i' ∧ j = j' := by
  have h := congrArg String.toList h
  simp only [deltaLabel_toList, List.cons.injEq, true_and] at h
  have := digits_pair_inj (by omega) (by omega) (by omega) (by omega) h
  omega

theorem dmLabel_inj {i i' : Nat} (h : dmLabel i = dmLabel i') : i = i' := by
  have h := congrArg String.toList h
  simp only [dmLabel_toList, List.cons.injEq, true_and] at h
  have := digits_inj (List.append_cancel_right h)
  omega

/-! ## C58 -/

/-- A parameter of a neutrino system. -/
inductive Param where
  | angle (i j : Nat)
  | phase (i j : Nat)
  | mass (i : Nat)
  deriving DecidableEq, Repr

/-- The parameters of `n` flavours: angles and phases of pairs, mass differences to the first state. -/
def Param.validFor (n : Nat) : Param → Prop
  | .angle i j => i < j ∧ j < n
  | .phase i j => i < j ∧ j < n
  | .mass i => 1 ≤ i ∧ i < n

/-- The name a parameter is stored under. -/
def nameOf : Param → String
  | .angle i j => thLabel i j
  | .phase i j => deltaLabel i j
  | .mass i => dmLabel i

/-- C58: for every number of flavours up to 99, so for all the library supports (at most 6), different parameters have different
names. -/
theorem c58_names_distinct (n : Nat) (hn : n ≤ 99) (p q : Param) (hp : p.validFor n) (hq : q.validFor n)
    (h : nameOf p = nameOf q) : p = q := by
  have hl := congrArg String.toList h
  cases p <;> cases q <;> simp only [Param.validFor] at hp hq <;>
    simp only [nameOf, thLabel_toList, deltaLabel_toList, dmLabel_toList, List.cons.injEq] at h hl <;> try simp at hl
  · obtain ⟨rfl, rfl⟩ := thLabel_inj hp.1 (by omega) hq.1 (by omega) h; rfl
  · obtain ⟨rfl, rfl⟩ := deltaLabel_inj hp.1 (by omega) hq.1 (by omega) h; rfl
  · obtain rfl := dmLabel_inj h; rfl

example : Life.maxDim ≤ 99 ∧ (Param.angle 1 5).validFor 6 ∧ nameOf (.angle 1 5) = "th26" ∧ nameOf (.phase 1 5) = "delta26" ∧
    nameOf (.mass 5) = "dm61sq" := ⟨by decide, ⟨by decide, by decide⟩, by decide, by decide, by decide⟩

/-- C58: the names distinguish ordered pairs only up to a bound. With 213 flavours two mixing angles share a name. -/
theorem c58_bound_needed : ∃ p q : Param, p ≠ q ∧ p.validFor 213 ∧ q.validFor 213 ∧ nameOf p = nameOf q :=
  ⟨.angle 0 212, .angle 11 12, by decide, ⟨by decide, by decide⟩, ⟨by decide, by decide⟩, by decide⟩

example : nameOf (.angle 0 212) = "th1213" := by decide

end Verif.StateIO
