import Verif.Py.Flags

/-!
# C114: the flags of the averaged evaluations go from Python and back
-/

namespace Verif.Py.Flags

/-! ## Specification -/

/-- A sequence (list, tuple, array) of these flags. -/
def Holds (o : Obj) (fs : List Bool) : Prop := o.isSequence = true ∧ o.size = some fs.length ∧ ∀ i (h : i < fs.length), o.item i = some (some fs[i])

/-- The list of these flags. -/
def listOf (fs : List Bool) : Obj := ⟨true, some fs.length, fun i => fs[i]?.map some⟩

theorem listOf_holds (fs : List Bool) : Holds (listOf fs) fs := ⟨rfl, rfl, fun i h => by simp [listOf, h]⟩

/-! ## Lemmas -/

theorem loop_holds (o : Obj) (fs : List Bool) : ∀ (left i : Nat) (m : Made), (∀ j, (h : j < fs.length) → o.item j = some (some fs[j])) →
    i + left ≤ fs.length → loop o left i m = .ok ⟨m.flags ++ (fs.drop i).take left, m.pending⟩ := by
  intro left
  induction left with
  | zero => intro i m _ _; simp [loop]
  | succ left ih =>
    intro i m hi hl
    have h1 : i < fs.length := by omega
    unfold loop
    rw [hi i h1]
    dsimp only
    rw [ih (i + 1) _ hi (by omega)]
    simp only [Option.getD_some, List.append_assoc, List.cons_append, List.nil_append, Option.isNone_some, Bool.or_false]
    rw [List.drop_eq_getElem_cons h1, List.take_succ_cons]

theorem loop_null (o : Obj) (k : Nat) (hk : o.item k = none) : ∀ (left i : Nat) (m : Made), i ≤ k → k < i + left →
    loop o left i m = .ub := by
  intro left
  induction left with
  | zero => intro i m h1 h2; omega
  | succ left ih =>
    intro i m h1 h2
    unfold loop
    rcases h : o.item i with _ | t
    · rfl
    · have : i ≠ k := by rintro rfl; rw [hk] at h; cases h
      exact ih _ _ (by omega) (by omega)

theorem bmod_small {n : Nat} (hn : n < 2 ^ 31) : ((n : Int)).bmod (2 ^ 32) = n := Int.bmod_eq_of_le (by omega) (by omega)

theorem toFlags_of {o : Obj} {fs : List Bool} (h : Holds o fs) (hn : fs.length < 2 ^ 31) : toFlags o = .ok (some ⟨fs, false⟩) := by
  obtain ⟨h1, h2, h3⟩ := h
  have hl : intLen o = (fs.length : Int) := by unfold intLen; rw [h2]; exact bmod_small hn
  have hc : construct o = .ok ⟨fs, false⟩ := by
    unfold construct
    dsimp only
    rw [hl, if_neg (by omega), Int.toNat_natCast, loop_holds o fs _ 0 _ h3 (by omega)]
    simp
  unfold toFlags convertible
  rw [h1, hc]
  rfl

/-! ## Properties -/

/-- A sequence of any number of flags below 2^31 arrives with these flags in this order. -/
theorem c114_arrive_partial (o : Obj) (fs : List Bool) (h : Holds o fs) (hn : fs.length < 2 ^ 31) : toFlags o = .ok (some ⟨fs, false⟩) :=
  toFlags_of h hn

example : toFlags (listOf [true, false, true]) = .ok (some ⟨[true, false, true], false⟩) :=
  c114_arrive_partial _ _ (listOf_holds _) (by decide)

/-- The value Python gets is the one the library computes for these flags, and an exception of the library arrives as one. -/
theorem c114_value {K : Type} (f : Evaluation K) (o : Obj) (fs : List Bool) (h : Holds o fs) (hn : fs.length < 2 ^ 31) :
    (wrapper f o).value = (f fs).map Prod.fst := by
  unfold wrapper
  rw [toFlags_of h hn]
  dsimp only [Outcome.bind_ok]
  rcases f fs with v | _ | _ <;> rfl

example : (wrapper (fun a => if a.length ≠ 3 then .throws else .ok ((7 : Int), a)) (listOf [false, false, false])).value = .ok 7 :=
  c114_value _ _ _ (listOf_holds _) (by decide)

/-- What is no sequence is refused, with an exception and before the library is called. -/
theorem c114_refused {K : Type} (f : Evaluation K) (o : Obj) (h : o.isSequence = false) : (wrapper f o).value = .throws := by
  unfold wrapper toFlags convertible
  rw [h]
  rfl

example : (wrapper (fun a => .ok ((7 : Int), a)) ⟨false, some 3, fun _ => some (some true)⟩).value = .throws := c114_refused _ _ rfl

/-- A sequence without a length, or with one that does not fit, raises an exception if the `int` is negative. -/
theorem c114_no_length (o : Obj) (hs : o.isSequence = true) (h : o.size = none) : toFlags o = .throws := by
  unfold toFlags convertible construct intLen
  rw [hs, h]
  rfl

example : toFlags ⟨true, none, fun _ => some (some true)⟩ = .throws := c114_no_length _ rfl rfl

/-- An item whose truth cannot be told, like an array of two elements, raises an exception in the end, whatever the library computes. -/
theorem c114_no_truth {K : Type} (f : Evaluation K) (o : Obj) (m : Made) (h : toFlags o = .ok (some m)) (hp : m.pending = true) :
    ∀ v, (wrapper f o).value ≠ .ok v := by
  intro v
  unfold wrapper
  rw [h]
  dsimp only [Outcome.bind_ok]
  rcases f m.flags with w | _ | _ <;> simp [hp]

example : ∀ v, (wrapper (fun a => .ok ((7 : Int), a)) ⟨true, some 1, fun _ => some none⟩).value ≠ .ok v :=
  c114_no_truth _ _ ⟨[true], true⟩ (by decide) rfl

/-- Which pairs were averaged is reported in the flags; through Python the report is lost: whatever the library reports, the sequence Python gave
still holds what it did, so it is the report only if nothing changed. -/
theorem c114_report_violated {K : Type} (f : Evaluation K) (fs gs : List Bool) (v : K) (_hf : f fs = .ok (v, gs)) (hne : gs ≠ fs) :
    Holds (wrapper f (listOf fs)).given fs ∧ ¬ Holds (wrapper f (listOf fs)).given gs := by
  refine ⟨listOf_holds fs, ?_⟩
  rintro ⟨_, h1, h2⟩
  have h3 : fs.length = gs.length := by
    have : some fs.length = some gs.length := h1
    exact Option.some.inj this
  apply hne
  apply List.ext_getElem h3.symm
  intro i hi hj
  have h4 : fs[i]?.map some = some (some gs[i]) := h2 i hi
  rw [List.getElem?_eq_getElem hj] at h4
  exact (Option.some.inj (Option.some.inj h4)).symm

example : Holds (wrapper (fun a => .ok ((7 : Int), a.map not)) (listOf [false, false])).given [false, false] ∧
    ¬ Holds (wrapper (fun a => .ok ((7 : Int), a.map not)) (listOf [false, false])).given [true, true] :=
  c114_report_violated _ [false, false] [true, true] 7 rfl (by decide)

/-- The atmospheric evaluation reports nothing to C++ either: its caller keeps the flags it gave, whatever was averaged. -/
theorem c114_atmospheric_violated {K : Type} (f : Evaluation K) (fs gs : List Bool) (v : K) (hf : f fs = .ok (v, gs)) (hne : gs ≠ fs) :
    atmospheric f fs = .ok (v, fs) ∧ atmospheric f fs ≠ f fs := by
  have h : atmospheric f fs = .ok (v, fs) := by
    unfold atmospheric
    rw [hf]
    rfl
  refine ⟨h, ?_⟩
  rw [h, hf]
  intro h2
  exact hne (Prod.mk.inj (Outcome.ok.inj h2)).2.symm

example : atmospheric (fun a => .ok ((7 : Int), a.map not)) [false] = .ok (7, [false]) ∧
    atmospheric (fun a => .ok ((7 : Int), a.map not)) [false] ≠ .ok ((7 : Int), [true]) :=
  c114_atmospheric_violated (fun a => .ok ((7 : Int), a.map not)) [false] [true] 7 rfl (by decide)

/-- A string is taken for as many flags as it has characters, all true, even for "000". -/
theorem c114_string_violated (n : Nat) (hn : n < 2 ^ 31) :
    toFlags ⟨true, some n, fun i => if i < n then some (some true) else none⟩ = .ok (some ⟨List.replicate n true, false⟩) := by
  apply toFlags_of
  · refine ⟨rfl, by simp, ?_⟩
    intro i h
    rw [List.length_replicate] at h
    simp [h]
  · simpa using hn

example : toFlags ⟨true, some 3, fun i => if i < 3 then some (some true) else none⟩ = .ok (some ⟨[true, true, true], false⟩) :=
  c114_string_violated 3 (by decide)

/-- Of a sequence with more than 2^32 flags only the remainder modulo 2^32 arrives, if it is below 2^31. -/
theorem c114_long_violated (o : Obj) (fs : List Bool) (h : Holds o fs) (hm : fs.length % 2 ^ 32 < 2 ^ 31) :
    toFlags o = .ok (some ⟨fs.take (fs.length % 2 ^ 32), false⟩) := by
  obtain ⟨h1, h2, h3⟩ := h
  have hl : intLen o = ((fs.length % 2 ^ 32 : Nat) : Int) := by
    unfold intLen
    rw [h2]
    simp only [Int.bmod_def]
    split <;> omega
  have hle : fs.length % 2 ^ 32 ≤ fs.length := Nat.mod_le _ _
  have hc : construct o = .ok ⟨fs.take (fs.length % 2 ^ 32), false⟩ := by
    unfold construct
    dsimp only
    rw [hl, if_neg (by omega), Int.toNat_natCast, loop_holds o fs _ 0 _ h3 (by omega)]
    simp
  unfold toFlags convertible
  rw [h1, hc]
  rfl

example : ∃ fs : List Bool, fs.length = 2 ^ 32 ∧ toFlags (listOf fs) = .ok (some ⟨[], false⟩) := by
  have h : (List.replicate (2 ^ 32) true).length = 2 ^ 32 := List.length_replicate
  generalize List.replicate (2 ^ 32) true = fs at h
  refine ⟨fs, h, ?_⟩
  rw [c114_long_violated _ fs (listOf_holds _) (by rw [h]; decide), h]
  rfl

/-- If an item before the claimed end cannot be had, the null pointer is used. -/
theorem c114_null_violated (o : Obj) (n k : Nat) (hs : o.isSequence = true) (h : o.size = some n) (hn : n < 2 ^ 31) (hk : k < n)
    (hi : o.item k = none) : toFlags o = .ub := by
  have hl : intLen o = (n : Int) := by unfold intLen; rw [h]; exact bmod_small hn
  have hc : construct o = .ub := by
    unfold construct
    dsimp only
    rw [hl, if_neg (by omega), Int.toNat_natCast, loop_null o k hi _ 0 _ (by omega) (by omega)]
  unfold toFlags convertible
  rw [hs, hc]
  rfl

example : toFlags ⟨true, some 2, fun i => if i = 0 then some (some true) else none⟩ = .ub :=
  c114_null_violated _ 2 1 rfl rfl (by decide) (by decide) (by decide)

end Verif.Py.Flags
