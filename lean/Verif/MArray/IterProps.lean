import Verif.MArray.Iter

/-!
# C82: iterators
-/

namespace Verif.Marr.Iter

private theorem forward_from (data : List α) : ∀ (k fuel : Nat), k ≤ data.length → data.length - k < fuel →
    visitAll .forward data (data.length : Int) fuel (k : Int) = .ok (data.drop k)
  | k, 0, _, h => by omega
  | k, fuel + 1, hk, hf => by
    unfold visitAll
    by_cases he : k = data.length
    · rw [if_pos (by omega), he, List.drop_length]
    · have hlt : k < data.length := by omega
      rw [if_neg (by omega), deref, if_pos (by omega), Int.toNat_natCast, List.getElem?_eq_getElem hlt]
      simp only [Outcome.bind_ok, postInc, increment]
      rw [show ((k : Int) + 1) = ((k + 1 : Nat) : Int) by omega, forward_from data (k + 1) fuel (by omega) (by omega)]
      simp only [Outcome.bind_ok]
      rw [← List.drop_eq_getElem_cons hlt]

private theorem reverse_from (data : List α) : ∀ (k fuel : Nat), k ≤ data.length → k < fuel →
    visitAll .reverse data (-1) fuel ((k : Int) - 1) = .ok (data.take k).reverse
  | 0, fuel + 1, _, _ => by simp [visitAll]
  | k + 1, fuel + 1, hk, hf => by
    unfold visitAll
    have hlt : k < data.length := by omega
    rw [if_neg (by omega), deref, if_pos (by omega), show (((k + 1 : Nat) : Int) - 1).toNat = k by omega,
      List.getElem?_eq_getElem hlt]
    simp only [Outcome.bind_ok, postInc, increment]
    rw [show (((k + 1 : Nat) : Int) - 1 - 1) = ((k : Nat) : Int) - 1 by omega, reverse_from data k fuel (by omega) (by omega)]
    simp only [Outcome.bind_ok]
    rw [List.take_add_one, List.getElem?_eq_getElem hlt, Option.toList_some, List.reverse_append, List.reverse_singleton,
      List.singleton_append]
  | _, 0, _, h => by omega

/-- Walking from `begin()` to `end()` visits every element once, in order, and never leaves the buffer. -/
theorem c82_forward (data : List α) (h : data.length < 2 ^ 63) (fuel : Nat) (hf : data.length < fuel) :
    visitAll .forward data (machinePtr (endArg data.length)) fuel (machinePtr beginArg) = .ok data ∧
    standardPtr data.length beginArg = .ok (machinePtr beginArg) ∧
    standardPtr data.length (endArg data.length) = .ok (machinePtr (endArg data.length)) := by
  have he : machinePtr (endArg data.length) = data.length := by
    unfold machinePtr endArg
    rw [Nat.mod_eq_of_lt (by omega), if_pos h]
  have hb : machinePtr beginArg = ((0 : Nat) : Int) := by decide
  refine ⟨?_, ?_, ?_⟩
  · rw [he, hb]
    exact forward_from data 0 fuel (by omega) (by omega)
  · rw [hb]; simp [standardPtr, beginArg]
  · rw [he]; simp [standardPtr, endArg]

example : visitAll .forward [5, 6, 7] (machinePtr (endArg 3)) 4 (machinePtr beginArg) = .ok [5, 6, 7] := by decide

/-- Walking from `rbegin()` to `rend()` visits every element once, in reverse order: as the machine computes pointers. Missing from
the full claim: `rend()` is a pointer before the buffer, which the standard does not allow (`c82_rend_violated`). -/
theorem c82_reverse_partial (data : List α) (h : data.length < 2 ^ 63) (fuel : Nat) (hf : data.length < fuel) :
    visitAll .reverse data (machinePtr rendArg) fuel (machinePtr (rbeginArg data.length)) = .ok data.reverse := by
  have he : machinePtr rendArg = -1 := by decide
  have hb : machinePtr (rbeginArg data.length) = (data.length : Int) - 1 := by
    unfold machinePtr rbeginArg sizeSub
    rw [Nat.mod_eq_of_lt (show data.length < 2 ^ 64 by omega)]
    by_cases h0 : data.length = 0
    · rw [h0]; decide
    · rw [show (data.length + 2 ^ 64 - 1 % 2 ^ 64) % 2 ^ 64 = data.length - 1 by omega, Nat.mod_eq_of_lt (by omega), if_pos (by omega)]
      omega
  rw [he, hb, reverse_from data data.length fuel (Nat.le_refl _) hf, List.take_length]

example : visitAll .reverse [5, 6, 7] (machinePtr rendArg) 4 (machinePtr (rbeginArg 3)) = .ok [7, 6, 5] := by decide

/-- `rend()` is undefined for every array, and so is `rbegin()` of an empty one. -/
theorem c82_rend_violated (size : Nat) (h : size < 2 ^ 63) :
    standardPtr size rendArg = .ub ∧ standardPtr 0 (rbeginArg 0) = .ub := by
  constructor
  · unfold standardPtr
    rw [if_neg]
    have : rendArg = 2 ^ 64 - 1 := by decide
    omega
  · decide

example : (3 : Nat) < 2 ^ 63 := by decide

/-- The laws of a random access iterator, for both kinds: advancing and difference are inverse, advances add up, `-` is `+` of the
negative, the four increments move by one and return what they should, and `it[n]` is `*(it+n)`. -/
theorem c82_laws (k : Kind) (data : List α) (a b n m : Int) :
    diff k (add k a n) a = n ∧ add k a (diff k b a) = b ∧ add k (add k a n) m = add k a (n + m) ∧ sub k a n = add k a (-n) ∧
    preInc k a = add k a 1 ∧ postInc k a = (a, add k a 1) ∧ preDec k a = add k a (-1) ∧ postDec k a = (a, add k a (-1)) ∧
    addEq k a n = add k a n ∧ subEq k a n = sub k a n ∧ subscript k data a n = deref data (add k a n) := by
  cases k <;> simp only [diff, add, addEq, sub, subEq, preInc, postInc, preDec, postDec, increment, subscript] <;>
    refine ⟨by omega, by omega, by omega, ?_⟩ <;> simp

/-- Comparisons agree with the sign of the difference. -/
theorem c82_order (k : Kind) (a b : Int) :
    (lt k a b = true ↔ 0 < diff k b a) ∧ (gt k a b = true ↔ diff k b a < 0) ∧
    (le k a b = true ↔ 0 ≤ diff k b a) ∧ (ge k a b = true ↔ diff k b a ≤ 0) ∧ (a = b ↔ diff k a b = 0) := by
  cases k <;> simp only [lt, gt, le, ge, diff, decide_eq_true_eq] <;> omega

example : diff .reverse (add .reverse 5 2) 5 = 2 ∧ lt .reverse 5 3 = true ∧ lt .forward 3 5 = true := by decide

end Verif.Marr.Iter
