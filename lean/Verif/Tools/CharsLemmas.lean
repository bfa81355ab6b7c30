import Verif.Tools.CharsSpec
import Mathlib.Tactic.Linarith
import Mathlib.Tactic.FieldSimp
import Mathlib.Tactic.Ring

/-!
# Digits, signs and rounding to 15 digits (lemmas of C117)
-/

namespace Verif.Chars

open Verif.Tools (roundEven dec15)

/-! ## Digits -/

theorem blank_iff (c : Char) : blank c = true ↔ Blank c := by
  unfold Blank
  constructor
  · intro h
    simp only [blank, Bool.or_eq_true, beq_iff_eq, Bool.and_eq_true, decide_eq_true_eq] at h
    rcases h with rfl | ⟨h1, h2⟩
    · simp
    · have hc : c = Char.ofNat c.toNat := (Char.ofNat_toNat c).symm
      generalize c.toNat = n at h1 h2 hc
      subst hc
      rcases (by omega : n = 9 ∨ n = 10 ∨ n = 11 ∨ n = 12 ∨ n = 13) with rfl | rfl | rfl | rfl | rfl <;> decide
  · intro h
    simp only [List.mem_cons, List.not_mem_nil, or_false] at h
    rcases h with rfl | rfl | rfl | rfl | rfl | rfl <;> decide

theorem digit?_digitChar (d : Fin 10) : digit? (digitChar d) = some d := by
  revert d; decide

theorem digitChar_digit? (c : Char) (d : Fin 10) (h : digit? c = some d) : c = digitChar d := by
  unfold digit? at h
  split at h
  next hc =>
    cases h
    unfold digitChar
    have : 48 + (c.toNat - 48) = c.toNat := by omega
    simp only [this]
    exact (Char.ofNat_toNat c).symm
  · exact absurd h (by simp)

theorem natVal_eq (ds : List (Fin 10)) : natVal ds = decimalValue ds := by
  have h : ∀ (ds : List (Fin 10)) (n : Nat),
      ds.foldl (fun n d => 10 * n + d.val) n = n * 10 ^ ds.length + decimalValue ds := by
    intro ds
    induction ds with
    | nil => intro n; simp [decimalValue]
    | cons d ds ih =>
      intro n
      rw [List.foldl_cons, ih, decimalValue, List.length_cons, pow_succ]
      ring
  unfold natVal
  rw [h]
  simp

theorem decimalValue_append (a b : List (Fin 10)) :
    decimalValue (a ++ b) = decimalValue a * 10 ^ b.length + decimalValue b := by
  induction a with
  | nil => simp [decimalValue]
  | cons d a ih =>
    rw [List.cons_append, decimalValue, ih, decimalValue, List.length_append, pow_add]
    ring

theorem takeDigits_eq (ds : List (Fin 10)) (cs : List Char) (h : ∀ c, cs.head? = some c → digit? c = none) :
    takeDigits (ds.map digitChar ++ cs) = (ds, cs) := by
  induction ds with
  | nil =>
    cases cs with
    | nil => rfl
    | cons c cs => simp only [List.map_nil, List.nil_append, takeDigits, h c rfl]
  | cons d ds ih => simp only [List.map_cons, List.cons_append, takeDigits, digit?_digitChar, ih]

theorem takeDigits_sound (cs : List Char) :
    cs = (takeDigits cs).1.map digitChar ++ (takeDigits cs).2 ∧
      ∀ c, (takeDigits cs).2.head? = some c → digit? c = none := by
  induction cs with
  | nil => simp [takeDigits]
  | cons c cs ih =>
    rw [takeDigits]
    cases hd : digit? c with
    | none => simp [hd]
    | some d =>
      refine ⟨?_, ih.2⟩
      simp only [List.map_cons, List.cons_append]
      rw [← ih.1, digitChar_digit? c d hd]

theorem digitChar_ne (d : Fin 10) :
    digitChar d ≠ '+' ∧ digitChar d ≠ '-' ∧ digitChar d ≠ '.' ∧ digitChar d ≠ 'e' ∧ digitChar d ≠ 'E' ∧
      blank (digitChar d) = false := by
  revert d; decide

theorem takeSign_eq (s : Option Bool) (cs : List Char)
    (h : s = none → ∀ c, cs.head? = some c → c ≠ '+' ∧ c ≠ '-') :
    takeSign (signChars s ++ cs) = (s == some true, cs) := by
  rcases s with _ | _ | _
  · cases cs with
    | nil => rfl
    | cons c cs =>
      have := h rfl c rfl
      simp [signChars, takeSign, this.1, this.2]
  · simp [signChars, takeSign]
  · simp [signChars, takeSign]

theorem takeSign_sound (cs : List Char) :
    ∃ s, cs = signChars s ++ (takeSign cs).2 ∧ (takeSign cs).1 = (s == some true) ∧
      (s = none → ∀ c, (takeSign cs).2.head? = some c → c ≠ '+' ∧ c ≠ '-') := by
  cases cs with
  | nil => exact ⟨none, by simp [signChars, takeSign]⟩
  | cons c cs =>
    rw [takeSign]
    by_cases h1 : c = '+'
    · exact ⟨some false, by simp [signChars, h1]⟩
    · by_cases h2 : c = '-'
      · exact ⟨some true, by simp [signChars, h2]⟩
      · exact ⟨none, by simp [signChars, h1, h2]⟩

/-! ## Printing -/

theorem digits_length (k n : Nat) : (digits k n).length = k := by
  induction k generalizing n with
  | zero => rfl
  | succ k ih => rw [digits, List.length_append, ih]; rfl

theorem digits_value (k n : Nat) : decimalValue (digits k n) = n % 10 ^ k := by
  induction k generalizing n with
  | zero => simp [digits, decimalValue, Nat.mod_one]
  | succ k ih =>
    rw [digits, decimalValue_append, ih, pow_succ, Nat.mul_comm (10 ^ k) 10, Nat.mod_mul]
    simp only [decimalValue, List.length_nil, List.length_cons, pow_zero]
    ring

theorem strip_append (ds : List (Fin 10)) : ∃ z, ds = strip ds ++ List.replicate z 0 := by
  refine ⟨(ds.reverse.takeWhile (· == 0)).length, ?_⟩
  have h1 := List.takeWhile_append_dropWhile (p := (· == (0 : Fin 10))) (l := ds.reverse)
  have h2 : ds.reverse.takeWhile (· == 0) = List.replicate (ds.reverse.takeWhile (· == 0)).length 0 := by
    rw [List.eq_replicate_iff]
    exact ⟨rfl, fun b hb => by
      have := List.all_takeWhile (p := (· == (0 : Fin 10))) (l := ds.reverse)
      rw [List.all_eq_true] at this
      simpa using this b hb⟩
  rw [← List.reverse_inj, strip, List.reverse_append, List.reverse_reverse, List.reverse_replicate, ← h2, h1]

theorem decimalValue_zeros (z : Nat) : decimalValue (List.replicate z 0) = 0 := by
  induction z with
  | zero => rfl
  | succ z ih => rw [List.replicate_succ, decimalValue, ih]; simp

/-- Leaving out zeros at the end of digits behind a point. -/
theorem strip_value (a ds : List (Fin 10)) :
    ((decimalValue (a ++ strip ds) : Nat) : Rat) / 10 ^ (strip ds).length =
      ((decimalValue (a ++ ds) : Nat) : Rat) / 10 ^ ds.length := by
  obtain ⟨z, hz⟩ := strip_append ds
  have h1 : decimalValue (a ++ ds) = decimalValue (a ++ strip ds) * 10 ^ z := by
    conv => lhs; rw [hz, ← List.append_assoc, decimalValue_append, decimalValue_zeros, List.length_replicate]
    simp
  have h2 : ds.length = (strip ds).length + z := by
    conv => lhs; rw [hz]
    simp
  rw [h1, h2, pow_add]
  push_cast
  have h3 : (10 : Rat) ^ z ≠ 0 := by positivity
  have h4 : (10 : Rat) ^ (strip ds).length ≠ 0 := by positivity
  field_simp

theorem fraction_value (w f : List (Fin 10)) :
    (decimalValue w : Rat) + fractionValue (some f) = ((decimalValue (w ++ f) : Nat) : Rat) / 10 ^ f.length := by
  rw [decimalValue_append, fractionValue]
  have h : (10 : Rat) ^ f.length ≠ 0 := by positivity
  push_cast
  field_simp

/-- The point is left out with the last of the digits behind it. -/
theorem point_decimal (w ds : List (Fin 10)) : ∃ f : Option (List (Fin 10)),
    point (strip ds) = fractionChars f ∧
    (decimalValue w : Rat) + fractionValue f = ((decimalValue (w ++ ds) : Nat) : Rat) / 10 ^ ds.length := by
  by_cases h : strip ds = []
  · refine ⟨none, by simp [point, h, fractionChars], ?_⟩
    have := strip_value w ds
    rw [h] at this
    simpa [fractionValue] using this
  · refine ⟨some (strip ds), by simp [point, h, fractionChars], ?_⟩
    rw [fraction_value, strip_value]

theorem roundEven_floor (x : Rat) : ⌊x⌋ ≤ roundEven x ∧ roundEven x ≤ ⌊x⌋ + 1 := by
  unfold roundEven
  simp only
  split <;> [skip; split <;> [skip; split]] <;> omega

theorem roundEven_neg (x : Rat) : roundEven (-x) = -roundEven x := by
  have h1 := Int.floor_le x
  have h2 := Int.lt_floor_add_one x
  have h3 := Int.floor_le (-x)
  have h4 := Int.lt_floor_add_one (-x)
  unfold roundEven
  simp only
  generalize ⌊x⌋ = f at *
  generalize ⌊-x⌋ = g at *
  have h5 : f + g ≤ 0 := by
    have : ((f + g : Int) : Rat) ≤ 0 := by push_cast; linarith
    exact_mod_cast this
  have h6 : -2 < f + g := by
    have : (-2 : Rat) < ((f + g : Int) : Rat) := by push_cast; linarith
    exact_mod_cast this
  rcases (by omega : f + g = 0 ∨ f + g = -1) with h | h
  · have hg : g = -f := by omega
    subst hg
    push_cast at *
    have hx : x = f := by linarith
    subst hx
    simp
  · have hg : g = -f - 1 := by omega
    subst hg
    push_cast at *
    by_cases c1 : x - f < 1 / 2
    · rw [if_neg (by linarith), if_pos (by linarith), if_pos c1]; ring
    · by_cases c2 : 1 / 2 < x - f
      · rw [if_pos (by linarith), if_neg c1, if_pos c2]; ring
      · rw [if_neg (by linarith), if_neg (by linarith), if_neg c1, if_neg c2]
        split <;> split <;> omega

/-- The 15 digits and the exponent have the value that is printed. -/
theorem rounded_value (x : Rat) (hx : x ≠ 0) :
    (rounded x).1 < 10 ^ 15 ∧
      dec15 x = (if x < 0 then -1 else 1) * ((rounded x).1 : Rat) * (10 : Rat) ^ ((rounded x).2 - 14) := by
  have hpos : 0 < |x| := abs_pos.2 hx
  have hlt := Int.lt_zpow_succ_log_self (b := 10) (by norm_num) |x|
  push_cast at hlt
  set e := Int.log 10 |x| with he
  have hs : (0 : Rat) < 10 ^ (e - 14) := zpow_pos (by norm_num) _
  have hy0 : 0 ≤ |x| / 10 ^ (e - 14) := div_nonneg (abs_nonneg x) hs.le
  have hy1 : |x| / 10 ^ (e - 14) < 10 ^ 15 := by
    rw [div_lt_iff₀ hs]
    have : (10 : Rat) ^ (15 : Nat) * 10 ^ (e - 14) = 10 ^ (e + 1) := by
      rw [← zpow_natCast, ← zpow_add₀ (by norm_num)]
      congr 1; push_cast; ring
    rw [this]; exact hlt
  obtain ⟨hf1, hf2⟩ := roundEven_floor (|x| / 10 ^ (e - 14))
  have hn0 : 0 ≤ roundEven (|x| / 10 ^ (e - 14)) := le_trans (Int.floor_nonneg.2 hy0) hf1
  have hn1 : roundEven (|x| / 10 ^ (e - 14)) ≤ 10 ^ 15 := by
    have : ⌊|x| / 10 ^ (e - 14)⌋ < 10 ^ 15 := by
      rw [Int.floor_lt]; push_cast; exact hy1
    omega
  have hval : dec15 x = (if x < 0 then -1 else 1) * (roundEven (|x| / 10 ^ (e - 14)) : Rat) * (10 : Rat) ^ (e - 14) := by
    unfold dec15
    simp only [← he]
    by_cases h : x < 0
    · rw [if_pos h, abs_of_neg h, neg_div, roundEven_neg]
      push_cast; ring
    · rw [if_neg h, abs_of_nonneg (not_lt.1 h)]
      ring
  have hcast : (((roundEven (|x| / 10 ^ (e - 14))).toNat : Nat) : Rat) = (roundEven (|x| / 10 ^ (e - 14)) : Rat) := by
    rw [← Int.cast_natCast, Int.toNat_of_nonneg hn0]
  unfold rounded
  simp only [← he]
  by_cases hn : (roundEven (|x| / 10 ^ (e - 14))).toNat = 10 ^ 15
  · rw [if_pos hn]
    refine ⟨by norm_num, ?_⟩
    rw [hval, ← hcast, hn]
    have : (10 : Rat) ^ (e + 1 - 14) = 10 * 10 ^ (e - 14) := by
      rw [show e + 1 - 14 = 1 + (e - 14) by ring, zpow_add₀ (by norm_num), zpow_one]
    rw [this]
    push_cast; ring
  · rw [if_neg hn]
    refine ⟨by omega, ?_⟩
    rw [hval, hcast]

theorem log_digits (n : Nat) : n < 10 ^ max 2 (Nat.log 10 n + 1) :=
  lt_of_lt_of_le (Nat.lt_pow_succ_log_self (by norm_num) n) (Nat.pow_le_pow_right (by norm_num) (le_max_right _ _))

end Verif.Chars
