import Verif.Alloc.Model

namespace Verif.Alloc

theorem and_mask (p k : Nat) (hp : p < 2 ^ 64) (hk : k ≤ 64) : p &&& (2 ^ 64 - 1 - (2 ^ k - 1)) = p - p % 2 ^ k := by
  have hpos : 0 < 2 ^ k := Nat.two_pow_pos k
  have h1 : 2 ^ 64 - 1 - (2 ^ k - 1) = (2 ^ (64 - k) - 1) <<< k := by
    rw [Nat.shiftLeft_eq, Nat.sub_mul, ← Nat.pow_add, Nat.sub_add_cancel hk]; omega
  have h2 : p - p % 2 ^ k = (p >>> k) <<< k := by
    rw [Nat.shiftLeft_eq, Nat.shiftRight_eq_div_pow]
    have := Nat.div_add_mod' p (2 ^ k); omega
  rw [h1, h2]
  apply Nat.eq_of_testBit_eq
  intro i
  simp only [Nat.testBit_and, Nat.testBit_shiftLeft, Nat.testBit_shiftRight, Nat.testBit_two_pow_sub_one]
  by_cases hik : k ≤ i
  · have e : k + (i - k) = i := by omega
    by_cases hi : i < 64
    · have : i - k < 64 - k := by omega
      simp [hik, this, e]
    · have hz : p.testBit i = false := Nat.testBit_lt_two_pow (Nat.lt_of_lt_of_le hp (Nat.pow_le_pow_right (by omega) (by omega)))
      simp [hz, e]
  · simp [hik]

theorem getAlign_eq {k : Nat} (h : k < 32) : getAlign k = 2 ^ k :=
  Nat.mod_eq_of_lt (Nat.pow_lt_pow_right (by omega) h)

end Verif.Alloc
