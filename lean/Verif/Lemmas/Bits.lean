/-! Bit operations on `Nat` as arithmetic. -/
namespace Verif

theorem and_mask (x k : Nat) : x &&& (2 ^ k - 1) = x % 2 ^ k := Nat.and_two_pow_sub_one_eq_mod x k

theorem xor_mask {x : Nat} (k : Nat) (h : x < 2 ^ k) : (2 ^ k - 1) ^^^ x = 2 ^ k - 1 - x := by
  have e : 2 ^ k - 1 - x = 2 ^ k - (x + 1) := by omega
  rw [e]
  apply Nat.eq_of_testBit_eq; intro i
  rw [Nat.testBit_two_pow_sub_succ h, Nat.testBit_xor, Nat.testBit_two_pow_sub_one]
  by_cases hi : i < k
  · simp [hi]
  · have : x.testBit i = false := Nat.testBit_lt_two_pow (Nat.lt_of_lt_of_le h (Nat.pow_le_pow_right (by omega) (by omega)))
    simp [hi, this]

/-- `x & (2^n - 2^k)` clears the low `k` bits of an `n`-bit number. -/
theorem and_high {x n k : Nat} (h : x < 2 ^ n) (hk : k ≤ n) : x &&& (2 ^ n - 2 ^ k) = x / 2 ^ k * 2 ^ k := by
  have e : 2 ^ n - 2 ^ k = (2 ^ (n - k) - 1) * 2 ^ k := by
    rw [Nat.sub_mul, ← Nat.pow_add, Nat.sub_add_cancel hk, Nat.one_mul]
  rw [e]
  apply Nat.eq_of_testBit_eq; intro i
  rw [Nat.testBit_and, Nat.testBit_mul_two_pow, Nat.testBit_mul_two_pow, Nat.testBit_two_pow_sub_one]
  by_cases hi : k ≤ i
  · simp only [hi, decide_true, Bool.true_and, Nat.testBit_div_two_pow, Nat.sub_add_cancel hi]
    by_cases hn : i - k < n - k
    · simp [hn]
    · have : x.testBit i = false := Nat.testBit_lt_two_pow (Nat.lt_of_lt_of_le h (Nat.pow_le_pow_right (by omega) (by omega)))
      simp [this]
  · simp [hi]

theorem or_disjoint {a b k : Nat} (hb : b < 2 ^ k) : a * 2 ^ k ||| b = a * 2 ^ k + b := by
  have := Nat.two_pow_add_eq_or_of_lt hb a
  rw [Nat.mul_comm (2 ^ k) a] at this
  exact this.symm

/-- one bit -/
theorem and_bit (x k : Nat) : x &&& 2 ^ k = x / 2 ^ k % 2 * 2 ^ k := by
  apply Nat.eq_of_testBit_eq; intro i
  rw [Nat.testBit_and, Nat.testBit_mul_two_pow, Nat.testBit_two_pow]
  by_cases hi : k = i
  · subst hi
    simp only [Nat.testBit_eq_decide_div_mod_eq]
    simp
  · have : decide (k = i) = false := by simp [hi]
    rw [this, Bool.and_false]
    by_cases hk : k ≤ i
    · have : (x / 2 ^ k % 2).testBit (i - k) = false :=
        Nat.testBit_lt_two_pow (Nat.lt_of_lt_of_le (show _ < 2 ^ 1 by omega) (Nat.pow_le_pow_right (by omega) (by omega)))
      simp [this]
    · simp [hk]

theorem and_1 (x : Nat) : x &&& 1 = x % 2 := and_mask x 1
theorem and_3 (x : Nat) : x &&& 3 = x % 4 := and_mask x 2
theorem and_7 (x : Nat) : x &&& 7 = x % 8 := and_mask x 3
theorem and_F (x : Nat) : x &&& 0xF = x % 16 := and_mask x 4
theorem and_3F (x : Nat) : x &&& 0x3F = x % 64 := and_mask x 6
theorem and_FF (x : Nat) : x &&& 0xFF = x % 256 := and_mask x 8
theorem and_FFFF (x : Nat) : x &&& 0xFFFF = x % 65536 := and_mask x 16
theorem and_FFFFFFFF (x : Nat) : x &&& 0xFFFFFFFF = x % 4294967296 := and_mask x 32
theorem and_FFFFFFFFFFFFFFFF (x : Nat) : x &&& 0xFFFFFFFFFFFFFFFF = x % 18446744073709551616 := and_mask x 64
theorem xor_FFFF {x : Nat} (h : x < 65536) : 0xFFFF ^^^ x = 65535 - x := xor_mask 16 h

end Verif
