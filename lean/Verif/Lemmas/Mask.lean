import Verif.Model.Addr
import Verif.Lemmas.Bits
import Verif.Lemmas.Py
namespace Verif

theorem bitString_succ (w m : Nat) : bitString (w + 1) m = m.testBit w :: bitString w m := by
  simp only [bitString, List.range_succ_eq_map, List.map_cons, List.map_map]
  congr 1
  apply List.map_congr_left
  intro i _
  simp only [Function.comp]
  congr 1
  omega

theorem bitString_zero (m : Nat) : bitString 0 m = [] := rfl

/-- Only the low `w` bits matter. -/
theorem bitString_mod (w m k : Nat) (h : w ≤ k) : bitString w (m % 2 ^ k) = bitString w m := by
  simp only [bitString]
  apply List.map_congr_left
  intro i hi
  have : i < w := by simpa using hi
  simp; omega

theorem bitString_none (w m : Nat) (h : m < 2 ^ w) : (bitString w m).any (· == true) = false ↔ m = 0 := by
  induction w generalizing m with
  | zero => simp [bitString_zero]; omega
  | succ w ih =>
    rw [bitString_succ, List.any_cons, Bool.or_eq_false_iff]
    constructor
    · rintro ⟨h1, h2⟩
      have hlt : m < 2 ^ w := by
        apply Nat.lt_pow_two_of_testBit
        intro i hi
        by_cases e : i = w
        · subst e; simpa using h1
        · exact Nat.testBit_lt_two_pow (Nat.lt_of_lt_of_le h (Nat.pow_le_pow_right (by omega) (by omega)))
      exact (ih m hlt).mp h2
    · rintro rfl
      exact ⟨by simp, (ih 0 (Nat.pow_pos (by omega))).mpr rfl⟩

theorem testBit_top {m w : Nat} (h : m < 2 ^ (w + 1)) : m.testBit w = true ↔ 2 ^ w ≤ m := by
  constructor
  · exact Nat.ge_two_pow_of_testBit
  · intro h2; exact Nat.testBit_of_two_pow_le_and_two_pow_add_one_gt h2 h

/-- Exactly the prefix masks pass `_validate_bits`. -/
theorem validateBits_iff (w m : Nat) (h : m < 2 ^ w) :
    validateBits w m = true ↔ ∃ n ≤ w, m = 2 ^ w - 2 ^ (w - n) := by
  induction w generalizing m with
  | zero => 
    have : m = 0 := by omega
    subst this
    simp [validateBits, bitString_zero]
  | succ w ih =>
    by_cases ht : m.testBit w = true
    · have hge := (testBit_top h).mp ht
      have hm : m % 2 ^ w = m - 2 ^ w := by
        rw [Nat.mod_eq_sub_mod hge, Nat.mod_eq_of_lt]
        omega
      have e : validateBits (w + 1) m = validateBits w (m - 2 ^ w) := by
        simp only [validateBits, bitString_succ, ht]
        rw [List.dropWhile_cons_of_pos (by simp), ← hm, bitString_mod _ _ _ (Nat.le_refl w)]
      rw [e, ih (m - 2 ^ w) (by omega)]
      constructor
      · rintro ⟨n, hn, hmn⟩
        refine ⟨n + 1, by omega, ?_⟩
        rw [show w + 1 - (n + 1) = w - n by omega]
        have : 2 ^ (w - n) ≤ 2 ^ w := Nat.pow_le_pow_right (by omega) (by omega)
        omega
      · rintro ⟨n, hn, hmn⟩
        match n with
        | 0 => simp at hmn; have := Nat.pow_pos (n := w) (show 0 < 2 by omega); omega
        | n + 1 =>
          refine ⟨n, by omega, ?_⟩
          rw [show w + 1 - (n + 1) = w - n by omega] at hmn
          have : 2 ^ (w - n) ≤ 2 ^ w := Nat.pow_le_pow_right (by omega) (by omega)
          omega
    · have hlt : m < 2 ^ w := by
        rcases Nat.lt_or_ge m (2 ^ w) with h' | h'
        · exact h'
        · exact absurd ((testBit_top h).mpr h') ht
      have e : validateBits (w + 1) m = !(bitString w m).any (· == true) := by
        simp only [Bool.not_eq_true] at ht
        simp [validateBits, bitString_succ, ht]
      rw [e, Bool.not_eq_true', bitString_none w m hlt]
      constructor
      · rintro rfl; exact ⟨0, by omega, by simp⟩
      · rintro ⟨n, hn, hmn⟩
        match n with
        | 0 => simpa using hmn
        | n + 1 =>
          rw [show w + 1 - (n + 1) = w - n by omega] at hmn
          have : 2 ^ (w - n) ≤ 2 ^ w := Nat.pow_le_pow_right (by omega) (by omega)
          omega

theorem onesThenZeros_eq (w n : Nat) (h : n ≤ w) : onesThenZeros w n = 2 ^ w - 2 ^ (w - n) := by
  have ones : ∀ n a : Nat, (List.replicate n true).foldl (fun acc b => 2 * acc + b.toNat) a = 2 ^ n * (a + 1) - 1 := by
    intro n
    induction n with
    | zero => simp
    | succ n ih => intro a; rw [List.replicate_succ, List.foldl_cons, ih]; simp; grind
  have zeros : ∀ n a : Nat, (List.replicate n false).foldl (fun acc b => 2 * acc + b.toNat) a = 2 ^ n * a := by
    intro n
    induction n with
    | zero => simp
    | succ n ih => intro a; rw [List.replicate_succ, List.foldl_cons, ih]; simp; grind
  rw [onesThenZeros, List.foldl_append, ones, zeros]
  have : 2 ^ w = 2 ^ (w - n) * 2 ^ n := by rw [← Nat.pow_add]; congr 1; omega
  rw [this, Nat.mul_sub]; simp

theorem prefixMask_lt (w n : Nat) : 2 ^ w - 2 ^ (w - n) < 2 ^ w := by
  have := Nat.pow_pos (n := w) (show 0 < 2 by omega)
  have := Nat.pow_pos (n := w - n) (show 0 < 2 by omega)
  omega

/-- The printed length of a prefix mask. -/
theorem maskLen_prefix (w n : Nat) (h : n ≤ w) : maskLen w (2 ^ w - 2 ^ (w - n)) = n := by
  induction w generalizing n with
  | zero => have : n = 0 := by omega
            subst this; rfl
  | succ w ih =>
    rw [maskLen, bitString_succ, List.countP_cons]
    match n with
    | 0 =>
      have := ih 0 (by omega)
      simp only [maskLen, Nat.sub_zero, Nat.sub_self] at this ⊢
      rw [this]; simp
    | n + 1 =>
      have hp : 2 ^ (w - n) ≤ 2 ^ w := Nat.pow_le_pow_right (by omega) (by omega)
      have hp0 := Nat.pow_pos (n := w - n) (show 0 < 2 by omega)
      rw [show w + 1 - (n + 1) = w - n by omega]
      have hm : (2 ^ (w + 1) - 2 ^ (w - n)) % 2 ^ w = 2 ^ w - 2 ^ (w - n) := by
        rw [Nat.mod_eq_sub_mod (by omega), Nat.mod_eq_of_lt (by omega)]; omega
      have ht : (2 ^ (w + 1) - 2 ^ (w - n)).testBit w = true := by
        rw [testBit_top (by omega)]; omega
      rw [← bitString_mod w _ w (Nat.le_refl w), hm]
      have := ih n (by omega)
      rw [maskLen] at this
      rw [this, ht]; simp

end Verif
