import Verif.Model.Cksum
import Verif.Spec.Cksum
import Verif.Lemmas.Py
import Verif.Lemmas.Bits
namespace Verif
open Spec

/-! ### the specification's sum modulo 65535 -/

/-- plain (unfolded) sum of the 16-bit words -/
def sum16 (b : Bytes) : Nat := (words16 b).sum

theorem words16_lt (b : Bytes) : ∀ w ∈ words16 b, w < 65536 := by
  fun_induction words16 b with
  | case1 => simp
  | case2 a => have := a.toNat_lt; simp; omega
  | case3 a b rest ih =>
    have := a.toNat_lt; have := b.toNat_lt
    intro w hw
    rcases List.mem_cons.mp hw with rfl | hw
    · omega
    · exact ih w hw

theorem ocFold_spec (ws : List Nat) (h : ∀ w ∈ ws, w < 65536) (a : Nat) (ha : a < 65536) :
    ws.foldl ocAdd a < 65536 ∧ (ws.foldl ocAdd a) % 65535 = (a + ws.sum) % 65535 ∧
      (ws.foldl ocAdd a = 0 ↔ a + ws.sum = 0) := by
  induction ws generalizing a with
  | nil => simp [ha]
  | cons w ws ih =>
    have hw := h w (by simp)
    have hlt : ocAdd a w < 65536 := by unfold ocAdd; split <;> omega
    obtain ⟨h1, h2, h3⟩ := ih (fun x hx => h x (by simp [hx])) (ocAdd a w) hlt
    refine ⟨h1, ?_, ?_⟩
    · rw [List.foldl_cons, h2, List.sum_cons]; unfold ocAdd; split <;> omega
    · rw [List.foldl_cons, h3, List.sum_cons]; unfold ocAdd; split <;> omega

theorem ocSum_spec (b : Bytes) :
    ocSum (words16 b) < 65536 ∧ ocSum (words16 b) % 65535 = sum16 b % 65535 ∧
      (ocSum (words16 b) = 0 ↔ sum16 b = 0) := by
  have := ocFold_spec (words16 b) (words16_lt b) 0 (by omega)
  simpa [ocSum, sum16] using this

theorem sum16_append (a b : Bytes) (h : a.length % 2 = 0) : sum16 (a ++ b) = sum16 a + sum16 b := by
  unfold sum16
  fun_induction words16 a with
  | case1 => simp
  | case2 x => simp at h
  | case3 x y rest ih =>
    simp only [List.length_cons] at h
    simp only [List.cons_append, words16, List.sum_cons]
    rw [ih (by omega)]; omega

/-- The value of an even-length byte string is its word sum, modulo 65535. -/
theorem beNat_mod (b : Bytes) (h : b.length % 2 = 0) : beNat b % 65535 = sum16 b % 65535 := by
  unfold sum16
  fun_induction words16 b with
  | case1 => rfl
  | case2 x => simp at h
  | case3 x y rest ih =>
    simp only [List.length_cons] at h
    have ih := ih (by omega)
    obtain ⟨k, hk⟩ : ∃ k, rest.length = 2 * k := ⟨rest.length / 2, by omega⟩
    have hp : 256 ^ rest.length % 65535 = 1 := by
      rw [hk, Nat.pow_mul, Nat.pow_mod]; simp
    simp only [beNat_cons, List.length_cons, List.sum_cons, Nat.pow_succ]
    have e : x.toNat * (256 ^ rest.length * 256) + (y.toNat * 256 ^ rest.length + beNat rest) =
        (x.toNat * 256 + y.toNat) * 256 ^ rest.length + beNat rest := by grind
    rw [e, Nat.add_mod, Nat.mul_mod, hp, ih]
    rw [Nat.mul_one, Nat.mod_mod, ← Nat.add_mod]

theorem beNat_eq_zero (b : Bytes) : beNat b = 0 ↔ sum16 b = 0 := by
  unfold sum16
  fun_induction words16 b with
  | case1 => simp
  | case2 x => simp; omega
  | case3 x y rest ih =>
    simp only [beNat_cons, List.sum_cons, List.length_cons, Nat.add_eq_zero_iff, ih, Nat.mul_eq_zero]
    have : 256 ^ rest.length ≠ 0 := by exact Nat.ne_of_gt (Nat.pow_pos (by omega))
    have : 256 ^ (rest.length + 1) ≠ 0 := by exact Nat.ne_of_gt (Nat.pow_pos (by omega))
    constructor <;> intro h <;> refine ⟨?_, ?_⟩ <;> simp_all <;> omega

theorem sum16_zeros (n : Nat) : sum16 (List.replicate n 0) = 0 := by
  rw [← beNat_eq_zero]
  induction n with
  | zero => rfl
  | succ n ih => simp [List.replicate_succ, ih]

theorem sum16_append_zeros (b : Bytes) (n : Nat) : sum16 (b ++ List.replicate n 0) = sum16 b := by
  by_cases h : b.length % 2 = 0
  · rw [sum16_append _ _ h, sum16_zeros]; omega
  · obtain ⟨xs, x, rfl⟩ : ∃ xs x, b = xs ++ [x] := by
      have hne : b ≠ [] := by intro h'; simp [h'] at h
      exact ⟨b.dropLast, b.getLast hne, (List.dropLast_concat_getLast hne).symm⟩
    simp only [List.length_append, List.length_cons, List.length_nil] at h
    rw [List.append_assoc, sum16_append xs [x] (by omega), sum16_append xs _ (by omega)]
    congr 1
    cases n with
    | zero => simp
    | succ n => 
      have := sum16_zeros n
      simp [sum16, words16, List.replicate_succ] at this ⊢
      exact this

theorem beNat_zeros (n : Nat) : beNat (List.replicate n 0) = 0 := by
  rw [beNat_eq_zero, sum16_zeros]

theorem beNat_append_zeros (b : Bytes) (n : Nat) : beNat (b ++ List.replicate n 0) = beNat b * 256 ^ n := by
  rw [beNat_append, beNat_zeros]; simp

/-! ### the code's accumulator modulo 65535 -/

theorem wordSum_spec (k : Nat) (hk : k % 2 = 0) (n : Nat) (b : Bytes) (h : k * n ≤ b.length) :
    wordSum k n b % 65535 = sum16 (b.take (k * n)) % 65535 ∧
      (wordSum k n b = 0 ↔ sum16 (b.take (k * n)) = 0) ∧ wordSum k n b ≤ n * (256 ^ k - 1) := by
  induction n generalizing b with
  | zero => simp [wordSum, sum16, words16]
  | succ n ih =>
    have hl : k ≤ b.length := by grind
    obtain ⟨h1, h2, h3⟩ := ih (b.drop k) (by simp; grind)
    have hb := beNat_lt (b.take k)
    have hlen : (b.take k).length = k := by simp; omega
    rw [hlen] at hb
    have hs : sum16 (b.take (k * (n + 1))) = sum16 (b.take k) + sum16 ((b.drop k).take (k * n)) := by
      rw [← sum16_append _ _ (by rw [hlen]; exact hk)]
      congr 1
      rw [show k * (n + 1) = k + k * n by grind, List.take_add]
    have hm := beNat_mod (b.take k) (by rw [hlen]; exact hk)
    have hz := beNat_eq_zero (b.take k)
    simp only [wordSum, hs]
    refine ⟨by omega, by omega, ?_⟩
    rw [Nat.succ_mul]; omega

/-- The accumulator before the final folds is congruent to the plain sum. -/
theorem cksumAcc_spec (data : Bytes) (init : Nat) :
    cksumAcc data init % 65535 = (init + sum16 data) % 65535 ∧
      (cksumAcc data init = 0 ↔ init + sum16 data = 0) := by
  unfold cksumAcc
  by_cases h20 : data.length = 20
  · obtain ⟨h1, h2, h3⟩ := wordSum_spec 4 rfl 5 data (by omega)
    rw [List.take_of_length_le (by omega)] at h1 h2
    simp only [h20, ↓reduceIte]
    omega
  · simp only [h20, ↓reduceIte, Nat.shiftRight_eq_div_pow, and_7, and_FFFFFFFFFFFFFFFF, Nat.shiftLeft_eq]
    generalize hq : data.length / 2 ^ 3 = q
    generalize hr : data.length % 8 = r
    obtain ⟨h1, h2, -⟩ := wordSum_spec 8 rfl q data (by omega)
    have hsplit : sum16 data = sum16 (data.take (8 * q)) + sum16 (data.drop (8 * q)) := by
      rw [← sum16_append _ _ (by simp; omega), List.take_append_drop]
    by_cases hr0 : r = 0
    · have : data.drop (8 * q) = [] := by simp; omega
      rw [this] at hsplit
      simp only [sum16, words16, List.sum_nil] at hsplit h1 h2
      simp only [hr0, ne_eq, not_true_eq_false, ↓reduceIte, sum16, hsplit]
      omega
    · have hd : data.length - r = 8 * q := by omega
      simp only [hr0, ne_eq, not_false_eq_true, ↓reduceIte, hd]
      have htl : (data.drop (8 * q)).length = r := by simp; omega
      have hpow : beNat (data.drop (8 * q)) * 2 ^ ((8 - r) * 2 ^ 3) =
          beNat (data.drop (8 * q) ++ List.replicate (8 - r) 0) := by
        rw [beNat_append_zeros, Nat.mul_comm (8 - r) (2 ^ 3), Nat.pow_mul]
      have hm := beNat_mod (data.drop (8 * q) ++ List.replicate (8 - r) 0) (by simp [htl]; omega)
      have hz := beNat_eq_zero (data.drop (8 * q) ++ List.replicate (8 - r) 0)
      rw [sum16_append_zeros] at hm hz
      rw [hpow]
      omega

theorem wordSum_le_len (k n : Nat) (b : Bytes) : wordSum k n b ≤ n * (256 ^ k) := by
  induction n generalizing b with
  | zero => simp [wordSum]
  | succ n ih =>
    have := ih (b.drop k)
    have hb := beNat_lt (b.take k)
    have : 256 ^ (b.take k).length ≤ 256 ^ k := Nat.pow_le_pow_right (by omega) (by simp; omega)
    simp only [wordSum, Nat.succ_mul]; omega

/-- Size of the accumulator: what keeps the last folds from losing more than one carry. -/
theorem cksumAcc_lt (data : Bytes) (init : Nat) (hd : data.length < 2 ^ 63) (hi : init < 2 ^ 72) :
    cksumAcc data init < 2 ^ 73 := by
  unfold cksumAcc
  by_cases h20 : data.length = 20
  · have := wordSum_le_len 4 5 data
    simp only [h20, ↓reduceIte]; omega
  · simp only [h20, ↓reduceIte, Nat.shiftRight_eq_div_pow, and_7, and_FFFFFFFFFFFFFFFF, Nat.shiftLeft_eq]
    generalize hq : data.length / 2 ^ 3 = q
    have h1 := wordSum_le_len 8 q data
    generalize hr : data.length % 8 = r
    by_cases hr0 : r = 0
    · simp only [hr0, ne_eq, not_true_eq_false, ↓reduceIte]; omega
    · simp only [hr0, ne_eq, not_false_eq_true, ↓reduceIte]
      have hpow : beNat (data.drop (data.length - r)) * 2 ^ ((8 - r) * 2 ^ 3) < 256 ^ 8 := by
        have hb := beNat_lt (data.drop (data.length - r))
        have htl : (data.drop (data.length - r)).length = r := by simp; omega
        rw [htl] at hb
        rw [Nat.mul_comm (8 - r) (2 ^ 3), Nat.pow_mul, show (256 : Nat) ^ 8 = 256 ^ r * 256 ^ (8 - r) by
          rw [← Nat.pow_add]; congr 1; omega]
        exact Nat.mul_lt_mul_of_pos_right hb (Nat.pow_pos (by omega))
      omega

/-- One 32-bit and one 16-bit fold, arithmetically. -/
def folds (c : Nat) : Nat :=
  let c := c / 2 ^ 32 + c % 2 ^ 32
  c / 2 ^ 16 + c % 2 ^ 16

theorem inetCksum_eq (data : Bytes) (init : Nat) :
    inetCksum data init =
      65535 - (folds (cksumAcc data init) + folds (cksumAcc data init) / 65536) % 65536 := by
  unfold inetCksum folds
  simp only [and_FFFF, and_FFFFFFFF, Nat.shiftRight_eq_div_pow]
  rw [xor_FFFF (Nat.mod_lt _ (by omega))]

theorem folds_spec (c : Nat) : folds c % 65535 = c % 65535 ∧ (folds c = 0 ↔ c = 0) := by
  simp only [folds]; omega

theorem folds_lt (c : Nat) (h : c < 2 ^ 73) : folds c < 2 ^ 26 := by
  simp only [folds]; omega


/-- The last step of the routine: `s` is the sum of the two halves of the folded accumulator. -/
theorem last_fold (f : Nat) (hf : f < 2 ^ 26) :
    ∃ s, s < 65536 + 1024 ∧ f % 65535 = s % 65535 ∧ (s = 0 ↔ f = 0) ∧ (f + f / 65536) % 65536 = s % 65536 := by
  refine ⟨f % 65536 + f / 65536, by omega, by omega, by omega, by omega⟩

/-- For five 32-bit words no carry is lost at the end. -/
theorem small_fold (c : Nat) (hc : c ≤ 5 * (2 ^ 32 - 1)) :
    ∃ s, s ≤ 65535 ∧ folds c % 65535 = s % 65535 ∧ (s = 0 ↔ folds c = 0) ∧
      (folds c + folds c / 65536) % 65536 = s := by
  have h1 : c / 2 ^ 32 + c % 2 ^ 32 < 2 ^ 32 + 4 := by omega
  have h2 : folds c ≤ 131070 := by
    simp only [folds]
    generalize c / 2 ^ 32 + c % 2 ^ 32 = y at *
    omega
  generalize folds c = f at *
  exact ⟨f % 65536 + f / 65536, by omega, by omega, by omega, by omega⟩

/-- What the routine returns, by cases on the sum modulo 65535. -/
theorem inetCksum_cases (data : Bytes) (init : Nat) (hd : data.length < 2 ^ 63) (hi : init < 2 ^ 72) :
    (inetCksum data init = 0 ↔ (init + sum16 data) % 65535 = 0 ∧ init + sum16 data ≠ 0) ∧
      inetCksum data init ≤ 65535 := by
  have h1 := cksumAcc_spec data init
  have h2 := cksumAcc_lt data init hd hi
  have h3 := folds_spec (cksumAcc data init)
  have h4 := folds_lt _ h2
  obtain ⟨s, s1, s2, s3, s4⟩ := last_fold _ h4
  rw [inetCksum_eq, s4]
  generalize folds (cksumAcc data init) = f at *
  generalize cksumAcc data init = c at *
  omega

/-- Sum of a byte string with one byte replaced. -/
theorem sum16_set (b : Bytes) (i : Nat) (x : UInt8) (h : i < b.length) :
    sum16 (b.set i x) + b[i].toNat * (if i % 2 = 0 then 256 else 1) =
      sum16 b + x.toNat * (if i % 2 = 0 then 256 else 1) := by
  induction b using words16.induct generalizing i with
  | case1 => simp at h
  | case2 a =>
    have : i = 0 := by simpa using h
    subst this
    simp [sum16, words16]; omega
  | case3 a b rest ih =>
    match i with
    | 0 => simp [sum16, words16]; omega
    | 1 => simp [sum16, words16]; omega
    | i + 2 =>
      have := ih i (by simpa using h)
      simp only [sum16, List.set_cons_succ, words16, List.sum_cons, List.getElem_cons_succ] at this ⊢
      rw [show (i + 2) % 2 = i % 2 by omega]
      omega

end Verif
