import Verif.Model.Net
import Verif.Lemmas.Bits
import Verif.Lemmas.Py
import Verif.Spec.Addr
namespace Verif
open Spec

theorem MacAddress.ext' {a b : MacAddress} (h : a.int = b.int) : a = b := by
  cases a; cases b; simp_all
theorem Ip4Address.ext' {a b : Ip4Address} (h : a.int = b.int) : a = b := by
  cases a; cases b; simp_all
theorem Ip6Address.ext' {a b : Ip6Address} (h : a.int = b.int) : a = b := by
  cases a; cases b; simp_all

theorem eq_bePack_of {b : Bytes} {k n : Nat} (hl : b.length = k) (hv : beNat b = n) : b = bePack k n := by
  rw [← hl, ← hv, bePack_beNat]

theorem MacAddress.toBytes_eq (m : MacAddress) : m.toBytes = bePack 6 m.int := by
  have h := m.lt
  apply eq_bePack_of
  · simp [MacAddress.toBytes]
  · simp only [MacAddress.toBytes, beNat_append, beNat_bePack, and_FFFF, Nat.shiftRight_eq_div_pow, bePack_length]
    omega

theorem Ip6Address.toBytes_eq (m : Ip6Address) : m.toBytes = bePack 16 m.int := by
  have h := m.lt
  apply eq_bePack_of
  · simp [Ip6Address.toBytes]
  · simp only [Ip6Address.toBytes, beNat_append, beNat_bePack, and_FFFFFFFF, Nat.shiftRight_eq_div_pow, bePack_length]
    omega

@[simp] theorem MacAddress.toBytes_length (m : MacAddress) : m.toBytes.length = 6 := by simp [toBytes]
@[simp] theorem Ip4Address.toBytes_length (m : Ip4Address) : m.toBytes.length = 4 := by simp [toBytes]
@[simp] theorem Ip6Address.toBytes_length (m : Ip6Address) : m.toBytes.length = 16 := by simp [toBytes]

theorem MacAddress.ofInt_ok (n : Nat) (h : n < 2 ^ 48) : MacAddress.ofInt (n : Int) = .ok ⟨n, h⟩ := by
  simp only [MacAddress.ofInt]
  rw [dif_pos (by omega)]
  simp

theorem Ip4Address.ofInt_ok (n : Nat) (h : n < 2 ^ 32) : Ip4Address.ofInt (n : Int) = .ok ⟨n, h⟩ := by
  show Ip4Address.ofInt (Int.ofNat n) = _
  simp only [Ip4Address.ofInt]
  rw [dif_pos (by rw [and_FFFFFFFF]; omega)]

theorem and_FFFF8 (x : Nat) : x &&& 0xFFFFFFFFFFFFFFFFFFFFFFFFFFFFFFFF = x % 2 ^ 128 := and_mask x 128

theorem Ip6Address.ofInt_ok (n : Nat) (h : n < 2 ^ 128) : Ip6Address.ofInt (n : Int) = .ok ⟨n, h⟩ := by
  show Ip6Address.ofInt (Int.ofNat n) = _
  simp only [Ip6Address.ofInt]
  rw [dif_pos (by rw [and_FFFF8]; omega)]

theorem unpackBE_ok {k : Nat} {b : Bytes} (h : b.length = k) : unpackBE k b = .ok (beNat b) := by
  simp [unpackBE, h]

theorem MacAddress.ofBytes_ok (b : Bytes) (h : b.length = 6) :
    MacAddress.ofBytes b = .ok ⟨beNat b, by have := beNat_lt b; rw [h] at this; omega⟩ := by
  have hlt : beNat b < 2 ^ 48 := by have := beNat_lt b; rw [h] at this; omega
  have h1 : b = slice b 0 2 ++ (slice b 2 4 ++ slice b 4 6) := by
    match b, h with
    | [_, _, _, _, _, _], _ => rfl
  have e : (beNat (slice b 0 2) <<< 32) + (beNat (slice b 2 4) <<< 16) + beNat (slice b 4 6) = beNat b := by
    conv => rhs; rw [h1, beNat_append, beNat_append]
    simp only [slice_length, List.length_append, h, Nat.shiftLeft_eq, Nat.reduceAdd, Nat.reduceSub, Nat.reduceLeDiff, Nat.min_def, Nat.reducePow, ↓reduceIte, Nat.le_refl]
    omega
  unfold MacAddress.ofBytes
  rw [if_pos h, unpackBE_ok (by simp [h]), unpackBE_ok (by simp [h]), unpackBE_ok (by simp [h])]
  simp only [py_ok_bind]
  rw [e, MacAddress.ofInt_ok _ hlt]

theorem Ip4Address.ofBytes_ok (b : Bytes) (h : b.length = 4) :
    Ip4Address.ofBytes b = .ok ⟨beNat b, by have := beNat_lt b; rw [h] at this; omega⟩ := by
  have hlt : beNat b < 2 ^ 32 := by have := beNat_lt b; rw [h] at this; omega
  unfold Ip4Address.ofBytes
  rw [if_pos h, unpackBE_ok h]
  simp only [py_ok_bind]
  rw [Ip4Address.ofInt_ok _ hlt]

theorem Ip6Address.ofBytes_ok (b : Bytes) (h : b.length = 16) :
    Ip6Address.ofBytes b = .ok ⟨beNat b, by have := beNat_lt b; rw [h] at this; omega⟩ := by
  have hlt : beNat b < 2 ^ 128 := by have := beNat_lt b; rw [h] at this; omega
  have h1 : b = slice b 0 4 ++ (slice b 4 8 ++ (slice b 8 12 ++ slice b 12 16)) := by
    match b, h with
    | [_, _, _, _, _, _, _, _, _, _, _, _, _, _, _, _], _ => rfl
  have e : (beNat (slice b 0 4) <<< 96) + (beNat (slice b 4 8) <<< 64) + (beNat (slice b 8 12) <<< 32)
      + beNat (slice b 12 16) = beNat b := by
    conv => rhs; rw [h1, beNat_append, beNat_append, beNat_append]
    simp only [slice_length, List.length_append, h, Nat.shiftLeft_eq, Nat.reduceAdd, Nat.reduceSub, Nat.reduceLeDiff, Nat.min_def, Nat.reducePow, ↓reduceIte, Nat.le_refl]
    omega
  unfold Ip6Address.ofBytes
  rw [if_pos h, unpackBE_ok (by simp [h]), unpackBE_ok (by simp [h]), unpackBE_ok (by simp [h]),
    unpackBE_ok (by simp [h])]
  simp only [py_ok_bind]
  rw [e, Ip6Address.ofInt_ok _ hlt]

@[simp] theorem MacAddress.ofBytes_toBytes (m : MacAddress) : MacAddress.ofBytes m.toBytes = .ok m := by
  rw [MacAddress.ofBytes_ok _ m.toBytes_length]
  congr 1
  apply MacAddress.ext'
  simp only [m.toBytes_eq, beNat_bePack]
  exact Nat.mod_eq_of_lt m.lt

@[simp] theorem Ip4Address.ofBytes_toBytes (m : Ip4Address) : Ip4Address.ofBytes m.toBytes = .ok m := by
  rw [Ip4Address.ofBytes_ok _ m.toBytes_length]
  congr 1
  apply Ip4Address.ext'
  simp only [toBytes, beNat_bePack]
  exact Nat.mod_eq_of_lt m.lt

@[simp] theorem Ip6Address.ofBytes_toBytes (m : Ip6Address) : Ip6Address.ofBytes m.toBytes = .ok m := by
  rw [Ip6Address.ofBytes_ok _ m.toBytes_length]
  congr 1
  apply Ip6Address.ext'
  simp only [m.toBytes_eq, beNat_bePack]
  exact Nat.mod_eq_of_lt m.lt

/-! masks and networks -/

theorem Ip4Mask.prefix_form (m : Ip4Mask) : ∃ n ≤ 32, m.int = 2 ^ 32 - 2 ^ (32 - n) :=
  (validateBits_iff 32 m.int m.lt).mp m.valid
theorem Ip6Mask.prefix_form (m : Ip6Mask) : ∃ n ≤ 128, m.int = 2 ^ 128 - 2 ^ (128 - n) :=
  (validateBits_iff 128 m.int m.lt).mp m.valid

theorem Ip4Mask.len_form (m : Ip4Mask) : m.len ≤ 32 ∧ m.int = 2 ^ 32 - 2 ^ (32 - m.len) := by
  obtain ⟨n, hn, h⟩ := m.prefix_form
  have : m.len = n := by rw [Ip4Mask.len, h, maskLen_prefix 32 n hn]
  rw [this]; exact ⟨hn, h⟩
theorem Ip6Mask.len_form (m : Ip6Mask) : m.len ≤ 128 ∧ m.int = 2 ^ 128 - 2 ^ (128 - m.len) := by
  obtain ⟨n, hn, h⟩ := m.prefix_form
  have : m.len = n := by rw [Ip6Mask.len, h, maskLen_prefix 128 n hn]
  rw [this]; exact ⟨hn, h⟩

/-- membership between first and last address of a masked network is agreement of the prefix -/
theorem between_iff {w n a x : Nat} (ha : a < 2 ^ w) (hn : n ≤ w) (hm : a &&& (2 ^ w - 2 ^ (w - n)) = a) :
    (a ≤ x ∧ x ≤ a + ((2 ^ w - 1) ^^^ (2 ^ w - 2 ^ (w - n)))) ↔ x / 2 ^ (w - n) = a / 2 ^ (w - n) := by
  have hp := Nat.pow_pos (n := w - n) (show 0 < 2 by omega)
  have hle : 2 ^ (w - n) ≤ 2 ^ w := Nat.pow_le_pow_right (by omega) (by omega)
  rw [and_high ha (by omega)] at hm
  rw [xor_mask w (prefixMask_lt w n)]
  rw [show 2 ^ w - 1 - (2 ^ w - 2 ^ (w - n)) = 2 ^ (w - n) - 1 by omega]
  generalize 2 ^ (w - n) = p at *
  constructor
  · rintro ⟨h1, h2⟩
    apply Nat.le_antisymm
    · apply Nat.le_of_lt_succ
      rw [Nat.div_lt_iff_lt_mul hp]
      grind
    · exact Nat.div_le_div_right h1
  · intro h
    have h1 := Nat.div_add_mod x p
    have h2 := Nat.mod_lt x hp
    rw [h] at h1
    have : p * (a / p) = a := by rw [Nat.mul_comm]; exact hm
    omega

theorem last_lt {w n a : Nat} (ha : a < 2 ^ w) (hn : n ≤ w) (hm : a &&& (2 ^ w - 2 ^ (w - n)) = a) :
    a + ((2 ^ w - 1) ^^^ (2 ^ w - 2 ^ (w - n))) < 2 ^ w := by
  have hp := Nat.pow_pos (n := w - n) (show 0 < 2 by omega)
  have hle : 2 ^ (w - n) ≤ 2 ^ w := Nat.pow_le_pow_right (by omega) (by omega)
  rw [and_high ha (by omega)] at hm
  rw [xor_mask w (prefixMask_lt w n)]
  rw [show 2 ^ w - 1 - (2 ^ w - 2 ^ (w - n)) = 2 ^ (w - n) - 1 by omega]
  have : a / 2 ^ (w - n) < 2 ^ n := by
    rw [Nat.div_lt_iff_lt_mul hp, ← Nat.pow_add]
    rwa [show n + (w - n) = w by omega]
  have h3 : (a / 2 ^ (w - n) + 1) * 2 ^ (w - n) ≤ 2 ^ n * 2 ^ (w - n) := Nat.mul_le_mul_right _ this
  rw [← Nat.pow_add, show n + (w - n) = w by omega, Nat.add_mul] at h3
  omega

theorem Ip4Network.lastInt_lt (n : Ip4Network) : n.lastInt < 2 ^ 32 := by
  obtain ⟨hl, hm⟩ := n.mask.len_form
  have := n.masked
  rw [hm] at this
  have := last_lt (w := 32) (n := n.mask.len) n.address.lt hl this
  rw [← hm] at this; exact this

theorem Ip6Network.lastInt_lt (n : Ip6Network) : n.lastInt < 2 ^ 128 := by
  obtain ⟨hl, hm⟩ := n.mask.len_form
  have := n.masked
  rw [hm] at this
  have := last_lt (w := 128) (n := n.mask.len) n.address.lt hl this
  rw [← hm] at this; exact this

theorem Ip4Network.last_ok (n : Ip4Network) : n.last = .ok ⟨n.lastInt, n.lastInt_lt⟩ :=
  Ip4Address.ofInt_ok _ _
theorem Ip4Network.broadcast_ok (n : Ip4Network) : n.broadcast = .ok ⟨n.lastInt, n.lastInt_lt⟩ :=
  Ip4Address.ofInt_ok _ _
theorem Ip6Network.last_ok (n : Ip6Network) : n.last = .ok ⟨n.lastInt, n.lastInt_lt⟩ :=
  Ip6Address.ofInt_ok _ _

theorem xor_high {a c r k : Nat} (hr : r < 2 ^ k) : (a * 2 ^ k + r) ^^^ (c * 2 ^ k) = (a ^^^ c) * 2 ^ k + r := by
  apply Nat.eq_of_testBit_eq; intro i
  rw [Nat.mul_comm a, Nat.mul_comm (a ^^^ c), Nat.testBit_xor, Nat.testBit_two_pow_mul_add _ hr,
    Nat.testBit_two_pow_mul_add _ hr, Nat.testBit_mul_two_pow]
  by_cases h : i < k
  · have : ¬ k ≤ i := by omega
    simp [h, this]
  · have : k ≤ i := by omega
    simp [h, this]

end Verif
