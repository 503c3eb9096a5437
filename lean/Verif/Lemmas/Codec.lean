import Verif.Lemmas.Addr
import Verif.Lemmas.Cksum
import Verif.Lemmas.CodecAttr
/-! Reading fields out of a concatenation of packed fields. -/
namespace Verif

theorem packB_ok {n : Nat} (h : n < 256) : packB n = .ok (bePack 1 n) := by simp [packB, h]
theorem packH_ok {n : Nat} (h : n < 65536) : packH n = .ok (bePack 2 n) := by simp [packH, h]
theorem packL_ok {n : Nat} (h : n < 4294967296) : packL n = .ok (bePack 4 n) := by simp [packL, h]

theorem Ip4Address.toBytes_eq (a : Ip4Address) : a.toBytes = bePack 4 a.int := rfl

/-! ### skipping -/
@[codec] theorem slice_skip {k i j x : Nat} {b : Bytes} (h : k ≤ i) (h' : k ≤ j) :
    slice (bePack k x ++ b) i j = slice b (i - k) (j - k) := by
  simp [slice, List.take_append, List.drop_append, h, h']

@[codec] theorem sliceFrom_skip {k i x : Nat} {b : Bytes} (h : k ≤ i) :
    sliceFrom (bePack k x ++ b) i = sliceFrom b (i - k) := by
  simp [sliceFrom, List.drop_append, h]

@[codec] theorem take_skip {k i x : Nat} {b : Bytes} (h : k ≤ i) :
    (bePack k x ++ b).take i = bePack k x ++ b.take (i - k) := by
  rw [List.take_append, List.take_of_length_le (by simpa using h)]; simp

@[codec] theorem drop_skip {k i x : Nat} {b : Bytes} (h : k ≤ i) :
    (bePack k x ++ b).drop i = b.drop (i - k) := by
  simp [List.drop_append, h]

@[codec] theorem idx_skip {k i x : Nat} {b : Bytes} (h : k ≤ i) : idx (bePack k x ++ b) i = idx b (i - k) := by
  simp [idx, List.getElem?_append_right, h]

@[codec] theorem u16_skip {k i x : Nat} {b : Bytes} (h : k ≤ i) : u16 (bePack k x ++ b) i = u16 b (i - k) := by
  rw [u16, u16, slice_skip h (by omega), show i + 2 - k = i - k + 2 by omega]

@[codec] theorem u32_skip {k i x : Nat} {b : Bytes} (h : k ≤ i) : u32 (bePack k x ++ b) i = u32 b (i - k) := by
  rw [u32, u32, slice_skip h (by omega), show i + 4 - k = i - k + 4 by omega]

/-! ### reading at the front -/
@[codec] theorem slice_here {k x : Nat} {b : Bytes} : slice (bePack k x ++ b) 0 k = bePack k x := by
  rw [slice, List.take_append, List.take_of_length_le (by simp)]; simp

theorem slice_front {a b : Bytes} {n : Nat} (h : n = a.length) : slice (a ++ b) 0 n = a := by
  subst h; simp [slice]

@[codec] theorem slice_here_end {k x : Nat} : slice (bePack k x) 0 k = bePack k x := by
  rw [slice, List.take_of_length_le (by simp)]; simp

@[codec] theorem idx_here {x : Nat} {b : Bytes} : idx (bePack 1 x ++ b) 0 = .ok (x % 256) := by
  simp [idx, bePack]

@[codec] theorem idx_here2 {x : Nat} {b : Bytes} : idx (bePack 2 x ++ b) 0 = .ok (x / 256 % 256) := by
  simp [idx, bePack]

@[codec] theorem idx_here21 {x : Nat} {b : Bytes} : idx (bePack 2 x ++ b) 1 = .ok (x % 256) := by
  simp [idx, bePack]

@[codec] theorem u16_here {x : Nat} {b : Bytes} : u16 (bePack 2 x ++ b) 0 = .ok (x % 65536) := by
  rw [u16, slice_here, unpackBE_ok (by simp), beNat_bePack]

@[codec] theorem u32_here {x : Nat} {b : Bytes} : u32 (bePack 4 x ++ b) 0 = .ok (x % 4294967296) := by
  rw [u32, slice_here, unpackBE_ok (by simp), beNat_bePack]

@[codec] theorem MacAddress.ofBytes_bePack (m : MacAddress) : MacAddress.ofBytes (bePack 6 m.int) = .ok m := by
  rw [← m.toBytes_eq, m.ofBytes_toBytes]
@[codec] theorem Ip4Address.ofBytes_bePack (m : Ip4Address) : Ip4Address.ofBytes (bePack 4 m.int) = .ok m :=
  m.ofBytes_toBytes
@[codec] theorem Ip6Address.ofBytes_bePack (m : Ip6Address) : Ip6Address.ofBytes (bePack 16 m.int) = .ok m := by
  rw [← m.toBytes_eq, m.ofBytes_toBytes]

theorem packIntoH_ok {f : Bytes} {i n : Nat} (hn : n < 65536) (hi : i + 2 ≤ f.length) :
    packIntoH f i n = .ok (f.take i ++ bePack 2 n ++ f.drop (i + 2)) := by
  simp [packIntoH, packH_ok hn, hi]

/-! ### reading inside an arbitrary frame -/
theorem u16_ok {f : Bytes} {i : Nat} (h : i + 2 ≤ f.length) : u16 f i = .ok (beNat (slice f i (i + 2))) := by
  rw [u16, unpackBE_ok]; simp; omega
theorem u32_ok {f : Bytes} {i : Nat} (h : i + 4 ≤ f.length) : u32 f i = .ok (beNat (slice f i (i + 4))) := by
  rw [u32, unpackBE_ok]; simp; omega
theorem u16_lt {f : Bytes} {i n : Nat} (h : u16 f i = .ok n) : n < 65536 := by
  unfold u16 unpackBE at h
  split at h
  · have := beNat_lt (slice f i (i + 2)); simp_all
  · cases h
theorem u32_lt {f : Bytes} {i n : Nat} (h : u32 f i = .ok n) : n < 4294967296 := by
  unfold u32 unpackBE at h
  split at h
  · have := beNat_lt (slice f i (i + 4)); simp_all
  · cases h
theorem idx_lt {f : Bytes} {i n : Nat} (h : idx f i = .ok n) : n < 256 := by
  unfold idx at h
  split at h
  · rename_i x _; have := x.toNat_lt; simp_all
  · cases h

theorem idx_ex {f : Bytes} {i : Nat} (h : i < f.length) :
    ∃ n, idx f i = .ok n ∧ n < 256 ∧ bePack 1 n = slice f i (i + 1) := by
  refine ⟨_, idx_ok h, (f[i]).toNat_lt, ?_⟩
  simp only [bePack, slice, List.nil_append, UInt8.ofNat_toNat]
  rw [List.drop_take, show i + 1 - i = 1 by omega, List.drop_eq_getElem_cons h]
  rfl
theorem u16_ex {f : Bytes} {i : Nat} (h : i + 2 ≤ f.length) :
    ∃ n, u16 f i = .ok n ∧ n < 65536 ∧ bePack 2 n = slice f i (i + 2) := by
  refine ⟨_, u16_ok h, u16_lt (u16_ok h), ?_⟩
  conv => rhs; rw [← bePack_beNat (slice f i (i + 2)), show (slice f i (i + 2)).length = 2 by simp; omega]
theorem u32_ex {f : Bytes} {i : Nat} (h : i + 4 ≤ f.length) :
    ∃ n, u32 f i = .ok n ∧ n < 4294967296 ∧ bePack 4 n = slice f i (i + 4) := by
  refine ⟨_, u32_ok h, u32_lt (u32_ok h), ?_⟩
  conv => rhs; rw [← bePack_beNat (slice f i (i + 4)), show (slice f i (i + 4)).length = 4 by simp; omega]

theorem mac_ok {f : Bytes} {i j : Nat} (hj : j = i + 6) (h : j ≤ f.length) :
    ∃ m, MacAddress.ofBytes (slice f i j) = .ok m ∧ m.toBytes = slice f i j := by
  have hl : (slice f i j).length = 6 := by simp; omega
  refine ⟨_, MacAddress.ofBytes_ok _ hl, ?_⟩
  rw [MacAddress.toBytes_eq]
  conv => rhs; rw [← bePack_beNat (slice f i j), hl]
theorem ip4_ok {f : Bytes} {i j : Nat} (hj : j = i + 4) (h : j ≤ f.length) :
    ∃ m, Ip4Address.ofBytes (slice f i j) = .ok m ∧ m.toBytes = slice f i j := by
  have hl : (slice f i j).length = 4 := by simp; omega
  refine ⟨_, Ip4Address.ofBytes_ok _ hl, ?_⟩
  rw [Ip4Address.toBytes_eq]
  conv => rhs; rw [← bePack_beNat (slice f i j), hl]
theorem ip6_ok {f : Bytes} {i j : Nat} (hj : j = i + 16) (h : j ≤ f.length) :
    ∃ m, Ip6Address.ofBytes (slice f i j) = .ok m ∧ m.toBytes = slice f i j := by
  have hl : (slice f i j).length = 16 := by simp; omega
  refine ⟨_, Ip6Address.ofBytes_ok _ hl, ?_⟩
  rw [Ip6Address.toBytes_eq]
  conv => rhs; rw [← bePack_beNat (slice f i j), hl]

/-- cutting a frame -/
theorem slice_append_slice {f : Bytes} {i j k : Nat} (h1 : i ≤ j) (h2 : j ≤ k) :
    slice f i j ++ slice f j k = slice f i k := by
  simp only [slice]
  have e : f.take j = (f.take k).take j := by rw [List.take_take, Nat.min_eq_left h2]
  rw [e]
  generalize f.take k = g
  rw [List.drop_take]
  conv => rhs; rw [← List.take_append_drop (j - i) (g.drop i)]
  rw [List.drop_drop, show i + (j - i) = j by omega]

theorem slice_append_sliceFrom {f : Bytes} {i j : Nat} (h1 : i ≤ j) : slice f i j ++ sliceFrom f j = sliceFrom f i := by
  simp only [slice, sliceFrom]
  rw [List.drop_take]
  conv => rhs; rw [← List.take_append_drop (j - i) (f.drop i)]
  rw [List.drop_drop, show i + (j - i) = j by omega]

theorem inetCksum_lt (data : Bytes) (init : Nat) : inetCksum data init < 65536 := by
  rw [inetCksum_eq]; omega

theorem sum16_store {a b : Bytes} {c : Nat} (ha : a.length % 2 = 0) (hc : c < 65536) :
    sum16 (a ++ bePack 2 c ++ b) = sum16 a + c + sum16 b := by
  have h2 : (bePack 2 c).length % 2 = 0 := by simp
  rw [sum16_append _ _ (by simp; omega), sum16_append _ _ ha]
  congr 2
  simp [bePack, sum16, Spec.words16]
  omega

theorem verifies_iff {data : Bytes} {init : Nat} (hd : data.length < 2 ^ 63) (hi : init < 2 ^ 72) :
    inetCksum data init = 0 ↔ Spec.Verifies init data := by
  have := (inetCksum_cases data init hd hi).1
  rw [this, sum16, Spec.Verifies, Nat.dvd_iff_mod_eq_zero]
  omega

@[codec] theorem sliceFrom_zero (b : Bytes) : sliceFrom b 0 = b := rfl

attribute [codec] py_ok_bind py_error_bind py_pure py_map_ok pyAssert_true MacAddress.toBytes_eq Ip4Address.toBytes_eq
  Ip6Address.toBytes_eq List.append_assoc bePack_length List.length_append List.take_zero List.drop_zero

end Verif
