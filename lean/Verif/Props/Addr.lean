import Verif.Lemmas.Addr
/-! Properties C04-C13: address, mask, network and host classes. -/
namespace Verif
open Spec

/-! ### C04-C06: conversions -/

/-- **C04** integers: accepted exactly when in range, and then stored unchanged. -/
theorem C04_mac_int (n : Int) :
    (∀ m, MacAddress.ofInt n = .ok m → (m.int : Int) = n) ∧
    ((∃ m, MacAddress.ofInt n = .ok m) ↔ 0 ≤ n ∧ n < 2 ^ 48) := by
  unfold MacAddress.ofInt
  constructor
  · intro m h; split at h
    · injection h with h; subst h; simp; omega
    · cases h
  · constructor
    · rintro ⟨m, h⟩; split at h
      · omega
      · cases h
    · intro h; exact ⟨_, dif_pos (by omega)⟩

/-- **C04** bytes: `bytes(MacAddress(b)) == b` for 6 bytes, everything else is rejected,
`MacAddress(bytes(m)) == m`, and the bytes are the big-endian integer. -/
theorem C04_mac_bytes :
    (∀ m : MacAddress, MacAddress.ofBytes m.toBytes = .ok m ∧ beNat m.toBytes = m.int ∧ m.toBytes.length = 6) ∧
    (∀ b : Bytes, b.length = 6 → ∃ m, MacAddress.ofBytes b = .ok m ∧ m.toBytes = b) ∧
    (∀ b : Bytes, b.length ≠ 6 → MacAddress.ofBytes b = .error .formatError) := by
  refine ⟨fun m => ⟨m.ofBytes_toBytes, ?_, m.toBytes_length⟩, fun b h => ⟨_, MacAddress.ofBytes_ok b h, ?_⟩, ?_⟩
  · rw [m.toBytes_eq, beNat_bePack, Nat.mod_eq_of_lt m.lt]
  · rw [MacAddress.toBytes_eq]; show bePack 6 (beNat b) = b; rw [← h, bePack_beNat]
  · intro b h; simp [MacAddress.ofBytes, h]

/-- **C05** integers. -/
theorem C05_ip4_int (n : Int) :
    (∀ a, Ip4Address.ofInt n = .ok a → (a.int : Int) = n) ∧
    ((∃ a, Ip4Address.ofInt n = .ok a) ↔ 0 ≤ n ∧ n < 2 ^ 32) := by
  match n with
  | .ofNat n =>
    by_cases h : n < 2 ^ 32
    · have e := Ip4Address.ofInt_ok n h
      constructor
      · intro m hm; rw [show Int.ofNat n = (n : Int) from rfl, e] at hm; injection hm with hm; subst hm; rfl
      · exact ⟨fun _ => by simp; omega, fun _ => ⟨_, e⟩⟩
    · have : ¬ (n &&& 0xFFFFFFFF = n) := by rw [and_FFFFFFFF]; omega
      simp only [Ip4Address.ofInt, this, ↓reduceDIte]
      refine ⟨fun a h => (by cases h), fun ⟨a, h⟩ => (by cases h), fun h => absurd h.2 (by simp; omega)⟩
  | .negSucc n => simp only [Ip4Address.ofInt]; exact ⟨fun _ h => (by cases h), fun ⟨_, h⟩ => (by cases h), fun h => absurd h.1 (by omega)⟩

/-- **C05** bytes. -/
theorem C05_ip4_bytes :
    (∀ a : Ip4Address, Ip4Address.ofBytes a.toBytes = .ok a ∧ beNat a.toBytes = a.int ∧ a.toBytes.length = 4) ∧
    (∀ b : Bytes, b.length = 4 → ∃ a, Ip4Address.ofBytes b = .ok a ∧ a.toBytes = b) ∧
    (∀ b : Bytes, b.length ≠ 4 → Ip4Address.ofBytes b = .error .formatError) := by
  refine ⟨fun m => ⟨m.ofBytes_toBytes, ?_, m.toBytes_length⟩, fun b h => ⟨_, Ip4Address.ofBytes_ok b h, ?_⟩, ?_⟩
  · rw [Ip4Address.toBytes, beNat_bePack, Nat.mod_eq_of_lt m.lt]
  · show bePack 4 (beNat b) = b; rw [← h, bePack_beNat]
  · intro b h; simp [Ip4Address.ofBytes, h]

/-- **C06** integers. -/
theorem C06_ip6_int (n : Int) :
    (∀ a, Ip6Address.ofInt n = .ok a → (a.int : Int) = n) ∧
    ((∃ a, Ip6Address.ofInt n = .ok a) ↔ 0 ≤ n ∧ n < 2 ^ 128) := by
  match n with
  | .ofNat n =>
    by_cases h : n < 2 ^ 128
    · have e := Ip6Address.ofInt_ok n h
      constructor
      · intro m hm; rw [show Int.ofNat n = (n : Int) from rfl, e] at hm; injection hm with hm; subst hm; rfl
      · exact ⟨fun _ => by simp; omega, fun _ => ⟨_, e⟩⟩
    · have : ¬ (n &&& 0xFFFFFFFFFFFFFFFFFFFFFFFFFFFFFFFF = n) := by rw [and_FFFF8]; omega
      simp only [Ip6Address.ofInt, this, ↓reduceDIte]
      refine ⟨fun a h => (by cases h), fun ⟨a, h⟩ => (by cases h), fun h => absurd h.2 (by simp; omega)⟩
  | .negSucc n => simp only [Ip6Address.ofInt]; exact ⟨fun _ h => (by cases h), fun ⟨_, h⟩ => (by cases h), fun h => absurd h.1 (by omega)⟩

/-- **C06** bytes. -/
theorem C06_ip6_bytes :
    (∀ a : Ip6Address, Ip6Address.ofBytes a.toBytes = .ok a ∧ beNat a.toBytes = a.int ∧ a.toBytes.length = 16) ∧
    (∀ b : Bytes, b.length = 16 → ∃ a, Ip6Address.ofBytes b = .ok a ∧ a.toBytes = b) ∧
    (∀ b : Bytes, b.length ≠ 16 → Ip6Address.ofBytes b = .error .formatError) := by
  refine ⟨fun m => ⟨m.ofBytes_toBytes, ?_, m.toBytes_length⟩, fun b h => ⟨_, Ip6Address.ofBytes_ok b h, ?_⟩, ?_⟩
  · rw [m.toBytes_eq, beNat_bePack, Nat.mod_eq_of_lt m.lt]
  · rw [Ip6Address.toBytes_eq]; show bePack 16 (beNat b) = b; rw [← h, bePack_beNat]
  · intro b h; simp [Ip6Address.ofBytes, h]

/-! ### C07-C09: classification -/

/-- **C07**: the MAC classes are exactly the documented blocks (01:00:5e:00:00:00/24 -- the code takes a full /24,
33:33:00:00:00:00/16, 33:33:ff:00:00:00/24, the all-ones and the all-zeros address) and unicast is everything else. -/
theorem C07_mac_classes (m : MacAddress) :
    (m.isUnspecified = true ↔ m.int = 0) ∧
    (m.isBroadcast = true ↔ m.int = 2 ^ 48 - 1) ∧
    (m.isMulticastIp4 = true ↔ cidr 48 0x01005E000000 24 m.int) ∧
    (m.isMulticastIp6 = true ↔ cidr 48 0x333300000000 16 m.int) ∧
    (m.isMulticastIp6SolicitedNode = true ↔ cidr 48 0x3333FF000000 24 m.int) ∧
    (m.isUnicast = true ↔ m.isUnspecified = false ∧ m.isBroadcast = false ∧ m.isMulticastIp4 = false ∧
      m.isMulticastIp6 = false) := by
  have := m.lt
  simp only [MacAddress.isUnspecified, MacAddress.isBroadcast, MacAddress.isMulticastIp4, MacAddress.isMulticastIp6,
    MacAddress.isMulticastIp6SolicitedNode, MacAddress.isUnicast, cidr, beq_iff_eq, Bool.and_eq_true,
    decide_eq_true_eq, bne_iff_ne, Bool.not_eq_true', Bool.and_eq_false_iff, decide_eq_false_iff_not, beq_eq_false_iff_ne]
  simp only [Nat.reduceSub, Nat.reducePow, Nat.reduceDiv]
  refine ⟨?_, ?_, ?_, ?_, ?_, ?_⟩ <;> first | trivial | omega

/-- **C07**: at most one of the four non-unicast classes holds. -/
theorem C07_mac_classes_disjoint (m : MacAddress) :
    ¬ (m.isMulticastIp4 = true ∧ m.isMulticastIp6 = true) ∧
    ¬ (m.isMulticastIp4 = true ∧ m.isBroadcast = true) ∧ ¬ (m.isMulticastIp6 = true ∧ m.isBroadcast = true) ∧
    (m.isMulticastIp6SolicitedNode = true → m.isMulticastIp6 = true) := by
  obtain ⟨h1, h2, h3, h4, h5, h6⟩ := C07_mac_classes m
  rw [h2, h3, h4, h5]
  simp only [cidr]
  simp only [Nat.reduceSub, Nat.reducePow, Nat.reduceDiv]
  omega

/-- masks of `w = 32` -/
theorem and32 {x : Nat} (hx : x < 2 ^ 32) (k : Nat) (hk : k ≤ 32) (p : Nat) (hp : p % 2 ^ k = 0) :
    x &&& (2 ^ 32 - 2 ^ k) = p ↔ x / 2 ^ k = p / 2 ^ k := by
  rw [and_high hx hk]
  constructor
  · intro h; rw [← h, Nat.mul_div_cancel _ (Nat.pow_pos (by omega))]
  · intro h; rw [h]; exact Nat.div_mul_cancel (Nat.dvd_of_mod_eq_zero hp)

theorem and128 {x : Nat} (hx : x < 2 ^ 128) (k : Nat) (hk : k ≤ 128) (p : Nat) (hp : p % 2 ^ k = 0) :
    x &&& (2 ^ 128 - 2 ^ k) = p ↔ x / 2 ^ k = p / 2 ^ k := by
  rw [and_high hx hk]
  constructor
  · intro h; rw [← h, Nat.mul_div_cancel _ (Nat.pow_pos (by omega))]
  · intro h; rw [h]; exact Nat.div_mul_cancel (Nat.dvd_of_mod_eq_zero hp)

/-- **C08** (partial: all classes except `reserved` and the classes defined from it): the IPv4 classes are exactly their
documented blocks. -/
theorem C08_ip4_classes_partial (a : Ip4Address) :
    (a.isUnspecified = true ↔ a.int = dot 0 0 0 0) ∧
    (a.isLimitedBroadcast = true ↔ a.int = dot 255 255 255 255) ∧
    (a.isLoopback = true ↔ cidr 32 (dot 127 0 0 0) 8 a.int) ∧
    (a.isLinkLocal = true ↔ cidr 32 (dot 169 254 0 0) 16 a.int) ∧
    (a.isMulticast = true ↔ cidr 32 (dot 224 0 0 0) 4 a.int) ∧
    (a.isPrivate = true ↔ cidr 32 (dot 10 0 0 0) 8 a.int ∨ cidr 32 (dot 172 16 0 0) 12 a.int ∨
      cidr 32 (dot 192 168 0 0) 16 a.int) ∧
    (a.isInvalid = true ↔ a.int ≠ 0 ∧ cidr 32 (dot 0 0 0 0) 8 a.int) := by
  have h := a.lt
  have e8 : ∀ p, p % 2 ^ 24 = 0 → (a.int &&& 0xFF000000 = p ↔ a.int / 2 ^ 24 = p / 2 ^ 24) := and32 h 24 (by omega)
  have e16 : ∀ p, p % 2 ^ 16 = 0 → (a.int &&& 0xFFFF0000 = p ↔ a.int / 2 ^ 16 = p / 2 ^ 16) := and32 h 16 (by omega)
  have e12 : ∀ p, p % 2 ^ 20 = 0 → (a.int &&& 0xFFF00000 = p ↔ a.int / 2 ^ 20 = p / 2 ^ 20) := and32 h 20 (by omega)
  have e4 : ∀ p, p % 2 ^ 28 = 0 → (a.int &&& 0xF0000000 = p ↔ a.int / 2 ^ 28 = p / 2 ^ 28) := and32 h 28 (by omega)
  simp only [Ip4Address.isUnspecified, Ip4Address.isLimitedBroadcast, Ip4Address.isLoopback, Ip4Address.isLinkLocal,
    Ip4Address.isMulticast, Ip4Address.isPrivate, Ip4Address.isInvalid, beq_iff_eq, Bool.or_eq_true, Bool.and_eq_true,
    bne_iff_ne, cidr, dot]
  rw [e8 _ (by decide), e8 _ (by decide), e8 _ (by decide), e16 _ (by decide), e16 _ (by decide), e12 _ (by decide),
    e4 _ (by decide)]
  simp only [Nat.reduceSub, Nat.reducePow, Nat.reduceDiv, Nat.reduceMul, Nat.reduceAdd]
  refine ⟨?_, ?_, ?_, ?_, ?_, ?_, ?_⟩ <;> first | trivial | omega

/-- **C08** is false of the code: 240.0.0.1 is in the reserved block 240.0.0.0/4, is not classified reserved, and is
classified global and hence unicast. -/
theorem C08_reserved_wrong_witness :
    ∃ a : Ip4Address, cidr 32 (dot 240 0 0 0) 4 a.int ∧ a.int ≠ dot 255 255 255 255 ∧ a.isReserved = false ∧
      a.isGlobal = true ∧ a.isUnicast = true :=
  ⟨⟨0xF0000001, by decide⟩, by decide, by decide, by decide, by decide, by decide⟩

/-- **C08**: what the `reserved` class is in the code: the even addresses of 240.0.0.0/4. -/
theorem C08_reserved_partial (a : Ip4Address) :
    a.isReserved = true ↔ cidr 32 (dot 240 0 0 0) 4 a.int ∧ a.int % 2 = 0 := by
  have h := a.lt
  have e4 : a.int &&& 0xF0000000 = a.int / 2 ^ 28 * 2 ^ 28 := and_high (n := 32) (k := 28) h (by omega)
  have e : a.int &&& 0xF0000001 = (a.int / 2 ^ 28 * 2 ^ 28) + a.int % 2 := by
    rw [show (0xF0000001 : Nat) = 0xF0000000 ||| 1 by decide, Nat.and_or_distrib_left, e4, and_1]
    exact or_disjoint (by omega)
  simp only [Ip4Address.isReserved, beq_iff_eq, e, cidr, dot]
  omega

/-- **C08**: the unicast class as coded: everything outside 0.0.0.0/8, 224.0.0.0/4, the even part of 240.0.0.0/4 and the
limited broadcast (documented: everything outside 0.0.0.0/8, 224.0.0.0/4 and 240.0.0.0/4). -/
theorem C08_unicast_partial (a : Ip4Address) :
    a.isUnicast = true ↔ ¬ cidr 32 (dot 0 0 0 0) 8 a.int ∧ ¬ cidr 32 (dot 224 0 0 0) 4 a.int ∧
      ¬ (cidr 32 (dot 240 0 0 0) 4 a.int ∧ a.int % 2 = 0) ∧ a.int ≠ dot 255 255 255 255 := by
  obtain ⟨h1, h2, h3, h4, h5, h6, h7⟩ := C08_ip4_classes_partial a
  have h8 := C08_reserved_partial a
  simp only [Ip4Address.isUnicast, Ip4Address.isGlobal, Bool.or_eq_true, Bool.not_eq_true', Bool.or_eq_false_iff,
    ← Bool.not_eq_true, h1, h2, h3, h4, h5, h6, h7, h8]
  simp only [cidr, dot]
  simp only [Nat.reduceSub, Nat.reducePow, Nat.reduceDiv, Nat.reduceMul, Nat.reduceAdd]
  omega

example : (⟨dot 192 168 1 1, by decide⟩ : Ip4Address).isUnicast = true := by decide

/-- **C09**: the IPv6 classes are exactly their documented prefixes. -/
theorem C09_ip6_classes (a : Ip6Address) :
    (a.isUnspecified = true ↔ a.int = 0) ∧
    (a.isLoopback = true ↔ a.int = 1) ∧
    (a.isGlobal = true ↔ cidr 128 (hextet 0x2000) 3 a.int) ∧
    (a.isPrivate = true ↔ cidr 128 (hextet 0xFC00) 7 a.int) ∧
    (a.isLinkLocal = true ↔ cidr 128 (hextet 0xFE80) 10 a.int) ∧
    (a.isMulticast = true ↔ cidr 128 (hextet 0xFF00) 8 a.int) ∧
    (a.isSolicitedNodeMulticast = true ↔ cidr 128 (hextet 0xFF02 + 0x1FF000000) 104 a.int) ∧
    (a.isUnicast = true ↔ a.int = 1 ∨ cidr 128 (hextet 0x2000) 3 a.int ∨ cidr 128 (hextet 0xFC00) 7 a.int ∨
      cidr 128 (hextet 0xFE80) 10 a.int) := by
  have h := a.lt
  have e3 : ∀ p, p % 2 ^ 125 = 0 → (a.int &&& 0xE0000000000000000000000000000000 = p ↔ a.int / 2 ^ 125 = p / 2 ^ 125) :=
    and128 h 125 (by omega)
  have e7 : ∀ p, p % 2 ^ 121 = 0 → (a.int &&& 0xFE000000000000000000000000000000 = p ↔ a.int / 2 ^ 121 = p / 2 ^ 121) :=
    and128 h 121 (by omega)
  have e10 : ∀ p, p % 2 ^ 118 = 0 → (a.int &&& 0xFFC00000000000000000000000000000 = p ↔ a.int / 2 ^ 118 = p / 2 ^ 118) :=
    and128 h 118 (by omega)
  have e8 : ∀ p, p % 2 ^ 120 = 0 → (a.int &&& 0xFF000000000000000000000000000000 = p ↔ a.int / 2 ^ 120 = p / 2 ^ 120) :=
    and128 h 120 (by omega)
  have e104 : ∀ p, p % 2 ^ 24 = 0 → (a.int &&& 0xFFFFFFFFFFFFFFFFFFFFFFFFFF000000 = p ↔ a.int / 2 ^ 24 = p / 2 ^ 24) :=
    and128 h 24 (by omega)
  simp only [Ip6Address.isUnspecified, Ip6Address.isLoopback, Ip6Address.isGlobal, Ip6Address.isPrivate,
    Ip6Address.isLinkLocal, Ip6Address.isMulticast, Ip6Address.isSolicitedNodeMulticast, Ip6Address.isUnicast,
    beq_iff_eq, Bool.or_eq_true, cidr, hextet]
  rw [e3 _ (by decide), e7 _ (by decide), e10 _ (by decide), e8 _ (by decide), e104 _ (by decide)]
  simp only [Nat.reduceSub, Nat.reducePow, Nat.reduceDiv, Nat.reduceMul, Nat.reduceAdd]
  refine ⟨trivial, trivial, trivial, trivial, trivial, trivial, trivial, ?_⟩
  generalize a.int = x at *
  omega

/-! ### C10: masks -/

/-- **C10** IPv4: the integer constructor accepts exactly the values "n ones, then 32-n zeros", the length is n, and it
agrees with the `/n` constructor, which accepts exactly n ≤ 32. -/
theorem C10_ip4_mask :
    (∀ v : Nat, (∃ m, Ip4Mask.ofInt v = .ok m) ↔ ∃ n ≤ 32, v = 2 ^ 32 - 2 ^ (32 - n)) ∧
    (∀ n ≤ 32, ∃ m, Ip4Mask.ofPrefix n = .ok m ∧ Ip4Mask.ofInt (2 ^ 32 - 2 ^ (32 - n) : Nat) = .ok m ∧
      m.len = n ∧ m.int = 2 ^ 32 - 2 ^ (32 - n)) ∧
    (∀ n, 32 < n → Ip4Mask.ofPrefix n = .error .formatError) := by
  have key : ∀ v : Nat, (∃ m, Ip4Mask.ofInt v = .ok m) ↔ v < 2 ^ 32 ∧ validateBits 32 v = true := by
    intro v
    show (∃ m, Ip4Mask.ofInt (Int.ofNat v) = .ok m) ↔ _
    simp only [Ip4Mask.ofInt]
    have e : (v &&& 0xFFFFFFFF = v) ↔ v < 2 ^ 32 := by rw [and_FFFFFFFF]; omega
    by_cases h1 : v &&& 0xFFFFFFFF = v
    · by_cases h2 : validateBits 32 v = true
      · simp only [h1, h2, ↓reduceDIte, and_true]
        exact ⟨fun _ => e.mp h1, fun _ => ⟨_, rfl⟩⟩
      · simp [h1, h2]
    · simp only [h1, ↓reduceDIte]
      constructor
      · rintro ⟨m, h⟩; cases h
      · rintro ⟨h, -⟩; exact absurd (e.mpr h) h1
  refine ⟨fun v => ?_, fun n hn => ?_, fun n hn => ?_⟩
  · rw [key]
    constructor
    · rintro ⟨h1, h2⟩; exact (validateBits_iff 32 v h1).mp h2
    · rintro ⟨n, hn, rfl⟩
      exact ⟨prefixMask_lt 32 n, (validateBits_iff 32 _ (prefixMask_lt 32 n)).mpr ⟨n, hn, rfl⟩⟩
  · have e := onesThenZeros_eq 32 n hn
    obtain ⟨m, hm⟩ := (key (2 ^ 32 - 2 ^ (32 - n))).mpr
      ⟨prefixMask_lt 32 n, (validateBits_iff 32 _ (prefixMask_lt 32 n)).mpr ⟨n, hn, rfl⟩⟩
    have hmi : m.int = 2 ^ 32 - 2 ^ (32 - n) := by
      have hm : Ip4Mask.ofInt (Int.ofNat (2 ^ 32 - 2 ^ (32 - n))) = .ok m := hm
      simp only [Ip4Mask.ofInt] at hm
      split at hm
      · split at hm
        · injection hm with hm; rw [← hm]
        · cases hm
      · cases hm
    refine ⟨m, ?_, hm, ?_, hmi⟩
    · simp only [Ip4Mask.ofPrefix, hn, ↓reduceDIte]
      congr 1
      cases m
      simp_all
    · rw [Ip4Mask.len, hmi, maskLen_prefix 32 n hn]
  · simp [Ip4Mask.ofPrefix, Nat.not_le.mpr hn]

/-- **C10** IPv6. -/
theorem C10_ip6_mask :
    (∀ v : Nat, (∃ m, Ip6Mask.ofInt v = .ok m) ↔ ∃ n ≤ 128, v = 2 ^ 128 - 2 ^ (128 - n)) ∧
    (∀ n ≤ 128, ∃ m, Ip6Mask.ofPrefix n = .ok m ∧ Ip6Mask.ofInt (2 ^ 128 - 2 ^ (128 - n) : Nat) = .ok m ∧
      m.len = n ∧ m.int = 2 ^ 128 - 2 ^ (128 - n)) ∧
    (∀ n, 128 < n → Ip6Mask.ofPrefix n = .error .formatError) := by
  have key : ∀ v : Nat, (∃ m, Ip6Mask.ofInt v = .ok m) ↔ v < 2 ^ 128 ∧ validateBits 128 v = true := by
    intro v
    show (∃ m, Ip6Mask.ofInt (Int.ofNat v) = .ok m) ↔ _
    simp only [Ip6Mask.ofInt]
    have e : (v &&& 0xFFFFFFFFFFFFFFFFFFFFFFFFFFFFFFFF = v) ↔ v < 2 ^ 128 := by rw [and_FFFF8]; omega
    by_cases h1 : v &&& 0xFFFFFFFFFFFFFFFFFFFFFFFFFFFFFFFF = v
    · by_cases h2 : validateBits 128 v = true
      · simp only [h1, h2, ↓reduceDIte, and_true]
        exact ⟨fun _ => e.mp h1, fun _ => ⟨_, rfl⟩⟩
      · simp [h1, h2]
    · simp only [h1, ↓reduceDIte]
      constructor
      · rintro ⟨m, h⟩; cases h
      · rintro ⟨h, -⟩; exact absurd (e.mpr h) h1
  refine ⟨fun v => ?_, fun n hn => ?_, fun n hn => ?_⟩
  · rw [key]
    constructor
    · rintro ⟨h1, h2⟩; exact (validateBits_iff 128 v h1).mp h2
    · rintro ⟨n, hn, rfl⟩
      exact ⟨prefixMask_lt 128 n, (validateBits_iff 128 _ (prefixMask_lt 128 n)).mpr ⟨n, hn, rfl⟩⟩
  · have e := onesThenZeros_eq 128 n hn
    obtain ⟨m, hm⟩ := (key (2 ^ 128 - 2 ^ (128 - n))).mpr
      ⟨prefixMask_lt 128 n, (validateBits_iff 128 _ (prefixMask_lt 128 n)).mpr ⟨n, hn, rfl⟩⟩
    have hmi : m.int = 2 ^ 128 - 2 ^ (128 - n) := by
      have hm : Ip6Mask.ofInt (Int.ofNat (2 ^ 128 - 2 ^ (128 - n))) = .ok m := hm
      simp only [Ip6Mask.ofInt] at hm
      split at hm
      · split at hm
        · injection hm with hm; rw [← hm]
        · cases hm
      · cases hm
    refine ⟨m, ?_, hm, ?_, hmi⟩
    · simp only [Ip6Mask.ofPrefix, hn, ↓reduceDIte]
      congr 1
      cases m
      simp_all
    · rw [Ip6Mask.len, hmi, maskLen_prefix 128 n hn]
  · simp [Ip6Mask.ofPrefix, Nat.not_le.mpr hn]

example : ∃ m, Ip4Mask.ofInt (0xFFFFFF00 : Nat) = .ok m := (C10_ip4_mask.1 _).mpr ⟨24, by decide, by decide⟩
example : ¬ ∃ m, Ip4Mask.ofInt (0xFF00FF00 : Nat) = .ok m := by
  rw [C10_ip4_mask.1]; decide

/-! ### C11: networks -/

/-- **C11** IPv4: membership is agreement of the first `len(mask)` bits; the network address and `last`/`broadcast` are
members and every member lies between them. -/
theorem C11_ip4_membership (n : Ip4Network) :
    (∀ x : Ip4Address, n.contains x = true ↔ cidr 32 n.address.int n.mask.len x.int) ∧
    n.contains n.address = true ∧
    (∃ l, n.last = .ok l ∧ n.broadcast = .ok l ∧ n.contains l = true ∧
      ∀ x : Ip4Address, n.contains x = true → n.address.int ≤ x.int ∧ x.int ≤ l.int) := by
  obtain ⟨hl, hm⟩ := n.mask.len_form
  have hk := n.masked
  rw [hm] at hk
  have hiff : ∀ x : Ip4Address, n.contains x = true ↔ cidr 32 n.address.int n.mask.len x.int := by
    intro x
    have := between_iff (w := 32) (x := x.int) n.address.lt hl hk
    rw [← hm] at this
    rw [Ip4Network.contains, Bool.and_eq_true, decide_eq_true_eq, decide_eq_true_eq, cidr]
    exact this
  refine ⟨hiff, (hiff _).mpr rfl, _, n.last_ok, n.broadcast_ok, ?_, ?_⟩
  · rw [Ip4Network.contains, Bool.and_eq_true, decide_eq_true_eq, decide_eq_true_eq]
    exact ⟨Nat.le_add_right _ _, Nat.le_refl _⟩
  · intro x hx
    simpa only [Ip4Network.contains, Bool.and_eq_true, decide_eq_true_eq] using hx

/-- **C11** IPv6. -/
theorem C11_ip6_membership (n : Ip6Network) :
    (∀ x : Ip6Address, n.contains x = true ↔ cidr 128 n.address.int n.mask.len x.int) ∧
    n.contains n.address = true ∧
    (∃ l, n.last = .ok l ∧ n.contains l = true ∧
      ∀ x : Ip6Address, n.contains x = true → n.address.int ≤ x.int ∧ x.int ≤ l.int) := by
  obtain ⟨hl, hm⟩ := n.mask.len_form
  have hk := n.masked
  rw [hm] at hk
  have hiff : ∀ x : Ip6Address, n.contains x = true ↔ cidr 128 n.address.int n.mask.len x.int := by
    intro x
    have := between_iff (w := 128) (x := x.int) n.address.lt hl hk
    rw [← hm] at this
    rw [Ip6Network.contains, Bool.and_eq_true, decide_eq_true_eq, decide_eq_true_eq, cidr]
    exact this
  refine ⟨hiff, (hiff _).mpr rfl, _, n.last_ok, ?_, ?_⟩
  · rw [Ip6Network.contains, Bool.and_eq_true, decide_eq_true_eq, decide_eq_true_eq]
    exact ⟨Nat.le_add_right _ _, Nat.le_refl _⟩
  · intro x hx
    simpa only [Ip6Network.contains, Bool.and_eq_true, decide_eq_true_eq] using hx

/-- **C11**: a network built from an address and a mask consists of the addresses that share the address's prefix. -/
theorem C11_network_of_address (a x : Ip4Address) (m : Ip4Mask) :
    (Ip4Network.ofMask a m).contains x = true ↔ cidr 32 a.int m.len x.int := by
  rw [(C11_ip4_membership _).1]
  obtain ⟨hl, hm⟩ := m.len_form
  have : (Ip4Network.ofMask a m).address.int = a.int / 2 ^ (32 - m.len) * 2 ^ (32 - m.len) := by
    show a.int &&& m.int = _
    rw [hm]; exact and_high a.lt (by omega)
  have e : (Ip4Network.ofMask a m).mask.len = m.len := rfl
  rw [cidr, cidr, this, e, Nat.mul_div_cancel _ (Nat.pow_pos (by omega))]

theorem C11_network_of_address6 (a x : Ip6Address) (m : Ip6Mask) :
    (Ip6Network.ofMask a m).contains x = true ↔ cidr 128 a.int m.len x.int := by
  rw [(C11_ip6_membership _).1]
  obtain ⟨hl, hm⟩ := m.len_form
  have : (Ip6Network.ofMask a m).address.int = a.int / 2 ^ (128 - m.len) * 2 ^ (128 - m.len) := by
    show a.int &&& m.int = _
    rw [hm]; exact and_high a.lt (by omega)
  have e : (Ip6Network.ofMask a m).mask.len = m.len := rfl
  rw [cidr, cidr, this, e, Nat.mul_div_cancel _ (Nat.pow_pos (by omega))]

/-! ### C12: hosts -/

/-- what a configured IPv4 gateway must satisfy -/
def Ip4Host.GatewayOk (h : Ip4Host) : Prop :=
  ∀ g, h.gateway = some g → h.network.contains g = true ∧ g ≠ h.network.address ∧ g ≠ h.address ∧
    ∀ b, h.network.broadcast = .ok b → g ≠ b

/-- Run a sequence of gateway assignments; a rejected one (exception) leaves the host unchanged. -/
def Ip4Host.assignAll (h : Ip4Host) (gs : List (Option Ip4Address)) : Ip4Host :=
  gs.foldl (fun h g => match h.setGateway g with | .ok h' => h' | .error _ => h) h

/-- **C12** IPv4: after any sequence of accepted and rejected gateway assignments to a host built from an address and
a mask, the host's address is in its network and the gateway is absent or usable. -/
theorem C12_ip4_gateway (a : Ip4Address) (m : Ip4Mask) (gs : List (Option Ip4Address)) :
    let h := (Ip4Host.ofMask a m).assignAll gs
    h.address = a ∧ h.network.contains a = true ∧ h.GatewayOk := by
  suffices ∀ (gs : List (Option Ip4Address)) (h : Ip4Host), h.address = a → h.network.contains a = true → h.GatewayOk →
      (h.assignAll gs).address = a ∧ (h.assignAll gs).network.contains a = true ∧ (h.assignAll gs).GatewayOk by
    apply this gs _ rfl
    · rw [show (Ip4Host.ofMask a m).network = Ip4Network.ofMask a m from rfl, C11_network_of_address]; rfl
    · intro g hg; cases hg
  intro gs
  induction gs with
  | nil => intro h h1 h2 h3; exact ⟨h1, h2, h3⟩
  | cons g gs ih =>
    intro h h1 h2 h3
    simp only [Ip4Host.assignAll, List.foldl_cons] at ih ⊢
    cases hs : h.setGateway g with
    | error e => exact ih h h1 h2 h3
    | ok h' =>
      simp only
      cases g with
      | none =>
        simp only [Ip4Host.setGateway] at hs
        injection hs with hs; subst hs
        exact ih _ h1 h2 (by intro g hg; cases hg)
      | some g =>
        simp only [Ip4Host.setGateway, Ip4Network.broadcast_ok] at hs
        split at hs
        · cases hs
        · split at hs
          · cases hs
          · split at hs
            · cases hs
            · split at hs
              · cases hs
              · injection hs with hs; subst hs
                refine ih _ h1 h2 ?_
                intro g' hg'
                injection hg' with hg'; subst hg'
                refine ⟨by simp_all, by assumption, by assumption, ?_⟩
                intro b hb
                rw [Ip4Network.broadcast_ok] at hb
                injection hb with hb; subst hb; assumption

/-- **C12** IPv4: the setter accepts exactly the usable gateways. -/
theorem C12_ip4_gateway_accepts (h : Ip4Host) (g : Ip4Address) :
    (∃ h', h.setGateway (some g) = .ok h') ↔
      h.network.contains g = true ∧ g ≠ h.network.address ∧ g ≠ h.address ∧
        ∀ b, h.network.broadcast = .ok b → g ≠ b := by
  simp only [Ip4Host.setGateway, Ip4Network.broadcast_ok, Except.ok.injEq, forall_eq']
  by_cases h1 : h.network.contains g = true <;> by_cases h2 : g = h.network.address <;> by_cases h3 : g = h.address <;>
    by_cases h4 : g = ⟨h.network.lastInt, h.network.lastInt_lt⟩ <;> simp_all

def Ip6Host.assignAll (h : Ip6Host) (gs : List (Option Ip6Address)) : Ip6Host :=
  gs.foldl (fun h g => match h.setGateway g with | .ok h' => h' | .error _ => h) h

/-- **C12** IPv6: the gateway is absent or in fe80::/10, whatever was assigned. -/
theorem C12_ip6_gateway (a : Ip6Address) (m : Ip6Mask) (gs : List (Option Ip6Address)) :
    let h := (Ip6Host.ofMask a m).assignAll gs
    h.address = a ∧ h.network.contains a = true ∧ ∀ g, h.gateway = some g → cidr 128 (hextet 0xFE80) 10 g.int := by
  have hll : ∀ g, ip6LinkLocalNet.contains g = true ↔ cidr 128 (hextet 0xFE80) 10 g.int := by
    intro g
    have e1 : ip6LinkLocalNet.address.int = 0xFE80 * 2 ^ 112 := by decide
    have e2 : ip6LinkLocalNet.lastInt = 0xFE80 * 2 ^ 112 + (2 ^ 118 - 1) := by decide
    rw [Ip6Network.contains, Bool.and_eq_true, decide_eq_true_eq, decide_eq_true_eq, e1, e2, cidr, hextet]
    have := g.lt
    omega
  suffices ∀ (gs : List (Option Ip6Address)) (h : Ip6Host), h.address = a → h.network.contains a = true →
      (∀ g, h.gateway = some g → cidr 128 (hextet 0xFE80) 10 g.int) →
      (h.assignAll gs).address = a ∧ (h.assignAll gs).network.contains a = true ∧
      ∀ g, (h.assignAll gs).gateway = some g → cidr 128 (hextet 0xFE80) 10 g.int by
    apply this gs _ rfl
    · rw [show (Ip6Host.ofMask a m).network = Ip6Network.ofMask a m from rfl, C11_network_of_address6]; rfl
    · intro g hg; cases hg
  intro gs
  induction gs with
  | nil => intro h h1 h2 h3; exact ⟨h1, h2, h3⟩
  | cons g gs ih =>
    intro h h1 h2 h3
    simp only [Ip6Host.assignAll, List.foldl_cons] at ih ⊢
    cases hs : h.setGateway g with
    | error e => exact ih h h1 h2 h3
    | ok h' =>
      simp only
      cases g with
      | none =>
        simp only [Ip6Host.setGateway] at hs
        injection hs with hs; subst hs
        exact ih _ h1 h2 (by intro g hg; cases hg)
      | some g =>
        simp only [Ip6Host.setGateway] at hs
        split at hs
        · cases hs
        · injection hs with hs; subst hs
          refine ih _ h1 h2 ?_
          intro g' hg'
          injection hg' with hg'; subst hg'
          rw [← hll]; simp_all

/-- **C12**, the unchecked constructor: a host can be built from an explicit network that does not contain its address. -/
theorem C12_unchecked_network_witness :
    ∃ (a : Ip4Address) (n : Ip4Network), (Ip4Host.ofNetwork a n).network.contains (Ip4Host.ofNetwork a n).address = false := by
  refine ⟨⟨dot 10 0 0 1, by decide⟩, Ip4Network.ofMask ⟨dot 192 168 0 0, by decide⟩
    ⟨0xFFFFFF00, by decide, (validateBits_iff _ _ (by decide)).mpr ⟨24, by decide, by decide⟩⟩, by decide⟩

/-! ### C13: derived addresses -/

/-- **C13** IPv4 multicast MAC: 01:00:5e followed by the low 23 bits; a MAC of the IPv4 multicast class. Other addresses
are refused by the assertion. -/
theorem C13_ip4_multicast_mac (a : Ip4Address) :
    (a.isMulticast = true → ∃ m, a.multicastMac = .ok m ∧ m.int = 0x01005E000000 + a.int % 2 ^ 23 ∧
      m.isMulticastIp4 = true) ∧
    (a.isMulticast = false → a.multicastMac = .error .assertionError) := by
  constructor
  · intro h
    have e : (0x01005E000000 ||| (a.int &&& 0x7FFFFF) : Nat) = 0x01005E000000 + a.int % 2 ^ 23 := by
      rw [show a.int &&& 0x7FFFFF = a.int % 2 ^ 23 from and_mask a.int 23]
      exact or_disjoint (a := 0x01005E000000 / 2 ^ 23) (k := 23) (Nat.mod_lt _ (by decide))
    refine ⟨⟨0x01005E000000 + a.int % 2 ^ 23, by omega⟩, ?_, rfl, ?_⟩
    · unfold Ip4Address.multicastMac
      rw [h, pyAssert_true, py_ok_bind, e, MacAddress.ofInt_ok]
    · simp only [MacAddress.isMulticastIp4, Bool.and_eq_true, decide_eq_true_eq]
      omega
  · intro h; unfold Ip4Address.multicastMac; rw [h]; rfl

/-- **C13** IPv6 multicast MAC: 33:33 followed by the low 32 bits. -/
theorem C13_ip6_multicast_mac (a : Ip6Address) :
    (a.isMulticast = true → ∃ m, a.multicastMac = .ok m ∧ m.int = 0x333300000000 + a.int % 2 ^ 32 ∧
      m.isMulticastIp6 = true) ∧
    (a.isMulticast = false → a.multicastMac = .error .assertionError) := by
  constructor
  · intro h
    have e : (0x333300000000 ||| (a.int &&& 0xFFFFFFFF) : Nat) = 0x333300000000 + a.int % 2 ^ 32 := by
      rw [show a.int &&& 0xFFFFFFFF = a.int % 2 ^ 32 from and_mask a.int 32]
      exact or_disjoint (a := 0x3333) (k := 32) (by omega)
    refine ⟨⟨0x333300000000 + a.int % 2 ^ 32, by omega⟩, ?_, rfl, ?_⟩
    · unfold Ip6Address.multicastMac
      rw [h, pyAssert_true, py_ok_bind, e, MacAddress.ofInt_ok]
    · simp only [MacAddress.isMulticastIp6, Bool.and_eq_true, decide_eq_true_eq]
      omega
  · intro h; unfold Ip6Address.multicastMac; rw [h]; rfl

/-- **C13** solicited-node group: ff02::1:ff00:0/104 with the low 24 bits, always defined, multicast, and its MAC is a
solicited-node MAC. -/
theorem C13_solicited_node (a : Ip6Address) :
    ∃ g, a.solicitedNodeMulticast = .ok g ∧ g.int = hextet 0xFF02 + 0x1FF000000 + a.int % 2 ^ 24 ∧
      g.isSolicitedNodeMulticast = true ∧ g.isMulticast = true ∧
      ∃ m, g.multicastMac = .ok m ∧ m.isMulticastIp6SolicitedNode = true := by
  have e : ((a.int &&& 0xFFFFFF) ||| 0xFF0200000000000000000001FF000000 : Nat) =
      0xFF0200000000000000000001FF000000 + a.int % 2 ^ 24 := by
    rw [show a.int &&& 0xFFFFFF = a.int % 2 ^ 24 from and_mask a.int 24, Nat.or_comm]
    exact or_disjoint (a := 0xFF0200000000000000000001FF) (k := 24) (by omega)
  have hlt : 0xFF0200000000000000000001FF000000 + a.int % 2 ^ 24 < 2 ^ 128 := by omega
  have hs : (⟨_, hlt⟩ : Ip6Address).isSolicitedNodeMulticast = true := by
    rw [(C09_ip6_classes _).2.2.2.2.2.2.1, cidr, hextet]; show (0xFF0200000000000000000001FF000000 + a.int % 2 ^ 24) / _ = _; omega
  have hmul : (⟨_, hlt⟩ : Ip6Address).isMulticast = true := by
    rw [(C09_ip6_classes _).2.2.2.2.2.1, cidr, hextet]; show (0xFF0200000000000000000001FF000000 + a.int % 2 ^ 24) / _ = _; omega
  obtain ⟨m, hm1, hm2, hm3⟩ := (C13_ip6_multicast_mac _).1 hmul
  refine ⟨⟨_, hlt⟩, ?_, ?_, hs, hmul, m, hm1, ?_⟩
  · unfold Ip6Address.solicitedNodeMulticast; rw [e, Ip6Address.ofInt_ok]
  · simp only [hextet]
  · rw [(C07_mac_classes m).2.2.2.2.1, hm2, cidr]; simp only; omega

/-- the interface identifier expression of `eui64` as arithmetic -/
theorem eui64_id (x : Nat) (hx48 : x < 2 ^ 48) :
    ∃ id, ((((x &&& 0xFFFFFF000000) <<< 16) ||| (x &&& 0xFFFFFF) ||| 0xFFFE000000) ^^^ 0x0200000000000000) = id ∧
      (x / 2 ^ 40 ^^^ 2) * 2 ^ 56 + (x / 2 ^ 24 % 2 ^ 16 * 2 ^ 40 + 0xFFFE000000 + x % 2 ^ 24) = id ∧ id < 2 ^ 64 := by
  have e1 : (x &&& 0xFFFFFF000000) = x / 2 ^ 24 * 2 ^ 24 := and_high (n := 48) (k := 24) hx48 (by omega)
  have e2 : x &&& 0xFFFFFF = x % 2 ^ 24 := and_mask x 24
  have e3 : (((x &&& 0xFFFFFF000000) <<< 16) ||| (x &&& 0xFFFFFF) ||| 0xFFFE000000) =
      x / 2 ^ 24 * 2 ^ 40 + (0xFFFE * 2 ^ 24 + x % 2 ^ 24) := by
    have c : (0xFFFE000000 : Nat) = 0xFFFE * 2 ^ 24 := by decide
    have c2 := or_disjoint (a := 0xFFFE) (k := 24) (b := x % 2 ^ 24) (Nat.mod_lt _ (by decide))
    have c3 : x / 2 ^ 24 * 2 ^ 24 * 2 ^ 16 = x / 2 ^ 24 * 2 ^ 40 := by rw [Nat.mul_assoc, ← Nat.pow_add]
    rw [e1, e2, Nat.shiftLeft_eq, Nat.or_assoc, Nat.or_comm (x % 2 ^ 24), c, c2, c3]
    exact or_disjoint (by omega)
  have e4 : x / 2 ^ 24 * 2 ^ 40 + (0xFFFE * 2 ^ 24 + x % 2 ^ 24) =
      x / 2 ^ 40 * 2 ^ 56 + (x / 2 ^ 24 % 2 ^ 16 * 2 ^ 40 + 0xFFFE000000 + x % 2 ^ 24) := by omega
  have c : (0x0200000000000000 : Nat) = 2 * 2 ^ 56 := by decide
  have hx : (x / 2 ^ 40 ^^^ 2) < 2 ^ 8 := Nat.xor_lt_two_pow (by omega) (by omega)
  refine ⟨_, rfl, ?_, ?_⟩
  · rw [e3, e4, c, xor_high (by omega)]
  · rw [e3, e4, c, xor_high (by omega)]; omega

theorem eui64_arith1 {p q N : Nat} (h : p * 256 ^ 8 + q = N) (hq : q < 256 ^ 8) (hN : N / 2 ^ 64 * 2 ^ 64 = N) :
    p * 2 ^ 64 = N := by
  have e : (256 : Nat) ^ 8 = 2 ^ 64 := by decide
  rw [e] at h hq
  generalize 2 ^ 64 = B at *
  subst h
  rw [Nat.mul_comm p, Nat.mul_add_div (by omega), Nat.div_eq_of_lt hq] at hN
  rw [Nat.mul_comm p, ← hN, Nat.add_zero, Nat.mul_comm]

theorem eui64_arith2 {m0 m1 m2 m3 m4 m5 x p N id : Nat} (h0 : m0 < 2 ^ 8) (h1 : m1 < 2 ^ 8) (h2 : m2 < 2 ^ 8) (h3 : m3 < 2 ^ 8)
    (h4 : m4 < 2 ^ 8) (h5 : m5 < 2 ^ 8)
    (hx : m0 * 256 ^ (0 + 1 + 1 + 1 + 1 + 1) + (m1 * 256 ^ (0 + 1 + 1 + 1 + 1) + (m2 * 256 ^ (0 + 1 + 1 + 1) +
      (m3 * 256 ^ (0 + 1 + 1) + (m4 * 256 ^ (0 + 1) + (m5 * 256 ^ 0 + 0))))) = x)
    (hp : p * 2 ^ 64 = N)
    (hid : (x / 2 ^ 40 ^^^ 2) * 2 ^ 56 + (x / 2 ^ 24 % 2 ^ 16 * 2 ^ 40 + 0xFFFE000000 + x % 2 ^ 24) = id) :
    p * 256 ^ (0 + 1 + 1 + 1 + 1 + 1 + 1 + 1 + 1) + ((m0 ^^^ 2) * 256 ^ (0 + 1 + 1 + 1 + 1 + 1 + 1 + 1) +
      (m1 * 256 ^ (0 + 1 + 1 + 1 + 1 + 1 + 1) + (m2 * 256 ^ (0 + 1 + 1 + 1 + 1 + 1) + (255 * 256 ^ (0 + 1 + 1 + 1 + 1) +
      (254 * 256 ^ (0 + 1 + 1 + 1) + (m3 * 256 ^ (0 + 1 + 1) + (m4 * 256 ^ (0 + 1) + (m5 * 256 ^ 0 + 0)))))))) = N + id := by
  simp only [Nat.reduceAdd, Nat.reducePow] at *
  subst hp
  apply congrArg (p * 18446744073709551616 + ·)
  have hm0 : x / 1099511627776 = m0 := by omega
  have hm12 : x / 16777216 % 65536 = m1 * 256 + m2 := by omega
  have hm345 : x % 16777216 = m3 * 65536 + m4 * 256 + m5 := by omega
  rw [hm0, hm12, hm345] at hid
  clear hx hm0 hm12 hm345
  subst hid
  simp only [Nat.add_mul, Nat.add_assoc, Nat.mul_assoc, Nat.reduceMul, Nat.mul_one, Nat.add_zero, Nat.zero_add]
  clear h0 h1 h2 h3 h4 h5
  grind

/-- **C13** EUI-64: for a /64 network the address is the network's first 8 bytes followed by the modified EUI-64
identifier of the MAC; it lies in the network. -/
theorem C13_eui64 (n : Ip6Network) (mac : MacAddress) (h64 : n.mask.len = 64) :
    ∃ h, n.eui64 mac = .ok h ∧ h.address.toBytes = n.address.toBytes.take 8 ++ modifiedEui64 mac.toBytes ∧
      n.contains h.address = true ∧ h.network = n := by
  obtain ⟨hl, hm⟩ := n.mask.len_form
  rw [h64] at hm
  have hmasked := n.masked
  have hna : n.address.int / 2 ^ 64 * 2 ^ 64 = n.address.int := by
    rw [hm] at hmasked
    rw [← and_high (k := 64) n.address.lt (by omega)]; exact hmasked
  have hmac := mac.lt
  have hnl := n.address.lt
  obtain ⟨id, e5, hid, hidlt⟩ := eui64_id mac.int hmac
  have e6 : n.address.int ||| id = n.address.int + id := by
    rw [← hna]; exact or_disjoint hidlt
  have hlt : n.address.int + id < 2 ^ 128 := by omega
  obtain ⟨m64, hm1, -, hm3, hm4⟩ := C10_ip6_mask.2.1 64 (by omega)
  refine ⟨Ip6Host.ofMask ⟨_, hlt⟩ m64, ?_, ?_, ?_, ?_⟩
  · unfold Ip6Network.eui64
    simp only [h64, beq_self_eq_true, pyAssert_true, py_ok_bind, e5, e6]
    rw [Ip6Address.ofInt_ok _ hlt, py_ok_bind, hm1]; simp
  · show (⟨_, hlt⟩ : Ip6Address).toBytes = _
    rw [Ip6Address.toBytes_eq ⟨_, hlt⟩]
    symm
    have hmb : mac.toBytes.length = 6 := mac.toBytes_length
    have hmv : beNat mac.toBytes = mac.int := by rw [mac.toBytes_eq, beNat_bePack, Nat.mod_eq_of_lt mac.lt]
    have hnv : beNat n.address.toBytes = n.address.int := by
      rw [n.address.toBytes_eq, beNat_bePack, Nat.mod_eq_of_lt n.address.lt]
    match hmt : mac.toBytes, hmb with
    | [m0, m1, m2, m3, m4, m5], _ =>
      rw [hmt] at hmv
      simp only [modifiedEui64]
      have hsplit : beNat (n.address.toBytes.take 8) * 2 ^ 64 = n.address.int := by
        have hs := List.take_append_drop 8 n.address.toBytes
        have h8 : (n.address.toBytes.drop 8).length = 8 := by simp
        have hd := beNat_lt (n.address.toBytes.drop 8)
        have := congrArg beNat hs
        rw [beNat_append, h8, hnv] at this
        rw [h8] at hd
        exact eui64_arith1 this hd hna
      apply eq_bePack_of
      · simp
      · rw [beNat_append]
        simp only [List.length_cons, List.length_nil, beNat_cons, beNat_nil, UInt8.toNat_xor, UInt8.toNat_ofNat, Nat.reduceMod] at hmv ⊢
        exact eui64_arith2 m0.toNat_lt m1.toNat_lt m2.toNat_lt m3.toNat_lt m4.toNat_lt m5.toNat_lt hmv hsplit hid
  · show n.contains ⟨_, hlt⟩ = true
    rw [(C11_ip6_membership n).1, cidr, h64]
    show (n.address.int + id) / _ = _
    simp only [Nat.reduceSub]
    omega
  · show Ip6Network.ofMask _ _ = n
    have h1 : m64.int = n.mask.int := by rw [hm4, hm]
    have h2 : (n.address.int + id) &&& m64.int = n.address.int := by
      rw [hm4, and_high hlt (by omega)]
      have : (n.address.int + id) / 2 ^ 64 = n.address.int / 2 ^ 64 := by
        clear hm hm4 e5 e6 hmasked hlt h1
        omega
      rw [show 128 - 64 = 64 by rfl, this, hna]
    cases n with
    | mk na nm nmk =>
      cases na; cases nm; cases m64
      simp only [Ip6Network.ofMask, Ip6Network.mk.injEq, Ip6Address.mk.injEq, Ip6Mask.mk.injEq] at *
      exact ⟨h2, h1⟩

/-- **C13**: distinct MACs get distinct EUI-64 addresses in the same network. -/
theorem C13_eui64_injective (n : Ip6Network) (m1 m2 : MacAddress) (h64 : n.mask.len = 64)
    (h : n.eui64 m1 = n.eui64 m2) : m1 = m2 := by
  obtain ⟨x1, h1, b1, -, -⟩ := C13_eui64 n m1 h64
  obtain ⟨x2, h2, b2, -, -⟩ := C13_eui64 n m2 h64
  rw [h, h2] at h1
  injection h1 with h1; subst h1
  rw [b1] at b2
  have b2 := List.append_cancel_left b2
  have l1 := m1.toBytes_length
  have l2 := m2.toBytes_length
  have : m1.toBytes = m2.toBytes := by
    match e1 : m1.toBytes, e2 : m2.toBytes, l1, l2 with
    | [a0, a1, a2, a3, a4, a5], [c0, c1, c2, c3, c4, c5], _, _ =>
      rw [e1, e2] at b2
      simp only [modifiedEui64, List.cons.injEq, and_true, true_and] at b2
      obtain ⟨hx, hr⟩ := b2
      have hx2 : (a0 ^^^ 2) ^^^ 2 = (c0 ^^^ 2) ^^^ 2 := by rw [hx]
      simp only [UInt8.xor_assoc, UInt8.xor_self, UInt8.xor_zero] at hx2
      simp_all
  have e := C04_mac_bytes.1
  have e1 := (e m1).1
  rw [this, (e m2).1] at e1
  injection e1 with e1; exact e1.symm

/-- the hypothesis of the EUI-64 theorems is met by fe80::/64 -/
example : ∃ n : Ip6Network, n.mask.len = 64 ∧ n.address.int = hextet 0xFE80 :=
  ⟨⟨⟨hextet 0xFE80, by decide⟩, ⟨2 ^ 128 - 2 ^ 64, by decide, (validateBits_iff _ _ (by decide)).mpr ⟨64, by decide, rfl⟩⟩, by decide⟩,
    maskLen_prefix 128 64 (by decide), rfl⟩

end Verif
