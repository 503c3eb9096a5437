import Verif.Lemmas.Cksum
/-! Properties C01, C02, C03: the Internet checksum routine. -/
namespace Verif
open Spec

/-- **C01**.  `inet_cksum(data, init)` returns 0 exactly when the number the RFC 1071 sum is taken of
(16-bit words of `data` plus the pseudo-header sum) is a positive multiple of 65535.
The bounds are those of the platform: a Python buffer is shorter than 2^63 bytes and every
pseudo-header sum is below 2^72. -/
theorem C01_verify_exact (data : Bytes) (init : Nat) (hd : data.length < 2 ^ 63) (hi : init < 2 ^ 72) :
    inetCksum data init = 0 ↔ 65535 ∣ init + (words16 data).sum ∧ 0 < init + (words16 data).sum := by
  have := (inetCksum_cases data init hd hi).1
  rw [this, sum16, Nat.dvd_iff_mod_eq_zero]
  omega

/-- **C01**, in terms of one's complement arithmetic on bytes: with the pseudo-header `ps`, summed the way the
protocols do (as `k`-byte words, `k` even), the routine returns 0 iff `ps ++ data` is valid by RFC 1071. -/
theorem C01_verify_rfc1071 (ps data : Bytes) (k n : Nat) (hk : k % 2 = 0) (hps : ps.length = k * n)
    (hd : data.length < 2 ^ 63) (hi : wordSum k n ps < 2 ^ 72) :
    inetCksum data (wordSum k n ps) = 0 ↔ Valid (ps ++ data) := by
  have h1 := (inetCksum_cases data _ hd hi).1
  obtain ⟨h2, h3, -⟩ := wordSum_spec k hk n ps (by omega)
  rw [List.take_of_length_le (by omega)] at h2 h3
  have h4 := ocSum_spec (ps ++ data)
  have hps2 : ps.length % 2 = 0 := by rw [hps, Nat.mul_mod, hk]; simp
  rw [sum16_append _ _ hps2] at h4
  unfold Valid
  generalize ocSum (words16 (ps ++ data)) = o at *
  generalize wordSum k n ps = w at *
  omega

/-- a packet the theorem speaks about: it verifies, and is not trivial -/
example : inetCksum [0x45, 0x00, 0x00, 0x14, 0xBA, 0xEB] 0 = 0 := by decide
example : inetCksum [0x45, 0x00, 0x00, 0x14, 0xBA, 0xEC] 0 ≠ 0 := by decide
example : Valid [0x45, 0x00, 0x00, 0x14, 0xBA, 0xEB] := by unfold Valid; decide

/-- **C02** is false of the code: for this 8-byte block (an ICMP echo request, id 0xF800, sequence 0xFFFF,
checksum field zero, no data) the routine returns a value different from the RFC 1071 checksum ... -/
theorem C02_generate_wrong_witness :
    ∃ data : Bytes, data.length = 8 ∧ inetCksum data 0 ≠ rfc1071 data := by
  refine ⟨[0x08, 0x00, 0x00, 0x00, 0xF8, 0x00, 0xFF, 0xFF], rfl, ?_⟩
  decide

/-- ... and the block with that value stored in its checksum field is rejected by the same routine. -/
theorem C02_generate_unverifiable_witness :
    inetCksum [0x08, 0x00, 0x00, 0x00, 0xF8, 0x00, 0xFF, 0xFF] 0 = 0xFFFF ∧
      inetCksum [0x08, 0x00, 0xFF, 0xFF, 0xF8, 0x00, 0xFF, 0xFF] 0 ≠ 0 ∧
      inetCksum [0x08, 0x00, 0xFF, 0xFE, 0xF8, 0x00, 0xFF, 0xFF] 0 = 0 := by
  decide

/-- **C02** (partial): whatever the block, the value returned is the RFC 1071 checksum or exactly one more
(full claim: always the RFC 1071 checksum). -/
theorem C02_generate_partial (data : Bytes) (hd : data.length < 2 ^ 63) :
    inetCksum data 0 = rfc1071 data ∨ inetCksum data 0 = rfc1071 data + 1 := by
  have h1 := cksumAcc_spec data 0
  have h2 := cksumAcc_lt data 0 hd (by omega)
  have h3 := folds_spec (cksumAcc data 0)
  have h4 := folds_lt _ h2
  have h5 := ocSum_spec data
  obtain ⟨s, s1, s2, s3, s4⟩ := last_fold _ h4
  rw [inetCksum_eq, rfc1071, s4]
  have k1 : ocSum (words16 data) % 65535 = s % 65535 := by omega
  have k2 : ocSum (words16 data) = 0 ↔ s = 0 := by omega
  have k3 := h5.1
  clear h1 h2 h3 h4 h5 s2 s3 s4
  generalize ocSum (words16 data) = o at *
  by_cases hs : s < 65536
  · left
    have : o = s := by omega
    omega
  · right
    have : o = s - 65535 := by omega
    omega

/-- **C02** (partial): for 20-byte blocks, i.e. IPv4 headers without options, the value is always right. -/
theorem C02_generate_20_bytes_partial (data : Bytes) (h : data.length = 20) :
    inetCksum data 0 = rfc1071 data := by
  have h1 := cksumAcc_spec data 0
  have h3 := folds_spec (cksumAcc data 0)
  have h5 := ocSum_spec data
  obtain ⟨-, -, h6⟩ := wordSum_spec 4 rfl 5 data (by omega)
  have hlt : cksumAcc data 0 ≤ 5 * (2 ^ 32 - 1) := by
    simp only [cksumAcc, h, ↓reduceIte]; omega
  obtain ⟨s, s1, s2, s3, s4⟩ := small_fold _ hlt
  rw [inetCksum_eq, rfc1071, s4]
  have k1 : ocSum (words16 data) % 65535 = s % 65535 := by omega
  have k2 : ocSum (words16 data) = 0 ↔ s = 0 := by omega
  have k3 := h5.1
  clear h1 hlt h3 h5 s2 s3 s4
  generalize ocSum (words16 data) = o at *
  omega

/-- **C02** (partial): storing the RFC 1071 checksum of a block in a word-aligned zero field of the block makes the
block verify, so whenever `inet_cksum` returns the RFC value the receiver accepts. -/
theorem C02_store_verifies_partial (a b : Bytes) (ha : a.length % 2 = 0) (hlen : (a ++ [0, 0] ++ b).length < 2 ^ 63)
    (hright : inetCksum (a ++ [0, 0] ++ b) 0 = rfc1071 (a ++ [0, 0] ++ b)) :
    inetCksum (a ++ bePack 2 (inetCksum (a ++ [0, 0] ++ b) 0) ++ b) 0 = 0 := by
  have h5 := ocSum_spec (a ++ [0, 0] ++ b)
  have e1 : sum16 (a ++ [0, 0] ++ b) = sum16 a + sum16 b := by
    rw [sum16_append _ _ (by simp; omega), sum16_append _ _ ha]; simp [sum16, words16]
  rw [hright]
  generalize hc : rfc1071 (a ++ [0, 0] ++ b) = c
  have hcl : c ≤ 65535 := by rw [← hc, rfc1071]; omega
  rw [rfc1071] at hc
  have e2 : sum16 (a ++ bePack 2 c ++ b) = sum16 a + c + sum16 b := by
    rw [sum16_append _ _ (by simp; omega), sum16_append _ _ ha]
    simp only [sum16, bePack, List.nil_append, List.cons_append, words16, UInt8.toNat_ofNat', List.sum_cons, List.sum_nil]
    omega
  rw [(inetCksum_cases _ 0 (by simp at hlen ⊢; omega) (by omega)).1, e2]
  rw [e1] at h5
  generalize ocSum (words16 (a ++ [0, 0] ++ b)) = o at *
  omega

example : inetCksum ([0x45, 0x00, 0x00, 0x14] ++ [0, 0] ++ []) 0 = rfc1071 ([0x45, 0x00, 0x00, 0x14] ++ [0, 0] ++ []) := by
  decide

/-- **C03**.  If a block verifies, then replacing any one byte of it by any different byte (in particular flipping one
bit) makes it fail verification. -/
theorem C03_byte_corruption_detected (data : Bytes) (init : Nat) (hd : data.length < 2 ^ 63) (hi : init < 2 ^ 72)
    (hok : inetCksum data init = 0) (i : Nat) (h : i < data.length) (x : UInt8) (hx : x ≠ data[i]) :
    inetCksum (data.set i x) init ≠ 0 := by
  have h1 := (inetCksum_cases data init hd hi).1
  have h2 := (inetCksum_cases (data.set i x) init (by simpa using hd) hi).1
  have h3 := sum16_set data i x h
  have hne : x.toNat ≠ data[i].toNat := fun e => hx (UInt8.toNat_inj.mp e)
  have := x.toNat_lt; have := data[i].toNat_lt
  rw [Ne, h2]
  split at h3 <;> omega

/-- **C03**, bits: flipping bit `j` of byte `i` is detected. -/
theorem C03_bit_flip_detected (data : Bytes) (init : Nat) (hd : data.length < 2 ^ 63) (hi : init < 2 ^ 72)
    (hok : inetCksum data init = 0) (i : Nat) (h : i < data.length) (j : Fin 8) :
    inetCksum (data.set i (data[i] ^^^ (1 <<< UInt8.ofNat j))) init ≠ 0 := by
  apply C03_byte_corruption_detected data init hd hi hok i h
  intro e
  have e2 : data[i] ^^^ (data[i] ^^^ (1 <<< UInt8.ofNat j)) = data[i] ^^^ data[i] := by rw [e]
  rw [← UInt8.xor_assoc, UInt8.xor_self, UInt8.zero_xor] at e2
  clear e
  revert e2 j; decide

example : inetCksum [0x45, 0x00, 0x00, 0x14, 0xBA, 0xEB] 0 = 0 ∧
    inetCksum [0x45, 0x00, 0x02, 0x14, 0xBA, 0xEB] 0 ≠ 0 := by decide

end Verif
