import Verif.Model.Ip6
import Verif.Lemmas.Codec
/-! C17 (IPv6 header and fragment header), their share of C22, and C26 for IPv6. -/
namespace Verif

/-- The values the assembler accepts for a payload of `n` bytes of protocol `p`. -/
def Ip6.Tx.Ok (h : Ip6.Tx) (p n : Nat) : Prop :=
  h.hop ≤ 255 ∧ h.dscp ≤ 63 ∧ h.ecn ≤ 3 ∧ h.flow ≤ 0xFFFFFF ∧ n < 65536 ∧
    (p = 58 ∨ p = 17 ∨ p = 6 ∨ p = 44 ∨ p = 255)

theorem Ip6.pshdr_ok (src dst : Ip6Address) (dlen next : Nat) (hd : dlen < 4294967296) (hn : next < 256) :
    Ip6.pshdrSum src dst dlen next =
      .ok (wordSum 8 5 (src.toBytes ++ dst.toBytes ++ bePack 4 dlen ++ [0, 0, 0] ++ bePack 1 next)) := by
  simp only [Ip6.pshdrSum, packL_ok hd, packB_ok (show 0 < 256 by omega), packB_ok hn, codec]
  rfl

theorem Ip6.b0_eq {d : Nat} (h : d ≤ 63) : 6 <<< 4 ||| d >>> 4 = 96 + d / 16 := by
  rw [Nat.shiftRight_eq_div_pow]
  exact or_disjoint (a := 6) (k := 4) (by omega)

theorem Ip6.b1_eq {d e f : Nat} (hd : d ≤ 63) (he : e ≤ 3) :
    (d &&& (0b00000011 <<< 6)) ||| e <<< 4 ||| ((f &&& 0b000011110000000000000000) >>> 16) = e * 16 + f / 65536 % 16 := by
  have h1 : d &&& (0b00000011 <<< 6) = 0 := by
    have := Nat.and_lt_two_pow d (show 0xC0 < 2 ^ 8 by decide)
    apply Nat.eq_of_testBit_eq; intro i
    rw [Nat.testBit_and]
    by_cases hi : i < 6
    · have : ∀ i : Fin 6, Nat.testBit (3 <<< 6) i = false := by decide
      rw [this ⟨i, hi⟩]; simp
    · have : d.testBit i = false :=
        Nat.testBit_lt_two_pow (Nat.lt_of_lt_of_le (show d < 2 ^ 6 by omega) (Nat.pow_le_pow_right (by omega) (by omega)))
      simp [this]
  have h2 : (f &&& 0b000011110000000000000000) >>> 16 = f / 65536 % 16 := by
    rw [Nat.shiftRight_and_distrib, Nat.shiftRight_eq_div_pow]
    exact and_F _
  rw [h1, h2, Nat.zero_or, Nat.shiftLeft_eq]
  exact or_disjoint (k := 4) (by omega)

theorem Ip6.b2_eq (f : Nat) : (f &&& 0b000000001111111100000000) >>> 8 = f / 256 % 256 := by
  rw [Nat.shiftRight_and_distrib, Nat.shiftRight_eq_div_pow]
  exact and_FF _

/-- C17, exact form: an assembled IPv6 packet is accepted (non-zero hop limit, source not multicast) and all fields come
back, except that DSCP comes back as `dscp / 16 * 4` and the flow label without its bits above 20. -/
theorem C17_ip6_roundtrip_partial (h : Ip6.Tx) (c : Carried) (payload : Bytes) (ps : Nat) (hok : h.Ok c.proto c.len)
    (hps : Ip6.pshdrSum h.src h.dst c.len c.proto = .ok ps) (hc : c.assemble ps = .ok payload)
    (hlen : payload.length = c.len) (hhop : 0 < h.hop) (hsrc : h.src.isMulticast = false) :
    ∃ f, Ip6.assemble h c = .ok f ∧ Ip6.parse f = .ok none ∧
      Ip6.read f = .ok { dscp := h.dscp / 16 * 4, ecn := h.ecn, flow := h.flow % 2 ^ 20, dlen := c.len, next := c.proto,
                         hop := h.hop, src := h.src, dst := h.dst, headerCopy := f.take 40, packetCopy := f,
                         pshdrSum := ps, rest := payload } := by
  obtain ⟨k1, k2, k3, k4, k5, k6⟩ := hok
  have kp : c.proto < 256 := by omega
  obtain ⟨f, hf⟩ : ∃ f, f = bePack 1 (96 + h.dscp / 16) ++ bePack 1 (h.ecn * 16 + h.flow / 65536 % 16) ++
    bePack 1 (h.flow / 256 % 256) ++ bePack 1 (h.flow % 256) ++ bePack 2 c.len ++ bePack 1 c.proto ++ bePack 1 h.hop ++
    h.src.toBytes ++ h.dst.toBytes ++ payload := ⟨_, rfl⟩
  have hfl : f.length = 40 + c.len := by rw [hf]; simp [codec]; omega
  have i0 : idx f 0 = .ok (96 + h.dscp / 16) := by rw [hf]; simp [codec]; omega
  have i1 : idx f 1 = .ok (h.ecn * 16 + h.flow / 65536 % 16) := by rw [hf]; simp [codec]; omega
  have i2 : idx f 2 = .ok (h.flow / 256 % 256) := by rw [hf]; simp [codec]
  have i3 : idx f 3 = .ok (h.flow % 256) := by rw [hf]; simp [codec]
  have i4 : u16 f 4 = .ok c.len := by rw [hf]; simp [codec]; omega
  have i6 : idx f 6 = .ok c.proto := by rw [hf]; simp [codec]; omega
  have i7 : idx f 7 = .ok h.hop := by rw [hf]; simp [codec]; omega
  have i8 : Ip6Address.ofBytes (slice f 8 24) = .ok h.src := by rw [hf]; simp [codec]
  have i24 : Ip6Address.ofBytes (slice f 24 40) = .ok h.dst := by rw [hf]; simp [codec]
  have i40 : sliceFrom f 40 = payload := by rw [hf]; simp [codec]
  have ht : f.take (40 + c.len) = f := List.take_of_length_le (by omega)
  refine ⟨f, ?_, ?_, ?_⟩
  · have : (c.proto == 58 || c.proto == 17 || c.proto == 6 || c.proto == 44 || c.proto == 255) = true := by
      simp; omega
    simp only [Ip6.assemble, Ip6.header, Ip6.b0_eq k2, Ip6.b1_eq k2 k3, Ip6.b2_eq,
      show (0b000000000000000011111111 : Nat) = 0xFF from rfl, and_FF, packB_ok (show 96 + h.dscp / 16 < 256 by omega),
      packB_ok (show h.ecn * 16 + h.flow / 65536 % 16 < 256 by omega), packB_ok (show h.flow / 256 % 256 < 256 by omega),
      packB_ok (show h.flow % 256 < 256 by omega), packH_ok k5, packB_ok kp, packB_ok (show h.hop < 256 by omega), this,
      hps, hc, k1, k2, k3, k4, decide_true, codec]
    rw [hf]; simp only [codec]
  · have e0 : (96 + h.dscp / 16) >>> 4 = 6 := by rw [Nat.shiftRight_eq_div_pow]; omega
    simp [Ip6.parse, hfl, i4, Ip6.ver, i0, e0, Ip6.hop, i7, Ip6.src, i8, hsrc, show h.hop ≠ 0 by omega]
  · have e1 : (((96 + h.dscp / 16) &&& 0b00001111) <<< 2) ||| (((h.ecn * 16 + h.flow / 65536 % 16) &&& 0b11000000) >>> 6) =
        h.dscp / 16 * 4 := by
      rw [Nat.shiftRight_and_distrib, Nat.shiftRight_eq_div_pow, Nat.shiftLeft_eq, and_F]
      rw [show (0b11000000 >>> 6 : Nat) = 3 from rfl, and_3]
      rw [or_disjoint (k := 2) (by omega)]; omega
    have e2 : ((h.ecn * 16 + h.flow / 65536 % 16) &&& 0b00110000) >>> 4 = h.ecn := by
      rw [Nat.shiftRight_and_distrib, Nat.shiftRight_eq_div_pow, show (0b00110000 >>> 4 : Nat) = 3 from rfl, and_3]
      omega
    have e3 : (((h.ecn * 16 + h.flow / 65536 % 16) &&& 0b00001111) <<< 16) ||| ((h.flow / 256 % 256) <<< 8) |||
        (h.flow % 256) = h.flow % 2 ^ 20 := by
      rw [and_F, Nat.shiftLeft_eq, Nat.shiftLeft_eq, Nat.or_assoc, or_disjoint (k := 8) (by omega),
        or_disjoint (k := 16) (by omega)]
      omega
    simp only [Ip6.read, Ip6.dlen, i4, Ip6.next, i6, Ip6.src, i8, Ip6.dst, i24, Ip6.dscp, i0, i1, Ip6.ecn, Ip6.flow, i2, i3,
      Ip6.hop, i7, hps, ht, i40, e1, e2, e3, codec]

/-- C17 for the values the stack itself uses (DSCP 0) and legal flow labels: everything comes back unchanged. -/
theorem C17_ip6_roundtrip_dscp0_partial (h : Ip6.Tx) (c : Carried) (payload : Bytes) (ps : Nat)
    (hok : h.Ok c.proto c.len) (hps : Ip6.pshdrSum h.src h.dst c.len c.proto = .ok ps)
    (hc : c.assemble ps = .ok payload) (hlen : payload.length = c.len) (hhop : 0 < h.hop)
    (hsrc : h.src.isMulticast = false) (hd : h.dscp = 0) (hfl : h.flow < 2 ^ 20) :
    ∃ f, Ip6.assemble h c = .ok f ∧ Ip6.parse f = .ok none ∧
      Ip6.read f = .ok { dscp := h.dscp, ecn := h.ecn, flow := h.flow, dlen := c.len, next := c.proto,
                         hop := h.hop, src := h.src, dst := h.dst, headerCopy := f.take 40, packetCopy := f,
                         pshdrSum := ps, rest := payload } := by
  obtain ⟨f, h1, h2, h3⟩ := C17_ip6_roundtrip_partial h c payload ps hok hps hc hlen hhop hsrc
  refine ⟨f, h1, h2, ?_⟩
  rw [h3, hd, Nat.mod_eq_of_lt hfl]

/-- A concrete packet that meets all the hypotheses above. -/
example : (Ip6.Tx.mk ⟨0xFE800000000000000000000000000001, by decide⟩ ⟨0xFE800000000000000000000000000002, by decide⟩
    64 0 1 0x12345).Ok 17 9 ∧
    (⟨0xFE800000000000000000000000000001, by decide⟩ : Ip6Address).isMulticast = false := by
  constructor
  · simp [Ip6.Tx.Ok]
  · decide

/-- C17 is false for DSCP: whatever non-zero DSCP is asked for, the packet shows another one. -/
theorem C17_dscp_lost_witness (h : Ip6.Tx) (c : Carried) (payload : Bytes) (ps : Nat)
    (hok : h.Ok c.proto c.len) (hps : Ip6.pshdrSum h.src h.dst c.len c.proto = .ok ps)
    (hc : c.assemble ps = .ok payload) (hlen : payload.length = c.len) (hhop : 0 < h.hop)
    (hsrc : h.src.isMulticast = false) (hd : h.dscp ≠ 0) :
    ∃ f r, Ip6.assemble h c = .ok f ∧ Ip6.parse f = .ok none ∧ Ip6.read f = .ok r ∧ r.dscp ≠ h.dscp := by
  obtain ⟨f, h1, h2, h3⟩ := C17_ip6_roundtrip_partial h c payload ps hok hps hc hlen hhop hsrc
  exact ⟨f, _, h1, h2, h3, by dsimp only; omega⟩

/-- C26 for IPv6: what every accepted packet satisfies. -/
theorem C26_ip6_accepted (f : Bytes) (h : Ip6.parse f = .ok none) :
    ∃ r, Ip6.read f = .ok r ∧ 40 ≤ f.length ∧ f.length = 40 + r.dlen ∧ (f[0]?.map (·.toNat / 16)) = some 6 ∧ r.hop ≠ 0 ∧
      r.src.isMulticast = false ∧ r.rest.length = r.dlen ∧ r.packetCopy = f ∧
      r.src.toBytes = (f.drop 8).take 16 ∧ r.dst.toBytes = (f.drop 24).take 16 ∧ r.rest = f.drop 40 := by
  rw [Ip6.parse] at h
  by_cases hl : f.length < 40
  · simp [hl] at h
  obtain ⟨b0, h0, -, -⟩ := idx_ex (f := f) (i := 0) (by omega)
  obtain ⟨b1, h1, -, -⟩ := idx_ex (f := f) (i := 1) (by omega)
  obtain ⟨b2, h2, -, -⟩ := idx_ex (f := f) (i := 2) (by omega)
  obtain ⟨b3, h3, -, -⟩ := idx_ex (f := f) (i := 3) (by omega)
  obtain ⟨dl, h4, hdl, -⟩ := u16_ex (f := f) (i := 4) (by omega)
  obtain ⟨nx, h6, hnx, -⟩ := idx_ex (f := f) (i := 6) (by omega)
  obtain ⟨hp, h7, -, -⟩ := idx_ex (f := f) (i := 7) (by omega)
  obtain ⟨s, h8, e8⟩ := ip6_ok (f := f) (i := 8) (j := 24) rfl (by omega)
  obtain ⟨d, h24, e24⟩ := ip6_ok (f := f) (i := 24) (j := 40) rfl (by omega)
  simp only [hl, h4, Ip6.ver, h0, Ip6.hop, h7, Ip6.src, h8, codec, if_false] at h
  repeat' split at h
  all_goals try cases h
  rename_i c1 c2 c3 c4
  simp only [Decidable.not_not, Bool.not_eq_true] at c1 c2 c3 c4
  have hps := Ip6.pshdr_ok s d dl nx (by omega) hnx
  refine ⟨_, by
    simp only [Ip6.read, Ip6.dlen, h4, Ip6.next, h6, Ip6.src, h8, Ip6.dst, h24, Ip6.dscp, h0, h1, Ip6.ecn, Ip6.flow, h2, h3,
      Ip6.hop, h7, hps, codec]
    rfl, by omega, ?_, ?_, c3, c4, ?_, ?_, ?_, ?_, rfl⟩
  · dsimp only; omega
  · obtain ⟨hi, e⟩ := idx_eq_ok.mp h0
    rw [List.getElem?_eq_getElem hi]
    rw [Nat.shiftRight_eq_div_pow] at c2
    simp only [Option.map_some, e, Option.some.injEq]
    exact c2
  · simp [sliceFrom]; omega
  · exact List.take_of_length_le (by omega)
  · simp only [e8, slice]; rw [List.drop_take]
  · simp only [e24, slice]; rw [List.drop_take]

example : Ip6.parse ([0x60,0,0,0, 0,1, 59, 64] ++ List.replicate 15 0 ++ [1] ++ List.replicate 15 0 ++ [2] ++ [7]) =
    .ok none := by decide

/-- C22 for IPv6. -/
theorem C22_ip6_total (f : Bytes) : ∃ r, Ip6.parse f = .ok r ∧ (r = none → ∃ h, Ip6.read f = .ok h) := by
  have : ∃ r, Ip6.parse f = .ok r := by
    rw [Ip6.parse]
    by_cases hl : f.length < 40
    · exact ⟨_, by simp [hl]; rfl⟩
    obtain ⟨b0, h0, -, -⟩ := idx_ex (f := f) (i := 0) (by omega)
    obtain ⟨dl, h4, hdl, -⟩ := u16_ex (f := f) (i := 4) (by omega)
    obtain ⟨hp, h7, -, -⟩ := idx_ex (f := f) (i := 7) (by omega)
    obtain ⟨s, h8, e8⟩ := ip6_ok (f := f) (i := 8) (j := 24) rfl (by omega)
    simp only [hl, h4, Ip6.ver, h0, Ip6.hop, h7, Ip6.src, h8, codec, if_false]
    repeat' split
    all_goals exact ⟨_, rfl⟩
  obtain ⟨r, hr⟩ := this
  refine ⟨r, hr, ?_⟩
  rintro rfl
  obtain ⟨h, h', -⟩ := C26_ip6_accepted f hr
  exact ⟨h, h'⟩

/-- C17 for the fragment header: offset (a multiple of 8 below 65536), flag, identification and data come back. -/
theorem C17_ip6_frag_roundtrip (next offset : Nat) (mf : Bool) (id : Nat) (data : Bytes)
    (hn : next = 58 ∨ next = 17 ∨ next = 6 ∨ next = 255) (ho : offset < 65536) (h8 : offset % 8 = 0)
    (hi : id < 4294967296) :
    ∃ f, Ip6Frag.assemble next offset mf id data = .ok f ∧ f.length = 8 + data.length ∧ Ip6Frag.parse f = .ok none ∧
      Ip6Frag.read f f.length = .ok { next := next, offset := offset, mf := mf, id := id, dataCopy := data } := by
  have ho' : offset ||| mf.toNat = offset + mf.toNat := by
    have := or_disjoint (a := offset / 8) (b := mf.toNat) (k := 3) (by cases mf <;> decide)
    rw [show offset / 8 * 2 ^ 3 = offset by omega] at this
    exact this
  have hm : mf.toNat ≤ 1 := by cases mf <;> decide
  obtain ⟨f, hf⟩ : ∃ f, f = bePack 1 next ++ bePack 1 0 ++ bePack 2 (offset + mf.toNat) ++ bePack 4 id ++ data := ⟨_, rfl⟩
  have hfl : f.length = 8 + data.length := by rw [hf]; simp [codec]; omega
  have i0 : idx f 0 = .ok next := by rw [hf]; simp [codec]; omega
  have i2 : u16 f 2 = .ok (offset + mf.toNat) := by rw [hf]; simp [codec]; omega
  have i3 : idx f 3 = .ok ((offset + mf.toNat) % 256) := by rw [hf]; simp [codec]
  have i4 : u32 f 4 = .ok id := by rw [hf]; simp [codec]; omega
  refine ⟨f, ?_, hfl, ?_, ?_⟩
  · have : (next == 58 || next == 17 || next == 6 || next == 255) = true := by simp; omega
    simp only [Ip6Frag.assemble, this, ho', packB_ok (show next < 256 by omega), packB_ok (show 0 < 256 by omega),
      packH_ok (show offset + mf.toNat < 65536 by omega), packL_ok hi, codec]
    rw [hf]; simp only [codec]
  · simp [Ip6Frag.parse, hfl]
  · have e1 : (offset + mf.toNat) &&& 0b1111111111111000 = offset := by
      rw [show (0b1111111111111000 : Nat) = 2 ^ 16 - 2 ^ 3 from rfl, and_high (by omega) (by omega)]
      omega
    have e2 : ((((offset + mf.toNat) % 256) &&& 0b00000001) != 0) = mf := by
      rw [show (0b00000001 : Nat) = 1 from rfl, and_1]
      rw [show (offset + mf.toNat) % 256 % 2 = mf.toNat by omega]
      cases mf <;> rfl
    have e3 : slice f 8 f.length = data := by
      rw [hfl, hf]; simp (disch := omega) only [codec]
      have := slice_front (a := data) (b := []) (n := 8 + data.length - 1 - 1 - 2 - 4) (by omega)
      simpa using this
    simp only [Ip6Frag.read, Ip6Frag.next, i0, Ip6Frag.offset, i2, Ip6Frag.flagMf, i3, Ip6Frag.id, i4, e1, e2, e3, codec]

/-- C22 for the fragment header, under any IPv6 payload length. -/
theorem C22_ip6_frag_total (f : Bytes) (plen : Nat) :
    ∃ r, Ip6Frag.parse f = .ok r ∧ (r = none → ∃ h, Ip6Frag.read f plen = .ok h ∧ h.offset % 8 = 0) := by
  by_cases hl : f.length < 8
  · exact ⟨some _, by simp [Ip6Frag.parse, hl]; rfl, by simp⟩
  · obtain ⟨b0, h0, -, -⟩ := idx_ex (f := f) (i := 0) (by omega)
    obtain ⟨o, h2, ho, -⟩ := u16_ex (f := f) (i := 2) (by omega)
    obtain ⟨m, h3, -, -⟩ := idx_ex (f := f) (i := 3) (by omega)
    obtain ⟨i, h4, -, -⟩ := u32_ex (f := f) (i := 4) (by omega)
    refine ⟨none, by simp [Ip6Frag.parse, hl], fun _ => ⟨_, by
      simp only [Ip6Frag.read, Ip6Frag.next, h0, Ip6Frag.offset, h2, Ip6Frag.flagMf, h3, Ip6Frag.id, h4, codec]; rfl, ?_⟩⟩
    dsimp only
    rw [show (0b1111111111111000 : Nat) = 2 ^ 16 - 2 ^ 3 from rfl, and_high (by omega) (by omega)]
    omega

end Verif
