import Verif.Lemmas.Ip4
import Verif.Props.Cksum
/-! C16, C23 and C26 for the IPv4 codec. -/
namespace Verif
open Spec (Verifies)

/-- The source addresses the parser's sanity check lets through, and the flag combinations it lets through. -/
def Ip4.Tx.Sane (h : Ip4.Tx) : Prop :=
  h.src.isMulticast = false ∧ h.src.isReserved = false ∧ h.src.isLimitedBroadcast = false ∧
    (h.df = true → h.mf = false ∧ h.offset = 0)

/-- The header of 20 bytes always verifies. -/
theorem Ip4.header_verifies (h : Ip4.Tx) (n : Nat) (hopt : h.options = []) :
    Verifies 0 (Ip4.headerWith h n (inetCksum (Ip4.headerWith h n 0))) := by
  have hl : ∀ c, (Ip4.headerWith h n c).length = 20 := by
    intro c; rw [Ip4.headerWith_length, h.hlen_eq, hopt]; rfl
  rw [← verifies_iff (by rw [hl]; omega) (by omega)]
  have e : ∀ c, Ip4.headerWith h n c = (bePack 1 (64 + h.hlen / 4) ++ bePack 1 (h.dscp * 4 + h.ecn) ++ bePack 2 n ++
      bePack 2 h.id ++ bePack 2 (h.df.toNat * 16384 + h.mf.toNat * 8192 + h.offset / 8) ++ bePack 1 h.ttl ++
      bePack 1 h.proto) ++ bePack 2 c ++ (h.src.toBytes ++ h.dst.toBytes ++ Ip4.rawOptions h.options) := by
    intro c; simp [Ip4.headerWith]
  have h0 := hl 0
  rw [e] at h0
  rw [e, e]
  rw [show bePack 2 0 = [0, 0] from rfl] at h0 ⊢
  exact C02_store_verifies_partial _ _ (by simp) (by rw [h0]; omega) (C02_generate_20_bytes_partial _ h0)

/-- What parsing `header ++ payload ++ padding` gives. -/
theorem Ip4.core (h : Ip4.Tx) (payload pad : Bytes) (ck ps : Nat) (hok : h.Fits payload.length) (hsane : h.Sane)
    (hv : Verifies 0 (Ip4.headerWith h (h.hlen + payload.length) ck))
    (hps : Ip4.pshdrSum h.src h.dst h.proto payload.length = .ok ps) :
    let f := Ip4.headerWith h (h.hlen + payload.length) ck ++ payload
    Ip4.parse (f ++ pad) = .ok none ∧
      Ip4.read (f ++ pad) = .ok {
        hlen := 20 + h.options.length, dscp := h.dscp, ecn := h.ecn, plen := 20 + h.options.length + payload.length,
        id := h.id, df := h.df, mf := h.mf, offset := h.offset, ttl := h.ttl, proto := h.proto, src := h.src,
        dst := h.dst, options := Ip4.parsedOptions h.options, dlen := payload.length, headerCopy := f.take 20,
        dataCopy := payload, packetCopy := f, pshdrSum := ps, rest := payload ++ pad } := by
  intro f
  obtain ⟨k1, k2, k3, k4, k5, k6, k7, k8, k9, k10⟩ := hok
  obtain ⟨s1, s2, s3, s4⟩ := hsane
  have kh := h.hlen_eq
  have kd : h.df.toNat ≤ 1 := by cases h.df <;> decide
  have km : h.mf.toNat ≤ 1 := by cases h.mf <;> decide
  obtain ⟨g, hg⟩ : ∃ g, g = f ++ pad := ⟨_, rfl⟩
  have hfl : f.length = h.hlen + payload.length := by simp [f, Ip4.headerWith_length]
  have hgl : g.length = h.hlen + payload.length + pad.length := by rw [hg, List.length_append, hfl]
  have hgd : g = bePack 1 (64 + h.hlen / 4) ++ bePack 1 (h.dscp * 4 + h.ecn) ++ bePack 2 (h.hlen + payload.length) ++
      bePack 2 h.id ++ bePack 2 (h.df.toNat * 16384 + h.mf.toNat * 8192 + h.offset / 8) ++ bePack 1 h.ttl ++
      bePack 1 h.proto ++ bePack 2 ck ++ h.src.toBytes ++ h.dst.toBytes ++ (Ip4.rawOptions h.options ++ (payload ++ pad)) := by
    rw [hg]; simp [f, Ip4.headerWith]
  rw [← hg]
  have i0 : idx g 0 = .ok (64 + h.hlen / 4) := by rw [hgd]; simp [codec]; omega
  have i1 : idx g 1 = .ok (h.dscp * 4 + h.ecn) := by rw [hgd]; simp [codec]; omega
  have i2 : u16 g 2 = .ok (h.hlen + payload.length) := by rw [hgd]; simp [codec]; omega
  have i4 : u16 g 4 = .ok h.id := by rw [hgd]; simp [codec]; omega
  have i6 : u16 g 6 = .ok (h.df.toNat * 16384 + h.mf.toNat * 8192 + h.offset / 8) := by rw [hgd]; simp [codec]; omega
  have i6' : idx g 6 = .ok (h.df.toNat * 64 + h.mf.toNat * 32 + h.offset / 8 / 256) := by rw [hgd]; simp [codec]; omega
  have i8 : idx g 8 = .ok h.ttl := by rw [hgd]; simp [codec]; omega
  have i9 : idx g 9 = .ok h.proto := by rw [hgd]; simp [codec]; omega
  have i12 : Ip4Address.ofBytes (slice g 12 16) = .ok h.src := by rw [hgd]; simp [codec]
  have i16 : Ip4Address.ofBytes (slice g 16 20) = .ok h.dst := by rw [hgd]; simp [codec]
  have d20 : g.drop 20 = Ip4.rawOptions h.options ++ (payload ++ pad) := by rw [hgd]; simp [codec]
  have ehl : ((64 + h.hlen / 4) &&& 0b00001111) <<< 2 = h.hlen := by
    rw [and_F, Nat.shiftLeft_eq]; omega
  have ev : (64 + h.hlen / 4) >>> 4 = 4 := by rw [Nat.shiftRight_eq_div_pow]; omega
  have hhlen : Ip4.hlen g = .ok h.hlen := by simp only [Ip4.hlen, i0, codec, ehl]
  have hplen : Ip4.plen g = .ok (h.hlen + payload.length) := i2
  have hver : Ip4.ver g = .ok 4 := by simp only [Ip4.ver, i0, codec, ev]
  have hoff : Ip4.offset g = .ok h.offset := by
    simp only [Ip4.offset, i6, codec]
    rw [show (0b0001111111111111 : Nat) = 2 ^ 13 - 1 from rfl, and_mask, Nat.shiftLeft_eq]
    congr 1; omega
  have hdf : Ip4.flagDf g = .ok h.df := by
    simp only [Ip4.flagDf, i6', codec]
    congr 1
    rw [show (0b01000000 : Nat) = 2 ^ 6 from rfl, and_bit]
    have : (h.df.toNat * 64 + h.mf.toNat * 32 + h.offset / 8 / 256) / 2 ^ 6 % 2 = h.df.toNat := by omega
    rw [this]; cases h.df <;> rfl
  have hmf : Ip4.flagMf g = .ok h.mf := by
    simp only [Ip4.flagMf, i6', codec]
    congr 1
    rw [show (0b00100000 : Nat) = 2 ^ 5 from rfl, and_bit]
    have : (h.df.toNat * 64 + h.mf.toNat * 32 + h.offset / 8 / 256) / 2 ^ 5 % 2 = h.mf.toNat := by omega
    rw [this]; cases h.mf <;> rfl
  have htk : g.take h.hlen = Ip4.headerWith h (h.hlen + payload.length) ck := by
    rw [hg]; simp only [f]; rw [List.append_assoc]
    exact List.take_left' (Ip4.headerWith_length _ _ _)
  have hck : inetCksum (g.take h.hlen) = 0 := by
    rw [htk]; exact (verifies_iff (by rw [Ip4.headerWith_length]; omega) (by omega)).mpr hv
  obtain ⟨w1, w2⟩ := Ip4.options_walk g h.hlen h.options (payload ++ pad) (h.hlen + 1) 20 d20 kh (by omega)
  have hint : Ip4.integrity g = .ok none := by
    simp only [Ip4.integrity, hhlen, hplen, hck, codec, show ¬ g.length < 20 by omega, if_false,
      show (20 ≤ h.hlen ∧ h.hlen ≤ h.hlen + payload.length ∧ h.hlen + payload.length ≤ g.length) from
        ⟨by omega, by omega, by omega⟩, w1, ne_eq, not_true]
    simp
  have hopts : Ip4.options g = .ok (Ip4.parsedOptions h.options) := by
    simp only [Ip4.options, hhlen, codec, w2]
  have hsrc : Ip4.src g = .ok h.src := i12
  have hdst : Ip4.dst g = .ok h.dst := i16
  have hsan : Ip4.sanity g = .ok none := by
    simp only [Ip4.sanity, hver, hsrc, hdf, hmf, hoff, hopts, codec, s1, s2, s3]
    cases hdf' : h.df with
    | false => simp
    | true => simp [(s4 hdf').1, (s4 hdf').2]
  refine ⟨?_, ?_⟩
  · simp only [Ip4.parse, hint, hsan, codec]
  · have e1 : ((h.dscp * 4 + h.ecn) &&& 0b11111100) >>> 2 = h.dscp := by
      rw [Nat.shiftRight_and_distrib, Nat.shiftRight_eq_div_pow, show (0b11111100 >>> 2 : Nat) = 0x3F from rfl, and_3F]
      omega
    have e2 : (h.dscp * 4 + h.ecn) &&& 0b00000011 = h.ecn := by rw [and_3]; omega
    have e3 : slice g h.hlen (h.hlen + payload.length) = payload := by
      rw [slice, hg]
      rw [List.take_append_of_le_length (by omega), List.take_of_length_le (by omega)]
      exact List.drop_left' (Ip4.headerWith_length _ _ _)
    have e4 : g.take (h.hlen + payload.length) = f := by
      rw [hg, List.take_append_of_le_length (by omega), List.take_of_length_le (by omega)]
    have e5 : sliceFrom g h.hlen = payload ++ pad := by
      rw [sliceFrom, hg]; simp only [f]; rw [List.append_assoc]
      exact List.drop_left' (Ip4.headerWith_length _ _ _)
    have e6 : g.take 20 = f.take 20 := by
      rw [hg, List.take_append_of_le_length (by omega)]
    have e7 : h.hlen + payload.length - h.hlen = payload.length := by omega
    simp only [Ip4.read, hhlen, hplen, hsrc, hdst, Ip4.proto, i9, Ip4.dscp, i1, Ip4.ecn, Ip4.id, i4, hdf, hmf, hoff,
      Ip4.ttl, i8, hopts, e7, hps, e1, e2, e3, e4, e5, e6, codec]
    rw [kh]

/-- C16: an assembled IPv4 packet, followed by any link-layer padding, is accepted and every field and the payload come
back; for headers with options this is under the condition that the checksum written verifies (see C02). -/
theorem C16_ip4_roundtrip (h : Ip4.Tx) (c : Carried) (payload pad : Bytes) (ps : Nat) (hok : h.Ok c.len)
    (hsane : h.Sane) (hps : Ip4.pshdrSum h.src h.dst h.proto c.len = .ok ps) (hc : c.assemble ps = .ok payload)
    (hlen : payload.length = c.len) :
    ∃ f, Ip4.assemble h c = .ok f ∧ f.length = 20 + h.options.length + c.len ∧
      (h.options = [] → Verifies 0 (f.take 20)) ∧
      (Verifies 0 (f.take (20 + h.options.length)) → Ip4.parse (f ++ pad) = .ok none ∧
        Ip4.read (f ++ pad) = .ok {
          hlen := 20 + h.options.length, dscp := h.dscp, ecn := h.ecn, plen := 20 + h.options.length + c.len,
          id := h.id, df := h.df, mf := h.mf, offset := h.offset, ttl := h.ttl, proto := h.proto, src := h.src,
          dst := h.dst, options := Ip4.parsedOptions h.options, dlen := c.len, headerCopy := f.take 20,
          dataCopy := payload, packetCopy := f, pshdrSum := ps, rest := payload ++ pad }) := by
  rw [← hlen] at hok hps ⊢
  obtain ⟨ck, hck⟩ : ∃ ck, inetCksum (Ip4.headerWith h (h.hlen + payload.length) 0) = ck := ⟨_, rfl⟩
  have hst := Ip4.stored h payload.length hok
  rw [hck] at hst
  have htk : (Ip4.headerWith h (h.hlen + payload.length) ck ++ payload).take (20 + h.options.length) =
      Ip4.headerWith h (h.hlen + payload.length) ck := List.take_left' (by rw [Ip4.headerWith_length, h.hlen_eq])
  refine ⟨Ip4.headerWith h (h.hlen + payload.length) ck ++ payload, ?_, ?_, ?_, ?_⟩
  · simp only [Ip4.assemble, Ip4.asserts_ok h _ hok, ← hlen, Ip4.header0_ok h _ hok, hck, hst, hps, hc, codec]
  · simp only [List.length_append, Ip4.headerWith_length, h.hlen_eq]
  · intro ho
    simp only [ho, List.length_nil] at htk
    rw [htk, ← hck]
    exact Ip4.header_verifies h _ ho
  · intro hv
    rw [htk] at hv
    exact Ip4.core h payload pad ck ps hok.fits hsane hv hps

/-- C16 for fragments. -/
theorem C16_ip4_frag_roundtrip (h : Ip4.Tx) (data pad : Bytes) (ps : Nat) (hok : h.Ok data.length)
    (hsane : h.Sane) (hps : Ip4.pshdrSum h.src h.dst h.proto data.length = .ok ps) :
    ∃ f, Ip4.assembleFrag h data = .ok f ∧ f.length = 20 + h.options.length + data.length ∧
      (h.options = [] → Verifies 0 (f.take 20)) ∧
      (Verifies 0 (f.take (20 + h.options.length)) → Ip4.parse (f ++ pad) = .ok none ∧
        Ip4.read (f ++ pad) = .ok {
          hlen := 20 + h.options.length, dscp := h.dscp, ecn := h.ecn, plen := 20 + h.options.length + data.length,
          id := h.id, df := h.df, mf := h.mf, offset := h.offset, ttl := h.ttl, proto := h.proto, src := h.src,
          dst := h.dst, options := Ip4.parsedOptions h.options, dlen := data.length, headerCopy := f.take 20,
          dataCopy := data, packetCopy := f, pshdrSum := ps, rest := data ++ pad }) := by
  obtain ⟨f, h1, h2, h3, h4⟩ := C16_ip4_roundtrip h ⟨h.proto, data.length, fun _ => .ok data⟩ data pad ps hok hsane hps
    rfl rfl
  refine ⟨f, ?_, h2, h3, h4⟩
  have hst := Ip4.stored h data.length hok
  simp only [Ip4.assemble, Ip4.asserts_ok h _ hok, Ip4.header0_ok h _ hok, hst, hps, codec] at h1
  simp only [Ip4.assembleFrag, Ip4.asserts_ok h _ hok, Ip4.header0_ok h _ hok, hst, codec]
  exact h1

/-- A concrete packet meeting the hypotheses (with options). -/
example : (Ip4.Tx.mk ⟨0x0A000001, by decide⟩ ⟨0x0A000002, by decide⟩ 64 46 1 7 false true 1480 [.nop, .nop, .nop, .eol]
    17).Ok 100 ∧ (Ip4.Tx.mk ⟨0x0A000001, by decide⟩ ⟨0x0A000002, by decide⟩ 64 46 1 7 false true 1480
    [.nop, .nop, .nop, .eol] 17).Sane := by
  constructor
  · simp [Ip4.Tx.Ok]
  · refine ⟨by decide, by decide, by decide, by decide⟩

/-- C16 is false for some packets with options: the checksum the stack writes into this header (zero payload) does not
verify, and its own parser drops the packet. -/
theorem C16_options_checksum_witness :
    ∃ h : Ip4.Tx, ∃ f, h.Ok 0 ∧ h.Sane ∧ Ip4.assembleFrag h [] = .ok f ∧
      Ip4.parse f = .ok (some "IPv4 integriy - wrong packet checksum") := by
  refine ⟨⟨⟨0x0a940c15, by decide⟩, ⟨0x0a2da779, by decide⟩, 64, 0, 0, 0xaf86, false, false, 0, [.nop, .nop, .nop, .eol],
    17⟩, [70, 0, 0, 24, 175, 134, 0, 0, 64, 17, 255, 255, 10, 148, 12, 21, 10, 45, 167, 121, 1, 1, 1, 0], ?_, ?_, ?_, ?_⟩
  · simp [Ip4.Tx.Ok]
  · refine ⟨by decide, by decide, by decide, by decide⟩
  · decide
  · decide

/-! ### hostile input -/

/-- C23 is false: a 24-byte packet whose last header byte starts an option makes the parser raise `IndexError`. -/
theorem C23_ip4_raises_witness :
    ∃ f : Bytes, f.length = 24 ∧ Ip4.parse f = .error .indexError := by
  refine ⟨[0x46, 0, 0, 24, 0, 0, 0, 0, 64, 17, 0x63, 0xCB, 10, 0, 0, 1, 10, 0, 0, 2, 1, 1, 1, 7], rfl, ?_⟩
  decide

/-- The reads that succeed on any frame of 20 bytes or more. -/
theorem Ip4.cut (f : Bytes) (hl : 20 ≤ f.length) :
    ∃ ve hl dscp ecn plen id df mf off ttl proto src dst,
      Ip4.ver f = .ok ve ∧ Ip4.hlen f = .ok hl ∧ Ip4.dscp f = .ok dscp ∧ Ip4.ecn f = .ok ecn ∧ Ip4.plen f = .ok plen ∧
      Ip4.id f = .ok id ∧ Ip4.flagDf f = .ok df ∧ Ip4.flagMf f = .ok mf ∧ Ip4.offset f = .ok off ∧ Ip4.ttl f = .ok ttl ∧
      Ip4.proto f = .ok proto ∧ Ip4.src f = .ok src ∧ Ip4.dst f = .ok dst ∧ plen < 65536 ∧ proto < 256 ∧
      (f[0]?.map (·.toNat / 16)) = some ve ∧ (f[0]?.map (·.toNat % 16 * 4)) = some hl ∧
      src.toBytes = (f.drop 12).take 4 ∧ dst.toBytes = (f.drop 16).take 4 ∧ id < 65536 ∧ off % 8 = 0 ∧ off ≤ 65528 := by
  obtain ⟨b0, h0, -, -⟩ := idx_ex (f := f) (i := 0) (by omega)
  obtain ⟨b1, h1, -, -⟩ := idx_ex (f := f) (i := 1) (by omega)
  obtain ⟨pl, h2, hpl, -⟩ := u16_ex (f := f) (i := 2) (by omega)
  obtain ⟨id, h4, hid, -⟩ := u16_ex (f := f) (i := 4) (by omega)
  obtain ⟨fl, h6, -, -⟩ := u16_ex (f := f) (i := 6) (by omega)
  obtain ⟨fl', h6', -, -⟩ := idx_ex (f := f) (i := 6) (by omega)
  obtain ⟨ttl, h8, -, -⟩ := idx_ex (f := f) (i := 8) (by omega)
  obtain ⟨pr, h9, hpr, -⟩ := idx_ex (f := f) (i := 9) (by omega)
  obtain ⟨s, h12, e12⟩ := ip4_ok (f := f) (i := 12) (j := 16) rfl (by omega)
  obtain ⟨d, h16, e16⟩ := ip4_ok (f := f) (i := 16) (j := 20) rfl (by omega)
  obtain ⟨hi, e⟩ := idx_eq_ok.mp h0
  refine ⟨b0 >>> 4, (b0 &&& 0b00001111) <<< 2, (b1 &&& 0b11111100) >>> 2, b1 &&& 3, pl, id, fl' &&& 0b01000000 != 0,
    fl' &&& 0b00100000 != 0, (fl &&& 0b0001111111111111) <<< 3, ttl, pr, s, d, by simp [Ip4.ver, h0],
    by simp [Ip4.hlen, h0], by simp [Ip4.dscp, h1], by simp [Ip4.ecn, h1], h2, h4, by simp [Ip4.flagDf, h6'],
    by simp [Ip4.flagMf, h6'], by simp [Ip4.offset, h6], h8, h9, h12, h16, hpl, hpr, ?_, ?_, ?_, ?_, hid, ?_, ?_⟩
  · rw [List.getElem?_eq_getElem hi, Nat.shiftRight_eq_div_pow]; simp [e]
  · rw [List.getElem?_eq_getElem hi, and_F, Nat.shiftLeft_eq]; simp [e]
  · rw [e12, slice, List.drop_take]
  · rw [e16, slice, List.drop_take]
  · rw [Nat.shiftLeft_eq]; omega
  · rw [show (0b0001111111111111 : Nat) = 2 ^ 13 - 1 from rfl, and_mask, Nat.shiftLeft_eq]; omega

theorem Ip4.integrity_length {f : Bytes} (h : Ip4.integrity f = .ok none) : 20 ≤ f.length := by
  rw [Ip4.integrity] at h
  by_cases hl : f.length < 20
  · simp [hl] at h
  · omega

/-- What the integrity check of any frame comes to. -/
theorem Ip4.integrity_cases (f : Bytes) :
    (∃ e, Ip4.integrity f = .ok (some e)) ∨
    (Ip4.integrity f = .error .indexError ∧ Ip4.hlen f = .ok f.length ∧ 20 < f.length ∧
      ∃ k, idx f (f.length - 1) = .ok k ∧ 2 ≤ k) ∨
    (Ip4.integrity f = .ok none ∧ ∃ hl pl l, Ip4.hlen f = .ok hl ∧ Ip4.plen f = .ok pl ∧ 20 ≤ hl ∧ hl ≤ pl ∧
      pl ≤ f.length ∧ inetCksum (f.take hl) = 0 ∧ Ip4.options f = .ok l) := by
  by_cases hl : f.length < 20
  · left; exact ⟨_, by simp [Ip4.integrity, hl]; rfl⟩
  obtain ⟨ve, hn, dscp, ecn, pl, id, df, mf, off, ttl, proto, src, dst, -, h2, -, -, h5, -⟩ := Ip4.cut f (by omega)
  by_cases hr : 20 ≤ hn ∧ hn ≤ pl ∧ pl ≤ f.length
  · by_cases hc : inetCksum (f.take hn) = 0
    · have e : Ip4.integrity f = Ip4.optionCheck f hn (hn + 1) 20 := by
        simp only [Ip4.integrity, hl, h2, h5, codec, if_false]
        rw [if_neg (by simp only [Decidable.not_not]; exact hr), if_neg (by simp [hc])]
      rcases Ip4.optionCheck_total f hn (by omega) (hn + 1) 20 (by omega) with ⟨r, h⟩ | ⟨h, h', h''⟩
      · cases r with
        | some r => left; exact ⟨r, by rw [e, h]⟩
        | none =>
          right; right
          obtain ⟨l, hl'⟩ := Ip4.optionsLoop_of_check f hn (hn + 1) 20 h
          exact ⟨by rw [e, h], hn, pl, l, h2, h5, hr.1, hr.2.1, hr.2.2, hc, by simp [Ip4.options, h2, hl']⟩
      · right; left
        refine ⟨by rw [e, h], by rw [h2, h'], ?_, by rw [← h']; exact h''⟩
        by_cases h20 : hn = 20
        · subst h20
          rw [Ip4.optionCheck.eq_def] at h
          simp at h
        · omega
    · left
      refine ⟨"IPv4 integriy - wrong packet checksum", ?_⟩
      simp only [Ip4.integrity, hl, h2, h5, codec, if_false]
      rw [if_neg (by simp only [Decidable.not_not]; exact hr), if_pos hc]
  · left
    refine ⟨"IPv4 integrity - wrong packet length (II)", ?_⟩
    simp only [Ip4.integrity, hl, h2, h5, codec, if_false]
    rw [if_pos hr]

/-- Sanity never raises once the integrity check has passed. -/
theorem Ip4.sanity_total (f : Bytes) (h : Ip4.integrity f = .ok none) : ∃ r, Ip4.sanity f = .ok r := by
  rcases Ip4.integrity_cases f with ⟨e, he⟩ | ⟨he, -⟩ | ⟨-, hn, pl, l, h2, h5, -, -, -, -, hopt⟩
  · rw [h] at he; cases he
  · rw [h] at he; cases he
  obtain ⟨ve, hn, dscp, ecn, pl, id, df, mf, off, ttl, proto, src, dst, k1, -, -, -, -, -, k7, k8, k9, -, -, k12, -⟩ :=
    Ip4.cut f (Ip4.integrity_length h)
  simp only [Ip4.sanity, k1, k7, k8, k9, k12, hopt, codec]
  repeat' split
  all_goals exact ⟨_, rfl⟩

/-- C26 for IPv4: what every accepted packet satisfies.  (Missing from the property: a non-zero TTL, and the odd
addresses of 240.0.0.0/4 as source; both are accepted by the code, see the witnesses below.) -/
theorem C26_ip4_accepted_partial (f : Bytes) (h : Ip4.parse f = .ok none) :
    ∃ r, Ip4.read f = .ok r ∧ (f[0]?.map (·.toNat / 16)) = some 4 ∧ (f[0]?.map (·.toNat % 16 * 4)) = some r.hlen ∧
      20 ≤ r.hlen ∧ r.hlen ≤ r.plen ∧ r.plen ≤ f.length ∧ r.dlen = r.plen - r.hlen ∧
      Verifies 0 (f.take r.hlen) ∧ r.src.isMulticast = false ∧ r.src.isLimitedBroadcast = false ∧
      r.src.isReserved = false ∧ (r.df = true → r.mf = false ∧ r.offset = 0) ∧
      r.src.toBytes = (f.drop 12).take 4 ∧ r.dst.toBytes = (f.drop 16).take 4 ∧
      r.dataCopy = (f.take r.plen).drop r.hlen ∧ r.dataCopy.length = r.dlen ∧ r.offset % 8 = 0 ∧ r.offset ≤ 65528 := by
  rw [Ip4.parse] at h
  rcases Ip4.integrity_cases f with ⟨e, he⟩ | ⟨he, -⟩ | ⟨hint, hn, pl, l, h2, h5, r1, r2, r3, hck, hopt⟩
  · simp [he] at h
  · simp [he] at h
  simp only [hint, codec] at h
  obtain ⟨ve, hn', dscp, ecn, pl', id, df, mf, off, ttl, proto, src, dst, k1, k2, k3, k4, k5, k6, k7, k8, k9, k10, k11, k12,
    k13, b1, b2, v1, v2, v3, v4, b3, b4, b5⟩ := Ip4.cut f (Ip4.integrity_length hint)
  rw [k2] at h2; rw [k5] at h5
  cases h2; cases h5
  have hps := Ip4.pshdr_ok src dst proto (pl - hn) b2 (by omega)
  have hlen : (slice f hn pl).length = pl - hn := by simp; omega
  have hread : Ip4.read f = .ok (Ip4.Hdr.mk hn dscp ecn pl id df mf off ttl proto src dst l (pl - hn) (f.take 20)
      (slice f hn pl) (f.take pl)
      (wordSum 4 3 (src.toBytes ++ dst.toBytes ++ [0] ++ bePack 1 proto ++ bePack 2 (pl - hn))) (sliceFrom f hn)) := by
    simp only [Ip4.read, k2, k3, k4, k5, k6, k7, k8, k9, k10, k11, k12, k13, hopt, hps, codec]
  have hv : Verifies 0 (f.take hn) := (verifies_iff (by simp; omega) (by omega)).mp hck
  have hs : ve = 4 ∧ src.isMulticast = false ∧ src.isReserved = false ∧ src.isLimitedBroadcast = false ∧
      (df && mf) = false ∧ ¬ (off ≠ 0 ∧ df = true) := by
    simp only [Ip4.sanity, k1, k7, k8, k9, k12, hopt, codec] at h
    clear hread hps hlen hv k2 k3 k4 k5 k6 k7 k8 k9 k10 k11 k12 k13
    by_cases c1 : ve ≠ 4
    · rw [if_pos c1] at h; cases h
    rw [if_neg c1] at h
    by_cases c2 : ve = 0
    · rw [if_pos c2] at h; cases h
    rw [if_neg c2] at h
    by_cases c3 : src.isMulticast = true
    · rw [if_pos c3] at h; cases h
    rw [if_neg c3] at h
    by_cases c4 : src.isReserved = true
    · rw [if_pos c4] at h; cases h
    rw [if_neg c4] at h
    by_cases c5 : src.isLimitedBroadcast = true
    · rw [if_pos c5] at h; cases h
    rw [if_neg c5] at h
    by_cases c6 : (df && mf) = true
    · rw [if_pos c6] at h; cases h
    rw [if_neg c6] at h
    by_cases c7 : off ≠ 0 ∧ df = true
    · rw [if_pos c7] at h; cases h
    exact ⟨by omega, by simpa using c3, by simpa using c4, by simpa using c5, by simpa using c6, c7⟩
  obtain ⟨c1, c3, c4, c5, c6, c7⟩ := hs
  refine ⟨_, hread, ?_, v2, r1, r2, r3, rfl, hv, c3, c5, c4, ?_, v3, v4, rfl, hlen, b4, b5⟩
  · rw [v1, c1]
  · dsimp only
    intro hd
    refine ⟨?_, ?_⟩
    · rw [hd] at c6; simpa using c6
    · rw [hd] at c7; simpa using c7

example : Ip4.parse [0x45, 0, 0, 20, 0, 0, 0, 0, 64, 17, 0x66, 0xD7, 10, 0, 0, 1, 10, 0, 0, 2] = .ok none := by decide

/-- C26 is false for the TTL: a packet with TTL 0 is accepted. -/
theorem C26_ip4_ttl_zero_witness :
    Ip4.parse [0x45, 0, 0, 20, 0, 0, 0, 0, 0, 17, 0xA6, 0xD7, 10, 0, 0, 1, 10, 0, 0, 2] = .ok none := by decide

/-- C26 is false for reserved sources: 240.0.0.1 is accepted. -/
theorem C26_ip4_reserved_witness :
    Ip4.parse [0x45, 0, 0, 20, 0, 0, 0, 0, 64, 17, 0x80, 0xD6, 240, 0, 0, 1, 10, 0, 0, 2] = .ok none := by decide

/-- C23, what is true: the only way the parser can raise is `IndexError` on a frame that ends with the IP header (no
payload and no padding), with options, whose last byte is an option kind above 1.  In all other cases it gives a packet
whose fields can all be read, or a drop reason. -/
theorem C23_ip4_total_partial (f : Bytes) :
    (∃ r, Ip4.parse f = .ok r ∧ (r = none → ∃ h, Ip4.read f = .ok h)) ∨
      (Ip4.parse f = .error .indexError ∧ 20 < f.length ∧ f[0]?.map (·.toNat % 16 * 4) = some f.length ∧
        ∃ k, f.getLast? = some k ∧ 2 ≤ k) := by
  rcases Ip4.integrity_cases f with ⟨e, he⟩ | ⟨he, h1, h2, k, hk, hk'⟩ | ⟨hint, -⟩
  · left; exact ⟨some e, by simp [Ip4.parse, he], by simp⟩
  · right
    refine ⟨by simp [Ip4.parse, he], h2, ?_, ?_⟩
    · obtain ⟨ve, hn', dscp, ecn, pl', id, df, mf, off, ttl, proto, src, dst, k1, k2, k3, k4, k5, k6, k7, k8, k9, k10, k11,
        k12, k13, b1, b2, v1, v2, v3, v4, b3⟩ := Ip4.cut f (by omega)
      rw [k2] at h1; cases h1
      exact v2
    · obtain ⟨hi, e⟩ := idx_eq_ok.mp hk
      refine ⟨f[f.length - 1], ?_, ?_⟩
      · rw [List.getLast?_eq_getElem?, List.getElem?_eq_getElem hi]
      · rw [UInt8.le_iff_toNat_le, e]; exact hk'
  · left
    obtain ⟨r, hr⟩ := Ip4.sanity_total f hint
    have hp : Ip4.parse f = .ok r := by simp [Ip4.parse, hint, hr]
    refine ⟨r, hp, ?_⟩
    rintro rfl
    obtain ⟨h, h', -⟩ := C26_ip4_accepted_partial f hp
    exact ⟨h, h'⟩

end Verif
