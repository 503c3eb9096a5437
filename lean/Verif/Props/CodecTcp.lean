import Verif.Lemmas.Tcp
/-! C19 and C24 for the TCP codec, and C74 (what an accepted segment looks like). -/
namespace Verif
open Spec (Verifies)

/-- The arguments the assembler accepts (each option value in range, a whole number of 32-bit words of options, at most
40 bytes of them). -/
def Tcp.Tx.Ok (h : Tcp.Tx) : Prop :=
  h.sport < 65536 ∧ h.dport < 65536 ∧ h.seq < 4294967296 ∧ h.ack < 4294967296 ∧ h.win < 65536 ∧ h.urp < 65536 ∧
    (∀ o ∈ h.options, o.Ok) ∧ (h.options.map Tcp.Opt.len).sum % 4 = 0 ∧ (h.options.map Tcp.Opt.len).sum ≤ 40 ∧
    h.data.length < 2 ^ 62

/-- The segments a receiver may accept: real ports, no contradictory flags, no ACK/urgent number without its flag. -/
def Tcp.Sane (sport dport ack urp : Nat) (fl : Tcp.Flags) : Prop :=
  sport ≠ 0 ∧ dport ≠ 0 ∧ ¬ (fl.syn = true ∧ fl.fin = true) ∧ ¬ (fl.syn = true ∧ fl.rst = true) ∧
    ¬ (fl.fin = true ∧ fl.rst = true) ∧ (fl.fin = true → fl.ack = true) ∧ (ack ≠ 0 → fl.ack = true) ∧
    (urp ≠ 0 → fl.urg = true)

/-- the segment with checksum `c` -/
def Tcp.frameWith (h : Tcp.Tx) (c : Nat) : Bytes :=
  bePack 2 h.sport ++ bePack 2 h.dport ++ bePack 4 h.seq ++ bePack 4 h.ack ++
    bePack 1 (h.hlen * 4 + h.flags.ns.toNat) ++ bePack 1 h.flags.byte ++ bePack 2 h.win ++ bePack 2 c ++
    bePack 2 h.urp ++ Tcp.rawAll h.options ++ h.data

theorem Tcp.frameWith_length (h : Tcp.Tx) (c : Nat) : (Tcp.frameWith h c).length = h.hlen + h.data.length := by
  simp [Tcp.frameWith, Tcp.rawAll_length, Tcp.Tx.hlen]; omega

theorem Tcp.assemble_ok (h : Tcp.Tx) (ps : Nat) (hok : h.Ok) :
    Tcp.assemble h ps = .ok (Tcp.frameWith h (inetCksum (Tcp.frameWith h 0) ps)) := by
  obtain ⟨k1, k2, k3, k4, k5, k6, k7, k8, k9, k10⟩ := hok
  have kh : h.hlen = 20 + (h.options.map Tcp.Opt.len).sum := rfl
  have kn : h.flags.ns.toNat ≤ 1 := by cases h.flags.ns <;> decide
  generalize hc : inetCksum (Tcp.frameWith h 0) ps = c
  have hcl : c < 65536 := by rw [← hc]; exact inetCksum_lt _ _
  simp only [Tcp.assemble, Tcp.rawOptions_ok _ k7, Tcp.b12_eq, packH_ok k1, packH_ok k2, packL_ok k3, packL_ok k4,
    packB_ok (show h.hlen * 4 + h.flags.ns.toNat < 256 by omega), packB_ok h.flags.byte_lt, packH_ok k5,
    packH_ok (show 0 < 65536 by omega), packH_ok k6,
    show decide (h.sport ≤ 0xFFFF) = true by simp; omega, show decide (h.dport ≤ 0xFFFF) = true by simp; omega,
    show decide (h.seq ≤ 0xFFFFFFFF) = true by simp; omega, show decide (h.ack ≤ 0xFFFFFFFF) = true by simp; omega,
    show decide (h.win ≤ 0xFFFF) = true by simp; omega, show decide (h.urp ≤ 0xFFFF) = true by simp; omega,
    show (h.hlen % 4 == 0) = true by simp; omega, codec]
  simp only [Tcp.frameWith, codec] at hc
  rw [hc, packIntoH_ok hcl (by simp; omega)]
  simp [codec, Tcp.frameWith]

/-- C19: an assembled segment, followed by any link-layer padding, is accepted under its pseudo-header exactly when the
checksum written into it verifies (see C02), and ports, sequence and acknowledgement numbers, all nine flags, window,
urgent pointer, options and payload come back. -/
theorem C19_tcp_roundtrip (h : Tcp.Tx) (pad : Bytes) (ps : Nat) (hok : h.Ok)
    (hsane : Tcp.Sane h.sport h.dport h.ack h.urp h.flags) (hps : ps < 2 ^ 72) :
    ∃ f, Tcp.assemble h ps = .ok f ∧ f.length = h.hlen + h.data.length ∧
      (Verifies ps f → Tcp.parse (f ++ pad) f.length ps = .ok none) ∧
      (¬ Verifies ps f → Tcp.parse (f ++ pad) f.length ps = .ok (some "TCP integrity - wrong packet checksum")) ∧
      Tcp.read (f ++ pad) f.length = .ok {
        sport := h.sport, dport := h.dport, seq := h.seq, ack := h.ack, flags := h.flags, win := h.win, urp := h.urp,
        options := Tcp.parsedOptions h.options, data := h.data } := by
  have hasm := Tcp.assemble_ok h ps hok
  obtain ⟨k1, k2, k3, k4, k5, k6, k7, k8, k9, k10⟩ := hok
  obtain ⟨s1, s2, s3, s4, s5, s6, s7, s8⟩ := hsane
  have kh : h.hlen = 20 + (h.options.map Tcp.Opt.len).sum := rfl
  have kn : h.flags.ns.toNat ≤ 1 := by cases h.flags.ns <;> decide
  have kb := h.flags.byte_lt
  generalize inetCksum (Tcp.frameWith h 0) ps = c at hasm
  have hfl := Tcp.frameWith_length h c
  obtain ⟨f, hfdef⟩ : ∃ f, f = Tcp.frameWith h c := ⟨_, rfl⟩
  rw [← hfdef] at hasm hfl
  refine ⟨f, hasm, hfl, ?_⟩
  obtain ⟨g, hg⟩ : ∃ g, g = f ++ pad := ⟨_, rfl⟩
  have hgl : g.length = h.hlen + h.data.length + pad.length := by rw [hg, List.length_append, hfl]
  have htk : g.take f.length = f := by rw [hg]; simp
  rw [← hg]
  have hgd : g = bePack 2 h.sport ++ bePack 2 h.dport ++ bePack 4 h.seq ++ bePack 4 h.ack ++
    bePack 1 (h.hlen * 4 + h.flags.ns.toNat) ++ bePack 1 h.flags.byte ++ bePack 2 h.win ++ bePack 2 c ++
    bePack 2 h.urp ++ (Tcp.rawAll h.options ++ (h.data ++ pad)) := by
    rw [hg, hfdef]; simp [Tcp.frameWith]
  have i0 : u16 g 0 = .ok h.sport := by rw [hgd]; simp [codec]; omega
  have i2 : u16 g 2 = .ok h.dport := by rw [hgd]; simp [codec]; omega
  have i4 : u32 g 4 = .ok h.seq := by rw [hgd]; simp [codec]; omega
  have i8 : u32 g 8 = .ok h.ack := by rw [hgd]; simp [codec]; omega
  have i12 : idx g 12 = .ok (h.hlen * 4 + h.flags.ns.toNat) := by rw [hgd]; simp [codec]; omega
  have i13 : idx g 13 = .ok h.flags.byte := by rw [hgd]; simp [codec]; omega
  have i14 : u16 g 14 = .ok h.win := by rw [hgd]; simp [codec]; omega
  have i18 : u16 g 18 = .ok h.urp := by rw [hgd]; simp [codec]; omega
  have d20 : g.drop 20 = Tcp.rawAll h.options ++ (h.data ++ pad) := by rw [hgd]; simp [codec]
  have ehl := Tcp.b12_hlen (hl := h.hlen) (ns := h.flags.ns) (by omega) (by omega)
  have hhlen : Tcp.hlen g = .ok h.hlen := by simp only [Tcp.hlen, i12, codec, ehl]
  obtain ⟨b1, b2, b3, b4, b5, b6, b7, b8⟩ := h.flags.byte_read
  have f1 : Tcp.flagCrw g = .ok h.flags.crw := by simp only [Tcp.flagCrw, i13, codec, b1]
  have f2 : Tcp.flagEce g = .ok h.flags.ece := by simp only [Tcp.flagEce, i13, codec, b2]
  have f3 : Tcp.flagUrg g = .ok h.flags.urg := by simp only [Tcp.flagUrg, i13, codec, b3]
  have f4 : Tcp.flagAck g = .ok h.flags.ack := by simp only [Tcp.flagAck, i13, codec, b4]
  have f5 : Tcp.flagPsh g = .ok h.flags.psh := by simp only [Tcp.flagPsh, i13, codec, b5]
  have f6 : Tcp.flagRst g = .ok h.flags.rst := by simp only [Tcp.flagRst, i13, codec, b6]
  have f7 : Tcp.flagSyn g = .ok h.flags.syn := by simp only [Tcp.flagSyn, i13, codec, b7]
  have f8 : Tcp.flagFin g = .ok h.flags.fin := by simp only [Tcp.flagFin, i13, codec, b8]
  have f9 : Tcp.flagNs g = .ok h.flags.ns := by simp only [Tcp.flagNs, i12, codec, Tcp.b12_ns]
  obtain ⟨w1, w2⟩ := Tcp.options_walk g h.hlen h.options k7 (h.data ++ pad) (h.hlen + 1) 20 d20 kh (by omega)
  refine ⟨?_, ?_, ?_⟩
  · intro hv
    have hz := (verifies_iff (data := f) (by omega) hps).mpr hv
    have hint : Tcp.integrity g f.length ps = .ok none := by
      simp only [Tcp.integrity, htk, hz, i12, ehl, codec, ne_eq, not_true, if_false]
      rw [if_neg (by omega), if_neg (by omega)]
      exact w1
    have hsan : Tcp.sanity g = .ok none := by
      simp only [Tcp.sanity, Tcp.sport, i0, Tcp.dport, i2, f3, f4, f6, f7, f8, Tcp.ack, i8, Tcp.urg, i18, codec, s1, s2,
        if_false]
      clear hint hz hv w1 w2 f1 f2 f3 f4 f5 f6 f7 f8 f9 b1 b2 b3 b4 b5 b6 b7 b8 i0 i2 i4 i8 i12 i13 i14 i18 kb ehl hhlen hgd hgl htk d20 hg hfdef hasm kn hfl
      generalize h.flags.syn = sy at *
      generalize h.flags.fin = fi at *
      generalize h.flags.rst = rs at *
      generalize h.flags.ack = ac at *
      generalize h.flags.urg = ur at *
      cases sy <;> cases fi <;> cases rs <;> cases ac <;> cases ur <;> simp_all
    simp only [Tcp.parse, hint, hsan, codec]
  · intro hv
    have hz := mt (verifies_iff (data := f) (by omega) hps).mp hv
    have hint : Tcp.integrity g f.length ps = .ok (some "TCP integrity - wrong packet checksum") := by
      simp [Tcp.integrity, htk, hz]
    simp only [Tcp.parse, hint, hhlen, codec]
  · have hopt : Tcp.options g = .ok (Tcp.parsedOptions h.options) := by simp only [Tcp.options, hhlen, codec, w2]
    have hdata : slice g h.hlen f.length = h.data := by
      rw [slice, htk, hfdef]
      simp only [Tcp.frameWith, List.append_assoc]
      simp (disch := omega) only [codec]
      rw [show h.hlen - 2 - 2 - 4 - 4 - 1 - 1 - 2 - 2 - 2 = (Tcp.rawAll h.options).length by
        rw [Tcp.rawAll_length]; omega, List.drop_left]
    simp only [Tcp.read, Tcp.flags, hhlen, f1, f2, f3, f4, f5, f6, f7, f8, f9, Tcp.sport, i0, Tcp.dport, i2, Tcp.seq, i4,
      Tcp.ack, i8, Tcp.win, i14, Tcp.urg, i18, hopt, hdata, codec]

/-- The options are returned one for one, and the per-option accessors return the first value given before any
end-of-list marker, or the defaults. -/
theorem C19_tcp_option_values (os : List Tcp.Opt) :
    (Tcp.Opt.eol ∉ os → (Tcp.parsedOptions os).length = os.length) ∧
      Tcp.mssOf (Tcp.parsedOptions os) =
        ((os.takeWhile (· ≠ .eol)).findSome? (fun | .mss m => some m | _ => none)).getD 536 ∧
      Tcp.wscaleOf (Tcp.parsedOptions os) =
        (os.takeWhile (· ≠ .eol)).findSome? (fun | .wscale w => some (2 ^ w) | _ => none) ∧
      (Tcp.sackPermOf (Tcp.parsedOptions os) = true ↔ Tcp.Opt.sackPerm ∈ os.takeWhile (· ≠ .eol)) ∧
      Tcp.timestampOf (Tcp.parsedOptions os) =
        (os.takeWhile (· ≠ .eol)).findSome? (fun | .timestamp a b => some (a, b) | _ => none) := by
  induction os with
  | nil => simp [Tcp.parsedOptions, Tcp.mssOf, Tcp.wscaleOf, Tcp.sackPermOf, Tcp.timestampOf]
  | cons o os ih =>
    obtain ⟨i1, i2, i3, i4, i5⟩ := ih
    cases o <;>
      simp [Tcp.parsedOptions, Tcp.mssOf, Tcp.wscaleOf, Tcp.sackPermOf, Tcp.timestampOf, List.takeWhile_cons,
        List.findSome?_cons, Nat.shiftLeft_eq] <;>
      simp_all

example : (Tcp.Tx.mk 1234 80 1 0 { syn := true } 65535 0
    [.mss 1460, .nop, .wscale 7, .sackPerm, .timestamp 5 0, .nop, .eol, .nop, .nop] []).Ok ∧
    Tcp.Sane 1234 80 0 0 { syn := true } := by
  constructor
  · simp [Tcp.Tx.Ok, Tcp.Opt.Ok, Tcp.Opt.len]
  · simp [Tcp.Sane]

/-- C24 fails: a ten-byte segment raises `IndexError` instead of being dropped (the drop path reads the header length). -/
theorem C24_short_segment_witness : Tcp.parse [0,0,0,0,0,0,0,0,0,0] 10 0 = .error .indexError := by decide

/-- C24 fails for every segment shorter than 13 bytes. -/
theorem C24_short_segments (f : Bytes) (ipDlen ps : Nat) (hf : f.length < 13) :
    Tcp.parse f ipDlen ps = .error .indexError := by
  have hn : idx f 12 = .error .indexError := by
    simp [idx, List.getElem?_eq_none (show f.length ≤ 12 by omega)]
  have hr : ∃ r, Tcp.integrity f ipDlen ps = .ok (some r) := by
    rw [Tcp.integrity]
    by_cases h0 : inetCksum (f.take ipDlen) ps ≠ 0
    · exact ⟨_, by simp [h0]; rfl⟩
    · have : ¬ (20 ≤ ipDlen ∧ ipDlen ≤ f.length) := by omega
      exact ⟨_, by simp [h0, this]; rfl⟩
  obtain ⟨r, hr⟩ := hr
  simp only [Tcp.parse, hr, Tcp.hlen, hn, codec]

/-- C24 fails: an option kind in the very last byte of a segment (whose checksum is right) raises `IndexError`. -/
theorem C24_trailing_kind_witness :
    Tcp.parse [0,1, 0,1, 0,0,0,0, 0,0,0,0, 0x60,0x10, 0,0, 0x9D,0xEA, 0,0, 1,1,1,2] 24 0 = .error .indexError := by decide

/-- C24 fails: an accepted segment whose last option is an MSS option of length 2 raises `struct.error` when its options
are read. -/
theorem C24_short_option_witness :
    Tcp.parse [0,1, 0,1, 0,0,0,0, 0,0,0,0, 0x60,0x10, 0,0, 0x9C,0xEA, 0,0, 1,1,2,2] 24 0 = .ok none ∧
    Tcp.read [0,1, 0,1, 0,0,0,0, 0,0,0,0, 0x60,0x10, 0,0, 0x9C,0xEA, 0,0, 1,1,2,2] 24 = .error .structError := by
  decide

/-- C74: everything the TCP parser accepts has a verifying checksum, a header inside the segment inside the frame,
real ports and non-contradictory flags. -/
theorem C74_tcp_accepted (f : Bytes) (ipDlen ps : Nat) (hf : f.length < 2 ^ 63) (hps : ps < 2 ^ 72)
    (h : Tcp.parse f ipDlen ps = .ok none) :
    ∃ hl sp dp sq ak fl wn up, Tcp.hlen f = .ok hl ∧ 20 ≤ hl ∧ hl ≤ 60 ∧ hl % 4 = 0 ∧ hl ≤ ipDlen ∧ ipDlen ≤ f.length ∧
      Verifies ps (f.take ipDlen) ∧ Tcp.sport f = .ok sp ∧ Tcp.dport f = .ok dp ∧ Tcp.seq f = .ok sq ∧
      Tcp.ack f = .ok ak ∧ Tcp.flags f = .ok fl ∧ Tcp.win f = .ok wn ∧ Tcp.urg f = .ok up ∧ Tcp.Sane sp dp ak up fl ∧
      Tcp.optionCheck f hl (hl + 1) 20 = .ok none := by
  rw [Tcp.parse] at h
  cases hi : Tcp.integrity f ipDlen ps with
  | error e => rw [hi] at h; simp at h
  | ok r =>
    cases r with
    | some e =>
      simp only [hi, codec] at h
      cases hh : Tcp.hlen f <;> simp [hh] at h
    | none =>
      simp only [hi, codec] at h
      cases hs : Tcp.sanity f with
      | error e => rw [hs] at h; simp at h
      | ok r =>
        cases r with
        | some e =>
          simp only [hs, codec] at h
          cases hh : Tcp.hlen f <;> simp [hh] at h
        | none =>
          clear h
          rw [Tcp.integrity] at hi
          by_cases h0 : inetCksum (f.take ipDlen) ps ≠ 0
          · simp [h0] at hi
          by_cases h1 : ¬ (20 ≤ ipDlen ∧ ipDlen ≤ f.length)
          · simp [h0, h1] at hi
          simp only [Decidable.not_not] at h0 h1
          obtain ⟨x12, e12, l12, -⟩ := idx_ex (f := f) (i := 12) (by omega)
          obtain ⟨x13, e13, l13, -⟩ := idx_ex (f := f) (i := 13) (by omega)
          obtain ⟨sp, hsp, -, -⟩ := u16_ex (f := f) (i := 0) (by omega)
          obtain ⟨dp, hdp, -, -⟩ := u16_ex (f := f) (i := 2) (by omega)
          obtain ⟨sq, hsq, -, -⟩ := u32_ex (f := f) (i := 4) (by omega)
          obtain ⟨ak, hak, -, -⟩ := u32_ex (f := f) (i := 8) (by omega)
          obtain ⟨wn, hwn, -, -⟩ := u16_ex (f := f) (i := 14) (by omega)
          obtain ⟨up, hup, -, -⟩ := u16_ex (f := f) (i := 18) (by omega)
          have hhl : Tcp.hlen f = .ok ((x12 &&& 0b11110000) >>> 2) := by simp only [Tcp.hlen, e12, codec]
          have hle : (x12 &&& 0b11110000) >>> 2 = x12 / 16 * 4 := by
            rw [show (0b11110000 : Nat) = 2 ^ 8 - 2 ^ 4 from rfl, and_high (by omega) (by omega),
              Nat.shiftRight_eq_div_pow]; omega
          simp only [h0, h1, e12, codec, ne_eq, not_true, if_false, not_false_iff, and_self, and_true] at hi
          simp only [hle] at hhl hi
          by_cases h2 : ¬ (20 ≤ x12 / 16 * 4 ∧ x12 / 16 * 4 ≤ ipDlen ∧ ipDlen ≤ f.length)
          · split at hi
            · cases hi
            · rename_i h3; exact absurd (by simpa [h1.2] using h3) h2
          split at hi
          · cases hi
          simp only [Decidable.not_not] at h2
          have hfl : ∃ fl, Tcp.flags f = .ok fl ∧ fl.syn = (x13 &&& 0b00000010 != 0) ∧ fl.fin = (x13 &&& 0b00000001 != 0) ∧
              fl.rst = (x13 &&& 0b00000100 != 0) ∧ fl.ack = (x13 &&& 0b00010000 != 0) ∧
              fl.urg = (x13 &&& 0b00100000 != 0) := by
            refine ⟨Tcp.Flags.mk (x12 &&& 0b00000001 != 0) (x13 &&& 0b10000000 != 0) (x13 &&& 0b01000000 != 0)
              (x13 &&& 0b00100000 != 0) (x13 &&& 0b00010000 != 0) (x13 &&& 0b00001000 != 0) (x13 &&& 0b00000100 != 0)
              (x13 &&& 0b00000010 != 0) (x13 &&& 0b00000001 != 0), ?_, rfl, rfl, rfl, rfl, rfl⟩
            simp only [Tcp.flags, Tcp.flagNs, e12, Tcp.flagCrw, Tcp.flagEce, Tcp.flagUrg, Tcp.flagAck, Tcp.flagPsh,
              Tcp.flagRst, Tcp.flagSyn, Tcp.flagFin, e13, codec]
          obtain ⟨fl, hfl, g1, g2, g3, g4, g5⟩ := hfl
          refine ⟨_, sp, dp, sq, ak, fl, wn, up, hhl, h2.1, by omega, by omega, h2.2.1, h1.2, ?_, hsp, hdp, hsq, hak, hfl,
            hwn, hup, ?_, hi⟩
          · exact (verifies_iff (by simp; omega) hps).mp h0
          · simp only [Tcp.sanity, Tcp.sport, hsp, Tcp.dport, hdp, Tcp.flagUrg, Tcp.flagAck,
              Tcp.flagRst, Tcp.flagSyn, Tcp.flagFin, e13, Tcp.ack, hak, Tcp.urg, hup, codec] at hs
            simp only [Tcp.Sane, g1, g2, g3, g4, g5]
            by_cases c1 : sp = 0
            · rw [if_pos c1] at hs; cases hs
            rw [if_neg c1] at hs
            by_cases c2 : dp = 0
            · rw [if_pos c2] at hs; cases hs
            rw [if_neg c2] at hs
            generalize (x13 &&& 0b00000010 != 0) = sy at *
            generalize (x13 &&& 0b00000001 != 0) = fi at *
            generalize (x13 &&& 0b00000100 != 0) = rs at *
            generalize (x13 &&& 0b00010000 != 0) = ac at *
            generalize (x13 &&& 0b00100000 != 0) = ur at *
            refine ⟨c1, c2, ?_⟩
            by_cases c3 : ak = 0 <;> by_cases c4 : up = 0 <;>
            cases sy <;> cases fi <;> cases rs <;> cases ac <;> cases ur <;> simp [c3, c4] at hs ⊢

/-- C24, the part that holds: a frame of at least 13 bytes is parsed without an exception unless its header extends to
the very last byte of the frame and that byte is at least 2 (an option kind without a length); and if at least nine
bytes follow the header, every field and option of an accepted segment can be read. -/
theorem C24_tcp_total_partial (f : Bytes) (ipDlen ps : Nat) (hf : f.length < 2 ^ 63) (hps : ps < 2 ^ 72)
    (h13 : 13 ≤ f.length) :
    ((∃ r, Tcp.parse f ipDlen ps = .ok r) ∨
      (Tcp.parse f ipDlen ps = .error .indexError ∧ Tcp.hlen f = .ok f.length ∧
        ∃ k, idx f (f.length - 1) = .ok k ∧ 2 ≤ k)) ∧
    ∀ hl, Tcp.hlen f = .ok hl → hl + 9 ≤ f.length → Tcp.parse f ipDlen ps = .ok none →
      ∃ r, Tcp.read f ipDlen = .ok r := by
  constructor
  · obtain ⟨x12, e12, l12, -⟩ := idx_ex (f := f) (i := 12) (by omega)
    have hhl : Tcp.hlen f = .ok ((x12 &&& 0b11110000) >>> 2) := by simp only [Tcp.hlen, e12, codec]
    have key : ∀ e, Tcp.integrity f ipDlen ps = .ok (some e) → ∃ r, Tcp.parse f ipDlen ps = .ok r := by
      intro e he
      exact ⟨some e, by simp only [Tcp.parse, he, hhl, codec]⟩
    by_cases h0 : inetCksum (f.take ipDlen) ps ≠ 0
    · exact .inl (key _ (by rw [Tcp.integrity, if_pos h0]; rfl))
    by_cases h1 : ¬ (20 ≤ ipDlen ∧ ipDlen ≤ f.length)
    · exact .inl (key _ (by rw [Tcp.integrity, if_neg h0, if_pos h1]; rfl))
    by_cases h2 : ¬ (20 ≤ (x12 &&& 0b11110000) >>> 2 ∧ (x12 &&& 0b11110000) >>> 2 ≤ ipDlen ∧ ipDlen ≤ f.length)
    · exact .inl (key _ (by
        rw [Tcp.integrity, if_neg h0, if_neg h1]; simp only [e12, codec]; rw [if_pos h2]))
    have hint : Tcp.integrity f ipDlen ps =
        Tcp.optionCheck f ((x12 &&& 0b11110000) >>> 2) ((x12 &&& 0b11110000) >>> 2 + 1) 20 := by
      rw [Tcp.integrity, if_neg h0, if_neg h1]; simp only [e12, codec]; rw [if_neg h2]
    simp only [Decidable.not_not] at h1 h2
    rcases Tcp.optionCheck_total f _ (by omega : (x12 &&& 0b11110000) >>> 2 ≤ f.length)
      ((x12 &&& 0b11110000) >>> 2 + 1) 20 (by omega) with ⟨r, hr⟩ | ⟨hr, hlen, k, hk, hk2⟩
    · cases r with
      | some e => exact .inl (key e (hint.trans hr))
      | none =>
        left
        obtain ⟨x13, e13, l13, -⟩ := idx_ex (f := f) (i := 13) (by omega)
        obtain ⟨sp, hsp, -, -⟩ := u16_ex (f := f) (i := 0) (by omega)
        obtain ⟨dp, hdp, -, -⟩ := u16_ex (f := f) (i := 2) (by omega)
        obtain ⟨ak, hak, -, -⟩ := u32_ex (f := f) (i := 8) (by omega)
        obtain ⟨up, hup, -, -⟩ := u16_ex (f := f) (i := 18) (by omega)
        have hs : ∃ r, Tcp.sanity f = .ok r := by
          simp only [Tcp.sanity, Tcp.sport, hsp, Tcp.dport, hdp, Tcp.flagUrg, Tcp.flagAck,
              Tcp.flagRst, Tcp.flagSyn, Tcp.flagFin, e13, Tcp.ack, hak, Tcp.urg, hup, codec]
          repeat' split
          all_goals exact ⟨_, rfl⟩
        obtain ⟨r, hs⟩ := hs
        refine ⟨r, ?_⟩
        simp only [Tcp.parse, hint, hr, hs, hhl, codec]
        cases r <;> rfl
    · right
      refine ⟨by simp only [Tcp.parse, hint, hr, codec], by rw [hhl, hlen], k, by rw [← hlen]; exact hk, hk2⟩
  · intro hl hhl hroom hacc
    obtain ⟨hl', sp, dp, sq, ak, fl, wn, up, hh, -, -, -, -, -, -, h1, h2, h3, h4, h5, h6, h7, -, hoc⟩ :=
      C74_tcp_accepted f ipDlen ps hf hps hacc
    have : hl' = hl := by rw [hhl] at hh; injection hh with hh; exact hh.symm
    subst this
    obtain ⟨l, hl2⟩ := Tcp.optionsLoop_of_check f hl' hroom _ _ hoc
    exact ⟨Tcp.Hdr.mk sp dp sq ak fl wn up l (slice f hl' ipDlen), by simp only [Tcp.read, Tcp.options, hhl, h1, h2, h3, h4, h5, h6, h7, hl2, codec]⟩

end Verif
