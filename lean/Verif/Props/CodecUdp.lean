import Verif.Model.Udp
import Verif.Model.Icmp4
import Verif.Lemmas.Codec
/-! C18 (UDP), C20 (ICMPv4) and their share of C22. -/
namespace Verif
open Spec (Verifies)

/-- C18: an assembled datagram, followed by any link-layer padding, is accepted under its pseudo-header exactly when
the checksum written into it verifies, and ports, length and payload come back. -/
theorem C18_udp_roundtrip (sport dport : Nat) (data pad : Bytes) (ps : Nat) (hs : 0 < sport ∧ sport < 65536)
    (hd : 0 < dport ∧ dport < 65536) (hl : 8 + data.length < 65536) (hps : ps < 2 ^ 72) :
    ∃ f, Udp.assemble sport dport data ps = .ok f ∧ f.length = 8 + data.length ∧
      (Verifies ps f → Udp.parse (f ++ pad) f.length ps = .ok none) ∧
      (¬ Verifies ps f → Udp.parse (f ++ pad) f.length ps = .ok (some "UDP integrity - wrong packet checksum")) ∧
      Udp.read (f ++ pad) = .ok { sport := sport, dport := dport, plen := 8 + data.length, data := data } := by
  obtain ⟨c, hc, hcl⟩ : ∃ c, inetCksum (bePack 2 sport ++ bePack 2 dport ++ bePack 2 (8 + data.length) ++ bePack 2 0 ++
      data) ps = c ∧ c < 65536 := ⟨_, rfl, inetCksum_lt _ _⟩
  obtain ⟨f, hf⟩ : ∃ f, f = bePack 2 sport ++ bePack 2 dport ++ bePack 2 (8 + data.length) ++ bePack 2 c ++ data :=
    ⟨_, rfl⟩
  have hfl : f.length = 8 + data.length := by rw [hf]; simp; omega
  have hpl : u16 (f ++ pad) 4 = .ok (8 + data.length) := by
    rw [hf]; simp [codec]; omega
  have hsp : u16 (f ++ pad) 0 = .ok sport := by
    rw [hf]; simp [codec]; omega
  have hdp : u16 (f ++ pad) 2 = .ok dport := by
    rw [hf]; simp [codec]; omega
  have htk : (f ++ pad).take f.length = f := by simp
  refine ⟨f, ?_, hfl, ?_, ?_, ?_⟩
  · simp only [Udp.assemble, packH_ok hs.2, packH_ok hd.2, packH_ok hl, packH_ok (show 0 < 65536 by omega), codec,
      show decide (sport ≤ 65535) = true by simp; omega, show decide (dport ≤ 65535) = true by simp; omega]
    simp only [codec] at hc
    rw [hc, packIntoH_ok hcl (by simp; omega), hf]
    simp [codec]
  · intro hv
    have := (verifies_iff (data := f) (by omega) hps).mpr hv
    simp [Udp.parse, htk, this, hpl, Udp.sport, Udp.dport, hsp, hdp, hfl, show sport ≠ 0 by omega,
      show dport ≠ 0 by omega]
  · intro hv
    have := mt (verifies_iff (data := f) (by omega) hps).mp hv
    simp [Udp.parse, htk, this]
  · simp [Udp.read, Udp.sport, Udp.dport, Udp.plen, Udp.data, hpl, hsp, hdp]
    rw [hf]; simp (disch := omega) only [codec]
    exact slice_front (by omega)

/-- C18: the checksum written is the RFC 1071 one or one more than it (see C02), so a datagram for which it is right
is accepted. -/
theorem C18_udp_accepted (f : Bytes) (ipDlen ps : Nat) (hf : f.length < 2 ^ 63) (hps : ps < 2 ^ 72)
    (h : Udp.parse f ipDlen ps = .ok none) :
    ∃ r, Udp.read f = .ok r ∧ r.plen = ipDlen ∧ 8 ≤ ipDlen ∧ ipDlen ≤ f.length ∧ r.sport ≠ 0 ∧ r.dport ≠ 0 ∧
      r.data.length = ipDlen - 8 ∧ Verifies ps (f.take ipDlen) ∧
      ∃ ck, f.take ipDlen = bePack 2 r.sport ++ bePack 2 r.dport ++ bePack 2 r.plen ++ bePack 2 ck ++ r.data := by
  rw [Udp.parse] at h
  by_cases h0 : inetCksum (f.take ipDlen) ps ≠ 0
  · simp [h0] at h
  by_cases h1 : ¬ (8 ≤ ipDlen ∧ ipDlen ≤ f.length)
  · simp [h0, h1] at h
  simp only [Decidable.not_not] at h0 h1
  obtain ⟨sp, hsp, -, e1⟩ := u16_ex (f := f) (i := 0) (by omega)
  obtain ⟨dp, hdp, -, e2⟩ := u16_ex (f := f) (i := 2) (by omega)
  obtain ⟨pl, hpl, -, e3⟩ := u16_ex (f := f) (i := 4) (by omega)
  obtain ⟨ck, hck, -, e4⟩ := u16_ex (f := f) (i := 6) (by omega)
  simp only [h0, h1, hpl, Udp.sport, hsp, Udp.dport, hdp, codec, ne_eq, not_true, if_false, not_false_iff] at h
  repeat' split at h
  all_goals try cases h
  rename_i c1 c2 c3
  simp only [Decidable.not_not] at c1
  refine ⟨⟨sp, dp, pl, slice f 8 pl⟩, ?_, c1.2.1, h1.1, h1.2, c2, c3, ?_, ?_, ck, ?_⟩
  · simp [Udp.read, Udp.sport, Udp.dport, Udp.plen, Udp.data, hsp, hdp, hpl]
  · simp only [slice_length]; omega
  · exact (verifies_iff (by simp; omega) hps).mp h0
  · rw [← c1.2.1] at *
    rw [e1, e2, e3, e4]
    iterate 4 rw [slice_append_slice (by omega) (by omega)]
    rfl

example : Udp.parse [0x30,0x39, 0,53, 0,10, 0,0, 1,2, 0xFF] 10 52869 = .ok none := by decide

/-- C22 for UDP, under every enclosing IP header. -/
theorem C22_udp_total (f : Bytes) (ipDlen ps : Nat) (hf : f.length < 2 ^ 63) (hps : ps < 2 ^ 72) :
    ∃ r, Udp.parse f ipDlen ps = .ok r ∧ (r = none → ∃ h, Udp.read f = .ok h) := by
  have : ∃ r, Udp.parse f ipDlen ps = .ok r := by
    rw [Udp.parse]
    by_cases h0 : inetCksum (f.take ipDlen) ps ≠ 0
    · exact ⟨_, by simp [h0]; rfl⟩
    by_cases h1 : ¬ (8 ≤ ipDlen ∧ ipDlen ≤ f.length)
    · exact ⟨_, by simp [h0, h1]; rfl⟩
    simp only [Decidable.not_not] at h0 h1
    obtain ⟨sp, hsp, -, e1⟩ := u16_ex (f := f) (i := 0) (by omega)
    obtain ⟨dp, hdp, -, e2⟩ := u16_ex (f := f) (i := 2) (by omega)
    obtain ⟨pl, hpl, -, e3⟩ := u16_ex (f := f) (i := 4) (by omega)
    simp only [h0, h1, hpl, Udp.sport, hsp, Udp.dport, hdp, codec, ne_eq, not_true, if_false, not_false_iff]
    repeat' split
    all_goals exact ⟨_, rfl⟩
  obtain ⟨r, hr⟩ := this
  refine ⟨r, hr, ?_⟩
  rintro rfl
  obtain ⟨h, h', -⟩ := C18_udp_accepted f ipDlen ps hf hps hr
  exact ⟨h, h'⟩

/-- What a parsed packet should show for each message the assembler builds. -/
def Icmp4.expected : Icmp4.Msg → Icmp4.Hdr
  | .echoReply id seq data => .echo 0 0 id seq data
  | .portUnreachable data => .unreachable 3 (data.take 520)
  | .echoRequest id seq data => .echo 8 0 id seq data

/-- The values the assembler accepts. -/
def Icmp4.Msg.Ok : Icmp4.Msg → Prop
  | .echoReply id seq data => id < 65536 ∧ seq < 65536 ∧ data.length < 2 ^ 62
  | .portUnreachable data => 4 ≤ data.length
  | .echoRequest id seq data => id < 65536 ∧ seq < 65536 ∧ data.length < 2 ^ 62

theorem Icmp4.echo_roundtrip (t id seq : Nat) (data pad : Bytes) (ht : t = 0 ∨ t = 8) (hi : id < 65536)
    (hs : seq < 65536) (hl : data.length < 2 ^ 62) :
    ∃ f, Icmp4.assembleEcho t id seq data = .ok f ∧ f.length = 8 + data.length ∧
      (Verifies 0 f → Icmp4.parse (f ++ pad) f.length = .ok none) ∧
      (¬ Verifies 0 f → Icmp4.parse (f ++ pad) f.length = .ok (some "ICMPv4 integrity - wrong packet checksum")) ∧
      Icmp4.read (f ++ pad) f.length = .ok (.echo t 0 id seq data) := by
  obtain ⟨c, hc, hcl⟩ : ∃ c, inetCksum (bePack 1 t ++ bePack 1 0 ++ bePack 2 0 ++ bePack 2 id ++ bePack 2 seq ++
      data) = c ∧ c < 65536 := ⟨_, rfl, inetCksum_lt _ _⟩
  obtain ⟨f, hf⟩ : ∃ f, f = bePack 1 t ++ bePack 1 0 ++ bePack 2 c ++ bePack 2 id ++ bePack 2 seq ++ data := ⟨_, rfl⟩
  have hfl : f.length = 8 + data.length := by rw [hf]; simp; omega
  have h0 : idx (f ++ pad) 0 = .ok t := by rw [hf]; simp [codec]; omega
  have h1 : idx (f ++ pad) 1 = .ok 0 := by rw [hf]; simp [codec]
  have h4 : u16 (f ++ pad) 4 = .ok id := by rw [hf]; simp [codec]; omega
  have h6 : u16 (f ++ pad) 6 = .ok seq := by rw [hf]; simp [codec]; omega
  have htk : (f ++ pad).take f.length = f := by simp
  have ht' : (t == 8 || t == 0) = true := by simp; omega
  refine ⟨f, ?_, hfl, ?_, ?_, ?_⟩
  · simp only [Icmp4.assembleEcho, packB_ok (show t < 256 by omega), packB_ok (show 0 < 256 by omega), packH_ok hi,
      packH_ok hs, packH_ok (show 0 < 65536 by omega), codec, show decide (id ≤ 65535) = true by simp; omega,
      show decide (seq ≤ 65535) = true by simp; omega]
    simp only [codec] at hc
    rw [hc, packIntoH_ok hcl (by simp; omega), hf]
    simp [codec]
  · intro hv
    have := (verifies_iff (data := f) (by omega) (by omega)).mpr hv
    simp [Icmp4.parse, htk, this, Icmp4.type, Icmp4.code, h0, h1, hfl]
    rcases ht with rfl | rfl <;> simp <;> omega
  · intro hv
    have := mt (verifies_iff (data := f) (by omega) (by omega)).mp hv
    simp [Icmp4.parse, htk, this]
  · have hd : slice (f ++ pad) 8 f.length = data := by
      rw [hfl, hf]; simp (disch := omega) only [codec]
      exact slice_front (by omega)
    simp [Icmp4.read, Icmp4.type, Icmp4.code, Icmp4.ecId, Icmp4.ecSeq, Icmp4.ecData, h0, h1, h4, h6, ht', hd, ht]

/-- C20: an assembled ICMPv4 message is accepted exactly when its checksum verifies and its fields come back. -/
theorem C20_icmp4_roundtrip (m : Icmp4.Msg) (pad : Bytes) (hm : m.Ok) :
    ∃ f, Icmp4.assemble m = .ok f ∧ f.length = Icmp4.len m ∧
      (Verifies 0 f → Icmp4.parse (f ++ pad) f.length = .ok none) ∧
      (¬ Verifies 0 f → Icmp4.parse (f ++ pad) f.length = .ok (some "ICMPv4 integrity - wrong packet checksum")) ∧
      Icmp4.read (f ++ pad) f.length = .ok (Icmp4.expected m) := by
  cases m with
  | echoReply id seq data => exact Icmp4.echo_roundtrip 0 id seq data pad (.inl rfl) hm.1 hm.2.1 hm.2.2
  | echoRequest id seq data => exact Icmp4.echo_roundtrip 8 id seq data pad (.inr rfl) hm.1 hm.2.1 hm.2.2
  | portUnreachable d =>
    obtain ⟨data, hdata⟩ : ∃ data, data = d.take 520 := ⟨_, rfl⟩
    have hdl : 4 ≤ data.length ∧ data.length ≤ 520 := by
      have : 4 ≤ d.length := hm
      rw [hdata]; simp; omega
    obtain ⟨c, hc, hcl⟩ : ∃ c, inetCksum (bePack 1 3 ++ bePack 1 3 ++ bePack 2 0 ++ bePack 4 0 ++ data) = c ∧
      c < 65536 := ⟨_, rfl, inetCksum_lt _ _⟩
    obtain ⟨f, hf⟩ : ∃ f, f = bePack 1 3 ++ bePack 1 3 ++ bePack 2 c ++ bePack 4 0 ++ data := ⟨_, rfl⟩
    have hfl : f.length = 8 + data.length := by rw [hf]; simp; omega
    have h0 : idx (f ++ pad) 0 = .ok 3 := by rw [hf]; simp [codec]
    have h1 : idx (f ++ pad) 1 = .ok 3 := by rw [hf]; simp [codec]
    have htk : (f ++ pad).take f.length = f := by simp
    refine ⟨f, ?_, by rw [hfl, Icmp4.len, hdata], ?_, ?_, ?_⟩
    · simp only [Icmp4.assemble, packB_ok (show 3 < 256 by omega), packL_ok (show 0 < 4294967296 by omega),
        packH_ok (show 0 < 65536 by omega), codec, ← hdata]
      simp only [codec] at hc
      rw [hc, packIntoH_ok hcl (by simp; omega), hf]
      simp [codec]
    · intro hv
      have := (verifies_iff (data := f) (by omega) (by omega)).mpr hv
      simp [Icmp4.parse, htk, this, Icmp4.type, Icmp4.code, h0, h1, hfl, show 12 ≤ 8 + data.length by omega,
        show 4 ≤ 8 + data.length by omega]
    · intro hv
      have := mt (verifies_iff (data := f) (by omega) (by omega)).mp hv
      simp [Icmp4.parse, htk, this]
    · have hd : slice (f ++ pad) 8 f.length = data := by
        rw [hfl, hf]; simp (disch := omega) only [codec]
        exact slice_front (by omega)
      simp [Icmp4.read, Icmp4.type, Icmp4.code, Icmp4.unData, h0, h1, hd, Icmp4.expected, ← hdata]

example : (Icmp4.Msg.portUnreachable (List.replicate 28 0x45)).Ok := by simp [Icmp4.Msg.Ok]
example : (Icmp4.Msg.echoRequest 7 1 [0x61, 0x62]).Ok := by simp [Icmp4.Msg.Ok]

/-- C20: an unreachable message quoting fewer than 4 bytes is assembled but not accepted back (the parser wants 12
bytes); the stack always quotes a whole IP packet. -/
theorem C20_short_unreachable_witness :
    ∃ f, Icmp4.assemble (.portUnreachable [1, 2]) = .ok f ∧ Icmp4.parse f f.length ≠ .ok none := by
  refine ⟨[3, 3, 0xFB, 0xFA, 0, 0, 0, 0, 1, 2], ?_, ?_⟩ <;> decide

/-- C22 for ICMPv4, and what every accepted message satisfies. -/
theorem C22_icmp4_total (f : Bytes) (plen : Nat) :
    ∃ r, Icmp4.parse f plen = .ok r ∧ (r = none → 4 ≤ plen ∧ plen ≤ f.length ∧ ∃ h, Icmp4.read f plen = .ok h) := by
  rw [Icmp4.parse]
  by_cases h0 : inetCksum (f.take plen) ≠ 0
  · exact ⟨some _, by simp [h0]; rfl, by simp⟩
  by_cases h1 : ¬ (4 ≤ plen ∧ plen ≤ f.length)
  · exact ⟨some _, by simp [h0, h1]; rfl, by simp⟩
  simp only [Decidable.not_not] at h0 h1
  obtain ⟨t, ht, -, -⟩ := idx_ex (f := f) (i := 0) (by omega)
  obtain ⟨c, hc, -, -⟩ := idx_ex (f := f) (i := 1) (by omega)
  simp only [h0, h1, ht, Icmp4.type, Icmp4.code, hc, Icmp4.read, Icmp4.ecId, Icmp4.ecSeq, Icmp4.ecData, Icmp4.unData,
    codec, ne_eq, not_true, if_false, not_false_iff]
  by_cases h8 : t = 8 ∨ t = 0
  · by_cases hp : 8 ≤ plen
    · obtain ⟨i, hi, -, -⟩ := u16_ex (f := f) (i := 4) (by omega)
      obtain ⟨s, hs, -, -⟩ := u16_ex (f := f) (i := 6) (by omega)
      have h3 : ¬ t = 3 := by omega
      have h8' : (t == 8 || t == 0) = true := by simp; omega
      have h8'' : t = 0 ∨ t = 8 := by omega
      by_cases hc0 : c = 0
      · simp [h8, h3, hp, h8', hi, hs, h8'', hc0]
      · simp [h8, h3, hp, hc0]
    · simp [h8, hp]
  · by_cases h3 : t = 3
    · subst h3
      by_cases hp : 12 ≤ plen
      · by_cases hc0 : 15 < c
        · simp [hp, hc0]
        · simp [hp, hc0]
      · simp [hp]
    · have : ¬ (t = 0 ∨ t = 8) := by omega
      simp [h8, h3, this]

example : Icmp4.parse [8, 0, 0xF7, 0xFD, 0, 1, 0, 1] 8 = .ok none := by decide

end Verif
