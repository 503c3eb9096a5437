import Verif.Model.Ether
import Verif.Model.Arp
import Verif.Lemmas.Codec
/-! C14 (Ethernet), C15 (ARP) and their share of C22. -/
namespace Verif

/-- C14: parsing an assembled frame returns its fields. -/
theorem C14_ether_roundtrip (src dst : MacAddress) (type : Nat) (payload : Bytes)
    (ht : type = 0x0806 ∨ type = 0x0800 ∨ type = 0x86DD ∨ type = 0xFFFF) :
    ∃ f, Ether.assemble src dst type payload = .ok f ∧ Ether.parse f = .ok none ∧
      Ether.read f = .ok { dst := dst, src := src, type := type, data := payload } := by
  have h1 : type < 65536 := by omega
  refine ⟨dst.toBytes ++ src.toBytes ++ bePack 2 type ++ payload, ?_, ?_, ?_⟩
  · have : (type == 0x0806 || type == 0x0800 || type == 0x86DD || type == 0xFFFF) = true := by
      simp; omega
    simp [Ether.assemble, Ether.typeArp, Ether.typeIp4, Ether.typeIp6, Ether.typeRaw, this, packH_ok h1]
  · simp [Ether.parse, Ether.type, codec, Nat.mod_eq_of_lt h1, show ¬ type < 1536 by omega]
    omega
  · simp [Ether.read, Ether.dst, Ether.src, Ether.type, Ether.data, codec]
    omega

example : (0x0800 = 0x0806 ∨ 0x0800 = 0x0800 ∨ 0x0800 = 0x86DD ∨ 0x0800 = 0xFFFF) := by decide

/-- C14: every accepted frame has at least 14 bytes and type ≥ 0x0600, and it is byte for byte what assembling the
parsed fields gives. -/
theorem C14_ether_accepted (f : Bytes) (h : Ether.parse f = .ok none) :
    ∃ r, Ether.read f = .ok r ∧ 14 ≤ f.length ∧ 0x0600 ≤ r.type ∧
      f = r.dst.toBytes ++ r.src.toBytes ++ bePack 2 r.type ++ r.data ∧
      (r.type = 0x0806 ∨ r.type = 0x0800 ∨ r.type = 0x86DD ∨ r.type = 0xFFFF →
        Ether.assemble r.src r.dst r.type r.data = .ok f) := by
  have hl : 14 ≤ f.length := by
    rw [Ether.parse] at h
    by_cases hl : f.length < 14
    · simp [hl] at h
    · omega
  obtain ⟨d, hd, hd'⟩ := mac_ok (f := f) (i := 0) (j := 6) rfl (by omega)
  obtain ⟨s, hs, hs'⟩ := mac_ok (f := f) (i := 6) (j := 12) rfl (by omega)
  obtain ⟨t, ht, ht', h2⟩ := u16_ex (f := f) (i := 12) (by omega)
  have e : f = d.toBytes ++ s.toBytes ++ bePack 2 t ++ sliceFrom f 14 := by
    rw [hd', hs', h2, slice_append_slice (by omega) (by omega), slice_append_slice (by omega) (by omega),
      slice_append_sliceFrom (by omega)]
    rfl
  refine ⟨⟨d, s, t, sliceFrom f 14⟩, ?_, hl, ?_, e, ?_⟩
  · simp [Ether.read, Ether.dst, Ether.src, Ether.type, Ether.data, hd, hs, ht]
  · simp [Ether.parse, Ether.type, ht, show ¬ f.length < 14 by omega] at h
    exact h
  · intro ht
    dsimp only at ht ⊢
    have : (t == 0x0806 || t == 0x0800 || t == 0x86DD || t == 0xFFFF) = true := by
      simp; omega
    simp only [Ether.assemble, Ether.typeArp, Ether.typeIp4, Ether.typeIp6, Ether.typeRaw, this, packH_ok ht']
    conv => rhs; rw [e]
    simp

example : Ether.parse [2,0,0,0,0,1, 2,0,0,0,0,2, 8,0, 1,2,3] = .ok none := by decide

/-- C22 for Ethernet: no byte string makes the parser raise, and after acceptance every field can be read. -/
theorem C22_ether_total (f : Bytes) :
    ∃ r, Ether.parse f = .ok r ∧ (r = none → ∃ h, Ether.read f = .ok h) := by
  by_cases hl : f.length < 14
  · exact ⟨some "ETHER integrity - wrong packet length (I)", by simp [Ether.parse, hl], by simp⟩
  · obtain ⟨t, ht, -, -⟩ := u16_ex (f := f) (i := 12) (by omega)
    by_cases h6 : t < 0x0600
    · exact ⟨some _, by simp [Ether.parse, hl, Ether.type, ht, h6]; rfl, by simp⟩
    · have h : Ether.parse f = .ok none := by simp [Ether.parse, hl, Ether.type, ht, h6]
      obtain ⟨r, hr, -⟩ := C14_ether_accepted f h
      exact ⟨none, h, fun _ => ⟨r, hr⟩⟩

/-- C15: parsing an assembled ARP packet returns its fields. -/
theorem C15_arp_roundtrip (sha tha : MacAddress) (spa tpa : Ip4Address) (oper : Nat) (ho : oper = 1 ∨ oper = 2) :
    ∃ f, Arp.assemble sha spa tha tpa oper = .ok f ∧ f.length = 28 ∧ Arp.parse f = .ok none ∧
      Arp.read f = .ok { oper := oper, sha := sha, spa := spa, tha := tha, tpa := tpa } := by
  have h1 : oper < 65536 := by omega
  refine ⟨bePack 2 1 ++ bePack 2 0x0800 ++ bePack 1 6 ++ bePack 1 4 ++ bePack 2 oper ++ sha.toBytes ++ spa.toBytes ++
    tha.toBytes ++ tpa.toBytes ++ [], ?_, ?_, ?_, ?_⟩
  · have : (oper == 1 || oper == 2) = true := by simp; omega
    simp [Arp.assemble, this, packH_ok, h1, packB_ok]
  · simp [codec]
  · rcases ho with rfl | rfl <;> simp [Arp.parse, Arp.hrtype, Arp.prtype, Arp.hrlen, Arp.prlen, Arp.oper, codec]
  · simp [Arp.read, Arp.oper, Arp.sha, Arp.spa, Arp.tha, Arp.tpa, codec, Nat.mod_eq_of_lt h1]

/-- Every frame of at least 28 bytes is cut into the nine ARP fields. -/
theorem Arp.cut (f : Bytes) (hl : 28 ≤ f.length) :
    ∃ ht pt hn pn op sha spa tha tpa, Arp.hrtype f = .ok ht ∧ Arp.prtype f = .ok pt ∧ Arp.hrlen f = .ok hn ∧
      Arp.prlen f = .ok pn ∧ Arp.oper f = .ok op ∧ Arp.sha f = .ok sha ∧ Arp.spa f = .ok spa ∧ Arp.tha f = .ok tha ∧
      Arp.tpa f = .ok tpa ∧ f.take 28 = bePack 2 ht ++ bePack 2 pt ++ bePack 1 hn ++ bePack 1 pn ++ bePack 2 op ++
        MacAddress.toBytes sha ++ Ip4Address.toBytes spa ++ MacAddress.toBytes tha ++ Ip4Address.toBytes tpa := by
  obtain ⟨ht, h1, -, e1⟩ := u16_ex (f := f) (i := 0) (by omega)
  obtain ⟨pt, h2, -, e2⟩ := u16_ex (f := f) (i := 2) (by omega)
  obtain ⟨hn, h3, -, e3⟩ := idx_ex (f := f) (i := 4) (by omega)
  obtain ⟨pn, h4, -, e4⟩ := idx_ex (f := f) (i := 5) (by omega)
  obtain ⟨op, h5, -, e5⟩ := u16_ex (f := f) (i := 6) (by omega)
  obtain ⟨sha, h6, e6⟩ := mac_ok (f := f) (i := 8) (j := 14) rfl (by omega)
  obtain ⟨spa, h7, e7⟩ := ip4_ok (f := f) (i := 14) (j := 18) rfl (by omega)
  obtain ⟨tha, h8, e8⟩ := mac_ok (f := f) (i := 18) (j := 24) rfl (by omega)
  obtain ⟨tpa, h9, e9⟩ := ip4_ok (f := f) (i := 24) (j := 28) rfl (by omega)
  refine ⟨ht, pt, hn, pn, op, sha, spa, tha, tpa, h1, h2, h3, h4, h5, h6, h7, h8, h9, ?_⟩
  rw [e1, e2, e3, e4, e5, e6, e7, e8, e9]
  iterate 8 rw [slice_append_slice (by omega) (by omega)]
  rfl

/-- C15, the other direction: every accepted packet starts with the 28 bytes of an Ethernet/IPv4 ARP request or reply
made of exactly the parsed fields. -/
theorem C15_arp_accepted (f : Bytes) (h : Arp.parse f = .ok none) :
    ∃ r, Arp.read f = .ok r ∧ (r.oper = 1 ∨ r.oper = 2) ∧
      f.take 28 = [0, 1, 8, 0, 6, 4] ++ bePack 2 r.oper ++ r.sha.toBytes ++ r.spa.toBytes ++ r.tha.toBytes ++
        r.tpa.toBytes ∧
      Arp.assemble r.sha r.spa r.tha r.tpa r.oper = .ok (f.take 28) := by
  have hl : 28 ≤ f.length := by
    rw [Arp.parse] at h
    by_cases hl : f.length < 28
    · simp [hl] at h
    · omega
  obtain ⟨ht, pt, hn, pn, op, sha, spa, tha, tpa, h1, h2, h3, h4, h5, h6, h7, h8, h9, e⟩ := Arp.cut f hl
  simp only [Arp.parse, h1, h2, h3, h4, h5, codec, show ¬ f.length < 28 by omega, if_false] at h
  repeat' split at h
  all_goals try cases h
  rename_i c1 c2 c3 c4 c5
  simp only [Decidable.not_not] at c1 c2 c3 c4 c5
  subst c1 c2 c3 c4
  refine ⟨⟨op, sha, spa, tha, tpa⟩, by simp [Arp.read, h5, h6, h7, h8, h9], c5, e, ?_⟩
  rw [e]
  have : (op == 1 || op == 2) = true := by simp; omega
  simp [Arp.assemble, this, packH_ok, show op < 65536 by omega, packB_ok]

example : Arp.parse ([0,1, 8,0, 6, 4, 0,1, 2,0,0,0,0,1, 10,0,0,1, 0,0,0,0,0,0, 10,0,0,2] ++ [0,0,0,0]) = .ok none := by
  decide

/-- C22 for ARP. -/
theorem C22_arp_total (f : Bytes) : ∃ r, Arp.parse f = .ok r ∧ (r = none → ∃ h, Arp.read f = .ok h) := by
  have : ∃ r, Arp.parse f = .ok r := by
    by_cases hl : f.length < 28
    · exact ⟨_, by simp [Arp.parse, hl]; rfl⟩
    · obtain ⟨ht, pt, hn, pn, op, sha, spa, tha, tpa, h1, h2, h3, h4, h5, h6, h7, h8, h9, e⟩ := Arp.cut f (by omega)
      simp only [Arp.parse, h1, h2, h3, h4, h5, codec, hl, if_false]
      repeat' split
      all_goals exact ⟨_, rfl⟩
  obtain ⟨r, hr⟩ := this
  refine ⟨r, hr, ?_⟩
  rintro rfl
  obtain ⟨h, h', -⟩ := C15_arp_accepted f hr
  exact ⟨h, h'⟩

end Verif
