import Verif.Spec.Wire
import Verif.Props.Rx
/-! The parsers accept what `Spec/Wire.lean` describes, and read from it what is there. -/
namespace Verif
open Spec

theorem u32_be {f : Bytes} {i : Nat} (h : i + 4 ≤ f.length) : u32 f i = .ok (be f i 4) := by
  rw [u32_ok h, be, ← slice_eq]

theorem be_lt (f : Bytes) (i k : Nat) : be f i k < 256 ^ k := by
  refine Nat.lt_of_lt_of_le (beNat_lt _) (Nat.pow_le_pow_right (by decide) ?_)
  simp; omega

theorem be_take (f : Bytes) (i k m : Nat) (h : i + k ≤ m) : be (f.take m) i k = be f i k := by
  rw [be, be, List.drop_take, List.take_take]
  congr 2
  omega

theorem be_two {f : Bytes} {i : Nat} (h : i + 2 ≤ f.length) : be f i 2 = be f i 1 * 256 + be f (i + 1) 1 := by
  obtain ⟨a, t, ht⟩ : ∃ a t, f.drop i = a :: t := by
    cases hd : f.drop i with
    | nil => have := congrArg List.length hd; simp at this; omega
    | cons a t => exact ⟨a, t, rfl⟩
  obtain ⟨b, t', ht'⟩ : ∃ b t', t = b :: t' := by
    cases t with
    | nil => have := congrArg List.length ht; simp at this; omega
    | cons b t' => exact ⟨b, t', rfl⟩
  subst ht'
  have h1 : f.drop (i + 1) = b :: t' := by rw [← List.drop_drop, ht]; rfl
  simp [be, ht, h1, beNat]

/-! ### The link layer -/

theorem ether_accept {n : Node} {F : Bytes} (hl : 14 ≤ F.length) (hm : ∃ m : MacAddress, m.int = be F 0 6 ∧ MacForUs n m)
    (ht : 0x0600 ≤ be F 12 2) : ∃ e, HoldsEther n F e ∧ e.type = be F 12 2 ∧ e.data = F.drop 14 := by
  obtain ⟨m, hm1, hm2⟩ := hm
  obtain ⟨d, hd, hd'⟩ := mac_be (f := F) (i := 0) (by omega)
  obtain ⟨s, hs, -⟩ := mac_be (f := F) (i := 6) (by omega)
  have h12 := u16_be (f := F) (i := 12) (by omega)
  have e : d = m := by cases d; cases m; simp_all
  subst e
  refine ⟨⟨d, s, be F 12 2, F.drop 14⟩, ⟨?_, ?_, hm2⟩, rfl, rfl⟩
  · simp only [Ether.parse, Ether.type, h12, py_ok_bind, py_pure]
    rw [if_neg (by omega), if_neg (by omega)]
  · simp only [Nat.zero_add, Nat.reduceAdd] at hd hs
    simp only [Ether.read, Ether.dst, hd, Ether.src, hs, Ether.type, h12, py_ok_bind, py_pure, Ether.data]
    rfl

/-! ### IPv4 -/

theorem cons_of_drop {f : Bytes} {hlen optr : Nat} {a : UInt8} {t : Bytes} (h : (f.take hlen).drop optr = a :: t) :
    optr < hlen ∧ optr < f.length ∧ idx f optr = .ok a.toNat ∧ (f.take hlen).drop (optr + 1) = t := by
  have hl := congrArg List.length h
  simp at hl
  refine ⟨by omega, by omega, ?_, by rw [← List.drop_drop, h]; rfl⟩
  rw [List.drop_take] at h
  obtain ⟨m, hm⟩ : ∃ m, hlen - optr = m + 1 := ⟨hlen - optr - 1, by omega⟩
  rw [hm] at h
  cases hd : f.drop optr with
  | nil => rw [hd] at h; simp at h
  | cons b r =>
    rw [hd] at h
    simp at h
    rw [← h.1]
    exact Ip4.idx_drop hd

theorem Ip4.optionCheck_of_options {o : Bytes} {l : List (Nat × Bytes)} (H : Options o l) :
    ∀ (f : Bytes) (hlen fuel optr : Nat), (f.take hlen).drop optr = o → hlen ≤ f.length → hlen ≤ optr + fuel →
      Ip4.optionCheck f hlen fuel optr = .ok none := by
  induction H with
  | nil =>
    intro f hlen fuel optr h hl _
    have := congrArg List.length h
    simp at this
    rw [Ip4.optionCheck.eq_def]
    simp [show ¬ optr < hlen by omega]
  | eol t =>
    intro f hlen fuel optr h hl hf
    obtain ⟨h1, h2, h3, h4⟩ := cons_of_drop h
    obtain ⟨fuel, rfl⟩ : ∃ m, fuel = m + 1 := ⟨fuel - 1, by omega⟩
    rw [Ip4.optionCheck]
    simp [h1, h3]
  | @nop t l _ ih =>
    intro f hlen fuel optr h hl hf
    obtain ⟨h1, h2, h3, h4⟩ := cons_of_drop h
    obtain ⟨fuel, rfl⟩ : ∃ m, fuel = m + 1 := ⟨fuel - 1, by omega⟩
    rw [Ip4.optionCheck]
    simp only [h1, h3, if_true, py_ok_bind, py_pure]
    rw [if_neg (by decide), if_pos (by decide), if_neg (by omega)]
    exact ih f hlen fuel _ h4 hl (by omega)
  | @opt t l k n v hk hn _ ih =>
    intro f hlen fuel optr h hl hf
    obtain ⟨h1, h2, h3, h4⟩ := cons_of_drop h
    obtain ⟨g1, g2, g3, g4⟩ := cons_of_drop h4
    obtain ⟨fuel, rfl⟩ : ∃ m, fuel = m + 1 := ⟨fuel - 1, by omega⟩
    have hlen' := congrArg List.length g4
    simp at hlen'
    rw [Ip4.optionCheck]
    simp only [h1, h3, g3, if_true, py_ok_bind, py_pure]
    rw [if_neg (by omega), if_neg (by omega), if_neg (by omega), if_neg (by omega), if_neg (by omega)]
    refine ih f hlen fuel _ ?_ hl (by omega)
    rw [show optr + n.toNat = optr + 1 + 1 + v.length by omega, ← List.drop_drop, g4]
    simp

theorem valid_iff {b : Bytes} (h : b.length < 2 ^ 63) : inetCksum b = 0 ↔ Valid b := by
  have := C01_verify_rfc1071 [] b 2 0 rfl rfl h (by simp [wordSum])
  simpa [wordSum] using this

theorem Ip4.pshdrSum_eq (src dst : Ip4Address) {proto dlen : Nat} (hp : proto < 256) (hd : dlen < 65536) :
    Ip4.pshdrSum src dst proto dlen = .ok (wordSum 4 3 (pseudoHdr4 src dst proto dlen)) ∧
      (pseudoHdr4 src dst proto dlen).length = 12 := by
  have e : bePack 1 0 ++ (bePack 1 proto) = [0, UInt8.ofNat proto] := by simp [bePack]
  simp only [Ip4.pshdrSum, packB_ok (n := 0) (by omega), packB_ok hp, packH_ok hd, py_ok_bind, py_pure, Ip4Address.toBytes_eq, pseudoHdr4]
  rw [← e]
  constructor
  · simp only [List.append_assoc]
  · simp

theorem wordSum_bound (k n : Nat) (b : Bytes) : wordSum k n b ≤ n * 256 ^ k := by
  induction n generalizing b with
  | zero => simp [wordSum]
  | succ n ih =>
    rw [wordSum, Nat.succ_mul]
    have h1 := ih (b.drop k)
    have h2 := beNat_lt (b.take k)
    have h3 : 256 ^ (b.take k).length ≤ 256 ^ k := Nat.pow_le_pow_right (by decide) (by simp; omega)
    omega

theorem pseudoHdr4_iff (src dst : Ip4Address) {proto : Nat} {p : Bytes} (hl : p.length < 2 ^ 63) {ps : Nat}
    (hp : proto < 256) (hd : p.length < 65536) (h : Ip4.pshdrSum src dst proto p.length = .ok ps) :
    (inetCksum p ps = 0 ↔ Valid (pseudoHdr4 src dst proto p.length ++ p)) ∧ ps < 2 ^ 72 := by
  obtain ⟨h1, h2⟩ := Ip4.pshdrSum_eq src dst hp hd
  rw [h1] at h
  cases h
  have hb := wordSum_bound 4 3 (pseudoHdr4 src dst proto p.length)
  have : 3 * 256 ^ 4 < 2 ^ 72 := by decide
  exact ⟨C01_verify_rfc1071 _ _ 4 3 rfl h2 hl (by omega), by omega⟩

theorem low_bits (x m : Nat) (h : x % m = 0) (hm : m = 0x40) : x &&& 0b00100000 = 0 := by
  subst hm
  have : x &&& 0b00100000 = (x &&& 0x3F) &&& 0b00100000 := by rw [Nat.and_assoc]; rfl
  rw [this, show (0x3F : Nat) = 2 ^ 6 - 1 from rfl, Nat.and_two_pow_sub_one_eq_mod, show (2 : Nat) ^ 6 = 0x40 from rfl, h]
  rfl

theorem Ip4.accept {p : Bytes} {src dst : Ip4Address} {proto : Nat} {payload : Bytes} (H : Ip4Packet p src dst proto payload) :
    Ip4.parse p = .ok none ∧ ∃ h, Ip4.read p = .ok h ∧ h.src = src ∧ h.dst = dst ∧ h.proto = proto ∧ h.offset = 0 ∧ h.mf = false ∧
      h.dlen = payload.length ∧ h.rest.take h.dlen = payload ∧ h.dlen ≤ h.rest.length ∧ h.packetCopy = p.take (be p 2 2) ∧
      Ip4.pshdrSum src dst proto payload.length = .ok h.pshdrSum := by
  obtain ⟨⟨h1, ⟨h2, h2'⟩, h3, h4, h7, h8, h9, h11⟩, ⟨l, h5⟩, h6, h10⟩ := H
  have hlen : 20 ≤ p.length := by omega
  have b0 := idx_be (f := p) (i := 0) (by omega)
  have b1 := idx_be (f := p) (i := 1) (by omega)
  have b2 := u16_be (f := p) (i := 2) (by omega)
  have b4 := u16_be (f := p) (i := 4) (by omega)
  have b6 := idx_be (f := p) (i := 6) (by omega)
  have b6' := u16_be (f := p) (i := 6) (by omega)
  have b8 := idx_be (f := p) (i := 8) (by omega)
  have b9 := idx_be (f := p) (i := 9) (by omega)
  obtain ⟨s, b12, s'⟩ := ip4_be (f := p) (i := 12) (by omega)
  obtain ⟨d, b16, d'⟩ := ip4_be (f := p) (i := 16) (by omega)
  have es : s = src := by cases s; cases src; simp_all
  have ed : d = dst := by cases d; cases dst; simp_all
  subst es ed
  have hv : Ip4.ver p = .ok 4 := by
    simp only [Ip4.ver, b0, py_ok_bind, py_pure, Nat.shiftRight_eq_div_pow]
    rw [show (2 : Nat) ^ 4 = 16 from rfl, h1]
  generalize hhl : be p 0 1 % 16 * 4 = hl at *
  have hh : Ip4.hlen p = .ok hl := by
    simp only [Ip4.hlen, b0, py_ok_bind, py_pure]
    rw [and_F, Nat.shiftLeft_eq, show (2 : Nat) ^ 2 = 4 from rfl, hhl]
  have hmf : Ip4.flagMf p = .ok false := by
    simp only [Ip4.flagMf, b6, py_ok_bind, py_pure]
    rw [low_bits _ _ (h := ?_) rfl]
    · rfl
    · have := be_two (f := p) (i := 6) (by omega)
      have h7' := be_lt p 7 1
      simp only [Nat.reduceAdd] at this
      omega
  have hoff : Ip4.offset p = .ok 0 := by
    simp only [Ip4.offset, b6', py_ok_bind, py_pure]
    rw [show (0b0001111111111111 : Nat) = 2 ^ 13 - 1 from rfl, Nat.and_two_pow_sub_one_eq_mod]
    rw [show be p 6 2 % 2 ^ 13 = 0 by omega]
    rfl
  have hoc := Ip4.optionCheck_of_options h5 p hl (hl + 1) 20 rfl (by omega) (by omega)
  obtain ⟨os, hos⟩ := Ip4.optionsLoop_of_check p hl (hl + 1) 20 hoc
  have hopt : Ip4.options p = .ok os := by simp only [Ip4.options, hh, py_ok_bind, hos]
  have hck : inetCksum (p.take hl) = 0 := by
    rw [valid_iff]
    · exact h4
    · have := be_lt p 2 2
      simp; omega
  have hint : Ip4.integrity p = .ok none := by
    simp only [Ip4.integrity, hh, Ip4.plen, b2, py_ok_bind, py_pure, if_neg (show ¬ p.length < 20 by omega), hck]
    rw [if_neg (by omega)]
    simpa using hoc
  have hsrc : Ip4.src p = .ok s := b12
  have hm : s.isMulticast = false := by
    rw [Bool.eq_false_iff, ne_eq, (C08_ip4_classes_partial s).2.2.2.2.1]
    simp only [cidr, dot, Nat.reduceSub, Nat.reducePow, Nat.reduceDiv, Nat.reduceMul, Nat.reduceAdd]
    omega
  have hr : s.isReserved = false := by
    rw [Bool.eq_false_iff, ne_eq, C08_reserved_partial s]
    simp only [cidr, dot, Nat.reduceSub, Nat.reducePow, Nat.reduceDiv, Nat.reduceMul, Nat.reduceAdd]
    omega
  have hb : s.isLimitedBroadcast = false := by
    simp only [Ip4Address.isLimitedBroadcast, beq_eq_false_iff_ne]
    omega
  refine ⟨?_, ?_⟩
  · simp only [Ip4.parse, hint, py_ok_bind, Ip4.sanity, hv, hsrc, hm, hr, hb, hmf, hoff, hopt, py_pure]
    simp [Ip4.flagDf, b6]
  · have hpl := be_lt p 2 2
    have hpr := be_lt p 9 1
    obtain ⟨hps, -⟩ := Ip4.pshdrSum_eq s d (proto := proto) (dlen := be p 2 2 - hl) (by omega) (by omega)
    have hpay : payload.length = be p 2 2 - hl := by rw [h11]; simp; omega
    refine ⟨?hd, ?rd, ?fs⟩
    rotate_left
    · simp only [Ip4.read, hh, Ip4.plen, b2, hsrc, Ip4.dst, b16, Ip4.proto, b9, h7, Ip4.dscp, Ip4.ecn, b1, Ip4.id, b4, Ip4.flagDf, b6, hmf, hoff,
        Ip4.ttl, b8, hopt, hps, py_ok_bind, py_pure]
      rfl
    · refine ⟨rfl, rfl, rfl, rfl, rfl, hpay.symm, ?_, ?_, rfl, ?_⟩
      · rw [h11]
        simp only [sliceFrom]
        rw [List.drop_take]
      · simp [sliceFrom]; omega
      · rw [hpay]; exact hps

/-- What the parser accepts is an IPv4 packet. -/
theorem Ip4.sound {p : Bytes} {h : Ip4.Hdr} (H : Ip4.parse p = .ok none) (hr : Ip4.read p = .ok h) :
    Ip4Fields p h.src h.dst h.proto (h.rest.take h.dlen) ∧ h.dlen = (h.rest.take h.dlen).length ∧ h.dlen < 65536 := by
  obtain ⟨r, hr', h1, h2, h3, h4, h5, h6, h7, -⟩ := C26_ip4_accepted_partial p H
  have := Except.ok.inj (hr'.symm.trans hr)
  subst this
  have hdl := Ip4.read_dlen hr
  have b0 := idx_be (f := p) (i := 0) (by omega)
  have b1 := idx_be (f := p) (i := 1) (by omega)
  have b2 := u16_be (f := p) (i := 2) (by omega)
  have b4 := u16_be (f := p) (i := 4) (by omega)
  have b6 := idx_be (f := p) (i := 6) (by omega)
  have b6' := u16_be (f := p) (i := 6) (by omega)
  have b8 := idx_be (f := p) (i := 8) (by omega)
  have b9 := idx_be (f := p) (i := 9) (by omega)
  obtain ⟨s, b12, s'⟩ := ip4_be (f := p) (i := 12) (by omega)
  obtain ⟨d, b16, d'⟩ := ip4_be (f := p) (i := 16) (by omega)
  have hh : Ip4.hlen p = .ok (be p 0 1 % 16 * 4) := by
    simp only [Ip4.hlen, b0, py_ok_bind, py_pure]
    rw [and_F, Nat.shiftLeft_eq, show (2 : Nat) ^ 2 = 4 from rfl]
  have hv : be p 0 1 / 16 = 4 := by
    obtain ⟨x, hx1, hx2⟩ := idx_some b0
    rw [hx1] at h1
    simp at h1
    rw [← hx2, h1]
  simp only [Ip4.read, hh, Ip4.plen, b2, Ip4.src, b12, Ip4.dst, b16, Ip4.proto, b9, Ip4.dscp, Ip4.ecn, b1, Ip4.id, b4, Ip4.flagDf, b6,
    Ip4.flagMf, Ip4.offset, b6', Ip4.ttl, b8, py_ok_bind, py_pure] at hr
  cases ho : Ip4.options p with
  | error e => simp [ho] at hr
  | ok o =>
    cases hps : Ip4.pshdrSum s d (be p 9 1) (be p 2 2 - be p 0 1 % 16 * 4) with
    | error e => simp [ho, hps] at hr
    | ok ps =>
      simp only [ho, hps, py_ok_bind] at hr
      have hr := Except.ok.inj hr
      subst hr
      dsimp only at *
      refine ⟨⟨hv, ⟨h3, h4⟩, h5, ?_, rfl, s', d', ?_⟩, ?_, hdl⟩
      · rw [← valid_iff (by simp; omega)]
        exact (verifies_iff (by simp; omega) (by omega)).mpr h7
      · simp only [sliceFrom]
        rw [List.drop_take]
      · simp [sliceFrom]; omega

/-- An IPv4 packet brought by a frame. -/
theorem Spec.Brings4.holds {n : Node} {F : Bytes} {src dst : Ip4Address} {proto : Nat} {p : Bytes} (H : Brings4 n F src dst proto p) :
    ∃ h, HoldsIp4 n F h ∧ h.src = src ∧ h.dst = dst ∧ h.proto = proto ∧ h.dlen = p.length ∧ h.rest.take p.length = p ∧
      p.length ≤ h.rest.length ∧ h.packetCopy = ipPacket F ∧ proto < 256 ∧ p.length < 65536 ∧
      Ip4.pshdrSum src dst proto p.length = .ok h.pshdrSum := by
  obtain ⟨h1, h2, h3, h4, h5⟩ := H
  obtain ⟨e, he, het, hed⟩ := ether_accept h1 h2 (by omega)
  obtain ⟨a1, h, a2, rfl, rfl, a5, a6, a7, a8, a9, a10, a11, a12⟩ := Ip4.accept h4
  have hpr := be_lt (F.drop 14) 9 1
  rw [h4.hasProto] at hpr
  have hpl := be_lt (F.drop 14) 2 2
  have hlen : p.length < 65536 := by
    have := congrArg List.length h4.hasPayload
    simp at this
    omega
  refine ⟨h, ⟨e, he, by rw [het, h3], by rw [hed]; exact a1, by rw [hed]; exact a2, h5, a6, a7⟩, rfl, rfl, a5, a8, by rw [← a8]; exact a9,
    by rw [← a8]; exact a10, ?_, hpr, hlen, a12⟩
  rw [a11, ipPacket, if_pos h3, be_drop]

/-! ### IPv6 -/

theorem Ip6.pshdrSum_eq (src dst : Ip6Address) {next dlen : Nat} (hp : next < 256) (hd : dlen < 65536) :
    Ip6.pshdrSum src dst dlen next = .ok (wordSum 8 5 (pseudoHdr6 src dst next dlen)) ∧ (pseudoHdr6 src dst next dlen).length = 40 := by
  have e : bePack 1 0 ++ (bePack 1 0 ++ (bePack 1 0 ++ bePack 1 next)) = [0, 0, 0, UInt8.ofNat next] := by simp [bePack]
  simp only [Ip6.pshdrSum, packB_ok (n := 0) (by omega), packB_ok hp, packL_ok (show dlen < 4294967296 by omega), py_ok_bind, py_pure,
    Ip6Address.toBytes_eq, pseudoHdr6]
  rw [← e]
  constructor
  · simp only [List.append_assoc]
  · simp

theorem pseudoHdr6_iff (src dst : Ip6Address) {next : Nat} {p : Bytes} {ps : Nat} (hp : next < 256) (hd : p.length < 65536)
    (h : Ip6.pshdrSum src dst p.length next = .ok ps) :
    (inetCksum p ps = 0 ↔ Valid (pseudoHdr6 src dst next p.length ++ p)) ∧ ps < 2 ^ 72 := by
  obtain ⟨h1, h2⟩ := Ip6.pshdrSum_eq src dst hp hd
  have h := Except.ok.inj (h1.symm.trans h)
  subst h
  have hb := wordSum_bound 8 5 (pseudoHdr6 src dst next p.length)
  have : 5 * 256 ^ 8 < 2 ^ 72 := by decide
  exact ⟨C01_verify_rfc1071 _ _ 8 5 rfl h2 (by omega) (by omega), by omega⟩

theorem Ip6.multicast_first {p : Bytes} {s : Ip6Address} (s' : s.int = be p 8 16) (h2 : 40 ≤ p.length) :
    s.isMulticast = true ↔ be p 8 1 = 255 := by
  rw [(C09_ip6_classes s).2.2.2.2.2.1]
  have hb : be p 8 16 / 256 ^ 15 = be p 8 1 := by
    have e : (p.drop 8).take 16 = (p.drop 8).take 1 ++ ((p.drop 9).take 15) := by
      rw [show p.drop 9 = (p.drop 8).drop 1 by rw [List.drop_drop], show (16 : Nat) = 1 + 15 from rfl, List.take_add]
    have hl : ((p.drop 9).take 15).length = 15 := by simp; omega
    have hlt := beNat_lt ((p.drop 9).take 15)
    rw [hl] at hlt
    rw [be, e, beNat_append, hl, be]
    rw [Nat.mul_comm, Nat.mul_add_div (by decide), Nat.div_eq_of_lt hlt, Nat.add_zero]
  simp only [cidr, hextet, Nat.reduceSub, Nat.reducePow, Nat.reduceMul] at hb ⊢
  have hlt := s.lt
  omega

theorem Ip6.accept {p : Bytes} {src dst : Ip6Address} {hop next : Nat} {payload : Bytes} (H : Ip6Packet p src dst hop next payload) :
    Ip6.parse p = .ok none ∧ ∃ h, Ip6.read p = .ok h ∧ h.src = src ∧ h.dst = dst ∧ h.next = next ∧ h.hop = hop ∧
      h.dlen = payload.length ∧ h.rest = payload ∧ h.packetCopy = p ∧ next < 256 ∧ payload.length < 65536 ∧
      Ip6.pshdrSum src dst payload.length next = .ok h.pshdrSum := by
  obtain ⟨h1, ⟨h2, h3⟩, h4, h5, h6, h7, h8, h9, h10⟩ := H
  have b0 := idx_be (f := p) (i := 0) (by omega)
  have b1 := idx_be (f := p) (i := 1) (by omega)
  have b2 := idx_be (f := p) (i := 2) (by omega)
  have b3 := idx_be (f := p) (i := 3) (by omega)
  have b4 := u16_be (f := p) (i := 4) (by omega)
  have b6 := idx_be (f := p) (i := 6) (by omega)
  have b7 := idx_be (f := p) (i := 7) (by omega)
  obtain ⟨s, b8, s'⟩ := ip6_be (f := p) (i := 8) (by omega)
  obtain ⟨d, b24, d'⟩ := ip6_be (f := p) (i := 24) (by omega)
  have es : s = src := by cases s; cases src; simp_all
  have ed : d = dst := by cases d; cases dst; simp_all
  subst es ed
  have hv : Ip6.ver p = .ok 6 := by
    simp only [Ip6.ver, b0, py_ok_bind, py_pure, Nat.shiftRight_eq_div_pow]
    rw [show (2 : Nat) ^ 4 = 16 from rfl, h1]
  have hsrc : Ip6.src p = .ok s := b8
  have hm : s.isMulticast = false := by
    rw [Bool.eq_false_iff, ne_eq, Ip6.multicast_first s' (by omega)]
    exact h9
  have hdl := be_lt p 4 2
  have hnx := be_lt p 6 1
  have hpay : payload.length = be p 4 2 := by rw [h10, h3]; simp
  obtain ⟨hps, -⟩ := Ip6.pshdrSum_eq s d (next := next) (dlen := be p 4 2) (by omega) (by omega)
  refine ⟨?_, ?hd, ?rd, ?fs⟩
  · simp only [Ip6.parse, b4, hv, Ip6.hop, b7, h5, hsrc, hm, py_ok_bind, py_pure, h3]
    rw [if_neg (by omega), if_neg (by omega), if_neg (by omega), if_neg h6, if_neg (by simp)]
  rotate_left
  · simp only [Ip6.read, Ip6.dlen, b4, Ip6.next, b6, h4, hsrc, Ip6.dst, b24, Ip6.dscp, b0, b1, Ip6.ecn, Ip6.flow, b2, b3, Ip6.hop, b7, hps,
      py_ok_bind, py_pure]
    rfl
  · refine ⟨rfl, rfl, rfl, h5, hpay.symm, h10.symm, ?_, by omega, by omega, by rw [hpay]; exact hps⟩
    exact List.take_of_length_le (by omega)

/-- What the parser accepts is an IPv6 packet. -/
theorem Ip6.sound {p : Bytes} {h : Ip6.Hdr} (H : Ip6.parse p = .ok none) (hr : Ip6.read p = .ok h) :
    Ip6Packet p h.src h.dst h.hop h.next h.rest ∧ h.dlen = h.rest.length ∧ h.dlen < 65536 ∧
      Ip6.pshdrSum h.src h.dst h.rest.length h.next = .ok h.pshdrSum := by
  obtain ⟨r, hr', h1, h2, h3, h4, h5, h6, h7, -, -, h8⟩ := C26_ip6_accepted p H
  have := Except.ok.inj (hr'.symm.trans hr)
  subst this
  have b0 := idx_be (f := p) (i := 0) (by omega)
  have b1 := idx_be (f := p) (i := 1) (by omega)
  have b2 := idx_be (f := p) (i := 2) (by omega)
  have b3 := idx_be (f := p) (i := 3) (by omega)
  have b4 := u16_be (f := p) (i := 4) (by omega)
  have b6 := idx_be (f := p) (i := 6) (by omega)
  have b7 := idx_be (f := p) (i := 7) (by omega)
  obtain ⟨s, b8, s'⟩ := ip6_be (f := p) (i := 8) (by omega)
  obtain ⟨d, b24, d'⟩ := ip6_be (f := p) (i := 24) (by omega)
  have hv : be p 0 1 / 16 = 6 := by
    obtain ⟨x, hx1, hx2⟩ := idx_some b0
    rw [hx1] at h3
    simp at h3
    rw [← hx2, h3]
  have hdl := be_lt p 4 2
  have hnx := be_lt p 6 1
  obtain ⟨hps, -⟩ := Ip6.pshdrSum_eq s d (next := be p 6 1) (dlen := be p 4 2) (by omega) (by omega)
  simp only [Ip6.read, Ip6.dlen, b4, Ip6.next, b6, Ip6.src, b8, Ip6.dst, b24, Ip6.dscp, b0, b1, Ip6.ecn, Ip6.flow, b2, b3, Ip6.hop, b7, hps,
      py_ok_bind, py_pure] at hr
  have hr := Except.ok.inj hr
  subst hr
  dsimp only at *
  refine ⟨⟨hv, ⟨h1, by omega⟩, rfl, rfl, h4, s', d', ?_, h8⟩, h6.symm, by omega, by rw [h6]; exact hps⟩
  intro h255
  rw [(Ip6.multicast_first s' h1).mpr h255] at h5
  cases h5

/-- An IPv6 packet brought by a frame. -/
theorem Spec.Brings6.holds {n : Node} {F : Bytes} {src dst : Ip6Address} {hop next : Nat} {p : Bytes} (H : Brings6 n F src dst hop next p) :
    ∃ h, HoldsIp6 n F h ∧ h.src = src ∧ h.dst = dst ∧ h.next = next ∧ h.hop = hop ∧ h.dlen = p.length ∧ h.rest = p ∧
      h.packetCopy = ipPacket F ∧ next < 256 ∧ p.length < 65536 ∧ Ip6.pshdrSum src dst p.length next = .ok h.pshdrSum := by
  obtain ⟨h1, h2, h3, h4, h5⟩ := H
  obtain ⟨e, he, het, hed⟩ := ether_accept h1 h2 (by omega)
  obtain ⟨a1, h, a2, rfl, rfl, a5, a6, a7, a8, a9, a10, a11, a12⟩ := Ip6.accept h4
  refine ⟨h, ⟨e, he, by rw [het, h3], by rw [hed]; exact a1, by rw [hed]; exact a2, h5⟩, rfl, rfl, a5, a6, a7, a8, ?_, a10, a11, a12⟩
  rw [a9, ipPacket, if_neg (by omega)]

/-- A payload brought by a frame, with its checksum. -/
theorem Spec.Brings.holds {n : Node} {F : Bytes} {src dst : IpAddress} {proto : Nat} {p : Bytes} (H : Brings n F src dst proto p) :
    ∃ ip f, HoldsIp n F ip proto f ∧ ip.src = src ∧ ip.dst = dst ∧ ip.dlen = p.length ∧ f.take p.length = p ∧ p.length ≤ f.length ∧
      ip.packetCopy = ipPacket F ∧ p.length < 65536 ∧ inetCksum p ip.pshdrSum = 0 := by
  cases H with
  | v4 H hv =>
    obtain ⟨h, a1, rfl, rfl, rfl, a5, a6, a7, a8, a9, a10, a11⟩ := H.holds
    exact ⟨_, _, .inl ⟨h, a1, rfl, rfl, rfl⟩, rfl, rfl, a5, a6, a7, a8, a10, (pseudoHdr4_iff _ _ (by omega) a9 a10 a11).1.mpr hv⟩
  | v6 H hv =>
    obtain ⟨h, a1, rfl, rfl, rfl, a5, a6, rfl, a8, a9, a10, a11⟩ := H.holds
    exact ⟨_, _, .inr ⟨h, a1, rfl, rfl, rfl⟩, rfl, rfl, a6, by simp, Nat.le_refl _, a8, a10, (pseudoHdr6_iff _ _ a9 a10 a11).1.mpr hv⟩

end Verif
