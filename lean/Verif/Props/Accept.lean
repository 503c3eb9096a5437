import Verif.Spec.Accept
import Verif.Lemmas.WireNd
import Verif.Lemmas.WireTcp
/-! C106: which ARP, UDP, ICMP and ICMPv6 messages the parsers accept. -/
namespace Verif
open Spec

theorem C106_arp (p : Bytes) : Arp.parse p = .ok none ↔ ArpInOrder p := by
  unfold Arp.parse ArpInOrder
  by_cases h : p.length < 28
  · simp only [codec, if_pos h]
    constructor
    · intro x; cases x
    · intro x; omega
  · simp only [Arp.hrtype, Arp.prtype, Arp.hrlen, Arp.prlen, Arp.oper, if_neg h, u16_be (show 0 + 2 ≤ p.length by omega),
      u16_be (show 2 + 2 ≤ p.length by omega), idx_be (show 4 < p.length by omega), idx_be (show 5 < p.length by omega),
      u16_be (show 6 + 2 ≤ p.length by omega), codec]
    repeat' split
    all_goals simp_all
    all_goals omega

theorem be_pad {p pad : Bytes} {i k : Nat} (h : i + k ≤ p.length) : be (p ++ pad) i k = be p i k :=
  be_of_take (List.take_left (l₁ := p) (l₂ := pad)) h

theorem Udp.accepts (p pad : Bytes) (ps : Nat) : Udp.parse (p ++ pad) p.length ps = .ok none ↔ inetCksum p ps = 0 ∧ UdpInOrder p := by
  unfold Udp.parse UdpInOrder
  rw [List.take_left]
  have hfl : (p ++ pad).length = p.length + pad.length := List.length_append
  by_cases h0 : inetCksum p ps = 0
  · by_cases h : 8 ≤ p.length
    · simp only [Udp.sport, Udp.dport, u16_be (show 0 + 2 ≤ (p ++ pad).length by omega), u16_be (show 2 + 2 ≤ (p ++ pad).length by omega),
        u16_be (show 4 + 2 ≤ (p ++ pad).length by omega), be_pad (show 0 + 2 ≤ p.length by omega), be_pad (show 2 + 2 ≤ p.length by omega),
        be_pad (show 4 + 2 ≤ p.length by omega), codec, h0]
      repeat' split
      all_goals simp_all
      all_goals omega
    · simp only [codec, h0]
      repeat' split
      all_goals simp_all
  · simp [codec, h0]

/-- C106: a UDP datagram in an IPv4 packet, with link-layer padding behind it, is accepted if its checksum is right and it is in order, and only then. -/
theorem C106_udp4 (src dst : Ip4Address) (p pad : Bytes) (hl : p.length < 65536) (ps : Nat) (hp : Ip4.pshdrSum src dst 17 p.length = .ok ps) :
    Udp.parse (p ++ pad) p.length ps = .ok none ↔ Valid (pseudoHdr4 src dst 17 p.length ++ p) ∧ UdpInOrder p := by
  rw [Udp.accepts, (pseudoHdr4_iff src dst (by omega) (by decide) hl hp).1]

theorem C106_udp6 (src dst : Ip6Address) (p : Bytes) (hl : p.length < 65536) (ps : Nat) (hp : Ip6.pshdrSum src dst p.length 17 = .ok ps) :
    Udp.parse p p.length ps = .ok none ↔ Valid (pseudoHdr6 src dst 17 p.length ++ p) ∧ UdpInOrder p := by
  have := Udp.accepts p [] ps
  rw [List.append_nil] at this
  rw [this, (pseudoHdr6_iff src dst (by decide) hl hp).1]

/-- C106: the same for an ICMP message. -/
theorem C106_icmp4 (p pad : Bytes) (hl : p.length < 65536) : Icmp4.parse (p ++ pad) p.length = .ok none ↔ Valid p ∧ Icmp4InOrder p := by
  rw [← valid_iff (by omega)]
  unfold Icmp4.parse Icmp4InOrder
  rw [List.take_left]
  have hfl : (p ++ pad).length = p.length + pad.length := List.length_append
  by_cases h0 : inetCksum p = 0
  · by_cases h : 4 ≤ p.length
    · simp only [Icmp4.type, Icmp4.code, idx_be (show 0 < (p ++ pad).length by omega), idx_be (show 1 < (p ++ pad).length by omega),
        be_pad (show 0 + 1 ≤ p.length by omega), be_pad (show 1 + 1 ≤ p.length by omega), codec, h0, hfl]
      generalize be p 0 1 = t
      generalize be p 1 1 = c
      generalize p.length = n at h
      by_cases t8 : t = 8 ∨ t = 0
      · have t3 : t ≠ 3 := by omega
        have t8' : t = 0 ∨ t = 8 := t8.symm
        by_cases hn : 8 ≤ n <;> by_cases hc : c = 0 <;> simp [t8, t3, hn, hc, h, t8']
      · by_cases t3 : t = 3
        · by_cases hn : 12 ≤ n <;> by_cases hc : c ≤ 15 <;> simp [t3, hn, hc, h]
        · have t8' : ¬ (t = 0 ∨ t = 8) := by omega
          simp [t8, t3, h, t8']
    · simp [codec, h0, h]
  · simp [codec, h0]

theorem Icmp6.records (f : Bytes) : ∀ k optr, Icmp6.recordCheck f f.length k optr = .ok none ↔ optr ≤ f.length ∧ Records 1 k (f.drop optr) := by
  intro k
  induction k with
  | zero =>
    intro optr
    unfold Icmp6.recordCheck
    split
    · constructor
      · intro h; cases h
      · rintro ⟨h1, h2⟩
        have : (f.drop optr).length = 0 := by
          generalize f.drop optr = x at h2
          cases h2; rfl
        rw [List.length_drop] at this; omega
    · rename_i h
      have h : optr = f.length := by omega
      subst h
      exact ⟨fun _ => ⟨Nat.le_refl _, by rw [List.drop_length]; exact .nil⟩, fun _ => rfl⟩
  | succ k ih =>
    intro optr
    unfold Icmp6.recordCheck
    split
    · rename_i h
      constructor
      · intro h; cases h
      · rintro ⟨h1, h2⟩
        have : 20 ≤ (f.drop optr).length := by
          generalize f.drop optr = x at h2
          cases h2 with
          | cons hd body h _ _ => simp only [List.length_append]; omega
        rw [List.length_drop] at this; omega
    · rename_i h
      rw [idx_be (show optr + 1 < f.length by omega), u16_be (show optr + 2 + 2 ≤ f.length by omega)]
      simp only [codec]
      rw [ih]
      have e1 : be ((f.drop optr).take 20) 1 1 = be f (optr + 1) 1 := by rw [be_take _ _ _ _ (by omega)]; simp [be, List.drop_drop]
      have e2 : be ((f.drop optr).take 20) 2 2 = be f (optr + 2) 2 := by rw [be_take _ _ _ _ (by omega)]; simp [be, List.drop_drop]
      constructor
      · rintro ⟨h1, h2⟩
        refine ⟨by omega, ?_⟩
        have hs : f.drop optr = (f.drop optr).take 20 ++ ((f.drop (optr + 20)).take (be f (optr + 1) 1 + 16 * be f (optr + 2) 2)) ++
            f.drop (optr + (20 + be f (optr + 1) 1 + be f (optr + 2) 2 * 16)) := by
          rw [List.append_assoc, show optr + (20 + be f (optr + 1) 1 + be f (optr + 2) 2 * 16) = (optr + 20) + (be f (optr + 1) 1 + 16 * be f (optr + 2) 2) by omega,
            ← List.drop_drop (l := f) (i := be f (optr + 1) 1 + 16 * be f (optr + 2) 2), List.take_append_drop, ← List.drop_drop, List.take_append_drop]
        rw [hs]
        refine .cons _ _ ?_ ?_ h2
        · rw [List.length_take, List.length_drop]; omega
        · rw [e1, e2, List.length_take, List.length_drop]; omega
      · rintro ⟨h1, h2⟩
        generalize hx : f.drop optr = x at h2 e1 e2
        cases h2 with
        | @cons _ rest hd body h3 h4 h5 =>
          have e0 : (hd ++ body ++ rest).take 20 = hd := by rw [List.append_assoc, ← h3, List.take_left]
          rw [e0] at e1 e2
          rw [e1, e2] at h4
          have hl : (f.drop optr).length = hd.length + body.length + rest.length := by rw [hx]; simp [Nat.add_assoc]
          rw [List.length_drop] at hl
          refine ⟨by omega, ?_⟩
          have : f.drop (optr + (20 + be f (optr + 1) 1 + be f (optr + 2) 2 * 16)) = rest := by
            rw [← List.drop_drop, hx, show 20 + be f (optr + 1) 1 + be f (optr + 2) 2 * 16 = (hd ++ body).length by simp; omega, List.drop_left]
          rw [this]; exact h5

/-- C106: the same for an ICMPv6 message that is not of neighbour discovery (for those see C38 and C76).  Partial: the auxiliary data of a multicast report is
counted in bytes, which is not what RFC 3810 says, see `C106_aux_witness`. -/
theorem C106_icmp6_partial (src dst : Ip6Address) (hop : Nat) (p : Bytes) (hl : p.length < 65536) (ps : Nat)
    (hp : Ip6.pshdrSum src dst p.length 58 = .ok ps) (ht : be p 0 1 < 133 ∨ 136 < be p 0 1) :
    Icmp6.parse p p.length ps src dst hop = .ok none ↔ Valid (pseudoHdr6 src dst 58 p.length ++ p) ∧ Icmp6InOrder 1 p hop := by
  rw [← (pseudoHdr6_iff src dst (by decide) hl hp).1]
  unfold Icmp6.parse Icmp6.integrity
  rw [List.take_length]
  by_cases h0 : inetCksum p ps = 0
  swap
  · simp [codec, h0]
  by_cases h4 : 4 ≤ p.length
  swap
  · constructor
    · intro h; simp [codec, h0, h4] at h
    · intro h; exact absurd h.2.length h4
  rw [if_neg (by simp [h0]), if_neg (by simp [h4])]
  simp only [h0, true_and]
  unfold Icmp6.integrityOf Icmp6.sanity Icmp6.badLength Icmp6.type Icmp6.code
  rw [idx_be (show 0 < p.length by omega), idx_be (show 1 < p.length by omega)]
  have hr := Icmp6.records p (be p 6 2) 8
  by_cases t1 : be p 0 1 = 1
  · rw [t1]
    simp only [codec]
    constructor
    · intro h
      by_cases hn : 12 ≤ p.length <;> by_cases hc : be p 1 1 ≤ 6 <;> simp [hn, hc] at h
      exact ⟨h4, fun _ => ⟨hn, hc⟩, by omega, by omega, by omega, by omega, by omega, by omega⟩
    · intro h
      obtain ⟨a, b⟩ := h.unreachable t1
      simp [a, b]
  by_cases t2 : be p 0 1 = 2
  · rw [t2]
    simp only [codec]
    constructor
    · intro h
      by_cases hc : be p 1 1 = 0 <;> simp [hc] at h
      exact ⟨h4, by omega, fun _ => hc, by omega, by omega, by omega, by omega, by omega⟩
    · intro h
      have := h.tooBig t2
      simp [this]
  by_cases t3 : be p 0 1 = 3
  · rw [t3]
    simp only [codec]
    constructor
    · intro h
      by_cases hc : be p 1 1 ≤ 1 <;> simp [hc] at h
      exact ⟨h4, by omega, by omega, fun _ => hc, by omega, by omega, by omega, by omega⟩
    · intro h
      have := h.timeExceeded t3
      simp [this]
  by_cases t4 : be p 0 1 = 4
  · rw [t4]
    simp only [codec]
    constructor
    · intro h
      by_cases hc : be p 1 1 ≤ 2 <;> simp [hc] at h
      exact ⟨h4, by omega, by omega, by omega, fun _ => hc, by omega, by omega, by omega⟩
    · intro h
      have := h.parameter t4
      simp [this]
  by_cases t128 : be p 0 1 = 128
  · rw [t128]
    simp only [codec]
    constructor
    · intro h
      by_cases hn : 8 ≤ p.length <;> by_cases hc : be p 1 1 = 0 <;> simp [hn, hc] at h
      exact ⟨h4, by omega, by omega, by omega, by omega, fun _ => ⟨hn, hc⟩, by omega, by omega⟩
    · intro h
      obtain ⟨a, b⟩ := h.echo (.inl t128)
      simp [a, b]
  by_cases t129 : be p 0 1 = 129
  · rw [t129]
    simp only [codec]
    constructor
    · intro h
      by_cases hn : 8 ≤ p.length <;> by_cases hc : be p 1 1 = 0 <;> simp [hn, hc] at h
      exact ⟨h4, by omega, by omega, by omega, by omega, fun _ => ⟨hn, hc⟩, by omega, by omega⟩
    · intro h
      obtain ⟨a, b⟩ := h.echo (.inr t129)
      simp [a, b]
  by_cases t130 : be p 0 1 = 130
  · rw [t130]
    simp only [codec]
    by_cases hn : 28 ≤ p.length
    · rw [u16_be (show 26 + 2 ≤ p.length by omega)]
      constructor
      · intro h
        by_cases hc : be p 1 1 = 0 <;> by_cases hh : hop = 1 <;> by_cases hq : p.length = 28 + be p 26 2 * 16 <;> simp [hn, hc, hh, hq, codec] at h
        · exact ⟨h4, by omega, by omega, by omega, by omega, by omega, fun _ => ⟨hn, by omega, hc, hh⟩, by omega⟩
      · intro h
        obtain ⟨a, b, c, d⟩ := h.query t130
        have e : ¬ p.length ≠ 28 + be p 26 2 * 16 := by omega
        simp only [codec, if_neg e, c, d]
        simp [hn]
    · constructor
      · intro h; simp [hn] at h
      · intro h; exact absurd (h.query t130).1 hn
  by_cases t143 : be p 0 1 = 143
  · rw [t143]
    simp only [codec]
    by_cases hn : 8 ≤ p.length
    · rw [u16_be (show 6 + 2 ≤ p.length by omega)]
      constructor
      · intro h
        simp only [codec, hn] at h
        cases hx : Icmp6.recordCheck p p.length (be p 6 2) 8 with
        | error e => simp [hx] at h
        | ok r =>
          cases r with
          | some e => simp [hx] at h
          | none =>
            by_cases hc : be p 1 1 = 0 <;> by_cases hh : hop = 1 <;> simp [hx, hc, hh] at h
            exact ⟨h4, by omega, by omega, by omega, by omega, by omega, by omega, fun _ => ⟨hn, (hr.1 hx).2, hc, hh⟩⟩
      · intro h
        obtain ⟨a, b, c, d⟩ := h.report t143
        simp [hn, c, d, codec, hr.2 ⟨hn, b⟩]
    · constructor
      · intro h; simp [hn] at h
      · intro h; exact absurd (h.report t143).1 hn
  have h133 : be p 0 1 ≠ 133 := by omega
  have h134 : be p 0 1 ≠ 134 := by omega
  have h135 : be p 0 1 ≠ 135 := by omega
  have h136 : be p 0 1 ≠ 136 := by omega
  constructor
  · intro _
    exact ⟨h4, by omega, by omega, by omega, by omega, by omega, by omega, by omega⟩
  · intro _
    simp [codec, t1, t2, t3, t4, t128, t129, t130, t143, h133, h134, h135, h136]

/-- The parser on a router solicitation. -/
theorem Icmp6.parse_rs {p : Bytes} {ps hop : Nat} {src dst : Ip6Address} {opts : List (Nat × Bytes)} (H : IsNd 133 8 p opts) (hs : src.int ≠ 0) (hck : inetCksum p ps = 0) :
    Icmp6.parse p p.length ps src dst hop = .ok none ↔ GoodRs src dst hop p opts := by
  obtain ⟨h1, h2, h3⟩ := H
  obtain ⟨w1, w2, w3⟩ := Icmp6.walk h3 p p.length 8 rfl (by omega)
  have b0 : idx p 0 = .ok 133 := by rw [idx_be (by omega), h2]
  have b1 := idx_be (f := p) (i := 1) (by omega)
  have hint : Icmp6.integrity p p.length ps = .ok none := by
    rw [Icmp6.integrity, List.take_length, hck, if_neg (by simp), if_neg (by omega), b0]
    simp only [py_ok_bind, Icmp6.integrityOf]
    rw [if_neg (by omega), if_neg (by omega), if_neg (by omega), if_pos trivial, if_neg (by omega), w1]
  have hsan : Icmp6.sanity p src dst hop = Icmp6.sanityRs p src dst hop (be p 1 1) := by
    simp only [Icmp6.sanity, Icmp6.type, Icmp6.code, b0, b1, py_ok_bind]
    rfl
  have key : ∃ r, Icmp6.sanityRs p src dst hop (be p 1 1) = .ok r ∧ (r = none ↔ GoodRs src dst hop p opts) := by
    simp only [Icmp6.sanityRs, py_ok_bind, GoodRs]
    by_cases c1 : be p 1 1 = 0
    · rw [if_neg (by simpa using c1)]
      by_cases c2 : hop = 255
      · rw [if_neg (by simpa using c2)]
        by_cases c3 : src.int = 0 ∨ Unicast6 src
        · rw [if_neg (by simp only [Bool.not_eq_true', Bool.not_eq_false, Bool.or_eq_true, unicast6_iff, unspecified6_iff]; exact c3.symm)]
          by_cases c4 : dst = Icmp6.allRouters
          · rw [if_neg (not_not.2 c4)]
            rw [if_neg (by rw [unspecified6_iff]; exact hs)]
            exact ⟨_, rfl, ⟨fun _ => ⟨c1, c2, c3, c4, fun h => (hs h).elim⟩, fun _ => rfl⟩⟩
          · rw [if_pos c4]
            exact ⟨_, rfl, ⟨fun h => (by cases h), fun h => absurd h.2.2.2.1 c4⟩⟩
        · rw [if_pos (by
            simp only [Bool.not_eq_true', Bool.eq_false_iff, ne_eq, Bool.or_eq_true, unicast6_iff, unspecified6_iff]
            exact fun h => c3 h.symm)]
          exact ⟨_, rfl, by simp [c3]⟩
      · rw [if_pos c2]
        exact ⟨_, rfl, by simp [c2]⟩
    · rw [if_pos c1]
      exact ⟨_, rfl, by simp [c1]⟩
  obtain ⟨r, r1, r2⟩ := key
  have hparse : Icmp6.parse p p.length ps src dst hop = .ok r := by
    simp only [Icmp6.parse, hint, py_ok_bind, hsan, r1]
  rw [hparse, ← r2]
  exact ⟨Except.ok.inj, fun h => by rw [h]⟩

/-- C106: a message of neighbour discovery is accepted if its checksum is right and it is in order, and only then.  Partial: its prefix options, if it has
any, are such that they can be read (otherwise the parser may raise, `C25_icmp6_short_prefix_witness`), and a router solicitation has a source
(otherwise the parser may hang, `C25_icmp6_hang_witness`). -/
theorem C106_nd_partial (src dst : Ip6Address) (hop : Nat) (p : Bytes) (hl : p.length < 65536) (ps : Nat)
    (hp : Ip6.pshdrSum src dst p.length 58 = .ok ps) (ht : 133 ≤ be p 0 1 ∧ be p 0 1 ≤ 136)
    (hs : be p 0 1 = 133 → src.int ≠ 0)
    (hg : ∀ opts, NdOptions (p.drop (ndSize (be p 0 1))) opts → GoodPrefixes opts) :
    Icmp6.parse p p.length ps src dst hop = .ok none ↔ Valid (pseudoHdr6 src dst 58 p.length ++ p) ∧ NdInOrder src dst hop p := by
  rw [← (pseudoHdr6_iff src dst (by decide) hl hp).1]
  have hne : 0 < p.length := by
    rcases p with _ | ⟨x, t⟩
    · exact absurd ht.1 (by decide)
    · simp
  have b0 := idx_be (f := p) (i := 0) hne
  have opts : ∀ {t size l}, IsNd t size p l → size = ndSize t → ∃ xs, Icmp6.readNdOptions p p.length size = .ok xs := by
    intro t size l h hs
    obtain ⟨xs, hx, -⟩ := (Icmp6.walk h.options p p.length size rfl (by omega)).2.2 (hg l (by rw [h.hasType, ← hs]; exact h.options))
    exact ⟨xs, hx⟩
  constructor
  · intro h
    obtain h33 | h34 | h35 | h36 : be p 0 1 = 133 ∨ be p 0 1 = 134 ∨ be p 0 1 = 135 ∨ be p 0 1 = 136 := by omega
    · rw [h33] at b0
      obtain ⟨hc, l, hn⟩ := Icmp6.nd_sound h b0 (size := 8) (by simp)
      exact ⟨hc, .routerSolicitation hn ((Icmp6.parse_rs hn (hs h33) hc).1 h)⟩
    · rw [h34] at b0
      obtain ⟨hc, l, hn⟩ := Icmp6.nd_sound h b0 (size := 16) (by simp)
      obtain ⟨xs, hx⟩ := opts hn rfl
      refine ⟨hc, .routerAdvertisement hn (Classical.byContradiction fun hb => ?_)⟩
      obtain ⟨s, hs⟩ := (Icmp6.parse_ra hn hx hc).2 hb
      rw [h] at hs; cases hs
    · rw [h35] at b0
      obtain ⟨hc, l, hn⟩ := Icmp6.nd_sound h b0 (size := 24) (by simp)
      obtain ⟨xs, hx⟩ := opts hn rfl
      have h24 := hn.length
      obtain ⟨t, -, t2⟩ := ip6_be (f := p) (i := 8) (by omega)
      refine ⟨hc, .solicitation hn t2 (Classical.byContradiction fun hb => ?_)⟩
      obtain ⟨s, hs⟩ := (Icmp6.parse_ns hn hx hc t2).2 hb
      rw [h] at hs; cases hs
    · rw [h36] at b0
      obtain ⟨hc, l, hn⟩ := Icmp6.nd_sound h b0 (size := 24) (by simp)
      obtain ⟨xs, hx⟩ := opts hn rfl
      have h24 := hn.length
      obtain ⟨t, -, t2⟩ := ip6_be (f := p) (i := 8) (by omega)
      refine ⟨hc, .advertisement hn (Classical.byContradiction fun hb => ?_)⟩
      obtain ⟨s, hs⟩ := (Icmp6.parse_na hn hx hc t2).2 hb
      rw [h] at hs; cases hs
  · rintro ⟨hc, h⟩
    cases h with
    | routerSolicitation hn hg =>
      exact (Icmp6.parse_rs hn (hs hn.hasType) hc).2 hg
    | routerAdvertisement hn hg =>
      obtain ⟨xs, hx⟩ := opts hn rfl
      exact ((Icmp6.parse_ra hn hx hc).1 hg).1
    | solicitation hn ht hg =>
      obtain ⟨xs, hx⟩ := opts hn rfl
      exact ((Icmp6.parse_ns hn hx hc ht).1 hg).1
    | advertisement hn hg =>
      obtain ⟨xs, hx⟩ := opts hn rfl
      have h24 := hn.length
      obtain ⟨t, -, t2⟩ := ip6_be (f := p) (i := 8) (by omega)
      exact ((Icmp6.parse_na hn hx hc t2).1 hg).1

namespace Example.Accept

def src : Ip6Address := ⟨0xFE800000000000000000000000000001, by decide⟩
def dst : Ip6Address := ⟨0xFF020000000000000000000000000016, by decide⟩

/-- A multicast report with one record: for ff02::1:2, with 4 bytes of auxiliary data. -/
def report (k : UInt8) (ck : Bytes) : Bytes :=
  [143, 0] ++ ck ++ [0, 0, 0, 1, 4, k, 0, 0] ++ [0xFF, 2, 0, 0, 0, 0, 0, 0, 0, 0, 0, 0, 0, 1, 0, 2] ++ [0, 0, 0, 0]

/-- C106_icmp6_partial: such messages are accepted. -/
example : (Ip6.pshdrSum src dst 32 58).bind (fun ps => Icmp6.parse (report 4 [111, 255]) 32 ps src dst 1) = .ok none := by decide +kernel
example : (Ip6.pshdrSum src dst 12 58).bind (fun ps => Icmp6.parse [1, 6, 1, 25, 0, 0, 0, 0, 0, 0, 0, 0] 12 ps src dst 64) = .ok none := by decide +kernel
/-- C106_nd_partial: a solicitation for fe80::2, with the sender's link-layer address. -/
def ns : Bytes := [135, 0, 0, 0, 0, 0, 0, 0] ++ [0xFE, 0x80, 0, 0, 0, 0, 0, 0, 0, 0, 0, 0, 0, 0, 0, 2] ++ [1, 1, 2, 0, 0, 0, 0, 7]
example : NdInOrder src (solicitedNode ⟨0xFE800000000000000000000000000002, by decide⟩) 255 ns := by
  refine .solicitation (opts := [(1, [2, 0, 0, 0, 0, 7])]) (target := ⟨0xFE800000000000000000000000000002, by decide⟩)
    ⟨by decide, by decide, .opt 1 1 [2, 0, 0, 0, 0, 7] (by decide) (by decide) .nil⟩ (by decide +kernel) ?_
  refine ⟨by decide, rfl, .inr ?_, .inr rfl, ?_, fun h => absurd h (by decide)⟩ <;> unfold Unicast6 <;> decide +kernel
example : GoodPrefixes [(1, [2, 0, 0, 0, 0, 7])] := by intro v h; simp at h
/-- C106_udp4 -/
example : (Ip4.pshdrSum ⟨1, by decide⟩ ⟨2, by decide⟩ 17 8).bind (fun ps => Udp.parse [0, 7, 0, 9, 0, 8, 255, 203] 8 ps) = .ok none := by decide +kernel
/-- C106_icmp4, C106_arp -/
example : Icmp4.parse [8, 0, 247, 252, 0, 1, 0, 2] 8 = .ok none := by decide +kernel
example : ArpInOrder ([0, 1, 8, 0, 6, 4, 0, 1] ++ List.replicate 20 0) := by unfold ArpInOrder; decide +kernel

end Example.Accept

/-- C106 fails for auxiliary data: RFC 3810 counts it in words of 4 bytes, the parser in bytes, and so it refuses a report that is in order. -/
theorem C106_aux_witness : ∃ p ps e, Ip6.pshdrSum Example.Accept.src Example.Accept.dst p.length 58 = .ok ps ∧
    Valid (pseudoHdr6 Example.Accept.src Example.Accept.dst 58 p.length ++ p) ∧ Icmp6InOrder 4 p 1 ∧
    Icmp6.parse p p.length ps Example.Accept.src Example.Accept.dst 1 = .ok (some e) := by
  have hl : (Example.Accept.report 1 [112, 2]).length = 32 := by decide +kernel
  refine ⟨Example.Accept.report 1 [112, 2], 36713907249716658257, "ICMPv6 integrity - wrong packet length (IV)", by decide +kernel, ?_, ?_, by decide +kernel⟩
  · unfold Valid; decide +kernel
  · have t : be (Example.Accept.report 1 [112, 2]) 0 1 = 143 := by decide +kernel
    refine ⟨by omega, by omega, by omega, by omega, by omega, by omega, by omega, fun _ => ⟨by omega, ?_, by decide +kernel, rfl⟩⟩
    have e : be (Example.Accept.report 1 [112, 2]) 6 2 = 1 := by decide +kernel
    rw [e, show (Example.Accept.report 1 [112, 2]).drop 8 = [4, 1, 0, 0, 0xFF, 2, 0, 0, 0, 0, 0, 0, 0, 0, 0, 0, 0, 1, 0, 2] ++ [0, 0, 0, 0] ++ [] by decide +kernel]
    exact .cons _ _ rfl (by decide +kernel) .nil

end Verif
