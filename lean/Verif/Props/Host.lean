import Verif.Lemmas.HostWire6
import Verif.Props.WireNd
/-! C88: what a host does with a frame, from bytes to bytes. -/
namespace Verif
open Spec

/-! ### Echo -/

/-- C88: a ping is answered.  When a frame brings the host an echo request for one of its addresses, and the host knows the link-layer
address of the way back, the host queues one frame, and nothing else about it changes.  The frame goes from the host's link-layer
address to the neighbour's; it holds an IPv4 packet from the pinged address to the sender, with TTL 64, that holds an echo reply with
the same identifier, sequence number and data, and with a checksum that is right or one too much. -/
theorem C88_ping4 {h : Host} {F p : Bytes} {src dst a : Ip4Address} {id seq : Nat} {data : Bytes} {m : MacAddress}
    (H : Brings4 h.node F src dst 1 p) (hv : Valid p) (he : IsEcho 8 p id seq data) (ho : OwnSource4 h.stack dst)
    (hn : NextHop4 h.stack dst src a) (hf : 20 + p.length ≤ h.stack.mtu) (hmtu : h.stack.mtu < 65536) (hk : Knows4 h a m)
    (t₀ t₁ t : Int) (d : Nat) :
    ∃ G q, Puts (h.receive t₀ t₁ t d F) [G] ∧ Unchanged h (h.receive t₀ t₁ t d F).1 ∧ Sends4 G h.stack.mac m dst src 64 1 q ∧
      IsEcho 0 q id seq data ∧ NearlyValid [] q 2 := by
  obtain ⟨x, q, e1, e2, e3⟩ := C39_wire4 H hv he t₀ t₁ d
  have := he.same_length e3
  obtain ⟨G, g1, g2, g3, g4⟩ := h.icmp4_sends ho hn hk e2 (icmp4_reply_of e2 e3) (by omega) hmtu e1 t
  exact ⟨G, q, g1, g2, g3, e3, g4⟩

/-- C88: when the host does not know the way back, the answer is lost, and what it queues is one ARP request for the next hop. -/
theorem C88_ping4_unknown {h : Host} {F p : Bytes} {src dst a : Ip4Address} {id seq : Nat} {data : Bytes}
    (H : Brings4 h.node F src dst 1 p) (hv : Valid p) (he : IsEcho 8 p id seq data) (ho : OwnSource4 h.stack dst)
    (hn : NextHop4 h.stack dst src a) (hf : 20 + p.length ≤ h.stack.mtu) (hk : ∀ m, ¬ Knows4 h a m) (t₀ t₁ t : Int) (d : Nat) :
    ∃ G, Puts (h.receive t₀ t₁ t d F) [G] ∧ Unchanged h (h.receive t₀ t₁ t d F).1 ∧ AsksFor4 G h.stack a := by
  obtain ⟨x, q, e1, e2, e3⟩ := C39_wire4 H hv he t₀ t₁ d
  have := he.same_length e3
  exact h.icmp4_asks ho hn hk (icmp4_reply_of e2 e3) (by omega) e1 t

theorem icmp6_reply_len {id seq : Nat} {data q : Bytes} (he : IsEcho 129 q id seq data) : q.length = Icmp6.len (.echoReply id seq data) := by
  have h1 := he.1
  rw [Icmp6.len, he.2.2.2.2.2]
  simp
  omega

theorem icmp6_reply_eq {x : Icmp6.Msg} {id seq : Nat} {data : Bytes}
    (h : ∀ ps, ∃ q, Icmp6.assemble x ps = .ok q ∧ IsEcho 129 q id seq data) (ps : Nat) :
    ∃ q, Icmp6.assemble x ps = .ok q ∧ q.length = Icmp6.len x ∧ IsEcho 129 q id seq data := by
  obtain ⟨q, q1, q2⟩ := h ps
  obtain ⟨i, s, dt, rfl⟩ := icmp6_type_reply q1 q2.2.1
  refine ⟨q, q1, ?_, q2⟩
  cases hb : Icmp6.body (.echoReply i s dt) with
  | error e => simp [Icmp6.assemble, hb] at q1
  | ok b =>
    obtain ⟨ck, -, ha⟩ := Icmp6.assemble_ok ps hb
    have := Except.ok.inj (ha.symm.trans q1)
    subst this
    rw [Icmp6.body] at hb
    obtain ⟨-, -, hb⟩ := py_bind_ok hb
    obtain ⟨-, -, hb⟩ := py_bind_ok hb
    obtain ⟨b1, h1, hb⟩ := py_bind_ok hb
    obtain ⟨b2, h2, hb⟩ := py_bind_ok hb
    have hb := Except.ok.inj hb
    subst hb
    simp [packH_length h1, packH_length h2, Icmp6.len]
    omega

/-- C88 for ICMPv6: the reply leaves with hop limit 255. -/
theorem C88_ping6 {h : Host} {F p : Bytes} {src dst a : Ip6Address} {hop id seq : Nat} {data : Bytes} {m : MacAddress}
    (H : Brings6 h.node F src dst hop 58 p) (hv : Valid (pseudoHdr6 src dst 58 p.length ++ p)) (he : IsEcho 128 p id seq data)
    (ho : OwnSource6 h.stack dst) (hn : NextHop6 h.stack dst src a) (hf : 40 + p.length ≤ h.stack.mtu) (hmtu : h.stack.mtu < 65536)
    (hk : Knows6 h a m) (t₀ t₁ t : Int) (d : Nat) :
    ∃ G q, Puts (h.receive t₀ t₁ t d F) [G] ∧ Unchanged h (h.receive t₀ t₁ t d F).1 ∧ Sends6 G h.stack.mac m dst src 255 58 q ∧
      IsEcho 129 q id seq data ∧ NearlyValid (pseudoHdr6 dst src 58 q.length) q 2 := by
  obtain ⟨x, e1, e2⟩ := C39_wire6 H hv he t₀ t₁ d
  have hx := icmp6_reply_eq e2
  obtain ⟨q, q1, q2, q3⟩ := hx 0
  have := he.same_length q3
  exact h.icmp6_sends (by omega) ho hn hk (by omega) hmtu hx e1 t

/-- C88: when the host does not know the way back, the answer is lost, and what it queues is one neighbour solicitation for the next hop. -/
theorem C88_ping6_unknown {h : Host} {F p : Bytes} {src dst a : Ip6Address} {hop id seq : Nat} {data : Bytes}
    (H : Brings6 h.node F src dst hop 58 p) (hv : Valid (pseudoHdr6 src dst 58 p.length ++ p)) (he : IsEcho 128 p id seq data)
    (ho : ∀ x ∈ h.stack.ip6Host, OwnSource6 h.stack x.address) (hd : Owns6 h.node dst) (hn : NextHop6 h.stack dst src a)
    (hl : ∃ x ∈ h.stack.ip6Host, cidr 128 x.network.address.int x.network.mask.len a.int)
    (hf : 40 + p.length ≤ h.stack.mtu) (hmtu : 72 ≤ h.stack.mtu ∧ h.stack.mtu < 65536) (hk : ∀ m, ¬ Knows6 h a m) (t₀ t₁ t : Int) (d : Nat) :
    ∃ G, Puts (h.receive t₀ t₁ t d F) [G] ∧ Unchanged h (h.receive t₀ t₁ t d F).1 ∧ AsksFor6 G h.stack a := by
  obtain ⟨x, e1, e2⟩ := C39_wire6 H hv he t₀ t₁ d
  obtain ⟨q, q1, q2, q3⟩ := icmp6_reply_eq e2 0
  have := he.same_length q3
  obtain ⟨y, y1, rfl⟩ := hd
  exact h.icmp6_asks (by omega) (ho y y1) hn hk (by omega) hmtu hl ho e1 t

/-! ### Closed ports -/

/-- C88: a datagram for a port that no socket has is answered with "port unreachable" (type 3, code 3), which quotes the first 520 bytes of
the packet. -/
theorem C88_closed_port4 {hist : List (Spec.Env × Spec.Op)} {h : Host} {F p data : Bytes} {src dst a : Ip4Address} {sport dport : Nat}
    {m : MacAddress} (hh : h.node.socks = (Spec.run hist).1) (H : Brings h.node F (.v4 src) (.v4 dst) 17 p) (hu : IsUdp p sport dport data)
    (hp : sport ≠ 0 ∧ dport ≠ 0)
    (hno : NoSocket h.node.socks { lip := .v4 dst, lport := dport, rip := .v4 src, rport := sport, data := data })
    (ho : OwnSource4 h.stack dst) (hn : NextHop4 h.stack dst src a) (hmtu : 576 ≤ h.stack.mtu ∧ h.stack.mtu < 65536) (hk : Knows4 h a m)
    (t₀ t₁ t : Int) (d : Nat) :
    ∃ G q, Puts (h.receive t₀ t₁ t d F) [G] ∧ Unchanged h (h.receive t₀ t₁ t d F).1 ∧ Sends4 G h.stack.mac m dst src 64 1 q ∧
      IsUnreachable 3 3 q ((ipPacket F).take 520) ∧ NearlyValid [] q 2 := by
  have hun : (IpAddress.v4 src).isUnspecified = false := by
    have := hn.unicast
    rw [IpAddress.isUnspecified, Ip4Address.isUnspecified, beq_eq_false_iff_ne]; omega
  rcases C47_wire hh H hu hp.1 hp.2 t₀ t₁ d with ⟨r, ⟨s, k, s1, s2, -⟩, -⟩ | ⟨-, ⟨x, -⟩ | ⟨-, ⟨s, d', e1, e2, e3⟩ | ⟨s, d', e1, -⟩⟩⟩
  · rw [hno r s s1] at s2; cases s2
  · rw [hun] at x; cases x
  · cases e1; cases e2
    obtain ⟨q, q1, q2, q3⟩ := Icmp4.unreachable_bytes (ipPacket F)
    have hq : q.length ≤ 528 := by rw [q2, List.length_take]; omega
    obtain ⟨G, g1, g2, g3, g4⟩ := h.icmp4_sends ho hn hk q1 q2 (by omega) hmtu.2 e3 t
    exact ⟨G, q, g1, g2, g3, q3, g4⟩
  · cases e1

/-- The same for IPv6 (type 1, code 4; hop limit 64). -/
theorem C88_closed_port6 {hist : List (Spec.Env × Spec.Op)} {h : Host} {F p data : Bytes} {src dst a : Ip6Address} {sport dport : Nat}
    {m : MacAddress} (hh : h.node.socks = (Spec.run hist).1) (H : Brings h.node F (.v6 src) (.v6 dst) 17 p) (hu : IsUdp p sport dport data)
    (hp : sport ≠ 0 ∧ dport ≠ 0)
    (hno : NoSocket h.node.socks { lip := .v6 dst, lport := dport, rip := .v6 src, rport := sport, data := data })
    (ho : OwnSource6 h.stack dst) (hn : NextHop6 h.stack dst src a) (hmtu : 1280 ≤ h.stack.mtu ∧ h.stack.mtu < 65536) (hk : Knows6 h a m)
    (t₀ t₁ t : Int) (d : Nat) :
    ∃ G q, Puts (h.receive t₀ t₁ t d F) [G] ∧ Unchanged h (h.receive t₀ t₁ t d F).1 ∧ Sends6 G h.stack.mac m dst src 64 58 q ∧
      IsUnreachable 1 4 q ((ipPacket F).take 520) ∧ NearlyValid (pseudoHdr6 dst src 58 q.length) q 2 := by
  have hun : (IpAddress.v6 src).isUnspecified = false := by
    have := hn.unicast
    rw [IpAddress.isUnspecified, Ip6Address.isUnspecified, beq_eq_false_iff_ne]; omega
  rcases C47_wire hh H hu hp.1 hp.2 t₀ t₁ d with ⟨r, ⟨s, k, s1, s2, -⟩, -⟩ | ⟨-, ⟨x, -⟩ | ⟨-, ⟨s, d', e1, -⟩ | ⟨s, d', e1, e2, e3⟩⟩⟩
  · rw [hno r s s1] at s2; cases s2
  · rw [hun] at x; cases x
  · cases e1
  · cases e1; cases e2
    refine h.icmp6_sends (by omega) ho hn hk ?_ hmtu.2 (Icmp6.unreachable_bytes (ipPacket F)) e3 t
    rw [Icmp6.len, List.length_take]; omega

/-! ### Resets -/

theorem Host.tcp_sends4 (h : Host) {src dst a : Ip4Address} {m : MacAddress} {x : Tcp.Tx} {P : Bytes → Prop} {n : Nat}
    (hok : x.sport ≤ 0xFFFF ∧ x.dport ≤ 0xFFFF ∧ x.seq ≤ 0xFFFFFFFF ∧ x.ack ≤ 0xFFFFFFFF ∧ x.win ≤ 0xFFFF ∧ x.urp ≤ 0xFFFF)
    (ho : OwnSource4 h.stack src) (hn : NextHop4 h.stack src dst a) (hk : Knows4 h a m) (hl : x.hlen + x.data.length = n)
    (hf : 20 + n ≤ h.stack.mtu) (hmtu : h.stack.mtu < 65536) (hx : ∀ ps, ∃ q, Tcp.assemble x ps = .ok q ∧ q.length = n ∧ P q) :
    ∃ h' o G q, h.tcp (.v4 src) (.v4 dst) x = (h', .ok (.passedEtherToTxRing, [o])) ∧ Touched h h' ∧ o.frame = .ok G ∧
      Sends4 G h.stack.mac m src dst 64 6 q ∧ P q ∧ NearlyValid (pseudoHdr4 src dst 6 q.length) q 16 := by
  let c : L4 := { Tcp.carried x with kind := .other }
  have hc : c.len = n := hl
  obtain ⟨h', o, ps, g1, g2, g3, g4⟩ := h.sends4 (c := c) (ttl := 64) (by omega) ho hn hk (.inr (.inr (.inl rfl))) (by rw [hc]; exact hf) hmtu
  obtain ⟨q, q1, q2, q3⟩ := hx ps
  obtain ⟨G, G1, G2⟩ := g4 q q1 (by rw [hc]; exact q2)
  refine ⟨h', o, G, q, ?_, g2, G1, G2, q3, ?_⟩
  · rw [Host.tcp, if_neg (not_not.2 hok)]; exact g1
  · rw [q2]
    rw [hc] at g3
    exact Tcp.nearly q1 (under4 (by decide) (by omega) g3) (by omega)

theorem Host.tcp_sends6 (h : Host) {src dst a : Ip6Address} {m : MacAddress} {x : Tcp.Tx} {P : Bytes → Prop} {n : Nat}
    (hok : x.sport ≤ 0xFFFF ∧ x.dport ≤ 0xFFFF ∧ x.seq ≤ 0xFFFFFFFF ∧ x.ack ≤ 0xFFFFFFFF ∧ x.win ≤ 0xFFFF ∧ x.urp ≤ 0xFFFF)
    (ho : OwnSource6 h.stack src) (hn : NextHop6 h.stack src dst a) (hk : Knows6 h a m) (hl : x.hlen + x.data.length = n)
    (hf : 40 + n ≤ h.stack.mtu) (hmtu : h.stack.mtu < 65536) (hx : ∀ ps, ∃ q, Tcp.assemble x ps = .ok q ∧ q.length = n ∧ P q) :
    ∃ h' o G q, h.tcp (.v6 src) (.v6 dst) x = (h', .ok (.passedEtherToTxRing, [o])) ∧ Touched h h' ∧ o.frame = .ok G ∧
      Sends6 G h.stack.mac m src dst 64 6 q ∧ P q ∧ NearlyValid (pseudoHdr6 src dst 6 q.length) q 16 := by
  let c : L4 := { Tcp.carried x with kind := .other }
  have hc : c.len = n := hl
  obtain ⟨h', o, ps, g1, g2, g3, g4⟩ := h.sends6 (c := c) (hop := 64) (by omega) ho hn hk (.inr (.inr (.inl rfl))) (by rw [hc]; exact hf) hmtu
  obtain ⟨q, q1, q2, q3⟩ := hx ps
  obtain ⟨G, G1, G2⟩ := g4 q q1 (by rw [hc]; exact q2)
  refine ⟨h', o, G, q, ?_, g2, G1, G2, q3, ?_⟩
  · rw [Host.tcp, if_neg (not_not.2 hok)]; exact g1
  · rw [q2]
    rw [hc] at g3
    exact Tcp.nearly q1 (under6 (by decide) (by omega) g3) (by omega)

/-- C88: a segment that no socket takes is answered with a reset that acknowledges it. -/
theorem C88_reset4 {hist : List (Spec.Env × Spec.Op)} {h : Host} {F p : Bytes} {src dst a : Ip4Address} {opts : List (Nat × Bytes)}
    {m : MacAddress} (hh : h.node.socks = (Spec.run hist).1) (H : Brings h.node F (.v4 src) (.v4 dst) 6 p) (ht : IsTcp p opts) (hodd : ¬ OddTcp p)
    (hno : ∀ r s, Registered h.node.socks r s → ¬ TakesSegment s.id (segment (.v4 src) (.v4 dst) p opts))
    (hack : (resetFor (.v4 src) (.v4 dst) p).ackn < 2 ^ 32)
    (ho : OwnSource4 h.stack dst) (hn : NextHop4 h.stack dst src a) (hmtu : 40 ≤ h.stack.mtu ∧ h.stack.mtu < 65536) (hk : Knows4 h a m)
    (t₀ t₁ t : Int) (d : Nat) :
    ∃ G q, Puts (h.receive t₀ t₁ t d F) [G] ∧ Unchanged h (h.receive t₀ t₁ t d F).1 ∧ Sends4 G h.stack.mac m dst src 64 6 q ∧
      IsTcp q [] ∧ segment (.v4 dst) (.v4 src) q [] = resetFor (.v4 src) (.v4 dst) p ∧ NearlyValid (pseudoHdr4 dst src 6 q.length) q 16 := by
  rcases C78_wire hh H ht hodd t₀ t₁ d with ⟨r, ⟨s, s1, s2, -⟩, -⟩ | ⟨-, e⟩
  · exact absurd s2 (hno r s s1)
  · have p1 := be_lt p 0 2
    have p2 := be_lt p 2 2
    rw [resetFor] at hack ⊢
    dsimp only at hack
    generalize be p 4 4 + (if bit p 13 1 then 1 else 0) + (if bit p 13 0 then 1 else 0) + (p.length - be p 12 1 / 16 * 4) = k at hack e ⊢
    obtain ⟨h', o, G, q, g1, g2, g3, g4, ⟨g5, g6⟩, g7⟩ := h.tcp_sends4 (x := resetTx (be p 2 2) (be p 0 2) k) (n := 20)
      ⟨by rw [resetTx]; dsimp only; omega, by rw [resetTx]; dsimp only; omega, by rw [resetTx]; dsimp only; omega, by rw [resetTx]; dsimp only; omega,
        by rw [resetTx]; dsimp only; omega, by rw [resetTx]; dsimp only; omega⟩ ho hn hk rfl (by omega) hmtu.2
      (reset_bytes (by omega) (by omega) (by simpa using hack))
    have hr := Host.receive_one (t := t) e (h' := h') (outs := [o]) (by
      rw [Host.apply]
      change Host.queued (h.tcp (.v4 dst) (.v4 src) (resetTx (be p 2 2) (be p 0 2) k)) = _
      rw [g1]; rfl)
    exact ⟨G, q, ⟨[o], by rw [hr], by simp [g3]⟩, by rw [hr]; exact g2.unchanged, g4, g5, g6 _ _, g7⟩

theorem C88_reset6 {hist : List (Spec.Env × Spec.Op)} {h : Host} {F p : Bytes} {src dst a : Ip6Address} {opts : List (Nat × Bytes)}
    {m : MacAddress} (hh : h.node.socks = (Spec.run hist).1) (H : Brings h.node F (.v6 src) (.v6 dst) 6 p) (ht : IsTcp p opts) (hodd : ¬ OddTcp p)
    (hno : ∀ r s, Registered h.node.socks r s → ¬ TakesSegment s.id (segment (.v6 src) (.v6 dst) p opts))
    (hack : (resetFor (.v6 src) (.v6 dst) p).ackn < 2 ^ 32)
    (ho : OwnSource6 h.stack dst) (hn : NextHop6 h.stack dst src a) (hmtu : 60 ≤ h.stack.mtu ∧ h.stack.mtu < 65536) (hk : Knows6 h a m)
    (t₀ t₁ t : Int) (d : Nat) :
    ∃ G q, Puts (h.receive t₀ t₁ t d F) [G] ∧ Unchanged h (h.receive t₀ t₁ t d F).1 ∧ Sends6 G h.stack.mac m dst src 64 6 q ∧
      IsTcp q [] ∧ segment (.v6 dst) (.v6 src) q [] = resetFor (.v6 src) (.v6 dst) p ∧ NearlyValid (pseudoHdr6 dst src 6 q.length) q 16 := by
  rcases C78_wire hh H ht hodd t₀ t₁ d with ⟨r, ⟨s, s1, s2, -⟩, -⟩ | ⟨-, e⟩
  · exact absurd s2 (hno r s s1)
  · have p1 := be_lt p 0 2
    have p2 := be_lt p 2 2
    rw [resetFor] at hack ⊢
    dsimp only at hack
    generalize be p 4 4 + (if bit p 13 1 then 1 else 0) + (if bit p 13 0 then 1 else 0) + (p.length - be p 12 1 / 16 * 4) = k at hack e ⊢
    obtain ⟨h', o, G, q, g1, g2, g3, g4, ⟨g5, g6⟩, g7⟩ := h.tcp_sends6 (x := resetTx (be p 2 2) (be p 0 2) k) (n := 20)
      ⟨by rw [resetTx]; dsimp only; omega, by rw [resetTx]; dsimp only; omega, by rw [resetTx]; dsimp only; omega, by rw [resetTx]; dsimp only; omega,
        by rw [resetTx]; dsimp only; omega, by rw [resetTx]; dsimp only; omega⟩ ho hn hk rfl (by omega) hmtu.2
      (reset_bytes (by omega) (by omega) (by simpa using hack))
    have hr := Host.receive_one (t := t) e (h' := h') (outs := [o]) (by
      rw [Host.apply]
      change Host.queued (h.tcp (.v6 dst) (.v6 src) (resetTx (be p 2 2) (be p 0 2) k)) = _
      rw [g1]; rfl)
    exact ⟨G, q, ⟨[o], by rw [hr], by simp [g3]⟩, by rw [hr]; exact g2.unchanged, g4, g5, g6 _ _, g7⟩

/-! ### Neighbours -/

/-- C88: an ARP request for an address of the host, from someone else, is answered to the sender, who is learnt. -/
theorem C88_arp_request {h : Host} {F : Bytes} {nb sha tha : MacAddress} {spa tpa : Ip4Address} (H : BringsArp h.node F nb 1 sha spa tha tpa)
    (hown : Owns4 h.node tpa) (hother : ¬ Owns4 h.node spa) (hs : sha.int ≠ 0) (t₀ t₁ t : Int) (d : Nat) :
    ∃ G, Puts (h.receive t₀ t₁ t d F) [G] ∧ SendsArp G h.stack.mac sha 2 h.stack.mac tpa sha spa ∧
      Learnt4 h (h.receive t₀ t₁ t d F).1 spa sha := by
  obtain ⟨f, f1, f2, f3⟩ := H.holds (.inl rfl) t₀ t₁ d
  have h1 : ¬ spa ∈ h.node.stack.ip4Unicast := fun hm => hother ((mem_ip4Unicast _ _).1 hm)
  have h2 : tpa ∈ h.node.stack.ip4Unicast := (mem_ip4Unicast _ _).2 hown
  have e : Rx.arp h.node nb f = .ok [.txArp h.stack.mac sha 2 h.stack.mac tpa sha spa, .arpLearn spa sha] := by
    simp only [Rx.arp, f1, f2, py_ok_bind, py_pure, if_true, if_neg h1, if_pos h2, Host.stack]
  obtain ⟨G, G1, G2⟩ := Outgoing.arp_bytes h.stack.mac sha h.stack.mac sha tpa spa (.inr rfl)
  have ha : h.apply t (.txArp h.stack.mac sha 2 h.stack.mac tpa sha spa) =
      (h, .ok [⟨h.stack.mac, sha, .arp 2 h.stack.mac tpa sha spa⟩]) := by
    rw [Host.apply, Host.phtxEther_given _ _ _ _ _ (by rw [MacAddress.isUnspecified, beq_eq_false_iff_ne]; exact hs)]
    rfl
  have hr : h.receive t₀ t₁ t d F = ({ h with arp := h.arp.add spa sha t }, .ok [⟨h.stack.mac, sha, .arp 2 h.stack.mac tpa sha spa⟩]) := by
    rw [Host.receive, f3, e]
    simp only [Host.applyAll]
    rw [show ({ h with node := h.node } : Host) = h from rfl, ha]
    rfl
  exact ⟨G, ⟨_, by rw [hr], by simp [G1]⟩, G2, by rw [hr]; exact h.learnt4 spa sha t⟩

/-- C88: an ARP reply to the host's own link-layer address is learnt, unless it answers a probe for an address that the host wants to use. -/
theorem C88_arp_reply {h : Host} {F : Bytes} {sha tha : MacAddress} {spa tpa : Ip4Address} (H : BringsArp h.node F h.stack.mac 2 sha spa tha tpa)
    (hp : ¬ (spa ∈ h.node.ip4Candidates ∧ tha = h.stack.mac ∧ tpa.int = 0)) (t₀ t₁ t : Int) (d : Nat) :
    Puts (h.receive t₀ t₁ t d F) [] ∧ Learnt4 h (h.receive t₀ t₁ t d F).1 spa sha := by
  obtain ⟨f, f1, f2, f3⟩ := H.holds (.inr rfl) t₀ t₁ d
  have e : Rx.arp h.node h.stack.mac f = .ok [.arpLearn spa sha] := by
    simp only [Rx.arp, f1, f2, py_ok_bind, py_pure]
    rw [if_neg (by decide), if_pos trivial, if_neg, if_pos (show h.stack.mac = h.node.stack.mac from rfl)]
    rintro ⟨-, x1, x2, x3⟩
    exact hp ⟨x1, x2, by simpa [Ip4Address.isUnspecified] using x3⟩
  have hr : h.receive t₀ t₁ t d F = ({ h with arp := h.arp.add spa sha t }, .ok []) := by
    rw [Host.receive, f3, e]
    rfl
  exact ⟨⟨[], by rw [hr], rfl⟩, by rw [hr]; exact h.learnt4 spa sha t⟩

/-- C88: a neighbour solicitation for an address of the host, from a neighbour that says its link-layer address, is answered to that
address, also if the neighbour was unknown before; and the neighbour is learnt. -/
theorem C88_solicitation {h : Host} {F p : Bytes} {src dst target : Ip6Address} {hop : Nat} {opts : List (Nat × Bytes)} {m : MacAddress}
    (H : Brings6 h.node F src dst hop 58 p) (hv : Valid (pseudoHdr6 src dst 58 p.length ++ p)) (hm : IsNd 135 24 p opts) (hg : GoodPrefixes opts)
    (ht : target.int = be p 8 16) (hgood : GoodNs src dst hop p target opts) (hopt : firstMac 1 opts = some m.int)
    (ho : OwnSource6 h.stack target) (hn : NextHop6 h.stack target src src) (hmtu : 72 ≤ h.stack.mtu ∧ h.stack.mtu < 65536) (t₀ t₁ t : Int) (d : Nat) :
    ∃ G q, Puts (h.receive t₀ t₁ t d F) [G] ∧ Learnt6 h (h.receive t₀ t₁ t d F).1 src m ∧ Sends6 G h.stack.mac m target src 255 58 q ∧
      NdFor 136 2 q target h.stack.mac ∧ bit q 4 7 = false ∧ bit q 4 6 = true ∧ bit q 4 5 = false ∧
      NearlyValid (pseudoHdr6 target src 58 q.length) q 2 := by
  obtain ⟨m', m1, m2, -⟩ := (C38_wire_solicitation H hv hm hg ht t₀ t₁ d).2 hgood ho.own
  have e := m2 (by have := hn.unicast; omega)
  rw [hopt] at m1
  cases m' with
  | none => cases m1
  | some m' =>
    have : m' = m := by
      have := Option.some.inj m1
      cases m'; cases m; simp_all
    subst this
    have hl := h.learnt6 src m' t
    generalize hh1 : ({ h with nd := h.nd.add src m' t } : Host) = h1 at hl
    have hs : h1.stack = h.stack := by subst hh1; rfl
    obtain ⟨h', o, G, q, g1, g2, g3, g4, ⟨g5, g6, g7, g8⟩, g9⟩ := h1.icmp6_known (hop := 255)
      (x := .neighborAdvertisement (r := false) (s := true) (o := false) target [.tlla h.stack.mac]) (by omega)
      (by rw [hs]; exact ho) (by rw [hs]; exact hn) hl.learnt (by rw [hs]; exact hmtu.1) (by rw [hs]; exact hmtu.2) (Icmp6.na_bytes true false target h.stack.mac)
    have hr : h.receive t₀ t₁ t d F = (h', .ok [o]) := by
      rw [Host.receive, e]
      simp only [Option.map_some, Option.toList_some, List.cons_append, List.nil_append, Host.applyAll]
      have e1 : Host.apply t { h with node := h.node } (.ndLearn src m') = (h1, .ok []) := by rw [← hh1]; rfl
      have e2 : h1.apply t (.txIcmp6 target src 255 (.neighborAdvertisement (r := false) (s := true) (o := false) target [.tlla h.node.stack.mac])) =
          (h', .ok [o]) := by
        rw [Host.apply]
        rw [show h.node.stack.mac = h.stack.mac from rfl, g1]
        rfl
      rw [e1]
      dsimp only
      rw [e2]
      rfl
    rw [hs] at g4
    exact ⟨G, q, ⟨[o], by rw [hr], by simp [g3]⟩, by rw [hr]; exact hl.then g2.unchanged, g4, g5, g6, g7, g8, g9⟩

/-- C88: a neighbour advertisement that says a link-layer address is learnt, unless its target is the address that the host is trying out. -/
theorem C88_advertisement {h : Host} {F p : Bytes} {src dst target : Ip6Address} {hop : Nat} {opts : List (Nat × Bytes)} {m : MacAddress}
    (H : Brings6 h.node F src dst hop 58 p) (hv : Valid (pseudoHdr6 src dst 58 p.length ++ p)) (hm : IsNd 136 24 p opts) (hg : GoodPrefixes opts)
    (ht : target.int = be p 8 16) (hgood : GoodNa src dst hop p) (hopt : firstMac 2 opts = some m.int) (hc : h.node.ip6Candidate ≠ some target)
    (t₀ t₁ t : Int) (d : Nat) :
    Puts (h.receive t₀ t₁ t d F) [] ∧ Learnt6 h (h.receive t₀ t₁ t d F).1 target m := by
  obtain ⟨m', m1, e⟩ := (C38_wire_advertisement H hv hm hg ht t₀ t₁ d).2 hgood
  rw [hopt] at m1
  cases m' with
  | none => cases m1
  | some m' =>
    have : m' = m := by
      have := Option.some.inj m1
      cases m'; cases m; simp_all
    subst this
    rw [if_neg hc] at e
    have hr : h.receive t₀ t₁ t d F = ({ h with nd := h.nd.add target m' t }, .ok []) := by
      rw [Host.receive, e]
      rfl
    exact ⟨⟨[], by rw [hr], rfl⟩, by rw [hr]; exact h.learnt6 target m' t⟩

end Verif
