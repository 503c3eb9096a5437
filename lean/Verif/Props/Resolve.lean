import Verif.Props.Host
import Verif.Props.WireTx
/-! C89: sending from a host, and how two hosts on a link find each other. -/
namespace Verif
open Spec Sess

/-! ### TCP sessions -/

/-- C83 and C88 together: every segment of a session, given to a host that knows the next hop, is put on the wire in one frame, with TTL 64 and
a checksum that is right or one too much. -/
theorem C83_host4 {active : Bool} {iss : Nat} {lip rip a : Ip4Address} {lport rport : Nat} {evs : List Ev} {g : Seg}
    (hg : g ∈ sent ((opened active iss (.v4 lip) lport (.v4 rip) rport).run evs).out)
    (hl : 0 < lport ∧ lport < 65536) (hr : 0 < rport ∧ rport < 65536) {h : Host} {m : MacAddress}
    (hmtu : 1500 ≤ h.stack.mtu ∧ h.stack.mtu < 65536) (ho : OwnSource4 h.stack lip) (hn : NextHop4 h.stack lip rip a) (hk : Knows4 h a m) :
    ∃ h' o G q opts, h.tcp (.v4 lip) (.v4 rip) (g.tx lport rport) = (h', .ok (.passedEtherToTxRing, [o])) ∧ Unchanged h h' ∧
      o.frame = .ok G ∧ Sends4 G h.stack.mac m lip rip 64 6 q ∧ IsTcp q opts ∧ ¬ OddTcp q ∧
      segment (.v4 lip) (.v4 rip) q opts = heard g (.v4 lip) lport (.v4 rip) rport ∧ NearlyValid (pseudoHdr4 lip rip 6 q.length) q 16 := by
  have hg := wire_run.segs g hg
  have hcl' : (if g.syn then 24 else 20) + g.data.length ≤ 1480 := by
    have := hg.data
    cases hsy : g.syn with
    | false => simp; omega
    | true => rw [(hg.syn hsy).1]; simp
  obtain ⟨k1, k2, -⟩ := id hg
  obtain ⟨h', o, G, q, g1, g2, g3, g4, ⟨opts, g5, g6, g7⟩, g8⟩ := h.tcp_sends4 (x := g.tx lport rport) (n := (if g.syn then 24 else 20) + g.data.length)
    (P := fun q => ∃ opts, IsTcp q opts ∧ ¬ OddTcp q ∧ ∀ src dst, segment src dst q opts = heard g src lport dst rport)
    ⟨by simp only [Seg.tx]; omega, by simp only [Seg.tx]; omega, by simp only [Seg.tx]; omega, by simp only [Seg.tx]; omega,
      by simp [Seg.tx], by simp [Seg.tx]⟩ ho hn hk
    (by simp only [Tcp.Tx.hlen, Seg.tx]; cases g.syn <;> rfl) (by omega) hmtu.2
    (fun ps => by
      obtain ⟨p, opts, p1, p2, p3, p4, p5⟩ := seg_bytes hg hl hr ps
      exact ⟨p, p1, p2, opts, p3, p4, p5⟩)
  exact ⟨h', o, G, q, opts, g1, g2.unchanged, g3, g4, g5, g6, g7 _ _, g8⟩

theorem C83_host6_partial {active : Bool} {iss : Nat} {lip rip a : Ip6Address} {lport rport : Nat} {evs : List Ev} {g : Seg}
    (hg : g ∈ sent ((opened active iss (.v6 lip) lport (.v6 rip) rport).run evs).out)
    (hl : 0 < lport ∧ lport < 65536) (hr : 0 < rport ∧ rport < 65536) {h : Host} {m : MacAddress}
    (hmtu : 1280 ≤ h.stack.mtu ∧ h.stack.mtu < 65536) (hfit : 60 + g.data.length ≤ h.stack.mtu)
    (ho : OwnSource6 h.stack lip) (hn : NextHop6 h.stack lip rip a) (hk : Knows6 h a m) :
    ∃ h' o G q opts, h.tcp (.v6 lip) (.v6 rip) (g.tx lport rport) = (h', .ok (.passedEtherToTxRing, [o])) ∧ Unchanged h h' ∧
      o.frame = .ok G ∧ Sends6 G h.stack.mac m lip rip 64 6 q ∧ IsTcp q opts ∧ ¬ OddTcp q ∧
      segment (.v6 lip) (.v6 rip) q opts = heard g (.v6 lip) lport (.v6 rip) rport ∧ NearlyValid (pseudoHdr6 lip rip 6 q.length) q 16 := by
  have hg := wire_run.segs g hg
  have hcl' : 40 + ((if g.syn then 24 else 20) + g.data.length) ≤ h.stack.mtu := by
    have := hg.data
    cases hsy : g.syn with
    | false => simp; omega
    | true => rw [(hg.syn hsy).1]; simp; omega
  obtain ⟨k1, k2, -⟩ := id hg
  obtain ⟨h', o, G, q, g1, g2, g3, g4, ⟨opts, g5, g6, g7⟩, g8⟩ := h.tcp_sends6 (x := g.tx lport rport) (n := (if g.syn then 24 else 20) + g.data.length)
    (P := fun q => ∃ opts, IsTcp q opts ∧ ¬ OddTcp q ∧ ∀ src dst, segment src dst q opts = heard g src lport dst rport)
    ⟨by simp only [Seg.tx]; omega, by simp only [Seg.tx]; omega, by simp only [Seg.tx]; omega, by simp only [Seg.tx]; omega,
      by simp [Seg.tx], by simp [Seg.tx]⟩ ho hn hk
    (by simp only [Tcp.Tx.hlen, Seg.tx]; cases g.syn <;> rfl) hcl' hmtu.2
    (fun ps => by
      obtain ⟨p, opts, p1, p2, p3, p4, p5⟩ := seg_bytes hg hl hr ps
      exact ⟨p, p1, p2, opts, p3, p4, p5⟩)
  exact ⟨h', o, G, q, opts, g1, g2.unchanged, g3, g4, g5, g6, g7 _ _, g8⟩

/-! ### UDP -/

/-- The bytes of a datagram. -/
theorem Udp.bytes {sport dport : Nat} {data : Bytes} (hs : sport < 65536) (hd : dport < 65536) (hl : 8 + data.length < 65536) (ps : Nat) :
    ∃ q, Udp.assemble sport dport data ps = .ok q ∧ q.length = 8 + data.length ∧ IsUdp q sport dport data := by
  obtain ⟨c, hc, hcl⟩ : ∃ c, inetCksum (bePack 2 sport ++ bePack 2 dport ++ bePack 2 (8 + data.length) ++ bePack 2 0 ++
      data) ps = c ∧ c < 65536 := ⟨_, rfl, inetCksum_lt _ _⟩
  refine ⟨bePack 2 sport ++ (bePack 2 dport ++ (bePack 2 (8 + data.length) ++ (bePack 2 c ++ data))), ?_, by simp; omega, by simp; omega, ?_, ?_, ?_, ?_⟩
  · simp only [Udp.assemble, packH_ok hs, packH_ok hd, packH_ok hl, packH_ok (show 0 < 65536 by omega), codec,
      show decide (sport ≤ 65535) = true by simp; omega, show decide (dport ≤ 65535) = true by simp; omega] at hc ⊢
    rw [hc, packIntoH_ok hcl (by simp; omega)]
    simp [codec]
  · rw [be_pack_skip _ (by omega), be_pack_skip _ (by omega)]
    rw [show (4 - 2 - 2 : Nat) = 0 from rfl, be_pack_front _ (by omega)]
    simp; omega
  · exact be_pack_front _ (by omega)
  · rw [be_pack_skip _ (by omega)]; exact be_pack_front _ (by omega)
  · repeat rw [drop_pack _ (by omega)]
    rfl

theorem Host.udp_sends4 (h : Host) {src dst a : Ip4Address} {m : MacAddress} {sport dport : Nat} {data : Bytes} (hs : sport < 65536) (hd : dport < 65536)
    (ho : OwnSource4 h.stack src) (hn : NextHop4 h.stack src dst a) (hk : Knows4 h a m)
    (hf : 28 + data.length ≤ h.stack.mtu) (hmtu : h.stack.mtu < 65536) :
    ∃ h' o G q, h.udp (.v4 src) (.v4 dst) sport dport data = (h', .ok (.passedEtherToTxRing, [o])) ∧ Touched h h' ∧ o.frame = .ok G ∧
      Sends4 G h.stack.mac m src dst 64 17 q ∧ IsUdp q sport dport data ∧ NearlyValid (pseudoHdr4 src dst 17 q.length) q 6 := by
  let c : L4 := { Udp.carried sport dport data with kind := .udp sport dport }
  have hc : c.len = 8 + data.length := rfl
  obtain ⟨h', o, ps, g1, g2, g3, g4⟩ := h.sends4 (c := c) (ttl := 64) (by omega) ho hn hk (.inr (.inl rfl)) (by omega) hmtu
  obtain ⟨q, q1, q2, q3⟩ := Udp.bytes hs hd (data := data) (by omega) ps
  obtain ⟨G, G1, G2⟩ := g4 q q1 (by omega)
  refine ⟨h', o, G, q, ?_, g2, G1, G2, q3, ?_⟩
  · rw [Host.udp, if_neg (not_not.2 ⟨by omega, by omega⟩)]; exact g1
  · rw [hc, ← q2] at g3
    exact Udp.nearly q1 (under4 (by decide) (by omega) g3) (by omega)

theorem Host.udp_sends6 (h : Host) {src dst a : Ip6Address} {m : MacAddress} {sport dport : Nat} {data : Bytes} (hs : sport < 65536) (hd : dport < 65536)
    (ho : OwnSource6 h.stack src) (hn : NextHop6 h.stack src dst a) (hk : Knows6 h a m)
    (hf : 48 + data.length ≤ h.stack.mtu) (hmtu : h.stack.mtu < 65536) :
    ∃ h' o G q, h.udp (.v6 src) (.v6 dst) sport dport data = (h', .ok (.passedEtherToTxRing, [o])) ∧ Touched h h' ∧ o.frame = .ok G ∧
      Sends6 G h.stack.mac m src dst 64 17 q ∧ IsUdp q sport dport data ∧ NearlyValid (pseudoHdr6 src dst 17 q.length) q 6 := by
  let c : L4 := { Udp.carried sport dport data with kind := .udp sport dport }
  have hc : c.len = 8 + data.length := rfl
  obtain ⟨h', o, ps, g1, g2, g3, g4⟩ := h.sends6 (c := c) (hop := 64) (by omega) ho hn hk (.inr (.inl rfl)) (by omega) hmtu
  obtain ⟨q, q1, q2, q3⟩ := Udp.bytes hs hd (data := data) (by omega) ps
  obtain ⟨G, G1, G2⟩ := g4 q q1 (by omega)
  refine ⟨h', o, G, q, ?_, g2, G1, G2, q3, ?_⟩
  · rw [Host.udp, if_neg (not_not.2 ⟨by omega, by omega⟩)]; exact g1
  · rw [hc, ← q2] at g3
    exact Udp.nearly q1 (under6 (by decide) (by omega) g3) (by omega)

/-- `sendto` on a bound socket is `udp`. -/
theorem Host.sendto_bound (h : Host) {r : Nat} {s : Sock} (hs : h.node.socks.socks[r]? = some s) {src dst : IpAddress} {lport port : Nat}
    (hid : s.id.lip = src ∧ s.id.lport = lport ∧ s.id.family = dst.family) (hl : 1 ≤ lport ∧ lport < 65536) (hp : port < 65536)
    (hsrc : src.isUnspecified = false) (hdst : dst.isUnspecified = false) (data : Bytes) (choice : Nat) :
    h.sendto r data (some dst) port choice = ((h.udp src dst lport port data).1, Socks.sentLen data (h.udp src dst lport port data).2) := by
  obtain ⟨rfl, rfl, i3⟩ := hid
  have hput : h.withSocks (h.node.socks.put r { s with unreachable := s.unreachable }) = h := by
    have : h.node.socks.put r s = h.node.socks := by
      rw [Socks.put]
      have : h.node.socks.socks.set r s = h.node.socks.socks := by
        obtain ⟨hlt, he⟩ := List.getElem?_eq_some_iff.1 hs
        rw [← he, List.set_getElem_self]
      rw [this]
    rw [Host.withSocks, show ({ s with unreachable := s.unreachable } : Sock) = s from rfl, this]
  rw [Host.sendto, hs]
  dsimp only
  rw [if_neg (not_not.2 ⟨by omega, by omega⟩), if_pos hl]
  dsimp only
  rw [show Int.toNat (port : Int) = port from rfl]
  have : Socks.setIpAddresses h.stack s (some dst) s.id.lip s.id.lport port = (s.unreachable, .ok (s.id.lip, dst)) := by
    rw [Socks.setIpAddresses]
    dsimp only
    rw [if_neg (by rw [i3]; exact fun hne => hne rfl), hdst, hsrc]
    simp
  rw [this]
  dsimp only
  rw [hput]

theorem Spec.BoundTo.sendto {h : Host} {r lport port : Nat} {src dst : IpAddress} (hb : BoundTo h r src lport) (hp : port < 65536)
    (hf : src.family = dst.family) (hsrc : src.isUnspecified = false) (hdst : dst.isUnspecified = false) (data : Bytes) (choice : Nat) :
    h.sendto r data (some dst) port choice = ((h.udp src dst lport port data).1, Socks.sentLen data (h.udp src dst lport port data).2) := by
  obtain ⟨⟨s, s1, s2, s3, s4⟩, hl⟩ := hb
  exact h.sendto_bound s1 ⟨s2, s3, s4.trans hf⟩ hl hp hsrc hdst data choice

theorem ip4_specified {a : Ip4Address} (h : 0 < a.int) : (IpAddress.v4 a).isUnspecified = false := by
  rw [IpAddress.isUnspecified, Ip4Address.isUnspecified, beq_eq_false_iff_ne]; omega
theorem ip6_specified {a : Ip6Address} (h : 0 < a.int) : (IpAddress.v6 a).isUnspecified = false := by
  rw [IpAddress.isUnspecified, Ip6Address.isUnspecified, beq_eq_false_iff_ne]; omega

/-- C88: `sendto` on a bound socket puts the datagram on the wire in one frame to the next hop, if that is known and the datagram fits, and
returns the length of the data. -/
theorem C88_sendto4 {h : Host} {r lport port : Nat} {src dst a : Ip4Address} {m : MacAddress} {data : Bytes} (hb : BoundTo h r (.v4 src) lport)
    (hp : port < 65536) (ho : OwnSource4 h.stack src) (hn : NextHop4 h.stack src dst a) (hk : Knows4 h a m)
    (hf : 28 + data.length ≤ h.stack.mtu) (hmtu : h.stack.mtu < 65536) (choice : Nat) :
    ∃ G q, Returns (h.sendto r data (some (.v4 dst)) port choice) data.length [G] ∧ Unchanged h (h.sendto r data (some (.v4 dst)) port choice).1 ∧
      Sends4 G h.stack.mac m src dst 64 17 q ∧ IsUdp q lport port data ∧ NearlyValid (pseudoHdr4 src dst 17 q.length) q 6 := by
  obtain ⟨h', o, G, q, g1, g2, g3, g4⟩ := h.udp_sends4 (sport := lport) (dport := port) (data := data) hb.ports.2 hp ho hn hk hf hmtu
  rw [hb.sendto (dst := .v4 dst) hp rfl (ip4_specified ho.ordinary.1) (ip4_specified hn.unicast.1), g1]
  exact ⟨G, q, ⟨[o], rfl, by simp [g3]⟩, g2.unchanged, g4⟩

theorem C88_sendto6 {h : Host} {r lport port : Nat} {src dst a : Ip6Address} {m : MacAddress} {data : Bytes} (hb : BoundTo h r (.v6 src) lport)
    (hp : port < 65536) (ho : OwnSource6 h.stack src) (hn : NextHop6 h.stack src dst a) (hk : Knows6 h a m)
    (hf : 48 + data.length ≤ h.stack.mtu) (hmtu : h.stack.mtu < 65536) (choice : Nat) :
    ∃ G q, Returns (h.sendto r data (some (.v6 dst)) port choice) data.length [G] ∧ Unchanged h (h.sendto r data (some (.v6 dst)) port choice).1 ∧
      Sends6 G h.stack.mac m src dst 64 17 q ∧ IsUdp q lport port data ∧ NearlyValid (pseudoHdr6 src dst 17 q.length) q 6 := by
  obtain ⟨h', o, G, q, g1, g2, g3, g4⟩ := h.udp_sends6 (sport := lport) (dport := port) (data := data) hb.ports.2 hp ho hn hk hf hmtu
  rw [hb.sendto (dst := .v6 dst) hp rfl (ip6_specified ho.ordinary.1) (ip6_specified hn.unicast.1), g1]
  exact ⟨G, q, ⟨[o], rfl, by simp [g3]⟩, g2.unchanged, g4⟩

/-- C88: when the next hop is unknown, the datagram is lost, `sendto` says 0, and what it queues is one request for the next hop. -/
theorem C88_sendto4_unknown {h : Host} {r lport port : Nat} {src dst a : Ip4Address} {data : Bytes} (hb : BoundTo h r (.v4 src) lport)
    (hp : port < 65536) (ho : OwnSource4 h.stack src) (hn : NextHop4 h.stack src dst a) (hk : ∀ m, ¬ Knows4 h a m)
    (hf : 28 + data.length ≤ h.stack.mtu) (choice : Nat) :
    ∃ G, Returns (h.sendto r data (some (.v4 dst)) port choice) 0 [G] ∧ (h.sendto r data (some (.v4 dst)) port choice).1 = h ∧
      AsksFor4 G h.stack a := by
  let c : L4 := { Udp.carried lport port data with kind := .udp lport port }
  have hc : c.len = 8 + data.length := rfl
  have := hb.ports
  obtain ⟨s, s1, s2⟩ := h.asks4 (c := c) (ttl := 64) (by omega) ho hn hk (.inr (.inl rfl)) (by omega)
  obtain ⟨y, hy, -⟩ := ho.own
  obtain ⟨G, G1, G2⟩ := Host.arpFrame_bytes (s := h.stack) (a := a) ⟨y, hy⟩
  have e : h.udp (.v4 src) (.v4 dst) lport port data = (h, .ok (s, [Host.arpFrame h.stack a])) := by
    rw [Host.udp, if_neg (not_not.2 ⟨by omega, by omega⟩)]; exact s2
  rw [hb.sendto (dst := .v4 dst) hp rfl (ip4_specified ho.ordinary.1) (ip4_specified hn.unicast.1), e]
  exact ⟨G, ⟨[Host.arpFrame h.stack a], by simp [Socks.sentLen, s1], by simp [G1]⟩, rfl, G2⟩

theorem C88_sendto6_unknown {h : Host} {r lport port : Nat} {src dst a : Ip6Address} {data : Bytes} (hb : BoundTo h r (.v6 src) lport)
    (hp : port < 65536) (ho : ∀ x ∈ h.stack.ip6Host, OwnSource6 h.stack x.address) (hs : Owns6 h.node src) (hn : NextHop6 h.stack src dst a)
    (hl : ∃ x ∈ h.stack.ip6Host, cidr 128 x.network.address.int x.network.mask.len a.int) (hk : ∀ m, ¬ Knows6 h a m)
    (hf : 48 + data.length ≤ h.stack.mtu) (hmtu : 72 ≤ h.stack.mtu ∧ h.stack.mtu < 65536) (choice : Nat) :
    ∃ G, Returns (h.sendto r data (some (.v6 dst)) port choice) 0 [G] ∧ (h.sendto r data (some (.v6 dst)) port choice).1 = h ∧
      AsksFor6 G h.stack a := by
  let c : L4 := { Udp.carried lport port data with kind := .udp lport port }
  have hc : c.len = 8 + data.length := rfl
  have := hb.ports
  obtain ⟨y, hy, rfl⟩ := hs
  obtain ⟨s, o, G, s1, s2, s3, s4⟩ := h.asks6 (c := c) (hop := 64) (by omega) (ho y hy) hn hk (.inr (.inl rfl)) (by omega) hmtu hl ho
  have e : h.udp (.v6 y.address) (.v6 dst) lport port data = (h, .ok (s, [o])) := by
    rw [Host.udp, if_neg (not_not.2 ⟨by omega, by omega⟩)]; exact s2
  rw [hb.sendto (dst := .v6 dst) hp rfl (ip6_specified (ho y hy).ordinary.1) (ip6_specified hn.unicast.1), e]
  exact ⟨G, ⟨[o], by simp [Socks.sentLen, s1], by simp [s3]⟩, rfl, s4⟩

/-! ### What arrives -/

/-- C88: after a datagram for a socket of the host has arrived, with none waiting there before, `recvfrom` returns it, with its sender. -/
theorem C88_datagram {hist : List (Spec.Env × Spec.Op)} {h : Host} {F p data : Bytes} {src dst : IpAddress} {sport dport r : Nat} {s : Sock}
    (hh : h.node.socks = (Spec.run hist).1) (H : Brings h.node F src dst 17 p) (hu : IsUdp p sport dport data) (hp : sport ≠ 0 ∧ dport ≠ 0)
    (hr : MostSpecific h.node.socks { lip := dst, lport := dport, rip := src, rport := sport, data := data } r)
    (hs : h.node.socks.socks[r]? = some s) (hq : s.queue = []) (t₀ t₁ t : Int) (d : Nat) :
    Puts (h.receive t₀ t₁ t d F) [] ∧ ((h.receive t₀ t₁ t d F).1.node.socks.recvfrom r).2 = .ok (data, src, sport) := by
  rcases C47_wire hh H hu hp.1 hp.2 t₀ t₁ d with ⟨r', ⟨s', k', x1, x2, x3⟩, e⟩ | ⟨hno, -⟩
  · have : r' = r := by
      obtain ⟨s₂, k₂, y1, y2, y3⟩ := hr
      rcases x3 _ _ _ y1 y2 with z | z
      · exact z.symm
      · rcases y3 _ _ _ x1 x2 with w | w
        · exact w
        · omega
    subst this
    have hr' := Host.receive_one (t := t) e (h' := h.withSocks (h.node.socks.deliver r' { lip := dst, lport := dport, rip := src, rport := sport, data := data }))
      (outs := []) rfl
    rw [hr']
    obtain ⟨hl, he⟩ := List.getElem?_eq_some_iff.1 hs
    refine ⟨⟨[], rfl, rfl⟩, ?_⟩
    rw [← he] at hq
    simp [Host.withSocks, Socks.deliver, Socks.put, Socks.recvfrom, hl, hq]
  · obtain ⟨s', k', x1, x2, -⟩ := hr
    rw [hno r s' x1] at x2; cases x2

/-- A message "destination unreachable" is accepted. -/
theorem Icmp4.accept_unreachable {n : Node} {F p q : Bytes} {src dst : Ip4Address} {code : Nat} (H : Brings4 n F src dst 1 p) (hv : Valid p)
    (hu : IsUnreachable 3 code p q) (hc : code < 16) (hq : 4 ≤ q.length) :
    ∃ h, HoldsIp4 n F h ∧ h.proto = 1 ∧ Icmp4.parse h.rest h.dlen = .ok none ∧ Icmp4.read h.rest h.dlen = .ok (.unreachable code q) := by
  obtain ⟨h, a1, rfl, rfl, a4, a5, a6, a7, a8, a9, a10, a11⟩ := H.holds
  obtain ⟨e1, e2, e3, e4, e5⟩ := hu
  have hl : 12 ≤ p.length := by rw [e5] at hq; simp at hq; omega
  have b0 : idx h.rest 0 = .ok 3 := by rw [idx_be (by omega), be_of_take a6 (by omega), e2]
  have b1 : idx h.rest 1 = .ok code := by rw [idx_be (by omega), be_of_take a6 (by omega), e3]
  refine ⟨h, a1, a4, ?_, ?_⟩
  · have hck : inetCksum (h.rest.take p.length) = 0 := by rw [a6]; exact (valid_iff (by omega)).mpr hv
    simp [Icmp4.parse, hck, Icmp4.type, Icmp4.code, b0, b1, a5, a7, hl, show 4 ≤ p.length by omega, show ¬ 15 < code by omega]
  · simp [Icmp4.read, Icmp4.type, Icmp4.code, Icmp4.unData, b0, b1, a5, slice_of_take a6, e5]

theorem Icmp6.accept_unreachable {n : Node} {F p q : Bytes} {src dst : Ip6Address} {code hop : Nat} (H : Brings6 n F src dst hop 58 p)
    (hv : Valid (pseudoHdr6 src dst 58 p.length ++ p)) (hu : IsUnreachable 1 code p q) (hc : code < 7) (hq : 4 ≤ q.length) :
    ∃ h, HoldsIp6 n F h ∧ h.next = 58 ∧ Icmp6.parse h.rest h.dlen h.pshdrSum h.src h.dst h.hop = .ok none ∧
      Icmp6.read h.rest h.dlen = .ok (.unreachable code q) := by
  obtain ⟨h, a1, rfl, rfl, a4, a5, a6, rfl, a8, a9, a10, a11⟩ := H.holds
  obtain ⟨e1, e2, e3, e4, e5⟩ := hu
  have hl : 12 ≤ h.rest.length := by rw [e5] at hq; simp at hq; omega
  have b0 : idx h.rest 0 = .ok 1 := by rw [idx_be (by omega), e2]
  have b1 : idx h.rest 1 = .ok code := by rw [idx_be (by omega), e3]
  refine ⟨h, a1, a4, ?_, ?_⟩
  · have hck : inetCksum h.rest h.pshdrSum = 0 := (pseudoHdr6_iff _ _ a9 a10 a11).1.mpr hv
    simp [Icmp6.parse, Icmp6.integrity, hck, Icmp6.integrityOf, Icmp6.sanity, Icmp6.type, Icmp6.code, b0, b1, a6, hl, show code ≤ 6 by omega,
      show 4 ≤ h.rest.length by omega]
  · simp [Icmp6.read, Icmp6.type, Icmp6.code, Icmp6.unData, b0, b1, a6, slice_of_take (List.take_length), e5]

theorem mostSpecific_unique {ss : Socks} {m : UdpMd} {r r' : Nat} (h : MostSpecific ss m r) (h' : MostSpecific ss m r') : r' = r := by
  obtain ⟨s, k, x1, x2, x3⟩ := h
  obtain ⟨s', k', y1, y2, y3⟩ := h'
  rcases x3 _ _ _ y1 y2 with z | z
  · exact z
  · rcases y3 _ _ _ x1 x2 with w | w
    · exact w.symm
    · omega

theorem Host.receive_refused (h : Host) {F : Bytes} {r : Nat} {t₀ t₁ : Int} {d : Nat} (e : Rx.ether h.node t₀ t₁ d F = (h.node, .ok [.udpUnreachable r]))
    (hl : r < h.node.socks.socks.length) (t : Int) :
    Puts (h.receive t₀ t₁ t d F) [] ∧ ((h.receive t₀ t₁ t d F).1.node.socks.recv r).2 = .error .connectionRefused := by
  have hr := Host.receive_one (t := t) e (h' := h.withSocks (h.node.socks.notify r)) (outs := []) rfl
  rw [hr]
  refine ⟨⟨[], rfl, rfl⟩, ?_⟩
  simp [Host.withSocks, Socks.notify, Socks.put, Socks.recv, hl]

theorem quotes4_fun {q : Bytes} {m m' : UdpMd} (h : Quotes4 q m) (h' : Quotes4 q m') : m'.lip = m.lip ∧ m'.lport = m.lport ∧ m'.rip = m.rip ∧ m'.rport = m.rport := by
  obtain ⟨-, -, -, -, ⟨a, b, x1, x2, x3, x4⟩, x5, x6⟩ := h
  obtain ⟨-, -, -, -, ⟨a', b', y1, y2, y3, y4⟩, y5, y6⟩ := h'
  refine ⟨?_, by omega, ?_, by omega⟩
  · rw [x1, y1]; cases a; cases a'; simp_all
  · rw [x3, y3]; cases b; cases b'; simp_all

theorem quotes6_fun {q : Bytes} {m m' : UdpMd} (h : Quotes6 q m) (h' : Quotes6 q m') : m'.lip = m.lip ∧ m'.lport = m.lport ∧ m'.rip = m.rip ∧ m'.rport = m.rport := by
  obtain ⟨-, -, -, ⟨a, b, x1, x2, x3, x4⟩, x5, x6⟩ := h
  obtain ⟨-, -, -, ⟨a', b', y1, y2, y3, y4⟩, y5, y6⟩ := h'
  refine ⟨?_, by omega, ?_, by omega⟩
  · rw [x1, y1]; cases a; cases a'; simp_all
  · rw [x3, y3]; cases b; cases b'; simp_all

theorem udpRank_data {id : SockId} {m m' : UdpMd} (h : m'.lip = m.lip ∧ m'.lport = m.lport ∧ m'.rip = m.rip ∧ m'.rport = m.rport) :
    udpRank id m' = udpRank id m := by
  obtain ⟨h1, h2, h3, h4⟩ := h
  simp only [udpRank, h1, h2, h3, h4]

theorem mostSpecific_data {ss : Socks} {r : Nat} {m m' : UdpMd} (h : m'.lip = m.lip ∧ m'.lport = m.lport ∧ m'.rip = m.rip ∧ m'.rport = m.rport)
    (hr : MostSpecific ss m r) : MostSpecific ss m' r := by
  obtain ⟨s, k, x1, x2, x3⟩ := hr
  exact ⟨s, k, x1, (udpRank_data h).trans x2, fun r' s' k' y1 y2 => x3 r' s' k' y1 ((udpRank_data h).symm.trans y2)⟩

/-- C88: after an ICMP "destination unreachable" has arrived that quotes a datagram of a socket of the host, the next `recv` on that socket
raises the error "connection refused". -/
theorem C88_refused4 {hist : List (Spec.Env × Spec.Op)} {h : Host} {F p q : Bytes} {src dst : Ip4Address} {code r : Nat} {m : UdpMd}
    (hh : h.node.socks = (Spec.run hist).1) (H : Brings4 h.node F src dst 1 p) (hv : Valid p) (hu : IsUnreachable 3 code p q) (hc : code < 16)
    (hm : Quotes4 q m) (hr : MostSpecific h.node.socks m r) (t₀ t₁ t : Int) (d : Nat) :
    Puts (h.receive t₀ t₁ t d F) [] ∧ ((h.receive t₀ t₁ t d F).1.node.socks.recv r).2 = .error .connectionRefused := by
  obtain ⟨x, x1, x2, x3, x4⟩ := Icmp4.accept_unreachable H hv hu hc (by have := hm.1; omega)
  have hl : r < h.node.socks.socks.length := by
    obtain ⟨s, k, ⟨y1, -⟩, -⟩ := hr
    exact (List.getElem?_eq_some_iff.1 y1).1
  rcases C50_unreachable4 hh x1 x2 x3 x4 t₀ t₁ d with ⟨m', y1, ⟨r', y2, y3⟩ | ⟨y2, -⟩⟩ | ⟨y, -⟩
  · have := mostSpecific_unique (mostSpecific_data (quotes4_fun hm y1) hr) y2
    subst this
    exact h.receive_refused y3 hl t
  · obtain ⟨s, k, z1, z2, -⟩ := mostSpecific_data (quotes4_fun hm y1) hr
    rw [y2 r s z1] at z2; cases z2
  · exact absurd hm (y m)

theorem C88_refused6 {hist : List (Spec.Env × Spec.Op)} {h : Host} {F p q : Bytes} {src dst : Ip6Address} {hop code r : Nat} {m : UdpMd}
    (hh : h.node.socks = (Spec.run hist).1) (H : Brings6 h.node F src dst hop 58 p) (hv : Valid (pseudoHdr6 src dst 58 p.length ++ p))
    (hu : IsUnreachable 1 code p q) (hc : code < 7) (hm : Quotes6 q m) (hr : MostSpecific h.node.socks m r) (t₀ t₁ t : Int) (d : Nat) :
    Puts (h.receive t₀ t₁ t d F) [] ∧ ((h.receive t₀ t₁ t d F).1.node.socks.recv r).2 = .error .connectionRefused := by
  obtain ⟨x, x1, x2, x3, x4⟩ := Icmp6.accept_unreachable H hv hu hc (by have := hm.1; omega)
  have hl : r < h.node.socks.socks.length := by
    obtain ⟨s, k, ⟨y1, -⟩, -⟩ := hr
    exact (List.getElem?_eq_some_iff.1 y1).1
  rcases C50_unreachable6 hh x1 x2 x3 x4 t₀ t₁ d with ⟨m', y1, ⟨r', y2, y3⟩ | ⟨y2, -⟩⟩ | ⟨y, -⟩
  · have := mostSpecific_unique (mostSpecific_data (quotes6_fun hm y1) hr) y2
    subst this
    exact h.receive_refused y3 hl t
  · obtain ⟨s, k, z1, z2, -⟩ := mostSpecific_data (quotes6_fun hm y1) hr
    rw [y2 r s z1] at z2; cases z2
  · exact absurd hm (y m)

/-! ### Two hosts -/

theorem Spec.Sends4.brings {n : Node} {F : Bytes} {mac nb : MacAddress} {src dst : Ip4Address} {ttl proto : Nat} {p : Bytes}
    (h : Sends4 F mac nb src dst ttl proto p) (hm : MacForUs n nb) (hl : Listens4 n dst) : Brings4 n F src dst proto p := by
  obtain ⟨b, ⟨f1, f2, f3, f4, rfl⟩, b1, b2, b3⟩ := h
  exact ⟨f1, ⟨nb, f2.symm, hm⟩, f4, b1, hl⟩

theorem Spec.Sends6.brings {n : Node} {F : Bytes} {mac nb : MacAddress} {src dst : Ip6Address} {hop next : Nat} {p : Bytes}
    (h : Sends6 F mac nb src dst hop next p) (hm : MacForUs n nb) (hl : Listens6 n dst) : Brings6 n F src dst hop next p := by
  obtain ⟨b, ⟨f1, f2, f3, f4, rfl⟩, b1⟩ := h
  exact ⟨f1, ⟨nb, f2.symm, hm⟩, f4, b1, hl⟩

theorem Spec.BoundTo.of_node {h h' : Host} {r port : Nat} {ip : IpAddress} (hb : BoundTo h r ip port) (e : h'.node = h.node) : BoundTo h' r ip port :=
  ⟨by rw [e]; exact hb.bound, hb.ports⟩

/-- C89: address resolution.  Host A sends a datagram to a neighbour B that it does not know.  The datagram is lost (`sendto` says so), but
what A broadcasts makes B answer, and what B answers makes A learn B's link-layer address: the next datagram to B goes out, to B. -/
theorem C89_resolve4 {A B : Host} {r lport port : Nat} {src dst : Ip4Address} {data : Bytes} (hb : BoundTo A r (.v4 src) lport)
    (hp : port < 65536) (ho : OwnSource4 A.stack src) (hn : NextHop4 A.stack src dst dst) (hk : ∀ m, ¬ Knows4 A dst m)
    (hf : 28 + data.length ≤ A.stack.mtu) (hmtu : A.stack.mtu < 65536)
    (hB : Owns4 B.node dst) (hother : ∀ x ∈ A.stack.ip4Host, ¬ Owns4 B.node x.address) (hmac : A.stack.mac.int ≠ 0)
    (hc : dst ∉ A.node.ip4Candidates) (choice : Nat) :
    ∃ G₁, Returns (A.sendto r data (some (.v4 dst)) port choice) 0 [G₁] ∧ (A.sendto r data (some (.v4 dst)) port choice).1 = A ∧
    ∀ t₀ t₁ t d, ∃ G₂, Puts (B.receive t₀ t₁ t d G₁) [G₂] ∧ (∃ x ∈ A.stack.ip4Host, Learnt4 B (B.receive t₀ t₁ t d G₁).1 x.address A.stack.mac) ∧
    ∀ u₀ u₁ u e, Puts (A.receive u₀ u₁ u e G₂) [] ∧ Learnt4 A (A.receive u₀ u₁ u e G₂).1 dst B.stack.mac ∧
    ∀ data' choice', 28 + data'.length ≤ A.stack.mtu →
      ∃ G₃ q, Returns ((A.receive u₀ u₁ u e G₂).1.sendto r data' (some (.v4 dst)) port choice') data'.length [G₃] ∧
        Sends4 G₃ A.stack.mac B.stack.mac src dst 64 17 q ∧ IsUdp q lport port data' ∧ NearlyValid (pseudoHdr4 src dst 17 q.length) q 6 := by
  obtain ⟨G₁, g1, g2, x, hx, g3⟩ := C88_sendto4_unknown hb hp ho hn hk hf choice
  refine ⟨G₁, g1, g2, fun t₀ t₁ t d => ?_⟩
  have hb1 : BringsArp B.node G₁ _ 1 _ _ _ _ := g3.brings (.inr (.inr rfl))
  obtain ⟨G₂, k1, k2, k3⟩ := C88_arp_request hb1 hB (hother x hx) hmac t₀ t₁ t d
  refine ⟨G₂, k1, ⟨x, hx, k3⟩, fun u₀ u₁ u e => ?_⟩
  have hb2 : BringsArp A.node G₂ A.stack.mac 2 _ _ _ _ := k2.brings (.inl rfl)
  obtain ⟨l1, l2⟩ := C88_arp_reply hb2 (fun hcc => hc hcc.1) u₀ u₁ u e
  refine ⟨l1, l2, fun data' choice' hf' => ?_⟩
  generalize (A.receive u₀ u₁ u e G₂).1 = A' at l2
  have es : A'.stack = A.stack := congrArg Node.stack l2.node
  rw [← es] at ho hn hf' hmtu ⊢
  obtain ⟨G₃, q, m1, -, m2⟩ := C88_sendto4 (data := data') (hb.of_node l2.node) hp ho hn l2.learnt hf' hmtu choice'
  exact ⟨G₃, q, m1, m2⟩

/-- C89 for IPv6, with neighbour discovery.  B has joined the solicited-node group of its address, and takes A's addresses for neighbours.
The checksums of the two messages must be right, which they are not always (C02). -/
theorem C89_resolve6_partial {A B : Host} {r lport port : Nat} {src dst : Ip6Address} {data : Bytes} (hb : BoundTo A r (.v6 src) lport)
    (hp : port < 65536) (ho : ∀ x ∈ A.stack.ip6Host, OwnSource6 A.stack x.address ∧ Unicast6 x.address) (hs : Owns6 A.node src)
    (hn : NextHop6 A.stack src dst dst) (hl : ∃ x ∈ A.stack.ip6Host, cidr 128 x.network.address.int x.network.mask.len dst.int)
    (hk : ∀ m, ¬ Knows6 A dst m) (hf : 48 + data.length ≤ A.stack.mtu) (hmtu : 72 ≤ A.stack.mtu ∧ A.stack.mtu < 65536)
    (hB : OwnSource6 B.stack dst) (hu : Unicast6 dst) (hg : groupMac (solicitedNode dst) ∈ B.node.macMulticast)
    (hj : solicitedNode dst ∈ B.stack.ip6Multicast) (hmtuB : 72 ≤ B.stack.mtu ∧ B.stack.mtu < 65536)
    (hback : ∀ x ∈ A.stack.ip6Host, NextHop6 B.stack dst x.address x.address) (hc : A.node.ip6Candidate ≠ some dst) (choice : Nat) :
    ∃ G₁ x q₁, Returns (A.sendto r data (some (.v6 dst)) port choice) 0 [G₁] ∧ (A.sendto r data (some (.v6 dst)) port choice).1 = A ∧
      x ∈ A.stack.ip6Host ∧ Sends6 G₁ A.stack.mac (groupMac (solicitedNode dst)) x.address (solicitedNode dst) 255 58 q₁ ∧
    (Valid (pseudoHdr6 x.address (solicitedNode dst) 58 q₁.length ++ q₁) → ∀ t₀ t₁ t d, ∃ G₂ q₂, Puts (B.receive t₀ t₁ t d G₁) [G₂] ∧
      Learnt6 B (B.receive t₀ t₁ t d G₁).1 x.address A.stack.mac ∧ Sends6 G₂ B.stack.mac A.stack.mac dst x.address 255 58 q₂ ∧
    (Valid (pseudoHdr6 dst x.address 58 q₂.length ++ q₂) → ∀ u₀ u₁ u e, Puts (A.receive u₀ u₁ u e G₂) [] ∧
      Learnt6 A (A.receive u₀ u₁ u e G₂).1 dst B.stack.mac ∧
    ∀ data' choice', 48 + data'.length ≤ A.stack.mtu →
      ∃ G₃ q, Returns ((A.receive u₀ u₁ u e G₂).1.sendto r data' (some (.v6 dst)) port choice') data'.length [G₃] ∧
        Sends6 G₃ A.stack.mac B.stack.mac src dst 64 17 q ∧ IsUdp q lport port data' ∧ NearlyValid (pseudoHdr6 src dst 17 q.length) q 6)) := by
  have hos : OwnSource6 A.stack src := by obtain ⟨y, hy, rfl⟩ := hs; exact (ho y hy).1
  obtain ⟨G₁, g1, g2, x, hx, -, q₁, g3, g4, -⟩ := C88_sendto6_unknown hb hp (fun x hx => (ho x hx).1) hs hn hl hk hf hmtu choice
  have fm : ∀ (k : Nat) (m : MacAddress), firstMac k [(k, bePack 6 m.int)] = some m.int := by
    intro k m
    simp only [firstMac, List.find?_cons, beq_self_eq_true, Option.map_some]
    rw [show be (bePack 6 m.int) 0 6 = m.int from ?_]
    have := be_pack_front (k := 6) (v := m.int) [] m.lt
    rwa [List.append_nil] at this
  have gp : ∀ (k : Nat) (v : Bytes), k ≠ 3 → GoodPrefixes [(k, v)] := by
    intro k v hk' w hw
    simp at hw
    exact absurd hw.1.symm hk'
  refine ⟨G₁, x, q₁, g1, g2, hx, g3, fun hv t₀ t₁ t d => ?_⟩
  have hb1 : Brings6 B.node G₁ _ _ _ 58 q₁ := g3.brings (.inr (.inl hg)) (.inr hj)
  obtain ⟨G₂, q₂, k1, k2, k3, k4, k5, k6, k7, -⟩ := C88_solicitation hb1 hv g4.message (gp _ _ (by decide)) g4.hasTarget.symm
    ⟨g4.code, rfl, .inr (ho x hx).2, .inr rfl, hu, fun h0 => absurd h0 (by have := (ho x hx).1.ordinary; omega)⟩ (fm 1 _) hB (hback x hx) hmtuB t₀ t₁ t d
  refine ⟨G₂, q₂, k1, k2, k3, fun hv₂ u₀ u₁ u e => ?_⟩
  have hb2 : Brings6 A.node G₂ _ _ _ 58 q₂ := k3.brings (.inl rfl) (.inl ⟨x, hx, rfl⟩)
  obtain ⟨l1, l2⟩ := C88_advertisement hb2 hv₂ k4.message (gp _ _ (by decide)) k4.hasTarget.symm ⟨k4.code, rfl, hu, .inl ⟨k6, (ho x hx).2⟩⟩ (fm 2 _) hc u₀ u₁ u e
  refine ⟨l1, l2, fun data' choice' hf' => ?_⟩
  generalize (A.receive u₀ u₁ u e G₂).1 = A' at l2
  have es : A'.stack = A.stack := congrArg Node.stack l2.node
  rw [← es] at hos hn hf' hmtu ⊢
  obtain ⟨G₃, q, m1, -, m2⟩ := C88_sendto6 (data := data') (hb.of_node l2.node) hp hos hn l2.learnt hf' hmtu.2 choice'
  exact ⟨G₃, q, m1, m2⟩

/-- C89: a datagram that host A sends to host B, as one frame on the wire, is what the application at B gets, with the address and port of A's
socket.  The checksum must be right, which it is not always (C02). -/
theorem C89_delivered4_partial {A B : Host} {r r' lport port : Nat} {src dst a : Ip4Address} {data : Bytes} {hist : List (Spec.Env × Spec.Op)} {s : Sock}
    (hb : BoundTo A r (.v4 src) lport) (hp : 0 < port ∧ port < 65536) (ho : OwnSource4 A.stack src) (hn : NextHop4 A.stack src dst a)
    (hk : Knows4 A a B.stack.mac) (hf : 28 + data.length ≤ A.stack.mtu) (hmtu : A.stack.mtu < 65536) (hB : Owns4 B.node dst)
    (hh : B.node.socks = (Spec.run hist).1)
    (hr : MostSpecific B.node.socks { lip := .v4 dst, lport := port, rip := .v4 src, rport := lport, data := data } r')
    (hs : B.node.socks.socks[r']? = some s) (hq : s.queue = []) (choice : Nat) :
    ∃ G q, Returns (A.sendto r data (some (.v4 dst)) port choice) data.length [G] ∧ Sends4 G A.stack.mac B.stack.mac src dst 64 17 q ∧
      NearlyValid (pseudoHdr4 src dst 17 q.length) q 6 ∧
      (Valid (pseudoHdr4 src dst 17 q.length ++ q) → ∀ t₀ t₁ t d, Puts (B.receive t₀ t₁ t d G) [] ∧
        ((B.receive t₀ t₁ t d G).1.node.socks.recvfrom r').2 = .ok (data, .v4 src, lport)) := by
  obtain ⟨G, q, g1, -, g2, g3, g4⟩ := C88_sendto4 hb hp.2 ho hn hk hf hmtu choice
  refine ⟨G, q, g1, g2, g4, fun hv t₀ t₁ t d => ?_⟩
  have := hb.ports
  exact C88_datagram hh (.v4 (g2.brings (.inl rfl) (.inl hB)) hv) g3 ⟨by omega, by omega⟩ hr hs hq t₀ t₁ t d

theorem C89_delivered6_partial {A B : Host} {r r' lport port : Nat} {src dst a : Ip6Address} {data : Bytes} {hist : List (Spec.Env × Spec.Op)} {s : Sock}
    (hb : BoundTo A r (.v6 src) lport) (hp : 0 < port ∧ port < 65536) (ho : OwnSource6 A.stack src) (hn : NextHop6 A.stack src dst a)
    (hk : Knows6 A a B.stack.mac) (hf : 48 + data.length ≤ A.stack.mtu) (hmtu : A.stack.mtu < 65536) (hB : Owns6 B.node dst)
    (hh : B.node.socks = (Spec.run hist).1)
    (hr : MostSpecific B.node.socks { lip := .v6 dst, lport := port, rip := .v6 src, rport := lport, data := data } r')
    (hs : B.node.socks.socks[r']? = some s) (hq : s.queue = []) (choice : Nat) :
    ∃ G q, Returns (A.sendto r data (some (.v6 dst)) port choice) data.length [G] ∧ Sends6 G A.stack.mac B.stack.mac src dst 64 17 q ∧
      NearlyValid (pseudoHdr6 src dst 17 q.length) q 6 ∧
      (Valid (pseudoHdr6 src dst 17 q.length ++ q) → ∀ t₀ t₁ t d, Puts (B.receive t₀ t₁ t d G) [] ∧
        ((B.receive t₀ t₁ t d G).1.node.socks.recvfrom r').2 = .ok (data, .v6 src, lport)) := by
  obtain ⟨G, q, g1, -, g2, g3, g4⟩ := C88_sendto6 hb hp.2 ho hn hk hf hmtu choice
  refine ⟨G, q, g1, g2, g4, fun hv t₀ t₁ t d => ?_⟩
  have := hb.ports
  exact C88_datagram hh (.v6 (g2.brings (.inl rfl) (.inl hB)) hv) g3 ⟨by omega, by omega⟩ hr hs hq t₀ t₁ t d

/-- What the quoted packet says. -/
theorem quotes4_of {F q data : Bytes} {mac nb : MacAddress} {src dst : Ip4Address} {ttl sport dport : Nat} (h : Sends4 F mac nb src dst ttl 17 q)
    (hu : IsUdp q sport dport data) :
    Quotes4 ((ipPacket F).take 520) { lip := .v4 src, lport := sport, rip := .v4 dst, rport := dport, data := [] } := by
  obtain ⟨b, ⟨f1, f2, f3, f4, f5⟩, b1, -, b3⟩ := h
  obtain ⟨u1, u2, u3, u4, -⟩ := hu
  have hpl := congrArg List.length b1.hasPayload
  have b4 := b1.header
  have b5 := b1.length
  simp only [List.length_drop, List.length_take] at hpl
  have e1 : be b 0 1 % 16 * 4 = 20 := by omega
  have e2 : be b 2 2 = b.length := by omega
  have e3 : ipPacket F = b := by
    rw [ipPacket, if_pos f4, f5, show be F 16 2 = be b 2 2 from by rw [← f5, be_drop], e2, List.take_length]
  have hq : q = b.drop 20 := by rw [b1.hasPayload, e2, e1, List.take_length]
  rw [hq] at u3 u4
  rw [be_drop] at u3 u4
  have z : be (b.take 520) 0 1 % 16 * 4 = 20 := by rw [be_take _ _ _ _ (by omega)]; exact e1
  rw [e3]
  refine ⟨by simp; omega, by rw [be_take _ _ _ _ (by omega)]; exact b1.version, by rw [be_take _ _ _ _ (by omega)]; exact b1.hasProto, ?_,
    ⟨src, dst, rfl, by rw [be_take _ _ _ _ (by omega)]; exact b1.hasSrc, rfl, by rw [be_take _ _ _ _ (by omega)]; exact b1.hasDst⟩, ?_, ?_⟩
  · rw [z]; simp; omega
  · rw [z, be_take _ _ _ _ (by omega)]; exact u3.symm
  · rw [z, be_take _ _ _ _ (by omega)]; exact u4.symm

theorem quotes6_of {F q data : Bytes} {mac nb : MacAddress} {src dst : Ip6Address} {hop sport dport : Nat} (h : Sends6 F mac nb src dst hop 17 q)
    (hu : IsUdp q sport dport data) :
    Quotes6 ((ipPacket F).take 520) { lip := .v6 src, lport := sport, rip := .v6 dst, rport := dport, data := [] } := by
  obtain ⟨b, ⟨f1, f2, f3, f4, f5⟩, b1⟩ := h
  obtain ⟨u1, u2, u3, u4, -⟩ := hu
  have hpl := congrArg List.length b1.hasPayload
  simp only [List.length_drop] at hpl
  have e3 : ipPacket F = b := by
    rw [ipPacket, if_neg (by omega), f5]
  rw [b1.hasPayload, be_drop] at u3 u4
  rw [e3]
  refine ⟨by simp; omega, by rw [be_take _ _ _ _ (by omega)]; exact b1.version, by rw [be_take _ _ _ _ (by omega)]; exact b1.hasNext,
    ⟨src, dst, rfl, by rw [be_take _ _ _ _ (by omega)]; exact b1.hasSrc, rfl, by rw [be_take _ _ _ _ (by omega)]; exact b1.hasDst⟩, ?_, ?_⟩
  · rw [be_take _ _ _ _ (by omega)]; exact u3.symm
  · rw [be_take _ _ _ _ (by omega)]; exact u4.symm

/-- C89: a datagram to a port of host B that no socket has is refused: B's answer makes the next `recv` on A's socket raise "connection
refused". -/
theorem C89_refused4_partial {A B : Host} {r lport port : Nat} {src dst a a' : Ip4Address} {data : Bytes} {histA histB : List (Spec.Env × Spec.Op)}
    (hb : BoundTo A r (.v4 src) lport) (hp : 0 < port ∧ port < 65536) (ho : OwnSource4 A.stack src) (hn : NextHop4 A.stack src dst a)
    (hk : Knows4 A a B.stack.mac) (hf : 28 + data.length ≤ A.stack.mtu) (hmtu : A.stack.mtu < 65536)
    (hoB : OwnSource4 B.stack dst) (hnB : NextHop4 B.stack dst src a') (hkB : Knows4 B a' A.stack.mac) (hmtuB : 576 ≤ B.stack.mtu ∧ B.stack.mtu < 65536)
    (hA : A.node.socks = (Spec.run histA).1) (hB : B.node.socks = (Spec.run histB).1)
    (hr : MostSpecific A.node.socks { lip := .v4 src, lport := lport, rip := .v4 dst, rport := port, data := [] } r)
    (hno : NoSocket B.node.socks { lip := .v4 dst, lport := port, rip := .v4 src, rport := lport, data := data }) (choice : Nat) :
    ∃ A' G₁ q₁, Returns (A.sendto r data (some (.v4 dst)) port choice) data.length [G₁] ∧ (A.sendto r data (some (.v4 dst)) port choice).1 = A' ∧
      Sends4 G₁ A.stack.mac B.stack.mac src dst 64 17 q₁ ∧
    (Valid (pseudoHdr4 src dst 17 q₁.length ++ q₁) → ∀ t₀ t₁ t d, ∃ G₂ q₂, Puts (B.receive t₀ t₁ t d G₁) [G₂] ∧
      Sends4 G₂ B.stack.mac A.stack.mac dst src 64 1 q₂ ∧
    (Valid q₂ → ∀ u₀ u₁ u e, Puts (A'.receive u₀ u₁ u e G₂) [] ∧
      ((A'.receive u₀ u₁ u e G₂).1.node.socks.recv r).2 = .error .connectionRefused)) := by
  obtain ⟨G₁, q₁, g1, gu, g2, g3, g4⟩ := C88_sendto4 hb hp.2 ho hn hk hf hmtu choice
  have := hb.ports
  refine ⟨_, G₁, q₁, g1, rfl, g2, fun hv t₀ t₁ t d => ?_⟩
  obtain ⟨G₂, q₂, k1, -, k2, k3, -⟩ := C88_closed_port4 hB (.v4 (g2.brings (.inl rfl) (.inl hoB.own)) hv) g3 ⟨by omega, by omega⟩ hno hoB hnB hmtuB hkB t₀ t₁ t d
  refine ⟨G₂, q₂, k1, k2, fun hv₂ u₀ u₁ u e => ?_⟩
  generalize (A.sendto r data (some (.v4 dst)) port choice).1 = A' at gu
  have hnode := gu.node
  exact C88_refused4 (by rw [hnode]; exact hA) (k2.brings (.inl (by rw [hnode]; rfl)) (.inl (by rw [hnode]; exact ho.own))) hv₂ k3 (by decide)
    (quotes4_of g2 g3) (by rw [hnode]; exact hr) u₀ u₁ u e

theorem C89_refused6_partial {A B : Host} {r lport port : Nat} {src dst a a' : Ip6Address} {data : Bytes} {histA histB : List (Spec.Env × Spec.Op)}
    (hb : BoundTo A r (.v6 src) lport) (hp : 0 < port ∧ port < 65536) (ho : OwnSource6 A.stack src) (hn : NextHop6 A.stack src dst a)
    (hk : Knows6 A a B.stack.mac) (hf : 48 + data.length ≤ A.stack.mtu) (hmtu : A.stack.mtu < 65536)
    (hoB : OwnSource6 B.stack dst) (hnB : NextHop6 B.stack dst src a') (hkB : Knows6 B a' A.stack.mac) (hmtuB : 1280 ≤ B.stack.mtu ∧ B.stack.mtu < 65536)
    (hA : A.node.socks = (Spec.run histA).1) (hB : B.node.socks = (Spec.run histB).1)
    (hr : MostSpecific A.node.socks { lip := .v6 src, lport := lport, rip := .v6 dst, rport := port, data := [] } r)
    (hno : NoSocket B.node.socks { lip := .v6 dst, lport := port, rip := .v6 src, rport := lport, data := data }) (choice : Nat) :
    ∃ A' G₁ q₁, Returns (A.sendto r data (some (.v6 dst)) port choice) data.length [G₁] ∧ (A.sendto r data (some (.v6 dst)) port choice).1 = A' ∧
      Sends6 G₁ A.stack.mac B.stack.mac src dst 64 17 q₁ ∧
    (Valid (pseudoHdr6 src dst 17 q₁.length ++ q₁) → ∀ t₀ t₁ t d, ∃ G₂ q₂, Puts (B.receive t₀ t₁ t d G₁) [G₂] ∧
      Sends6 G₂ B.stack.mac A.stack.mac dst src 64 58 q₂ ∧
    (Valid (pseudoHdr6 dst src 58 q₂.length ++ q₂) → ∀ u₀ u₁ u e, Puts (A'.receive u₀ u₁ u e G₂) [] ∧
      ((A'.receive u₀ u₁ u e G₂).1.node.socks.recv r).2 = .error .connectionRefused)) := by
  obtain ⟨G₁, q₁, g1, gu, g2, g3, g4⟩ := C88_sendto6 hb hp.2 ho hn hk hf hmtu choice
  have := hb.ports
  refine ⟨_, G₁, q₁, g1, rfl, g2, fun hv t₀ t₁ t d => ?_⟩
  obtain ⟨G₂, q₂, k1, -, k2, k3, -⟩ := C88_closed_port6 hB (.v6 (g2.brings (.inl rfl) (.inl hoB.own)) hv) g3 ⟨by omega, by omega⟩ hno hoB hnB hmtuB hkB t₀ t₁ t d
  refine ⟨G₂, q₂, k1, k2, fun hv₂ u₀ u₁ u e => ?_⟩
  generalize (A.sendto r data (some (.v6 dst)) port choice).1 = A' at gu
  have hnode := gu.node
  exact C88_refused6 (by rw [hnode]; exact hA) (k2.brings (.inl (by rw [hnode]; rfl)) (.inl (by rw [hnode]; exact ho.own))) hv₂ k3 (by decide)
    (quotes6_of g2 g3) (by rw [hnode]; exact hr) u₀ u₁ u e

/-! ### Concrete cases -/

namespace Example.Host
open Example.Rx Example.Wire

/-- 10.0.1.9 and 2001:db8::9, with a UDP socket at port 5000 of each; it knows nobody. -/
def A : Host :=
  ⟨{ stack := Example.EndToEnd.sender 1500, macMulticast := [], ip4Candidates := [], ip6Candidate := none, flows4 := [], flows6 := [],
     socks := (Spec.run (Example.EndToEnd.hist 1500)).1 }, [], []⟩
/-- 10.0.1.7 and 2001:db8::7, with a UDP socket at port 53. -/
def B : Host :=
  ⟨{ Example.Rx.node with
     stack := { Example.stack with ip6Multicast := [solicitedNode Example.host6.address] }
     macMulticast := [groupMac (solicitedNode Example.host6.address)] }, [], []⟩
def entry (m : MacAddress) : CacheEntry := ⟨m, false, 0, 0⟩
/-- The two when they know each other. -/
def A' : Host := { A with arp := [(Example.host4.address, entry Example.stack.mac)], nd := [(Example.host6.address, entry Example.stack.mac)] }
def B' : Host := { B with arp := [(peer4, entry peerMac)], nd := [(peer6, entry peerMac)] }
/-- The node of the other examples, that knows its peer. -/
def H : Host := ⟨Example.Rx.node, [(peer4, entry peerMac)], [(peer6, entry peerMac)]⟩

theorem a_own4 : OwnSource4 A.stack peer4 := ⟨⟨_, List.mem_cons_self, rfl⟩, by decide, by decide, by decide⟩
theorem a_own6 : OwnSource6 A.stack peer6 := ⟨⟨_, List.mem_cons_self, rfl⟩, by decide, by decide⟩
theorem a_next4 : NextHop4 A.stack peer4 Example.host4.address Example.host4.address :=
  ⟨⟨_, List.mem_cons_self, rfl, by intro y hy; simp [A, Host.stack, Example.EndToEnd.sender] at hy; intro _; exact hy, by decide, by decide,
    fun _ => rfl, fun hn => absurd (by unfold cidr; decide +kernel) hn⟩, by decide⟩
theorem a_next6 : NextHop6 A.stack peer6 Example.host6.address Example.host6.address :=
  ⟨⟨_, List.mem_cons_self, rfl, by intro y hy; simp [A, Host.stack, Example.EndToEnd.sender] at hy; intro _; exact hy,
    fun _ => rfl, fun hn => absurd (by unfold cidr; decide +kernel) hn⟩, by decide⟩
theorem b_own4 : OwnSource4 B.stack Example.host4.address := ⟨⟨Example.host4, by decide, rfl⟩, by decide, by decide, by decide⟩
theorem b_own6 : OwnSource6 B.stack Example.host6.address := ⟨⟨Example.host6, by decide, rfl⟩, by decide, by decide⟩
theorem b_next4 : NextHop4 B.stack Example.host4.address peer4 peer4 :=
  ⟨⟨Example.host4, by decide, rfl, by decide, by decide, by decide, fun _ => rfl, fun hn => absurd (by unfold cidr; decide +kernel) hn⟩, by decide⟩
theorem b_next6 : NextHop6 B.stack Example.host6.address peer6 peer6 :=
  ⟨⟨Example.host6, by decide, rfl, by decide, fun _ => rfl, fun hn => absurd (by unfold cidr; decide +kernel) hn⟩, by decide⟩
theorem h_own4 : OwnSource4 H.stack Example.host4.address := ⟨⟨Example.host4, by decide, rfl⟩, by decide, by decide, by decide⟩
theorem h_own6 : OwnSource6 H.stack Example.host6.address := ⟨⟨Example.host6, by decide, rfl⟩, by decide, by decide⟩
theorem h_next4 : NextHop4 H.stack Example.host4.address peer4 peer4 :=
  ⟨⟨Example.host4, by decide, rfl, by decide, by decide, by decide, fun _ => rfl, fun hn => absurd (by unfold cidr; decide +kernel) hn⟩, by decide⟩
theorem h_next6 : NextHop6 H.stack Example.host6.address peer6 peer6 :=
  ⟨⟨Example.host6, by decide, rfl, by decide, fun _ => rfl, fun hn => absurd (by unfold cidr; decide +kernel) hn⟩, by decide⟩
theorem a_bound4 : BoundTo A 0 (.v4 peer4) 5000 := ⟨⟨_, rfl, by decide +kernel, by decide +kernel, by decide +kernel⟩, by decide⟩
theorem a_bound6 : BoundTo A 1 (.v6 peer6) 5000 := ⟨⟨_, rfl, by decide +kernel, by decide +kernel, by decide +kernel⟩, by decide⟩

/-- C88: the hypotheses about the host in the theorems about pings and closed ports (frames: see `Example.Wire` and `Example.WireNd`). -/
example : OwnSource4 H.stack Example.host4.address ∧ NextHop4 H.stack Example.host4.address peer4 peer4 ∧ Knows4 H peer4 peerMac ∧
    (∀ m, ¬ Knows4 B peer4 m) ∧ Brings4 H.node (frame4 31 1 100 202 ping4) peer4 Example.host4.address 1 ping4 :=
  ⟨h_own4, h_next4, rfl, fun m hm => (by cases hm), brings4 rfl (by unfold Valid; decide +kernel)⟩
example : OwnSource6 H.stack Example.host6.address ∧ NextHop6 H.stack Example.host6.address peer6 peer6 ∧ Knows6 H peer6 peerMac ∧
    (∀ m, ¬ Knows6 B peer6 m) ∧ Brings6 H.node (frame6 11 58 ping6) peer6 Example.host6.address 255 58 ping6 :=
  ⟨h_own6, h_next6, rfl, fun m hm => (by cases hm), brings6 rfl⟩
/-- No socket has port 53 of the IPv6 address, nor port 80. -/
example : NoSocket H.node.socks { lip := .v6 Example.host6.address, lport := 53, rip := .v6 peer6, rport := 5353, data := [9, 9] } :=
  (match_spec (Socks.run_wf hist) _).2 (by decide +kernel)
example : ∀ r s, Registered H.node.socks r s → ¬ TakesSegment s.id (segment (.v4 peer4) (.v4 Example.host4.address) syn [(2, [5, 180]), (3, [7])]) :=
  tcpMatch_none_only (by decide +kernel)
example : (resetFor (.v4 peer4) (.v4 Example.host4.address) syn).ackn = 78 := by decide +kernel
/-- The segment of `Example.WireTx`, at the host whose address it has. -/
example : NextHop4 H.stack Example.host4.address peer4 peer4 ∧ 1500 ≤ H.stack.mtu := ⟨h_next4, by decide⟩

/-- C89: address resolution. -/
example : BoundTo A 0 (.v4 peer4) 5000 ∧ (∀ m, ¬ Knows4 A Example.host4.address m) ∧ Owns4 B.node Example.host4.address ∧
    (∀ x ∈ A.stack.ip4Host, ¬ Owns4 B.node x.address) ∧ A.stack.mac.int ≠ 0 :=
  ⟨a_bound4, fun m hm => (by cases hm), b_own4.own, by unfold Owns4; decide, by decide⟩
example : BoundTo A 1 (.v6 peer6) 5000 ∧ (∀ x ∈ A.stack.ip6Host, OwnSource6 A.stack x.address ∧ Unicast6 x.address) ∧
    (∃ x ∈ A.stack.ip6Host, cidr 128 x.network.address.int x.network.mask.len Example.host6.address.int) ∧
    (∀ m, ¬ Knows6 A Example.host6.address m) ∧ Unicast6 Example.host6.address ∧
    (∀ x ∈ A.stack.ip6Host, NextHop6 B.stack Example.host6.address x.address x.address) := by
  refine ⟨a_bound6, ?_, ⟨_, List.mem_cons_self, by unfold cidr; decide +kernel⟩, fun m hm => (by cases hm), .inr (.inl (by unfold cidr; decide +kernel)), ?_⟩
  · intro x hx
    simp [A, Host.stack, Example.EndToEnd.sender] at hx
    subst hx
    exact ⟨a_own6, .inr (.inl (by unfold cidr; decide +kernel))⟩
  · intro x hx
    simp [A, Host.stack, Example.EndToEnd.sender] at hx
    subst hx
    exact b_next6

/-- The exchange, run: A's first datagram is lost, B answers the request, A's second datagram is delivered. -/
def frames : Py (List Outgoing) → List Bytes
  | .ok l => l.filterMap fun o => match o.frame with | .ok F => some F | _ => none
  | .error _ => []
def sentFrames : Py (Nat × List Outgoing) → Nat × List Bytes
  | .ok (n, l) => (n, frames (.ok l))
  | .error _ => (0, [])
def exchange (r r' : Nat) (dst : IpAddress) (port : Nat) : Option (Bytes × IpAddress × Nat) :=
  match sentFrames (A.sendto r [1, 2, 3] (some dst) port 0).2 with
  | (0, [G₁]) =>
    match B.receive 0 0 0 8 G₁ with
    | (B₁, o) => match frames o with
      | [G₂] =>
        let A₁ := (A.receive 0 0 0 8 G₂).1
        match sentFrames (A₁.sendto r [1, 2, 3] (some dst) port 0).2 with
        | (3, [G₃]) => ((B₁.receive 0 0 0 8 G₃).1.node.socks.recvfrom r').2.toOption
        | _ => none
      | _ => none
  | _ => none

example : exchange 0 0 (.v4 Example.host4.address) 53 = some ([1, 2, 3], .v4 peer4, 5000) := by decide +kernel

/-- C89: delivery, and refusal. -/
example : Knows4 A' Example.host4.address B'.stack.mac ∧ Knows4 B' peer4 A'.stack.mac ∧ Knows6 A' Example.host6.address B'.stack.mac ∧
    Knows6 B' peer6 A'.stack.mac ∧ A'.node.socks = (Spec.run (Example.EndToEnd.hist 1500)).1 ∧ B'.node.socks = (Spec.run hist).1 :=
  ⟨rfl, rfl, rfl, rfl, rfl, rfl⟩
example : MostSpecific B'.node.socks { lip := .v4 Example.host4.address, lport := 53, rip := .v4 peer4, rport := 5000, data := [1] } 0 :=
  (match_spec (Socks.run_wf hist) _).1 0 (by decide +kernel)
example : MostSpecific A'.node.socks { lip := .v4 peer4, lport := 5000, rip := .v4 Example.host4.address, rport := 99, data := [] } 0 :=
  (match_spec (Socks.run_wf (Example.EndToEnd.hist 1500)) _).1 0 (by decide +kernel)
example : NoSocket B'.node.socks { lip := .v4 Example.host4.address, lport := 99, rip := .v4 peer4, rport := 5000, data := [1] } :=
  (match_spec (Socks.run_wf hist) _).2 (by decide +kernel)

end Example.Host

end Verif
