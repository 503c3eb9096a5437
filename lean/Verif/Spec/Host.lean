import Verif.Spec.WireNd
import Verif.Spec.WireTx
import Verif.Model.Host
/-!
What a host does with a frame, seen from the outside: the frames that it queues because of it, as bytes, and what it has learnt.
-/
namespace Verif.Spec

/-- The call has queued these frames, in this order, and no others. -/
def Puts (r : Host × Py (List Outgoing)) (Fs : List Bytes) : Prop := ∃ outs, r.2 = .ok outs ∧ outs.map (·.frame) = Fs.map .ok

/-- The call has returned this number, and has queued these frames, in this order, and no others. -/
def Returns (r : Host × Py (Nat × List Outgoing)) (n : Nat) (Fs : List Bytes) : Prop := ∃ outs, r.2 = .ok (n, outs) ∧ outs.map (·.frame) = Fs.map .ok

/-- Socket number `r` of the host has this local address and port. -/
structure BoundTo (h : Host) (r : Nat) (ip : IpAddress) (port : Nat) : Prop where
  bound : ∃ s, h.node.socks.socks[r]? = some s ∧ s.id.lip = ip ∧ s.id.lport = port ∧ s.id.family = ip.family
  ports : 1 ≤ port ∧ port < 65536

/-- The cache of the host says that `a` has the link-layer address `m`. -/
def Knows4 (h : Host) (a : Ip4Address) (m : MacAddress) : Prop := (h.arp.get? a).map (·.mac) = some m
def Knows6 (h : Host) (a : Ip6Address) (m : MacAddress) : Prop := (h.nd.get? a).map (·.mac) = some m

/-- Nothing about the host has changed: what it is and owns, its sockets, and what it knows about its neighbours. -/
structure Unchanged (h h' : Host) : Prop where
  node : h'.node = h.node
  arp : ∀ a m, Knows4 h' a m ↔ Knows4 h a m
  nd : ∀ a m, Knows6 h' a m ↔ Knows6 h a m

/-- The host has learnt that `a` has the link-layer address `m`, and nothing else about it has changed. -/
structure Learnt4 (h h' : Host) (a : Ip4Address) (m : MacAddress) : Prop where
  node : h'.node = h.node
  learnt : Knows4 h' a m
  others : ∀ b, b ≠ a → ∀ m', Knows4 h' b m' ↔ Knows4 h b m'
  nd : ∀ b m', Knows6 h' b m' ↔ Knows6 h b m'
structure Learnt6 (h h' : Host) (a : Ip6Address) (m : MacAddress) : Prop where
  node : h'.node = h.node
  learnt : Knows6 h' a m
  others : ∀ b, b ≠ a → ∀ m', Knows6 h' b m' ↔ Knows6 h b m'
  arp : ∀ b m', Knows4 h' b m' ↔ Knows4 h b m'

/-- A packet from the address `src` of the stack to `dst` must be handed to the neighbour `a`: `dst` itself, if it is in the network of that
address, and the gateway of that address if not.  `dst` is no multicast or broadcast address, and not 0.0.0.0. -/
structure NextHop4 (st : Stack) (src dst a : Ip4Address) : Prop where
  route : ∃ x ∈ st.ip4Host, x.address = src ∧ (∀ y ∈ st.ip4Host, y.address = src → y = x) ∧
    dst ≠ x.network.address ∧ dst ≠ x.network.bcast ∧
    (cidr 32 x.network.address.int x.network.mask.len dst.int → a = dst) ∧
    (¬ cidr 32 x.network.address.int x.network.mask.len dst.int → x.gateway = some a)
  unicast : 0 < dst.int ∧ dst.int < 0xE0000000

/-- The same for IPv6. -/
structure NextHop6 (st : Stack) (src dst a : Ip6Address) : Prop where
  route : ∃ x ∈ st.ip6Host, x.address = src ∧ (∀ y ∈ st.ip6Host, y.address = src → y = x) ∧
    (cidr 128 x.network.address.int x.network.mask.len dst.int → a = dst) ∧
    (¬ cidr 128 x.network.address.int x.network.mask.len dst.int → x.gateway = some a)
  unicast : 0 < dst.int ∧ dst.int < 0xFF000000000000000000000000000000

/-- The frame `F`, from `mac` to `to`, holds an IPv4 packet with these fields and nothing else. -/
def Sends4 (F : Bytes) (mac to : MacAddress) (src dst : Ip4Address) (ttl proto : Nat) (p : Bytes) : Prop :=
  ∃ b, IsFrame F mac to 0x0800 b ∧ Ip4Packet b src dst proto p ∧ be b 8 1 = ttl ∧ b.length = 20 + p.length

/-- The same for IPv6. -/
def Sends6 (F : Bytes) (mac to : MacAddress) (src dst : Ip6Address) (hop next : Nat) (p : Bytes) : Prop :=
  ∃ b, IsFrame F mac to 0x86DD b ∧ Ip6Packet b src dst hop next p

/-- `b` starts with an ARP packet (RFC 826) for IPv4 over Ethernet with these fields. -/
structure IsArp (b : Bytes) (oper : Nat) (sha : MacAddress) (spa : Ip4Address) (tha : MacAddress) (tpa : Ip4Address) : Prop where
  length : 28 ≤ b.length
  hardware : be b 0 2 = 1 ∧ be b 4 1 = 6
  protocol : be b 2 2 = 0x0800 ∧ be b 5 1 = 4
  hasOper : be b 6 2 = oper
  hasSha : be b 8 6 = sha.int
  hasSpa : be b 14 4 = spa.int
  hasTha : be b 18 6 = tha.int
  hasTpa : be b 24 4 = tpa.int

/-- The frame `F`, from `mac` to `to`, holds this ARP packet and nothing else. -/
def SendsArp (F : Bytes) (mac to : MacAddress) (oper : Nat) (sha : MacAddress) (spa : Ip4Address) (tha : MacAddress) (tpa : Ip4Address) : Prop :=
  ∃ b, IsFrame F mac to 0x0806 b ∧ IsArp b oper sha spa tha tpa ∧ b.length = 28

/-- The frame `F` brings the stack an ARP packet. -/
structure BringsArp (n : Node) (F : Bytes) (to : MacAddress) (oper : Nat) (sha : MacAddress) (spa : Ip4Address) (tha : MacAddress)
    (tpa : Ip4Address) : Prop where
  length : 14 ≤ F.length
  hasTo : to.int = be F 0 6
  mac : MacForUs n to
  type : be F 12 2 = 0x0806
  packet : IsArp (F.drop 14) oper sha spa tha tpa

/-- `p` is a "destination unreachable" message (RFC 792, RFC 4443) with this type and code that quotes `q`. -/
def IsUnreachable (type code : Nat) (p q : Bytes) : Prop :=
  8 ≤ p.length ∧ be p 0 1 = type ∧ be p 1 1 = code ∧ be p 4 4 = 0 ∧ q = p.drop 8

/-- What a TCP at `src` is told by the reset that answers its segment `p` to `dst` (RFC 9293 section 3.10.7.1: sequence number 0, and the
number after the segment is acknowledged). -/
def resetFor (src dst : IpAddress) (p : Bytes) : TcpMd :=
  { lip := src, lport := be p 0 2, rip := dst, rport := be p 2 2, syn := false, ack := true, fin := false, rst := true, seq := 0,
    ackn := be p 4 4 + (if bit p 13 1 then 1 else 0) + (if bit p 13 0 then 1 else 0) + (p.length - be p 12 1 / 16 * 4), win := 0,
    wscale := none, mss := 536, data := [] }

/-- The request that the host broadcasts when it looks for `a`. -/
def AsksFor4 (F : Bytes) (st : Stack) (a : Ip4Address) : Prop :=
  ∃ x ∈ st.ip4Host, SendsArp F st.mac ⟨0xFFFFFFFFFFFF, by decide⟩ 1 st.mac x.address ⟨0, by decide⟩ a

/-- `q` is a neighbour solicitation or advertisement (by type) for `target`, with the sender's link-layer address in an option of this
kind. -/
structure NdFor (type kind : Nat) (q : Bytes) (target : Ip6Address) (mac : MacAddress) : Prop where
  message : IsNd type 24 q [(kind, bePack 6 mac.int)]
  code : be q 1 1 = 0
  hasTarget : be q 8 16 = target.int

/-- The neighbour solicitation that the host sends when it looks for `a`: from one of its addresses in the network of `a`, to the
solicited-node group of `a`, with hop limit 255. -/
def AsksFor6 (F : Bytes) (st : Stack) (a : Ip6Address) : Prop :=
  ∃ x ∈ st.ip6Host, cidr 128 x.network.address.int x.network.mask.len a.int ∧ ∃ q,
    Sends6 F st.mac (groupMac (solicitedNode a)) x.address (solicitedNode a) 255 58 q ∧ NdFor 135 1 q a st.mac ∧
    NearlyValid (pseudoHdr6 x.address (solicitedNode a) 58 q.length) q 2

end Verif.Spec
