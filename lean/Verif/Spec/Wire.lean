import Verif.Spec.Rx
import Verif.Spec.Cksum
import Verif.Spec.Addr
/-!
What is in the bytes of a received frame, written from the RFCs and without the parsers: `be f i k` is the number in the `k`
bytes of `f` from position `i` on.
-/
namespace Verif.Spec

/-- The options area of an IPv4 or TCP header (RFC 791 section 3.1, RFC 9293 section 3.2) holds these options, as (kind, value):
kind 0 ends the list and what follows it is padding, kind 1 is a single byte, any other kind is followed by a length that counts
both of them and the value. -/
inductive Options : Bytes → List (Nat × Bytes) → Prop
  | nil : Options [] []
  | eol (t : Bytes) : Options (0 :: t) []
  | nop {t : Bytes} {l : List (Nat × Bytes)} : Options t l → Options (1 :: t) l
  | opt {t : Bytes} {l : List (Nat × Bytes)} (k n : UInt8) (v : Bytes) : 2 ≤ k.toNat → n.toNat = v.length + 2 → Options t l →
      Options (k :: n :: (v ++ t)) ((k.toNat, v) :: l)

/-- `p` starts with an IPv4 packet (RFC 791) with these fields: version 4, a header length and a total length that fit, a valid header
checksum.  What follows the total length is link-layer padding. -/
structure Ip4Fields (p : Bytes) (src dst : Ip4Address) (proto : Nat) (payload : Bytes) : Prop where
  version : be p 0 1 / 16 = 4
  header : 20 ≤ be p 0 1 % 16 * 4 ∧ be p 0 1 % 16 * 4 ≤ be p 2 2
  length : be p 2 2 ≤ p.length
  checksum : Valid (p.take (be p 0 1 % 16 * 4))
  hasProto : be p 9 1 = proto
  hasSrc : src.int = be p 12 4
  hasDst : dst.int = be p 16 4
  hasPayload : payload = (p.take (be p 2 2)).drop (be p 0 1 % 16 * 4)

/-- The packet is also whole (not a fragment), with well-formed options and a source below the multicast range. -/
structure Ip4Packet (p : Bytes) (src dst : Ip4Address) (proto : Nat) (payload : Bytes) : Prop extends Ip4Fields p src dst proto payload where
  options : ∃ l, Options ((p.take (be p 0 1 % 16 * 4)).drop 20) l
  whole : be p 6 2 % 0x4000 = 0
  unicast : src.int < 0xE0000000

/-- `p` is an IPv6 packet (RFC 8200) without extension headers, with nothing after it. -/
structure Ip6Packet (p : Bytes) (src dst : Ip6Address) (hop next : Nat) (payload : Bytes) : Prop where
  version : be p 0 1 / 16 = 6
  length : 40 ≤ p.length ∧ be p 4 2 = p.length - 40
  hasNext : be p 6 1 = next
  hasHop : be p 7 1 = hop
  alive : hop ≠ 0
  hasSrc : src.int = be p 8 16
  hasDst : dst.int = be p 24 16
  unicast : be p 8 1 ≠ 255
  hasPayload : payload = p.drop 40

/-- The frame `F` brings the stack an IPv4 packet: it is addressed to the stack at both layers. -/
structure Brings4 (n : Node) (F : Bytes) (src dst : Ip4Address) (proto : Nat) (payload : Bytes) : Prop where
  length : 14 ≤ F.length
  mac : ∃ m : MacAddress, m.int = be F 0 6 ∧ MacForUs n m
  type : be F 12 2 = 0x0800
  packet : Ip4Packet (F.drop 14) src dst proto payload
  listens : Listens4 n dst

/-- The same for IPv6. -/
structure Brings6 (n : Node) (F : Bytes) (src dst : Ip6Address) (hop next : Nat) (payload : Bytes) : Prop where
  length : 14 ≤ F.length
  mac : ∃ m : MacAddress, m.int = be F 0 6 ∧ MacForUs n m
  type : be F 12 2 = 0x86DD
  packet : Ip6Packet (F.drop 14) src dst hop next payload
  listens : Listens6 n dst

/-- The pseudo-header of TCP and UDP over IPv4 (RFC 9293 section 3.1). -/
def pseudoHdr4 (src dst : Ip4Address) (proto len : Nat) : Bytes :=
  bePack 4 src.int ++ bePack 4 dst.int ++ [0, UInt8.ofNat proto] ++ bePack 2 len
/-- The pseudo-header of every upper-layer protocol over IPv6 (RFC 8200 section 8.1). -/
def pseudoHdr6 (src dst : Ip6Address) (next len : Nat) : Bytes :=
  bePack 16 src.int ++ bePack 16 dst.int ++ bePack 4 len ++ [0, 0, 0, UInt8.ofNat next]

/-- The frame `F` brings the stack `payload`, of IP protocol `proto`, with a checksum that is right for it (RFC 1071). -/
inductive Brings (n : Node) (F : Bytes) : IpAddress → IpAddress → Nat → Bytes → Prop
  | v4 {src dst : Ip4Address} {proto : Nat} {payload : Bytes} : Brings4 n F src dst proto payload →
      Valid (pseudoHdr4 src dst proto payload.length ++ payload) → Brings n F (.v4 src) (.v4 dst) proto payload
  | v6 {src dst : Ip6Address} {hop next : Nat} {payload : Bytes} : Brings6 n F src dst hop next payload →
      Valid (pseudoHdr6 src dst next payload.length ++ payload) → Brings n F (.v6 src) (.v6 dst) next payload

/-- The IP packet in the frame, without link-layer header and padding. -/
def ipPacket (F : Bytes) : Bytes :=
  if be F 12 2 = 0x0800 then (F.drop 14).take (be F 16 2) else F.drop 14

/-- `p` is an ICMP (or ICMPv6) echo message of this type, with this identifier, sequence number and data (RFC 792, RFC 4443). -/
def IsEcho (type : Nat) (p : Bytes) (id seq : Nat) (data : Bytes) : Prop :=
  8 ≤ p.length ∧ be p 0 1 = type ∧ be p 1 1 = 0 ∧ be p 4 2 = id ∧ be p 6 2 = seq ∧ data = p.drop 8

/-- `p` is a UDP datagram (RFC 768). -/
def IsUdp (p : Bytes) (sport dport : Nat) (data : Bytes) : Prop :=
  8 ≤ p.length ∧ be p 4 2 = p.length ∧ be p 0 2 = sport ∧ be p 2 2 = dport ∧ data = p.drop 8

/-- Bit `i` (from 0, the least significant) of byte `j`. -/
def bit (p : Bytes) (j i : Nat) : Bool := be p j 1 / 2 ^ i % 2 = 1

/-- `p` is a TCP segment (RFC 9293 section 3.1) with these options. -/
structure IsTcp (p : Bytes) (opts : List (Nat × Bytes)) : Prop where
  length : 20 ≤ p.length
  header : 20 ≤ be p 12 1 / 16 * 4 ∧ be p 12 1 / 16 * 4 ≤ p.length
  options : Options ((p.take (be p 12 1 / 16 * 4)).drop 20) opts
  /-- RFC 9293 section 3.2, RFC 7323: the lengths of MSS, window scale, SACK permitted and timestamps -/
  known : ∀ k v, (k, v) ∈ opts → (k = 2 → v.length = 2) ∧ (k = 3 → v.length = 1) ∧ (k = 4 → v.length = 0) ∧ (k = 8 → v.length = 8)

/-- A segment no TCP sends: port 0, contradictory flags, FIN without ACK, an acknowledgement number without ACK or an urgent
pointer without URG. -/
def OddTcp (p : Bytes) : Prop :=
  be p 0 2 = 0 ∨ be p 2 2 = 0 ∨ (bit p 13 1 = true ∧ bit p 13 0 = true) ∨ (bit p 13 1 = true ∧ bit p 13 2 = true) ∨
    (bit p 13 0 = true ∧ bit p 13 2 = true) ∨ (bit p 13 0 = true ∧ bit p 13 4 = false) ∨
    (be p 8 4 ≠ 0 ∧ bit p 13 4 = false) ∨ (be p 18 2 ≠ 0 ∧ bit p 13 5 = false)

/-- The value of the first option of kind `k`. -/
def firstOption (k : Nat) (opts : List (Nat × Bytes)) : Option Nat := ((opts.find? (·.1 == k)).map (fun o => beNat o.2))

/-- What a TCP is told about the segment `p` from `src` to `dst`: the fields of its header, where RFC 9293 puts them; the maximum
segment size and (as a factor) the window scale it offers; and its data. -/
def segment (src dst : IpAddress) (p : Bytes) (opts : List (Nat × Bytes)) : TcpMd :=
  { lip := dst, lport := be p 2 2, rip := src, rport := be p 0 2, syn := bit p 13 1, ack := bit p 13 4, fin := bit p 13 0,
    rst := bit p 13 2, seq := be p 4 4, ackn := be p 8 4, win := be p 14 2, wscale := (firstOption 3 opts).map (2 ^ ·),
    mss := (firstOption 2 opts).getD 536, data := p.drop (be p 12 1 / 16 * 4) }

/-- Of the TCP sockets that take the segment, `r` is the one it belongs to: the connected one, or else the listening one at the
segment's destination address, or else the listening one for all addresses. -/
def Belongs (ss : Socks) (m : TcpMd) (r : Nat) : Prop :=
  ∃ s, Registered ss r s ∧ TakesSegment s.id m ∧
    ∀ r' s', Registered ss r' s' → TakesSegment s'.id m → r' = r ∨
      (s.id.lip = m.lip ∧ s.id.rip = m.rip ∧ s.id.rport = m.rport) ∨
      (s.id.lip = m.lip ∧ s'.id.lip ≠ m.lip)

/-- The options of a neighbour discovery message (RFC 4861 section 4.6), as (type, value): the length counts units of eight bytes
and includes type and length. -/
inductive NdOptions : Bytes → List (Nat × Bytes) → Prop
  | nil : NdOptions [] []
  | opt {t : Bytes} {l : List (Nat × Bytes)} (k n : UInt8) (v : Bytes) : 0 < n.toNat → n.toNat * 8 = v.length + 2 → NdOptions t l →
      NdOptions (k :: n :: (v ++ t)) ((k.toNat, v) :: l)

end Verif.Spec
