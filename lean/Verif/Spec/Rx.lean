import Verif.Model.Rx
import Verif.Spec.Socket
/-! What the properties about received frames mean. -/
namespace Verif.Spec

/-- The number in the `k` bytes of `f` from position `i` on, most significant byte first. -/
def be (f : Bytes) (i k : Nat) : Nat := beNat ((f.drop i).take k)

/-- A frame with this destination address is for the stack. -/
def MacForUs (n : Node) (dst : MacAddress) : Prop :=
  dst = n.stack.mac ∨ dst ∈ n.macMulticast ∨ dst.int = 0xFFFFFFFFFFFF

/-- `a` is one of the stack's own addresses. -/
def Owns4 (n : Node) (a : Ip4Address) : Prop := ∃ h ∈ n.stack.ip4Host, h.address = a
def Owns6 (n : Node) (a : Ip6Address) : Prop := ∃ h ∈ n.stack.ip6Host, h.address = a

/-- `a` is a destination the stack listens to: its own addresses, the groups it joined, the broadcast addresses of its networks,
255.255.255.255. -/
def Listens4 (n : Node) (a : Ip4Address) : Prop :=
  Owns4 n a ∨ a ∈ n.stack.ip4Multicast ∨ (∃ h ∈ n.stack.ip4Host, h.network.broadcast = .ok a) ∨ a.int = 0xFFFFFFFF
def Listens6 (n : Node) (a : Ip6Address) : Prop := Owns6 n a ∨ a ∈ n.stack.ip6Multicast

/-- The frame `F` is valid Ethernet for the stack, and has header and data `e`. -/
def HoldsEther (n : Node) (F : Bytes) (e : Ether.Hdr) : Prop :=
  Ether.parse F = .ok none ∧ Ether.read F = .ok e ∧ MacForUs n e.dst

/-- The frame `F` holds a whole IPv4 packet for the stack with header `h`. -/
def HoldsIp4 (n : Node) (F : Bytes) (h : Ip4.Hdr) : Prop :=
  ∃ e, HoldsEther n F e ∧ e.type = 0x0800 ∧ Ip4.parse e.data = .ok none ∧ Ip4.read e.data = .ok h ∧ Listens4 n h.dst ∧
    h.offset = 0 ∧ h.mf = false

/-- The frame `F` holds a whole IPv6 packet for the stack with header `h`. -/
def HoldsIp6 (n : Node) (F : Bytes) (h : Ip6.Hdr) : Prop :=
  ∃ e, HoldsEther n F e ∧ e.type = 0x86DD ∧ Ip6.parse e.data = .ok none ∧ Ip6.read e.data = .ok h ∧ Listens6 n h.dst

/-- The frame `F` holds a whole packet of IP protocol `proto` for the stack, with payload `f` (and link-layer padding). -/
def HoldsIp (n : Node) (F : Bytes) (ip : Rx.IpHdr) (proto : Nat) (f : Bytes) : Prop :=
  (∃ h, HoldsIp4 n F h ∧ h.proto = proto ∧ ip = ⟨.v4 h.src, .v4 h.dst, h.dlen, h.pshdrSum, h.packetCopy⟩ ∧ f = h.rest) ∨
  (∃ h, HoldsIp6 n F h ∧ h.next = proto ∧ ip = ⟨.v6 h.src, .v6 h.dst, h.dlen, h.pshdrSum, h.packetCopy⟩ ∧ f = h.rest)

/-- The IPv4 packet `p` gives the stack the packet `g` to handle: itself, or, when it is a fragment, the packet it completes (which
the reassembly properties describe). -/
inductive Gives4 (n : Node) (t₀ t₁ : Int) (p : Bytes) : Bytes → Prop
  | whole {h : Ip4.Hdr} : Ip4.parse p = .ok none → Ip4.read p = .ok h → (n.stack.ip4Host = [] ∨ Listens4 n h.dst) → h.offset = 0 →
      h.mf = false → Gives4 n t₀ t₁ p p
  | last {h : Ip4.Hdr} {flows : Dict Frag.Key4 Frag.Flow} {g : Bytes} : Ip4.parse p = .ok none → Ip4.read p = .ok h →
      (n.stack.ip4Host = [] ∨ Listens4 n h.dst) → (h.offset ≠ 0 ∨ h.mf = true) →
      Frag.defragIp4 n.flows4 t₀ t₁ h = (flows, .ok (some g)) → Gives4 n t₀ t₁ p g

/-- The same for IPv6, where a reassembled packet may be a fragment of another one. -/
inductive Gives6 (t₀ t₁ : Int) : Node → Bytes → Bytes → Prop
  | whole (n : Node) (p : Bytes) : Gives6 t₀ t₁ n p p
  | last {n : Node} {p g g' : Bytes} {h : Ip6.Hdr} {x : Ip6Frag.Hdr} {flows : Dict Frag.Key6 Frag.Flow} : Ip6.parse p = .ok none →
      Ip6.read p = .ok h → Listens6 n h.dst → h.next = 44 → Ip6Frag.parse h.rest = .ok none → Ip6Frag.read h.rest h.dlen = .ok x →
      Frag.defragIp6 n.flows6 t₀ t₁ h x = (flows, .ok (some g)) → Gives6 t₀ t₁ { n with flows6 := flows } g g' → Gives6 t₀ t₁ n p g'

/-- An option list whose first source (target) link-layer address is `m`. -/
def FirstSlla (opts : List Icmp6.RxOpt) (m : MacAddress) : Prop :=
  ∃ a k b, opts = a ++ .slla k m :: b ∧ ∀ k' m', .slla k' m' ∉ a
def FirstTlla (opts : List Icmp6.RxOpt) (m : MacAddress) : Prop :=
  ∃ a k b, opts = a ++ .tlla k m :: b ∧ ∀ k' m', .tlla k' m' ∉ a

/-- The bytes quoted in an ICMPv4 error are (the start of) an IPv4 packet with a UDP datagram from `m.lip`, `m.lport` to `m.rip`,
`m.rport`. -/
def Quotes4 (q : Bytes) (m : UdpMd) : Prop :=
  20 ≤ q.length ∧ be q 0 1 / 16 = 4 ∧ be q 9 1 = 17 ∧ be q 0 1 % 16 * 4 + 8 ≤ q.length ∧
  (∃ a b : Ip4Address, m.lip = .v4 a ∧ a.int = be q 12 4 ∧ m.rip = .v4 b ∧ b.int = be q 16 4) ∧
  m.lport = be q (be q 0 1 % 16 * 4) 2 ∧ m.rport = be q (be q 0 1 % 16 * 4 + 2) 2

/-- The same for ICMPv6: an IPv6 packet with a UDP datagram right after its header. -/
def Quotes6 (q : Bytes) (m : UdpMd) : Prop :=
  48 ≤ q.length ∧ be q 0 1 / 16 = 6 ∧ be q 6 1 = 17 ∧
  (∃ a b : Ip6Address, m.lip = .v6 a ∧ a.int = be q 8 16 ∧ m.rip = .v6 b ∧ b.int = be q 24 16) ∧
  m.lport = be q 40 2 ∧ m.rport = be q 42 2

/-- A TCP socket takes the segment: it is connected to exactly this peer, or it listens at this port, for this address or for
all, and the segment is a plain SYN. -/
def TakesSegment (id : SockId) (m : TcpMd) : Prop :=
  id.type = .stream ∧ id.family = m.lip.family ∧ id.lport = m.lport ∧
    ((id.lip = m.lip ∧ id.rip = m.rip ∧ id.rport = m.rport) ∨
     ((m.syn = true ∧ m.ack = false ∧ m.fin = false ∧ m.rst = false) ∧ (id.lip = m.lip ∨ id.lip = m.lip.family.any) ∧
       id.rip = m.lip.family.any ∧ id.rport = 0))

/-- The effect is the transmission of an ICMP echo reply. -/
def IsEchoReply : Eff → Prop
  | .txIcmp4 _ _ (.echoReply _ _ _) => True
  | .txIcmp6 _ _ _ (.echoReply _ _ _) => True
  | _ => False

end Verif.Spec
