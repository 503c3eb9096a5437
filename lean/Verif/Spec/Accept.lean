import Verif.Spec.Wire
import Verif.Spec.WireNd
/-! Which ARP, ICMP and UDP messages are in order, written from RFC 826, 792, 4443, 3810 and 768. -/
namespace Verif.Spec

/-- An ARP message for IPv4 over Ethernet: a request or a reply. -/
def ArpInOrder (p : Bytes) : Prop :=
  28 ≤ p.length ∧ be p 0 2 = 1 ∧ be p 2 2 = 0x0800 ∧ be p 4 1 = 6 ∧ be p 5 1 = 4 ∧ (be p 6 2 = 1 ∨ be p 6 2 = 2)

/-- A UDP datagram between two ports that exist. -/
def UdpInOrder (p : Bytes) : Prop := 8 ≤ p.length ∧ be p 4 2 = p.length ∧ be p 0 2 ≠ 0 ∧ be p 2 2 ≠ 0

/-- An ICMP message: an echo message with code 0 and room for its fields, an unreachable message with a known code and room for the header
of a packet (the code asks for 12 bytes), or a message of any other type. -/
def Icmp4InOrder (p : Bytes) : Prop :=
  4 ≤ p.length ∧ (be p 0 1 = 0 ∨ be p 0 1 = 8 → 8 ≤ p.length ∧ be p 1 1 = 0) ∧ (be p 0 1 = 3 → 12 ≤ p.length ∧ be p 1 1 ≤ 15)

/-- So many address records of a multicast report (RFC 3810 section 5.2): 20 bytes, of which byte 1 counts the auxiliary data in units of `unit`
bytes and bytes 2 and 3 the source addresses; then these. -/
inductive Records (unit : Nat) : Nat → Bytes → Prop
  | nil : Records unit 0 []
  | cons {n : Nat} {rest : Bytes} (h body : Bytes) : h.length = 20 → body.length = unit * be h 1 1 + 16 * be h 2 2 → Records unit n rest →
      Records unit (n + 1) (h ++ body ++ rest)

/-- An ICMPv6 message that is not of neighbour discovery, in a packet with this hop limit.  Auxiliary data is counted in units of `unit` bytes. -/
structure Icmp6InOrder (unit : Nat) (p : Bytes) (hop : Nat) : Prop where
  length : 4 ≤ p.length
  unreachable : be p 0 1 = 1 → 12 ≤ p.length ∧ be p 1 1 ≤ 6
  tooBig : be p 0 1 = 2 → be p 1 1 = 0
  timeExceeded : be p 0 1 = 3 → be p 1 1 ≤ 1
  parameter : be p 0 1 = 4 → be p 1 1 ≤ 2
  echo : be p 0 1 = 128 ∨ be p 0 1 = 129 → 8 ≤ p.length ∧ be p 1 1 = 0
  query : be p 0 1 = 130 → 28 ≤ p.length ∧ p.length = 28 + 16 * be p 26 2 ∧ be p 1 1 = 0 ∧ hop = 1
  report : be p 0 1 = 143 → 8 ≤ p.length ∧ Records unit (be p 6 2) (p.drop 8) ∧ be p 1 1 = 0 ∧ hop = 1

/-- ff02::2 -/
def allRouters6 : Ip6Address := ⟨0xFF020000000000000000000000000002, by decide⟩

/-- A router solicitation to be believed (RFC 4861 sections 4.1 and 6.1.1). -/
def GoodRs (src dst : Ip6Address) (hop : Nat) (p : Bytes) (opts : List (Nat × Bytes)) : Prop :=
  be p 1 1 = 0 ∧ hop = 255 ∧ (src.int = 0 ∨ Unicast6 src) ∧ dst = allRouters6 ∧ (src.int = 0 → firstMac 1 opts = none)

/-- A message of neighbour discovery (types 133 to 136), in a packet with these addresses and this hop limit. -/
inductive NdInOrder (src dst : Ip6Address) (hop : Nat) (p : Bytes) : Prop
  | routerSolicitation {opts : List (Nat × Bytes)} : IsNd 133 8 p opts → GoodRs src dst hop p opts → NdInOrder src dst hop p
  | routerAdvertisement {opts : List (Nat × Bytes)} : IsNd 134 16 p opts → GoodRa src dst hop p → NdInOrder src dst hop p
  | solicitation {opts : List (Nat × Bytes)} {target : Ip6Address} : IsNd 135 24 p opts → target.int = be p 8 16 →
      GoodNs src dst hop p target opts → NdInOrder src dst hop p
  | advertisement {opts : List (Nat × Bytes)} : IsNd 136 24 p opts → GoodNa src dst hop p → NdInOrder src dst hop p

/-- How many bytes are before the options of a message of this type. -/
def ndSize (type : Nat) : Nat := if type = 133 then 8 else if type = 134 then 16 else 24

end Verif.Spec
