import Verif.Model.Boot
import Verif.Spec.Host
import Verif.Spec.WireNd
/-! What is meant by the parts of C104. -/
namespace Verif.Spec

/-- The host has queued the frame `G`. -/
def Queued (b : Boot) (G : Bytes) : Prop := ∃ o ∈ b.out, o.frame = .ok G

/-- The question of a host with the link-layer address `mac` whether somebody has the address `x` (RFC 4862 section 5.4.2): a neighbour
solicitation without options, to the solicited-node group of `x`. -/
structure AsksWhether (G : Bytes) (mac : MacAddress) (src x : Ip6Address) (q : Bytes) : Prop where
  sends : Sends6 G mac (groupMac (solicitedNode x)) src (solicitedNode x) 255 58 q
  message : IsNd 135 24 q []
  code : be q 1 1 = 0
  hasTarget : be q 8 16 = x.int
  checksum : NearlyValid (pseudoHdr6 src (solicitedNode x) 58 q.length) q 2

/-- The host has the address `x`, and hears questions for it. -/
structure Holds6 (h : Host) (x : Ip6Address) : Prop where
  source : OwnSource6 h.stack x
  unicast : Unicast6 x
  group : solicitedNode x ∈ h.stack.ip6Multicast
  mac : groupMac (solicitedNode x) ∈ h.node.macMulticast

/-- The host hears what is said to all nodes. -/
def HearsAll (h : Host) : Prop := allNodes6 ∈ h.stack.ip6Multicast ∧ groupMac allNodes6 ∈ h.node.macMulticast

/-- None of the host's networks holds the solicited-node group of `x`; `::` is not a group. -/
structure Plain6 (h : Host) (x : Ip6Address) : Prop where
  network : ∀ y ∈ h.stack.ip6Host, ¬ cidr 128 y.network.address.int y.network.mask.len (solicitedNode x).int
  zero : Ip6Address.zero ∉ h.stack.ip6Multicast

/-- The first of the host's addresses that has a gateway. -/
def FirstWithGateway (h : Host) (s : Ip6Address) : Prop :=
  ∃ pre y post, h.stack.ip6Host = pre ++ y :: post ∧ y.gateway ≠ none ∧ y.address = s ∧ ∀ z ∈ pre, z.gateway = none

/-- An MTU that IPv6 frames of neighbour discovery fit into. -/
def GoodMtu (h : Host) : Prop := 72 ≤ h.stack.mtu ∧ h.stack.mtu < 65536

/-- The frame `G` is among the frames that are handled while the host waits for an answer. -/
def HeardInTime (φ : Nat → List Boot.In) (G : Bytes) : Prop := ∃ i ∈ φ 2, i.frame = G

/-- The frame may tell the host that somebody has the address `x`: the IPv6 packet that it holds, or may complete, is an advertisement of `x`. -/
def MayClaim (i : Boot.In) (x : Ip6Address) : Prop :=
  be i.frame 12 2 = 0x86DD ∧ ∃ n g src dst hop p opts, Gives6 i.t₀ i.t₁ n (i.frame.drop 14) g ∧ Ip6Packet g src dst hop 58 p ∧ IsNd 136 24 p opts ∧
    GoodNa src dst hop p ∧ be p 8 16 = x.int

end Verif.Spec
