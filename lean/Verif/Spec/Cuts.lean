import Verif.Spec.Origin
import Verif.Spec.WireTx
import Verif.Spec.Frag
/-! A datagram that leaves in several frames. -/
namespace Verif.Spec

/-- `F` is a frame from `mac` to `m` with an IPv4 packet of at most `mtu` bytes: the piece `f` of the datagram from `src` to `dst` with this TTL, protocol and
identification. -/
def Cut4 (mac m : MacAddress) (mtu : Nat) (src dst : Ip4Address) (ttl proto id : Nat) (f : Piece) (F : Bytes) : Prop :=
  ∃ b, IsFrame F mac m 0x0800 b ∧ b.length ≤ mtu ∧ Frag4 b src dst proto id f.offset f.mf f.data ∧ be b 8 1 = ttl

/-- The same for IPv6: the packet has a fragment header. -/
def Cut6 (mac m : MacAddress) (mtu : Nat) (src dst : Ip6Address) (proto id : Nat) (f : Piece) (F : Bytes) : Prop :=
  ∃ b, IsFrame F mac m 0x86DD b ∧ b.length ≤ mtu ∧ Frag6 b src dst proto id f.offset f.mf f.data ∧ be b 7 1 = 64

end Verif.Spec
