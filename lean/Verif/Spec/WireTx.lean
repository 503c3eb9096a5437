import Verif.Spec.Wire
import Verif.Spec.Net
/-! What is in the bytes of a frame that is sent. -/
namespace Verif.Spec

/-- `F` is an Ethernet frame from `src` to `dst` with payload `p` of this type. -/
structure IsFrame (F : Bytes) (src dst : MacAddress) (type : Nat) (p : Bytes) : Prop where
  length : 14 ≤ F.length
  hasDst : be F 0 6 = dst.int
  hasSrc : be F 6 6 = src.int
  hasType : be F 12 2 = type
  hasPayload : F.drop 14 = p

/-- `src` is an address of the stack and an ordinary one: not among its multicast addresses, not a broadcast address of one of its
networks, below 224.0.0.0 and not 0.0.0.0. -/
structure OwnSource4 (st : Stack) (src : Ip4Address) : Prop where
  own : ∃ h ∈ st.ip4Host, h.address = src
  multicast : src ∉ st.ip4Multicast
  broadcast : ∀ h ∈ st.ip4Host, h.network.bcast ≠ src
  ordinary : 0 < src.int ∧ src.int < 0xE0000000

/-- The same for IPv6: not multicast (ff00::/8) and not ::. -/
structure OwnSource6 (st : Stack) (src : Ip6Address) : Prop where
  own : ∃ h ∈ st.ip6Host, h.address = src
  multicast : src ∉ st.ip6Multicast
  ordinary : 0 < src.int ∧ src.int < 0xFF000000000000000000000000000000

/-- What a TCP at `dst` is told about the segment `g` that a session at `src` sent: the window is 65535, a SYN says that segments of
up to 1460 bytes are welcome (536 is meant when nothing is said), and there is no window scale. -/
def heard (g : Seg) (src : IpAddress) (sport : Nat) (dst : IpAddress) (dport : Nat) : TcpMd :=
  { lip := dst, lport := dport, rip := src, rport := sport, syn := g.syn, ack := g.ack, fin := g.fin, rst := g.rst, seq := g.seq,
    ackn := g.ackn, win := 65535, wscale := none, mss := if g.syn then 1460 else 536, data := g.data }

/-- The checksum in bytes `i` and `i + 1` of `q`, under the pseudo-header `ph`, is the right one or exactly one more: `q`, or `q` with that
number less by one, is valid. -/
def NearlyValid (ph q : Bytes) (i : Nat) : Prop :=
  Valid (ph ++ q) ∨ ∃ c < 65535, (q.drop i).take 2 = bePack 2 (c + 1) ∧ Valid (ph ++ (q.take i ++ bePack 2 c ++ q.drop (i + 2)))

end Verif.Spec
