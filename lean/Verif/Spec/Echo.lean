import Verif.Model.Echo
import Verif.Spec.Host
/-! What an echo service promises. -/
namespace Verif.Spec
open Echo

/-- The word `w`, of small letters, is in `d`, each letter small or capital. -/
def Occurs (w d : Bytes) : Prop := ∃ a c b, d = a ++ c ++ b ∧ c.length = w.length ∧ ∀ p ∈ c.zip w, p.1 = p.2 ∨ p.1 = p.2 - 32

/-- What the service sends back for `d`: one of its pictures when `d` names it, or else `d` itself. -/
inductive EchoOf (d : Bytes) : Bytes → Prop
  | malpka : Occurs (ascii "malpka") d → EchoOf d malpka
  | malpa : ¬ Occurs (ascii "malpka") d → Occurs (ascii "malpa") d → EchoOf d malpa
  | malpi : ¬ Occurs (ascii "malpka") d → ¬ Occurs (ascii "malpa") d → Occurs (ascii "malpi") d → EchoOf d malpi
  | same : ¬ Occurs (ascii "malpka") d → ¬ Occurs (ascii "malpa") d → ¬ Occurs (ascii "malpi") d → EchoOf d d

/-- The socket `r` is a UDP socket with this local address (it may be 0.0.0.0 or ::) and port. -/
structure Serves (h : Host) (r : Nat) (ip : IpAddress) (port : Nat) : Prop where
  bound : BoundTo h r ip port
  udp : ∀ s, h.node.socks.socks[r]? = some s → s.id.type = .dgram

/-- The round of the service has sent `x` to this address and port, in these frames, and no others; `sendto` has returned its length. -/
def Answers (o : Round) (ip : IpAddress) (port : Nat) (x : Bytes) (Fs : List Bytes) : Prop :=
  ∃ outs, o = .answered ip port x x.length outs ∧ outs.map (·.frame) = Fs.map .ok

/-- The datagrams handed to the service's socket, and the answers given to `sendto`: to whom and what. -/
def requested (s : Service) : List UdpMd := s.log.filterMap asRequest
  where asRequest : Note → Option UdpMd
    | .came m => some m
    | .answered .. => none
def replied (s : Service) : List (IpAddress × Nat × Bytes) := s.log.filterMap asReply
  where asReply : Note → Option (IpAddress × Nat × Bytes)
    | .came _ => none
    | .answered ip port d _ _ => some (ip, port, d)

/-- The datagrams that wait in the socket `r`. -/
def unread (h : Host) (r : Nat) : List UdpMd := match h.node.socks.socks[r]? with | some s => s.queue | none => []

/-- An answer to `dst` leaves from `src`, of a socket whose local address is `ip`: that address, or, when it is 0.0.0.0, the address in the
first network that `dst` is in, or if there is none the first address with a gateway. -/
def LeavesFrom4 (st : Stack) (ip dst src : Ip4Address) : Prop :=
  0 < ip.int ∧ src = ip ∨
  ip.int = 0 ∧ ∃ l₁ x l₂, st.ip4Host = l₁ ++ x :: l₂ ∧ x.address = src ∧
    ((∀ y ∈ l₁, ¬ cidr 32 y.network.address.int y.network.mask.len dst.int) ∧ cidr 32 x.network.address.int x.network.mask.len dst.int ∨
     (∀ y ∈ st.ip4Host, ¬ cidr 32 y.network.address.int y.network.mask.len dst.int) ∧ (∀ y ∈ l₁, y.gateway = none) ∧ x.gateway ≠ none)

def LeavesFrom6 (st : Stack) (ip dst src : Ip6Address) : Prop :=
  0 < ip.int ∧ src = ip ∨
  ip.int = 0 ∧ ∃ l₁ x l₂, st.ip6Host = l₁ ++ x :: l₂ ∧ x.address = src ∧
    ((∀ y ∈ l₁, ¬ cidr 128 y.network.address.int y.network.mask.len dst.int) ∧ cidr 128 x.network.address.int x.network.mask.len dst.int ∨
     (∀ y ∈ st.ip6Host, ¬ cidr 128 y.network.address.int y.network.mask.len dst.int) ∧ (∀ y ∈ l₁, y.gateway = none) ∧ x.gateway ≠ none)

/-- There is no way to `dst`: it is in no network of the host, and there is no gateway. -/
def NoWay4 (st : Stack) (dst : Ip4Address) : Prop :=
  ∀ x ∈ st.ip4Host, ¬ cidr 32 x.network.address.int x.network.mask.len dst.int ∧ x.gateway = none
def NoWay6 (st : Stack) (dst : Ip6Address) : Prop :=
  ∀ x ∈ st.ip6Host, ¬ cidr 128 x.network.address.int x.network.mask.len dst.int ∧ x.gateway = none

end Verif.Spec
