import Verif.Model.UdpClient
import Verif.Spec.TcpClient
import Verif.Spec.Echo
/-! What the UDP echo client promises. -/
namespace Verif.Spec

/-- The socket `r` is a UDP socket with these addresses and ports, and the host hands it what comes for them. -/
structure Dials (h : Host) (r : Nat) (lip : IpAddress) (lport : Nat) (rip : IpAddress) (rport : Nat) : Prop where
  sock : ∃ s, h.node.socks.socks[r]? = some s ∧ s.id = ⟨lip.family, .dgram, lip, lport, rip, rport⟩
  listed : h.node.socks.table.get? ⟨lip.family, .dgram, lip, lport, rip, rport⟩ = some r

/-- The other host has said that nobody hears there (and the socket has not passed it on yet). -/
def TurnedAway (h : Host) (r : Nat) : Prop := ∃ s, h.node.socks.socks[r]? = some s ∧ s.unreachable = true

end Verif.Spec
