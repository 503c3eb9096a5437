import Verif.Model.Tx
import Verif.Model.Ether
/-! Queued packets as bytes on the wire: `/repo/pytcp/subsystems/tx_ring.py:84-117`, `/repo/pytcp/protocols/ether/fpa.py:150-162`. -/
namespace Verif

/-- `ether_type` of the assembler classes (arp/fpa.py:53, ip4/fpa.py:73 and 249, ip6/fpa.py:69, raw/fpa.py:53). -/
def Pkt.etherType : Pkt → Nat
  | .ip4 _ _ | .ip4Frag _ _ => Ether.typeIp4
  | .ip6 _ _ => Ether.typeIp6
  | .arp .. => Ether.typeArp
  | .raw _ => Ether.typeRaw

/-- `carried_packet.assemble(frame[14:])`, ether/fpa.py:162. -/
def Pkt.assemble : Pkt → Py Bytes
  | .ip4 h c => Ip4.assemble h c
  | .ip4Frag h d => Ip4.assembleFrag h d
  | .ip6 h c => Ip6.assemble h c
  | .arp oper sha spa tha tpa => Arp.assemble sha spa tha tpa oper
  | .raw d => .ok d

/-- tx_ring.py:102-104: the frame written to the interface. -/
def Outgoing.frame (o : Outgoing) : Py Bytes := do
  let payload ← o.pkt.assemble
  Ether.assemble o.src o.dst o.pkt.etherType payload

end Verif
