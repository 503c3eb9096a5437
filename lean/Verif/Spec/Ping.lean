import Verif.Model.Ping
import Verif.Spec.TcpServices
/-! What the ICMP echo client promises. -/
namespace Verif.Spec
open Daytime Ping

/-- The times at which the client's thread has run. -/
def turnTimes (evs : List Ev) : List Now := evs.filterMap fun e => match e with | .turn _ now => some now | _ => none

/-- 0.0.0.0 means no address to this host: no network of the host has it as broadcast address, and it is no multicast address of the host. -/
structure Picks4 (st : Stack) : Prop where
  multicast : .zero ∉ st.ip4Multicast
  broadcast : ∀ x ∈ st.ip4Host, x.network.bcast ≠ .zero

/-- The same for ::. -/
def Picks6 (st : Stack) : Prop := .zero ∉ st.ip6Multicast

end Verif.Spec
