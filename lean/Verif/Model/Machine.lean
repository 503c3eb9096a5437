import Verif.Model.Host
import Verif.Model.TcpStack
/-!
A whole machine: the packet handler with its caches (`Model/Host.lean`) and all TCP sockets and sessions (`Model/TcpStack.lean`),
put together.  A frame goes in as bytes (`/repo/pytcp/subsystems/rx_ring.py:84-125`, `/repo/pytcp/subsystems/packet_handler.py:294-304`), a
segment in it goes to its session, and what a session sends goes out as bytes (`/repo/pytcp/subsystems/tx_ring.py:84-117`).

* A call, a tick of the clock, a run of a timer method or the handling of a frame is one step.
* UDP sockets are not part of the state: a frame may find any of them (`u`), and any call of `_phtx_udp` may be made.  (What the methods of
  UDP sockets do is in `Model/Host.lean` and `Model/Socket.lean`.)
* An exception that a transmit call raises ends the handling of a frame; to a session it is as if the call had returned.
* Addresses do not change, and the neighbour caches may become anything at any time (`Ev.caches`).
-/
namespace Verif

structure Machine where
  host : Host
  tcp : TcpStack
  /-- the frames written to the interface, oldest first; this record is the model's own -/
  wire : List Bytes

namespace Machine

/-- tx_ring.py:84-117: the frames a transmit call has queued are written out; one that cannot be assembled is not. -/
def put (m : Machine) : Host × Py (List Outgoing) → Machine
  | (h, .error _) => { m with host := h }
  | (h, .ok outs) => { m with host := h, wire := m.wire ++ outs.filterMap fun o => o.frame.toOption }

/-- session.py:486-523, packet_handler.py:646-681: what a session sends is given to `_phtx_tcp`, with its addresses and ports. -/
def transmit (m : Machine) : TcpNote → Machine
  | .did i (.sent g) =>
    match m.tcp.conns[i]? with
    | none => m
    | some c => m.put (Host.queued (m.host.tcp c.s.lip c.s.rip (g.tx c.s.lport c.s.rport)))
  | _ => m

/-- The TCP part has become `t`; what its sessions have sent on the way goes out. -/
def after (m : Machine) (t : TcpStack) : Machine := (t.log.drop m.tcp.log.length).foldl transmit { m with tcp := t }

/-- tcp/phrx.py:96-129, tcp/socket.py:365-370: the segment goes to the session of the socket `r`. -/
def deliver (m : Machine) (r : Nat) (md : TcpMd) (iss : Nat) : Machine :=
  match m.tcp.session r with
  | none => m
  | some i => m.after (m.tcp.act i (.segment md) iss)

/-- What the receive handlers' calls do (see `Eff`), one after the other, at time `t`. -/
def handle (t : Int) (iss : Nat) : Machine → List Eff → Machine
  | m, [] => m
  | m, e :: es =>
    match e with
    | .tcpDeliver r md => handle t iss (m.deliver r md iss) es
    | e =>
      match m.host.apply t e with
      | (h, .error _) => { m with host := h }
      | r => handle t iss (m.put r) es

/-- The packet handler's state with `stack.sockets`: the TCP sockets and the UDP sockets `u`. -/
def node (m : Machine) (u : Dict SockId Nat) : Node :=
  { m.host.node with socks := ⟨m.tcp.ss.socks, m.tcp.ss.table ++ u.filter fun e => e.1.type = .dgram⟩ }

/-- packet_handler.py:294-304 with ether/phrx.py:56-103: a frame is taken from the RX ring and handled. -/
def receive (m : Machine) (u : Dict SockId Nat) (t₀ t₁ t : Int) (depth : Nat) (F : Bytes) (iss : Nat) : Machine :=
  match Rx.ether (m.node u) t₀ t₁ depth F with
  | (n, .error _) => { m with host := { m.host with node := n } }
  | (n, .ok effs) => handle t iss { m with host := { m.host with node := n } } effs

/-- What can happen. -/
inductive Ev where
  /-- a call on a TCP socket, a tick of the clock or a run of a timer method (`.segment` does not happen like this) -/
  | app (e : TcpStack.Ev)
  /-- a frame arrives -/
  | frame (u : Dict SockId Nat) (t₀ t₁ t : Int) (depth : Nat) (F : Bytes) (iss : Nat)
  /-- `_phtx_udp(...)`, udp/phtx.py:54-96 -/
  | udp (src dst : IpAddress) (sport dport : Nat) (data : Bytes)
  /-- `_phtx_icmp4(...)`, icmp4/phtx.py:59-114 -/
  | icmp4 (src dst : Ip4Address) (x : Icmp4.Msg)
  /-- `_phtx_icmp6(...)`, icmp6/phtx.py:71-203 -/
  | icmp6 (src dst : Ip6Address) (hop : Nat) (x : Icmp6.Msg)
  /-- the neighbour caches change -/
  | caches (arp : Cache Ip4Address) (nd : Cache Ip6Address)

/-- One event. -/
def step (m : Machine) : Ev → Machine
  | .app (.segment _ _) => m
  | .app e => m.after (m.tcp.step e)
  | .frame u t₀ t₁ t depth F iss => m.receive u t₀ t₁ t depth F iss
  | .udp src dst sport dport data => m.put (Host.queued (m.host.udp src dst sport dport data))
  | .icmp4 src dst x => m.put (Host.queued (m.host.icmp4 src dst x))
  | .icmp6 src dst hop x => m.put (Host.queued (m.host.icmp6 src dst hop x))
  | .caches arp nd => { m with host := { m.host with arp := arp, nd := nd } }

/-- A history. -/
def run (m : Machine) (evs : List Ev) : Machine := evs.foldl step m

end Machine
end Verif
