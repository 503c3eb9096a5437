import Verif.Model.Dict
import Verif.Model.Tx
/-!
The socket layer: `/repo/pytcp/lib/socket.py`, `/repo/pytcp/protocols/udp/socket.py`, `/repo/pytcp/protocols/udp/metadata.py`,
`/repo/pytcp/protocols/udp/phtx.py` and the registration part of `/repo/pytcp/protocols/tcp/socket.py`.

* Socket objects live in a list (`Socks.socks`); a reference to one is its index.  `stack.sockets` is `Socks.table`.
* The key of `stack.sockets` is the text `family/type/local ip/local port/remote ip/remote port`; here it is the tuple of these
  six values (`SockId`).  The text determines the tuple: no part contains `/`, and the text of an address determines the
  address.
* Addresses given by the application are text; here they are the address the text denotes, or `none` for malformed text.
* Every call runs to its end before the next one starts.  A receive that finds nothing is reported as the timeout (without a
  timeout it would wait).
* Log lines are left out.
-/
namespace Verif

/-- ip_address.py:70-206: what sockets use of `Ip4Address`/`Ip6Address`. -/
inductive IpAddress where
  | v4 (a : Ip4Address)
  | v6 (a : Ip6Address)
  deriving DecidableEq

/-- lib/socket.py:76-91 (`AF_UNSPECIFIED` is used nowhere) -/
inductive Family where
  | inet4
  | inet6
  deriving DecidableEq

/-- lib/socket.py:94-108 -/
inductive SockType where
  | stream
  | dgram
  deriving DecidableEq

namespace IpAddress

/-- `is_unspecified` (ip_address.py:120-125) -/
def isUnspecified : IpAddress → Bool
  | .v4 a => a.isUnspecified
  | .v6 a => a.isUnspecified

/-- `version`, as the address family it is printed into (`AF_INET{version}`) -/
def family : IpAddress → Family
  | .v4 _ => .inet4
  | .v6 _ => .inet6

/-- `unspecified` (ip4_address.py:221-226, ip6_address.py:226-231) -/
def unspecified : IpAddress → IpAddress
  | .v4 _ => .v4 .zero
  | .v6 _ => .v6 .zero

end IpAddress

/-- The unspecified address of a family. -/
def Family.any : Family → IpAddress
  | .inet4 => .v4 .zero
  | .inet6 => .v6 .zero

/-- lib/socket.py:152-159: the parts of `str(socket)`. -/
structure SockId where
  family : Family
  type : SockType
  lip : IpAddress
  lport : Nat
  rip : IpAddress
  rport : Nat
  deriving DecidableEq

/-- udp/metadata.py:53-67: a received datagram (the tracker is left out). -/
structure UdpMd where
  lip : IpAddress
  lport : Nat
  rip : IpAddress
  rport : Nat
  data : Bytes
  deriving DecidableEq

/-- udp/metadata.py:79-103: `socket_patterns`. -/
def UdpMd.patterns (m : UdpMd) : List SockId :=
  [⟨m.lip.family, .dgram, m.lip, m.lport, m.rip, m.rport⟩,
   ⟨m.lip.family, .dgram, m.lip, m.lport, m.lip.unspecified, 0⟩,
   ⟨m.lip.family, .dgram, m.lip.unspecified, m.lport, m.lip.unspecified, 0⟩]
  ++ match m.lip with
     | .v4 _ => [⟨.inet4, .dgram, .v4 .zero, m.lport, .v4 .limitedBroadcast, m.rport⟩]
     | .v6 _ => []

/-- A socket object: the fields of `UdpSocket` (udp/socket.py:72-96), and of `TcpSocket` without its session.
`accepted` is the model's own: whether a listening socket made it (tcp/socket.py:84-92). -/
structure Sock where
  id : SockId
  unreachable : Bool
  queue : List UdpMd
  accepted : Bool
  deriving DecidableEq

/-- All sockets, and `stack.sockets`. -/
structure Socks where
  socks : List Sock
  table : Dict SockId Nat

namespace Socks

/-- lib/socket.py:111-126, udp/socket.py:72-96, tcp/socket.py:63-106: `socket(family, type)`. -/
def create (ss : Socks) (f : Family) (t : SockType) : Socks × Nat :=
  ({ ss with socks := ss.socks ++ [⟨⟨f, t, f.any, 0, f.any, 0⟩, false, [], false⟩] }, ss.socks.length)

/-- Replace the object `r`. -/
def put (ss : Socks) (r : Nat) (s : Sock) : Socks := { ss with socks := ss.socks.set r s }

/-- `stack.sockets.pop(str(self), None)`, the new values of the id's parts, `stack.sockets[str(self)] = self`
(udp/socket.py:163-166, 196-201, 260-262; tcp/socket.py likewise). -/
def register (ss : Socks) (r : Nat) (s : Sock) (id : SockId) : Socks :=
  { socks := ss.socks.set r { s with id := id }, table := (ss.table.erase s.id).set id r }

/-- config.py: EPHEMERAL_PORT_RANGE = range(32168, 60700, 2) -/
def ephemeral : List Nat := (List.range 14266).map (fun i => 32168 + 2 * i)

/-- lib/socket.py:203-216: `_pick_local_port`.  Which element `set.pop()` gives is not specified: `choice` picks it. -/
def pickLocalPort (ss : Socks) (choice : Nat) : Py Nat :=
  let available := ephemeral.filter (fun p => ¬ p ∈ ss.table.keys.map (·.lport))
  match available[choice % available.length]? with
  | some p => .ok p
  | none => .error .osError

/-- lib/socket.py:218-238: `_is_address_in_use`, called on `s`. -/
def inUse (ss : Socks) (s : Sock) (lip : IpAddress) (lport : Nat) : Bool :=
  ss.table.any (fun e =>
    match ss.socks[e.2]? with
    | none => false
    | some o =>
      o.id.family = s.id.family && o.id.type = s.id.type &&
      ((o.id.lip.isUnspecified || o.id.lip = lip) || lip.isUnspecified) && o.id.lport = lport)

/-- `stack.packet_handler.ip4_unicast`/`ip6_unicast` has the address. -/
def owned (st : Stack) : IpAddress → Bool
  | .v4 a => a ∈ st.ip4Unicast
  | .v6 a => a ∈ st.ip6Unicast

/-- udp/socket.py:98-168, tcp/socket.py:131-201: `bind`, the same code in both classes. -/
def bind (st : Stack) (ss : Socks) (r : Nat) (addr : Option IpAddress) (port : Int) (choice : Nat) : Socks × Py Unit :=
  match ss.socks[r]? with
  | none => (ss, .error .keyError)
  | some s =>
    if 1 ≤ s.id.lport ∧ s.id.lport < 65536 then (ss, .error .osError)
    else match addr with
    | none => (ss, .error .gaiError)
    | some a =>
      if a.family ≠ s.id.family then (ss, .error .gaiError)
      else if !(owned st a || a.isUnspecified) then (ss, .error .osError)
      else if ¬ (0 ≤ port ∧ port < 65536) then (ss, .error .overflowError)
      else if port > 0 then
        if inUse ss s a port.toNat then (ss, .error .osError)
        else (ss.register r s { s.id with lip := a, lport := port.toNat }, .ok ())
      else match pickLocalPort ss choice with
        | .error e => (ss, .error e)
        | .ok p => (ss.register r s { s.id with lip := a, lport := p }, .ok ())

/-- lib/ip_helper.py:93-141: `pick_local_ip_address`. -/
def pickLocalIp (st : Stack) : IpAddress → IpAddress
  | .v4 a => .v4 (pickLocalIp4 st a)
  | .v6 a => .v6 (pickLocalIp6 st a)

/-- lib/socket.py:240-286: `_set_ip_addresses`; the first component is the socket's new `_unreachable`. -/
def setIpAddresses (st : Stack) (s : Sock) (addr : Option IpAddress) (lip : IpAddress) (lport rport : Nat) :
    Bool × Py (IpAddress × IpAddress) :=
  match addr with
  | none => (s.unreachable, .error .gaiError)
  | some rip =>
    if rip.family ≠ s.id.family then (s.unreachable, .error .gaiError)
    else if rip.isUnspecified ∧ s.id.type = .stream then (s.unreachable, .error .connectionRefused)
    else
      let unreachable := if rip.isUnspecified then true else s.unreachable
      if lip.isUnspecified then
        let lip := pickLocalIp st rip
        if lip.isUnspecified ∧ ¬ (lport = 68 ∧ rport = 67) then (unreachable, .error .gaiError)
        else (unreachable, .ok (lip, rip))
      else (unreachable, .ok (lip, rip))

/-- udp/socket.py:170-203, and tcp/socket.py:203-234 up to where the session is made. -/
def connect (st : Stack) (ss : Socks) (r : Nat) (addr : Option IpAddress) (port : Int) (choice : Nat) : Socks × Py Unit :=
  match ss.socks[r]? with
  | none => (ss, .error .keyError)
  | some s =>
    if ¬ (0 ≤ port ∧ port < 65536) then (ss, .error .overflowError)
    else match (if 1 ≤ s.id.lport ∧ s.id.lport < 65536 then .ok s.id.lport else pickLocalPort ss choice) with
    | .error e => (ss, .error e)
    | .ok lport =>
      match setIpAddresses st s addr s.id.lip lport port.toNat with
      | (u, .error e) => (ss.put r { s with unreachable := u }, .error e)
      | (u, .ok (lip, rip)) =>
        (ss.register r { s with unreachable := u }
          { s.id with lip := lip, lport := lport, rip := rip, rport := port.toNat }, .ok ())

/-- What sending needs to know about the neighbour caches, as in `phtxIp4`. -/
structure Links where
  arp : Nat → ArpLookup
  nd : Nat → NdLookup

/-- The outcome of a transmit call: the handler's state, the status or exception, the frames queued. -/
abbrev Sent := Stack × Py (TxStatus × List Outgoing)

end Socks

/-- udp/phtx.py:54-96: `_phtx_udp` (the TTL and hop limit keep their default 64). -/
def phtxUdp (st : Stack) (l : Socks.Links) (src dst : IpAddress) (sport dport : Nat) (data : Bytes) : Socks.Sent :=
  if ¬ (sport ≤ 0xFFFF ∧ dport ≤ 0xFFFF) then (st, .error .assertionError)
  else
    let c : L4 := { Udp.carried sport dport data with kind := .udp sport dport }
    match src, dst with
    | .v6 s, .v6 d => phtxIp6 st l.nd s d 64 c
    | .v4 s, .v4 d => phtxIp4 st l.arp s d 64 c
    | _, _ => (st, .ok (.dropUdpUnknown, []))

namespace Socks

/-- The value `send`/`sendto` return (udp/socket.py:232-241, 277-286), with the frames queued. -/
def sentLen (data : Bytes) : Py (TxStatus × List Outgoing) → Py (Nat × List Outgoing)
  | .error e => .error e
  | .ok (s, out) => .ok (if s = .passedEtherToTxRing then data.length else 0, out)

/-- udp/socket.py:205-241: `send`. -/
def send (st : Stack) (l : Links) (ss : Socks) (r : Nat) (data : Bytes) : Socks × Stack × Py (Nat × List Outgoing) :=
  match ss.socks[r]? with
  | none => (ss, st, .error .keyError)
  | some s =>
    if s.id.rip.isUnspecified ∨ s.id.rport = 0 then (ss, st, .error .osError)
    else if s.unreachable then (ss.put r { s with unreachable := false }, st, .error .connectionRefused)
    else
      let (st', res) := phtxUdp st l s.id.lip s.id.rip s.id.lport s.id.rport data
      (ss, st', sentLen data res)

/-- udp/socket.py:243-286: `sendto`. -/
def sendto (st : Stack) (l : Links) (ss : Socks) (r : Nat) (data : Bytes) (addr : Option IpAddress) (port : Int)
    (choice : Nat) : Socks × Stack × Py (Nat × List Outgoing) :=
  match ss.socks[r]? with
  | none => (ss, st, .error .keyError)
  | some s =>
    if ¬ (0 ≤ port ∧ port < 65536) then (ss, st, .error .overflowError)
    else
      let (ss, bound) : Socks × Py Sock :=
        if 1 ≤ s.id.lport ∧ s.id.lport < 65536 then (ss, .ok s)
        else
          let popped : Socks := { ss with table := ss.table.erase s.id }
          match pickLocalPort popped choice with
          | .error e => (popped, .error e)
          | .ok p => (popped.register r s { s.id with lport := p }, .ok { s with id := { s.id with lport := p } })
      match bound with
      | .error e => (ss, st, .error e)
      | .ok s =>
        match setIpAddresses st s addr s.id.lip s.id.lport port.toNat with
        | (u, .error e) => (ss.put r { s with unreachable := u }, st, .error e)
        | (u, .ok (lip, rip)) =>
          let (st', res) := phtxUdp st l lip rip s.id.lport port.toNat data
          (ss.put r { s with unreachable := u }, st', sentLen data res)

/-- udp/socket.py:288-310: `recv`. -/
def recv (ss : Socks) (r : Nat) : Socks × Py Bytes :=
  match ss.socks[r]? with
  | none => (ss, .error .keyError)
  | some s =>
    if s.unreachable then (ss.put r { s with unreachable := false }, .error .connectionRefused)
    else match s.queue with
      | [] => (ss, .error .receiveTimeout)
      | m :: q => (ss.put r { s with queue := q }, .ok m.data)

/-- udp/socket.py:312-332: `recvfrom`. -/
def recvfrom (ss : Socks) (r : Nat) : Socks × Py (Bytes × IpAddress × Nat) :=
  match ss.socks[r]? with
  | none => (ss, .error .keyError)
  | some s =>
    match s.queue with
    | [] => (ss, .error .receiveTimeout)
    | m :: q => (ss.put r { s with queue := q }, .ok (m.data, m.rip, m.rport))

/-- udp/socket.py:334-339: `close`. -/
def close (ss : Socks) (r : Nat) : Socks :=
  match ss.socks[r]? with
  | none => ss
  | some s => { ss with table := ss.table.erase s.id }

/-- udp/socket.py:341-346: `process_udp_packet`. -/
def deliver (ss : Socks) (r : Nat) (m : UdpMd) : Socks :=
  match ss.socks[r]? with
  | none => ss
  | some s => ss.put r { s with queue := s.queue ++ [m] }

/-- udp/socket.py:348-352: `notify_unreachable`. -/
def notify (ss : Socks) (r : Nat) : Socks :=
  match ss.socks[r]? with
  | none => ss
  | some s => ss.put r { s with unreachable := true }

/-- The loop over `socket_patterns` in udp/phrx.py:90-101, icmp4/phrx.py:130-140, icmp6/phrx.py:263-273: the first pattern that is
in `stack.sockets`. -/
def match? (ss : Socks) (m : UdpMd) : Option Nat := m.patterns.findSome? ss.table.get?

/-- tcp/socket.py:264-284: `listen`, without the session. -/
def listen (ss : Socks) (r : Nat) : Socks × Py Unit :=
  match ss.socks[r]? with
  | none => (ss, .error .keyError)
  | some s => ({ ss with table := ss.table.set s.id r }, .ok ())

/-- tcp/socket.py:84-92: the socket made by a listening session for an inbound connection. -/
def accepted (ss : Socks) (id : SockId) : Socks × Nat :=
  ({ socks := ss.socks ++ [⟨id, false, [], true⟩], table := ss.table.set id ss.socks.length }, ss.socks.length)

/-- tcp/session.py:484-485: the session of the socket has become CLOSED. -/
def gone (ss : Socks) (r : Nat) : Socks :=
  match ss.socks[r]? with
  | none => ss
  | some s => { ss with table := ss.table.erase s.id }

end Socks
end Verif
