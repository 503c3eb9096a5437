import Verif.Model.AddrText
import Verif.Model.Session
import Verif.Model.Timer
/-!
The names by which sockets are found in `stack.sockets` and timers in `stack.timer`, as the texts they are.  The other modules know a socket by the
parts of its name (`SockId`) and a session's timers by what follows the session's name (`TimerName`).
-/
namespace Verif

/-- lib/socket.py:76-91: `str(AddressFamily)` -/
def Family.toText : Family → Text
  | .inet4 => "AF_INET4".toList
  | .inet6 => "AF_INET6".toList

/-- lib/socket.py:94-108: `str(SocketType)` -/
def SockType.toText : SockType → Text
  | .stream => "SOCK_STREAM".toList
  | .dgram => "SOCK_DGRAM".toList

/-- ip4_address.py:123-127, ip6_address.py:134-137: `str(address)` -/
def IpAddress.toText : IpAddress → Text
  | .v4 a => a.toText
  | .v6 a => a.toText

/-- `address.version` (ip4_address.py:95, ip6_address.py:102), printed -/
def IpAddress.version : IpAddress → Text
  | .v4 _ => ['4']
  | .v6 _ => ['6']

/-- lib/socket.py:152-159: `str(socket)` -/
def SockId.toText (i : SockId) : Text :=
  i.family.toText ++ '/' :: (i.type.toText ++ '/' :: (i.lip.toText ++ '/' :: (decText i.lport ++ '/' :: (i.rip.toText ++ '/' :: decText i.rport))))

/-- tcp/metadata.py:89-97: `str(packet_rx_md)` -/
def TcpMd.toText (m : TcpMd) : Text :=
  "AF_INET".toList ++ m.lip.version ++ "/SOCK_STREAM/".toList ++ m.lip.toText ++ ['/'] ++ decText m.lport ++ ['/'] ++ m.rip.toText ++ ['/'] ++
    decText m.rport

/-- tcp/metadata.py:99-112: `tcp_listening_socket_patterns` -/
def TcpMd.listeningTexts (m : TcpMd) : List Text :=
  ["AF_INET".toList ++ m.lip.version ++ "/SOCK_STREAM/".toList ++ m.lip.toText ++ ['/'] ++ decText m.lport ++ ['/'] ++ m.lip.unspecified.toText ++
     "/0".toList,
   "AF_INET".toList ++ m.lip.version ++ "/SOCK_STREAM/".toList ++ m.lip.unspecified.toText ++ ['/'] ++ decText m.lport ++ ['/'] ++
     m.lip.unspecified.toText ++ "/0".toList]

/-- udp/metadata.py:78-103: `socket_patterns` -/
def UdpMd.patternTexts (m : UdpMd) : List Text :=
  ["AF_INET".toList ++ m.lip.version ++ "/SOCK_DGRAM/".toList ++ m.lip.toText ++ ['/'] ++ decText m.lport ++ ['/'] ++ m.rip.toText ++ ['/'] ++
     decText m.rport,
   "AF_INET".toList ++ m.lip.version ++ "/SOCK_DGRAM/".toList ++ m.lip.toText ++ ['/'] ++ decText m.lport ++ ['/'] ++ m.lip.unspecified.toText ++
     "/0".toList,
   "AF_INET".toList ++ m.lip.version ++ "/SOCK_DGRAM/".toList ++ m.lip.unspecified.toText ++ ['/'] ++ decText m.lport ++ ['/'] ++
     m.lip.unspecified.toText ++ "/0".toList]
  ++ match m.lip with
     | .v4 _ => ["AF_INET4/SOCK_DGRAM/0.0.0.0/".toList ++ decText m.lport ++ ['/'] ++ "255.255.255.255/".toList ++ decText m.rport]
     | .v6 _ => []

/-- lib/socket.py:208-210: the local port read out of a key of `stack.sockets` -/
def portOfKey (k : Text) : Py Int :=
  match (pySplit '/' k)[3]? with
  | none => .error .indexError
  | some t => pyInt t

/-- The addresses and ports of a session (session.py:189-192). -/
structure Quad where
  lip : IpAddress
  lport : Nat
  rip : IpAddress
  rport : Nat
  deriving DecidableEq

/-- session.py:314-321: `str(session)` -/
def Quad.toText (q : Quad) : Text := q.lip.toText ++ '/' :: (decText q.lport ++ '/' :: (q.rip.toText ++ '/' :: decText q.rport))

/-- session.py:535, 544, 656, 663, 671, 1290, 1367, 1415, 1583: what follows the session's name in the name of a timer -/
def TimerName.toText : TimerName → Text
  | .delayedAck => "-delayed_ack".toList
  | .retransmit seq => "-retransmit_seq-".toList ++ decText seq
  | .timeWait => "-time_wait".toList

/-- The name of a timer. -/
def Quad.timer (q : Quad) (n : TimerName) : String := String.ofList (q.toText ++ n.toText)

end Verif
