import Verif.Model.Socket
import Verif.Model.Frag
import Verif.Model.Ether
import Verif.Model.Icmp4
import Verif.Model.Icmp6
import Verif.Model.Tcp
/-!
The receive side of the packet handler: `/repo/pytcp/protocols/{ether,arp,ip4,ip6,ip6_ext_frag,icmp4,icmp6,udp,tcp}/phrx.py`.

A handler is given the state of the stack and a frame and says what it does, as a list of `Eff`ects: packets it asks the
transmit side to send, cache entries it adds, sockets it hands something to, notes it leaves for the address configuration.
What the transmit side then does with a packet is `Eff.transmit`; the caches are in `Model/Cache.lean`; what a socket does
with a datagram is `Socks.deliver`/`Socks.notify`, with a segment `Model/Session.lean`.

Packet counters are in `Model/Stats.lean`.  Log lines are left out except for what they read: a parsed header is read as a whole (`read`),
because the log line after a successful parse does so.
-/
namespace Verif

/-- tcp/metadata.py:47-87: what a TCP session is given of a received segment.  `wscale` is already the factor
(tcp/fpp.py:390-402). -/
structure TcpMd where
  lip : IpAddress
  lport : Nat
  rip : IpAddress
  rport : Nat
  syn : Bool
  ack : Bool
  fin : Bool
  rst : Bool
  seq : Nat
  ackn : Nat
  win : Nat
  wscale : Option Nat
  mss : Nat
  data : Bytes
  deriving DecidableEq

/-- tcp/metadata.py:89-97: `str(packet_rx_md)`. -/
def TcpMd.active (m : TcpMd) : SockId := ⟨m.lip.family, .stream, m.lip, m.lport, m.rip, m.rport⟩

/-- tcp/metadata.py:99-112: `tcp_listening_socket_patterns`. -/
def TcpMd.listening (m : TcpMd) : List SockId :=
  [⟨m.lip.family, .stream, m.lip, m.lport, m.lip.unspecified, 0⟩,
   ⟨m.lip.family, .stream, m.lip.unspecified, m.lport, m.lip.unspecified, 0⟩]

/-- What a received frame makes the stack do. -/
inductive Eff where
  /-- `_phtx_arp(...)` -/
  | txArp (esrc edst : MacAddress) (oper : Nat) (sha : MacAddress) (spa : Ip4Address) (tha : MacAddress) (tpa : Ip4Address)
  /-- `_phtx_icmp4(...)` -/
  | txIcmp4 (src dst : Ip4Address) (m : Icmp4.Msg)
  /-- `_phtx_icmp6(...)` -/
  | txIcmp6 (src dst : Ip6Address) (hop : Nat) (m : Icmp6.Msg)
  /-- `_phtx_tcp(...)` -/
  | txTcp (src dst : IpAddress) (h : Tcp.Tx)
  /-- `stack.arp_cache.add_entry(...)` -/
  | arpLearn (ip : Ip4Address) (mac : MacAddress)
  /-- `stack.nd_cache.add_entry(...)` -/
  | ndLearn (ip : Ip6Address) (mac : MacAddress)
  /-- `stack.arp_probe_unicast_conflict.add(...)` -/
  | arpConflict (ip : Ip4Address)
  /-- `icmp6_nd_dad_tlla = ...; event_icmp6_nd_dad.release()` -/
  | dadAnswer (tlla : Option MacAddress)
  /-- `icmp6_ra_prefixes = ...; event_icmp6_ra.release()` -/
  | routerPrefixes (l : List (Ip6Network × Ip6Address))
  /-- `socket.process_udp_packet(...)` -/
  | udpDeliver (r : Nat) (m : UdpMd)
  /-- `socket.notify_unreachable()` -/
  | udpUnreachable (r : Nat)
  /-- `socket.process_tcp_packet(...)` -/
  | tcpDeliver (r : Nat) (m : TcpMd)

/-- The part of the state that the receive handlers use: the handler's own (packet_handler.py:151-197) and
`stack.sockets`. -/
structure Node where
  stack : Stack
  macMulticast : List MacAddress
  /-- the addresses of `ip4_host_candidate` -/
  ip4Candidates : List Ip4Address
  /-- `ip6_unicast_candidate` -/
  ip6Candidate : Option Ip6Address
  flows4 : Dict Frag.Key4 Frag.Flow
  flows6 : Dict Frag.Key6 Frag.Flow
  socks : Socks

namespace Rx

/-- arp/phrx.py:53-165; `dst` is the destination of the Ethernet frame.  Both configuration switches are on, as in config.py. -/
def arp (n : Node) (dst : MacAddress) (f : Bytes) : Py (List Eff) := do
  match ← Arp.parse f with
  | some _ => return []
  | none =>
    let h ← Arp.read f
    if h.oper = 1 then
      if h.spa ∈ n.stack.ip4Unicast then return []
      else if h.tpa ∈ n.stack.ip4Unicast then
        return [.txArp n.stack.mac h.sha 2 n.stack.mac h.tpa h.sha h.spa, .arpLearn h.spa h.sha]
      else return []
    else if h.oper = 2 then
      if dst = n.stack.mac ∧ h.spa ∈ n.ip4Candidates ∧ h.tha = n.stack.mac ∧ h.tpa.isUnspecified then
        return [.arpConflict h.spa]
      else if dst = n.stack.mac then return [.arpLearn h.spa h.sha]
      else if dst.isBroadcast ∧ h.spa = h.tpa then return [.arpLearn h.spa h.sha]
      else return []
    else return []

/-- icmp4/phrx.py:108-128: the datagram quoted by an unreachable message, if it passes for IPv4 with UDP. -/
def quoted4 (f : Bytes) : Py (Option UdpMd) := do
  if f.length < 20 then return none
  let b0 ← idx f 0
  if b0 >>> 4 ≠ 4 then return none
  else
    let hl := (b0 &&& 0b00001111) <<< 2
    if f.length < hl then return none
    else
      let p ← idx f 9
      if p ≠ 17 then return none
      else if f.length < hl + 8 then return none
      else
        let l ← Ip4Address.ofBytes (slice f 12 16)
        let r ← Ip4Address.ofBytes (slice f 16 20)
        let lp ← u16 f hl
        let rp ← u16 f (hl + 2)
        return some ⟨.v4 l, lp, .v4 r, rp, []⟩

/-- icmp6/phrx.py:240-261 -/
def quoted6 (f : Bytes) : Py (Option UdpMd) := do
  if f.length < 48 then return none
  let b0 ← idx f 0
  if b0 >>> 4 ≠ 6 then return none
  else
    let p ← idx f 6
    if p ≠ 17 then return none
    else
      let l ← Ip6Address.ofBytes (slice f 8 24)
      let r ← Ip6Address.ofBytes (slice f 24 40)
      let lp ← u16 f 40
      let rp ← u16 f 42
      return some ⟨.v6 l, lp, .v6 r, rp, []⟩

/-- icmp4/phrx.py:130-154, icmp6/phrx.py:263-288 -/
def unreachable (n : Node) : Option UdpMd → List Eff
  | none => []
  | some m => match n.socks.match? m with
    | some r => [.udpUnreachable r]
    | none => []

/-- icmp4/phrx.py:61-154; `src`, `dst`, `dlen` are those of the IPv4 header, `f` the rest of the frame. -/
def icmp4 (n : Node) (src dst : Ip4Address) (dlen : Nat) (f : Bytes) : Py (List Eff) := do
  match ← Icmp4.parse f dlen with
  | some _ => return []
  | none =>
    match ← Icmp4.read f dlen with
    | .echo t _ id seq data => if t = 8 then return [.txIcmp4 dst src (.echoReply id seq data)] else return []
    | .unreachable _ data => return unreachable n (← quoted4 data)
    | .other _ _ => return []

/-- `Ip6Address("ff02::1")` or the sender, icmp6/phrx.py:134-138 -/
def naDst (src : Ip6Address) : Ip6Address := if src.isUnspecified then Icmp6.allNodes else src

/-- icmp6/phrx.py:91-153: a neighbour solicitation. -/
def neighborSolicitation (n : Node) (src : Ip6Address) (target : Ip6Address) (opts : List Icmp6.RxOpt) : List Eff :=
  if target ∉ n.stack.ip6Unicast then []
  else
    (match Icmp6.sllaOf opts with
      | some m => if src.isUnspecified || src.isMulticast then [] else [.ndLearn src m]
      | none => []) ++
    [.txIcmp6 target (naDst src) 255
      (.neighborAdvertisement false (!src.isUnspecified) src.isUnspecified target [.tlla n.stack.mac])]

/-- icmp6/phrx.py:155-182: a neighbour advertisement. -/
def neighborAdvertisement (n : Node) (target : Ip6Address) (opts : List Icmp6.RxOpt) : List Eff :=
  if some target = n.ip6Candidate then [.dadAnswer (Icmp6.tllaOf opts)]
  else match Icmp6.tllaOf opts with
    | some m => [.ndLearn target m]
    | none => []

/-- icmp6/phrx.py:70-288; `src`, `dst`, `hop`, `dlen`, `ps` are those of the IPv6 header. -/
def icmp6 (n : Node) (src dst : Ip6Address) (hop dlen ps : Nat) (f : Bytes) : Py (List Eff) := do
  match ← Icmp6.parse f dlen ps src dst hop with
  | some _ => return []
  | none =>
    match ← Icmp6.read f dlen with
    | .neighborSolicitation target opts => return neighborSolicitation n src target opts
    | .neighborAdvertisement _ _ _ target opts => return neighborAdvertisement n target opts
    | .routerSolicitation _ => return []
    | .routerAdvertisement _ _ _ _ _ _ opts => return [.routerPrefixes ((Icmp6.piOf opts).map (·, src))]
    | .echo t id seq data => if t = 128 then return [.txIcmp6 dst src 255 (.echoReply id seq data)] else return []
    | .unreachable _ data => return unreachable n (← quoted6 data)
    | .other _ _ => return []

/-- What the UDP and TCP handlers use of `packet_rx.ip`. -/
structure IpHdr where
  src : IpAddress
  dst : IpAddress
  dlen : Nat
  pshdrSum : Nat
  packetCopy : Bytes

def ofIp4 (h : Ip4.Hdr) : IpHdr := ⟨.v4 h.src, .v4 h.dst, h.dlen, h.pshdrSum, h.packetCopy⟩
def ofIp6 (h : Ip6.Hdr) : IpHdr := ⟨.v6 h.src, .v6 h.dst, h.dlen, h.pshdrSum, h.packetCopy⟩

/-- udp/phrx.py:136-165: the answer to a datagram that no socket takes. -/
def portUnreachable (ip : IpHdr) : List Eff :=
  match ip.src, ip.dst with
  | .v6 s, .v6 d => [.txIcmp6 d s 64 (.portUnreachable ip.packetCopy)]
  | .v4 s, .v4 d => [.txIcmp4 d s (.portUnreachable ip.packetCopy)]
  | _, _ => []

/-- udp/phrx.py:55-167 (`UDP_ECHO_NATIVE_DISABLE` is on, as in config.py). -/
def udp (n : Node) (ip : IpHdr) (f : Bytes) : Py (List Eff) := do
  match ← Udp.parse f ip.dlen ip.pshdrSum with
  | some _ => return []
  | none =>
    let h ← Udp.read f
    let m : UdpMd := ⟨ip.dst, h.dport, ip.src, h.sport, h.data⟩
    match n.socks.match? m with
    | some r => return [.udpDeliver r m]
    | none => if ip.src.isUnspecified then return [] else return portUnreachable ip

/-- tcp/phrx.py:96-129: the socket a segment belongs to. -/
def tcpMatch (ss : Socks) (m : TcpMd) : Option Nat :=
  match ss.table.get? m.active with
  | some r => some r
  | none =>
    if m.syn && !(m.ack || m.fin || m.rst) then m.listening.findSome? ss.table.get? else none

/-- tcp/phrx.py:140-153: the segment sent when there is no such socket. -/
def resetFor (h : Tcp.Hdr) : Tcp.Tx :=
  { sport := h.dport, dport := h.sport, seq := 0,
    ack := h.seq + h.flags.syn.toNat + h.flags.fin.toNat + h.data.length,
    flags := { rst := true, ack := true }, win := 0, urp := 0, options := [], data := [] }

/-- tcp/phrx.py:75-96 -/
def tcpMd (ip : IpHdr) (h : Tcp.Hdr) : TcpMd :=
  { lip := ip.dst, lport := h.dport, rip := ip.src, rport := h.sport, syn := h.flags.syn, ack := h.flags.ack,
    fin := h.flags.fin, rst := h.flags.rst, seq := h.seq, ackn := h.ack, win := h.win,
    wscale := Tcp.wscaleOf h.options, mss := Tcp.mssOf h.options, data := h.data }

/-- tcp/phrx.py:52-153 -/
def tcp (n : Node) (ip : IpHdr) (f : Bytes) : Py (List Eff) := do
  match ← Tcp.parse f ip.dlen ip.pshdrSum with
  | some _ => return []
  | none =>
    let h ← Tcp.read f ip.dlen
    match tcpMatch n.socks (tcpMd ip h) with
    | some r => return [.tcpDeliver r (tcpMd ip h)]
    | none => return [.txTcp ip.dst ip.src (resetFor h)]

/-- ip4/phrx.py:185-195: hand the packet on; `f` is `packet_rx.frame`. -/
def ip4Dispatch (n : Node) (h : Ip4.Hdr) (f : Bytes) : Py (List Eff) :=
  if h.proto = 1 then icmp4 n h.src h.dst h.dlen f
  else if h.proto = 17 then udp n (ofIp4 h) f
  else if h.proto = 6 then tcp n (ofIp4 h) f
  else .ok []

/-- ip4/phrx.py:154-160: whether the packet is for this stack. -/
def ip4ForUs (s : Stack) (dst : Ip4Address) : Bool :=
  s.ip4Unicast.isEmpty || dst ∈ s.ip4Unicast || dst ∈ s.ip4Multicast || dst ∈ s.ip4Broadcast

/-- ip4/phrx.py:133-195.  `t₀`, `t₁`: the clock readings of the reassembly.  A reassembled packet is parsed again; if that
fails the handler goes on all the same, with the IP header still in front of the frame. -/
def ip4 (n : Node) (t₀ t₁ : Int) (f : Bytes) : Node × Py (List Eff) :=
  match (do
    match ← Ip4.parse f with
    | some _ => return none
    | none => return some (← Ip4.read f)) with
  | .error e => (n, .error e)
  | .ok none => (n, .ok [])
  | .ok (some h) =>
    if !ip4ForUs n.stack h.dst then (n, .ok [])
    else if h.offset ≠ 0 ∨ h.mf then
      let (flows, r) := Frag.defragIp4 n.flows4 t₀ t₁ h
      let n := { n with flows4 := flows }
      match r with
      | .error e => (n, .error e)
      | .ok none => (n, .ok [])
      | .ok (some g) =>
        (n, do
          let failed ← Ip4.parse g
          let h ← Ip4.read g
          ip4Dispatch n h (if failed.isSome then g else h.rest))
    else (n, ip4Dispatch n h h.rest)

/-- ip6/phrx.py:56-105 with ip6_ext_frag/phrx.py:126-147.  A reassembled packet is handled by the same function again; `depth`
bounds how often (Python gives up with a RecursionError, the model with `nonTermination`). -/
def ip6 (n : Node) (t₀ t₁ : Int) : Nat → Bytes → Node × Py (List Eff)
  | depth, f =>
    match (do
      match ← Ip6.parse f with
      | some _ => return none
      | none => return some (← Ip6.read f)) with
    | .error e => (n, .error e)
    | .ok none => (n, .ok [])
    | .ok (some h) =>
      if !(h.dst ∈ n.stack.ip6Unicast || h.dst ∈ n.stack.ip6Multicast) then (n, .ok [])
      else if h.next = 44 then
        match (do
          match ← Ip6Frag.parse h.rest with
          | some _ => return none
          | none => return some (← Ip6Frag.read h.rest h.dlen)) with
        | .error e => (n, .error e)
        | .ok none => (n, .ok [])
        | .ok (some x) =>
          match Frag.defragIp6 n.flows6 t₀ t₁ h x with
          | (flows, .error e) => ({ n with flows6 := flows }, .error e)
          | (flows, .ok none) => ({ n with flows6 := flows }, .ok [])
          | (flows, .ok (some g)) =>
            match depth with
            | 0 => ({ n with flows6 := flows }, .error .nonTermination)
            | depth + 1 => ip6 { n with flows6 := flows } t₀ t₁ depth g
      else if h.next = 58 then (n, icmp6 n h.src h.dst h.hop h.dlen h.pshdrSum h.rest)
      else if h.next = 17 then (n, udp n (ofIp6 h) h.rest)
      else if h.next = 6 then (n, tcp n (ofIp6 h) h.rest)
      else (n, .ok [])

/-- ether/phrx.py:77-81: whether the frame is for this stack. -/
def etherForUs (n : Node) (dst : MacAddress) : Bool :=
  dst = n.stack.mac || dst ∈ n.macMulticast || dst = .broadcast

/-- ether/phrx.py:56-108: `_phrx_ether`, the entry point for a received frame.  Both protocol switches are on, as in config.py. -/
def ether (n : Node) (t₀ t₁ : Int) (depth : Nat) (f : Bytes) : Node × Py (List Eff) :=
  match (do
    match ← Ether.parse f with
    | some _ => return none
    | none => return some (← Ether.read f)) with
  | .error e => (n, .error e)
  | .ok none => (n, .ok [])
  | .ok (some h) =>
    if !etherForUs n h.dst then (n, .ok [])
    else if h.type = Ether.typeArp then (n, arp n h.dst h.data)
    else if h.type = Ether.typeIp4 then ip4 n t₀ t₁ h.data
    else if h.type = Ether.typeIp6 then ip6 n t₀ t₁ depth h.data
    else (n, .ok [])

end Rx

/-- What source validation asks about an ICMPv6 message. -/
def Icmp6.Msg.kind : Icmp6.Msg → L4Kind
  | .neighborSolicitation _ opts => .icmp6 135 opts.length
  | m => .icmp6 m.type 0

/-- icmp4/phtx.py:59-114: `_phtx_icmp4`.  (The assertions of the assembler's constructor cannot fail for messages made by the
receive handlers and are left to `assemble`.) -/
def phtxIcmp4 (st : Stack) (l : Socks.Links) (src dst : Ip4Address) (m : Icmp4.Msg) : Socks.Sent :=
  phtxIp4 st l.arp src dst 64 { Icmp4.carried m with kind := .other }

/-- icmp6/phtx.py:71-203: `_phtx_icmp6`. -/
def phtxIcmp6 (st : Stack) (l : Socks.Links) (src dst : Ip6Address) (hop : Nat) (m : Icmp6.Msg) : Socks.Sent :=
  phtxIp6 st l.nd src dst hop { Icmp6.carried m with kind := m.kind }

/-- tcp/phtx.py:65-182: `_phtx_tcp`, from the point where the assembler is made; its constructor's assertions on numbers come
first (tcp/fpa.py:108-113). -/
def phtxTcp (st : Stack) (l : Socks.Links) (src dst : IpAddress) (h : Tcp.Tx) : Socks.Sent :=
  if ¬ (h.sport ≤ 0xFFFF ∧ h.dport ≤ 0xFFFF ∧ h.seq ≤ 0xFFFFFFFF ∧ h.ack ≤ 0xFFFFFFFF ∧ h.win ≤ 0xFFFF ∧ h.urp ≤ 0xFFFF) then
    (st, .error .assertionError)
  else
    let c : L4 := { Tcp.carried h with kind := .other }
    match src, dst with
    | .v6 s, .v6 d => phtxIp6 st l.nd s d 64 c
    | .v4 s, .v4 d => phtxIp4 st l.arp s d 64 c
    | _, _ => (st, .ok (.dropTcpUnknown, []))

/-- What the transmit side makes of an effect. -/
def Eff.transmit (st : Stack) (l : Socks.Links) : Eff → Socks.Sent
  | .txArp esrc edst oper sha spa tha tpa =>
    (st, phtxEther st (l.arp 0) (l.nd 0) esrc edst (.arp oper sha spa tha tpa))
  | .txIcmp4 src dst m => phtxIcmp4 st l src dst m
  | .txIcmp6 src dst hop m => phtxIcmp6 st l src dst hop m
  | .txTcp src dst h => phtxTcp st l src dst h
  | _ => (st, .ok (.passedEtherToTxRing, []))

/-- What an effect does to the sockets. -/
def Eff.onSocks (ss : Socks) : Eff → Socks
  | .udpDeliver r m => ss.deliver r m
  | .udpUnreachable r => ss.notify r
  | _ => ss

end Verif
