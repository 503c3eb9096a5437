import Verif.Model.Ip4
import Verif.Model.Ip6
import Verif.Model.Udp
import Verif.Model.Arp
import Verif.Lemmas.Addr
/-!
The transmit side of the packet handler: source/destination validation, fragmentation, next-hop choice
(`/repo/pytcp/protocols/{ip4,ip6,ip6_ext_frag,ether}/phtx.py`, `/repo/pytcp/subsystems/packet_handler.py`).

Packet counters and log lines are left out.  The neighbour caches appear as lookup functions (`arp`, `nd`), the result of
`find_entry`; its own effects (use counter, request on a miss) are in `Model/Cache.lean`.
-/
namespace Verif

/-- lib/tx_status.py:41-86 -/
inductive TxStatus where
  | passedEtherToTxRing
  | dropEtherArpCacheFail
  | dropEtherNdCacheFail
  | dropEtherNoGatewayIp4
  | dropEtherNoGatewayIp6
  | dropEtherGatewayArpCacheFail
  | dropEtherGatewayNdCacheFail
  | dropEtherResolutionFail
  | dropArpNoProtocolSupport
  | dropIp4NoProtocolSupport
  | dropIp4SrcNotOwned
  | dropIp4SrcMulticast
  | dropIp4SrcLimitedBroadcast
  | dropIp4SrcUnspecified
  | dropIp4DstUnspecified
  | dropIp4Unknown
  | dropIp6NoProtocolSupport
  | dropIp6SrcNotOwned
  | dropIp6SrcMulticast
  | dropIp6SrcUnspecified
  | dropIp6DstUnspecified
  | dropIp6ExtFragUnknown
  | dropUdpUnknown
  | dropTcpUnknown
  deriving DecidableEq, Repr

/-- The address state of the packet handler, packet_handler.py:151-190, and the MTU of config.py. -/
structure Stack where
  mac : MacAddress
  ip4Host : List Ip4Host
  ip4Multicast : List Ip4Address
  ip6Host : List Ip6Host
  ip6Multicast : List Ip6Address
  ip4Id : Nat
  ip6Id : Nat
  mtu : Nat

/-- `network.broadcast` (which never raises: `Ip4Network.broadcast_ok`). -/
def Ip4Network.bcast (n : Ip4Network) : Ip4Address := ⟨n.lastInt, n.lastInt_lt⟩

/-- `Ip4Address(0xFFFFFFFF)` -/
def Ip4Address.limitedBroadcast : Ip4Address := ⟨0xFFFFFFFF, by decide⟩
/-- `MacAddress(0xFFFFFFFFFFFF)` -/
def MacAddress.broadcast : MacAddress := ⟨0xFFFFFFFFFFFF, by decide⟩
/-- `MacAddress(0)` -/
def MacAddress.zero : MacAddress := ⟨0, by decide⟩

/-- packet_handler.py:312-317 -/
def Stack.ip4Unicast (s : Stack) : List Ip4Address := s.ip4Host.map (·.address)
/-- packet_handler.py:305-310 -/
def Stack.ip6Unicast (s : Stack) : List Ip6Address := s.ip6Host.map (·.address)
/-- packet_handler.py:319-328 -/
def Stack.ip4Broadcast (s : Stack) : List Ip4Address := s.ip4Host.map (·.network.bcast) ++ [.limitedBroadcast]

/-- What source validation asks about the carried packet: a UDP packet's ports, an ICMPv6 packet's type and number of
ND options. -/
inductive L4Kind where
  | udp (sport dport : Nat)
  | icmp6 (type ndOptions : Nat)
  | other
  deriving DecidableEq

/-- A packet handed to the IP layer. -/
structure L4 extends Carried where
  kind : L4Kind

/-- `next(h.address for h in hosts if p(h))`, as the `for ... return` loops do. -/
def firstAddr4 (hosts : List Ip4Host) (p : Ip4Host → Bool) : Option Ip4Address := (hosts.find? p).map (·.address)
def firstAddr6 (hosts : List Ip6Host) (p : Ip6Host → Bool) : Option Ip6Address := (hosts.find? p).map (·.address)

/-- ip4/phtx.py:59-211 -/
def validateSrcIp4 (s : Stack) (src dst : Ip4Address) (kind : L4Kind) : Except TxStatus Ip4Address :=
  if ¬ (src ∈ s.ip4Unicast ∨ src ∈ s.ip4Multicast ∨ src ∈ s.ip4Broadcast ∨ src = .zero) then
    .error .dropIp4SrcNotOwned
  else if src ∈ s.ip4Multicast then
    match s.ip4Unicast with
    | a :: _ => .ok a
    | [] => .error .dropIp4SrcMulticast
  else if src.isLimitedBroadcast then
    match s.ip4Unicast with
    | a :: _ => .ok a
    | [] => .error .dropIp4SrcLimitedBroadcast
  else
    let fromBroadcast := if src ∈ s.ip4Broadcast then firstAddr4 s.ip4Host (·.network.bcast = src) else none
    match fromBroadcast with
    | some a => .ok a
    | none =>
      if src.isUnspecified then
        match firstAddr4 s.ip4Host (·.network.contains dst) with
        | some a => .ok a
        | none =>
          match firstAddr4 s.ip4Host (·.gateway.isSome) with
          | some a => .ok a
          | none => if kind = .udp 68 67 then .ok src else .error .dropIp4SrcUnspecified
      else .ok src

/-- ip4/phtx.py:214-229 -/
def validateDstIp4 (dst : Ip4Address) : Except TxStatus Ip4Address :=
  if dst.isUnspecified then .error .dropIp4DstUnspecified else .ok dst

/-- ip6/phtx.py:154-180: a neighbour solicitation (type 135) without options, as sent for duplicate address detection,
or an MLDv2 report (type 143); the numbers are from icmp6/ps.py. -/
def L4Kind.maySendUnspecified6 : L4Kind → Bool
  | .icmp6 135 0 => true
  | .icmp6 143 _ => true
  | _ => false

/-- ip6/phtx.py:63-187 -/
def validateSrcIp6 (s : Stack) (src dst : Ip6Address) (kind : L4Kind) : Except TxStatus Ip6Address :=
  if ¬ (src ∈ s.ip6Unicast ∨ src ∈ s.ip6Multicast ∨ src = .zero) then .error .dropIp6SrcNotOwned
  else if src ∈ s.ip6Multicast then
    match s.ip6Unicast with
    | a :: _ => .ok a
    | [] => .error .dropIp6SrcMulticast
  else if src.isUnspecified then
    match firstAddr6 s.ip6Host (·.network.contains dst) with
    | some a => .ok a
    | none =>
      match firstAddr6 s.ip6Host (·.gateway.isSome) with
      | some a => .ok a
      | none => if kind.maySendUnspecified6 then .ok src else .error .dropIp6SrcUnspecified
  else .ok src

/-- ip6/phtx.py:190-205 -/
def validateDstIp6 (dst : Ip6Address) : Except TxStatus Ip6Address :=
  if dst.isUnspecified then .error .dropIp6DstUnspecified else .ok dst

/-- The packets the link layer is given. -/
inductive Pkt where
  | ip4 (h : Ip4.Tx) (c : Carried)
  | ip4Frag (h : Ip4.Tx) (data : Bytes)
  | ip6 (h : Ip6.Tx) (c : Carried)
  | arp (oper : Nat) (sha : MacAddress) (spa : Ip4Address) (tha : MacAddress) (tpa : Ip4Address)
  | raw (data : Bytes)

/-- `EtherAssembler` as enqueued on the TX ring. -/
structure Outgoing where
  src : MacAddress
  dst : MacAddress
  pkt : Pkt

abbrev ArpLookup := Ip4Address → Option MacAddress
abbrev NdLookup := Ip6Address → Option MacAddress

/-- ether/phtx.py:204-317: the destination MAC for an IPv4 packet, or the drop reason. -/
def etherDstIp4 (s : Stack) (arp : ArpLookup) (src dst : Ip4Address) : Py (Except TxStatus MacAddress) :=
  if dst.isMulticast then do return .ok (← dst.multicastMac)
  else if dst.isLimitedBroadcast then .ok (.ok .broadcast)
  else if s.ip4Host.any (fun h => h.address = src && (dst = h.network.address || dst = h.network.bcast)) then
    .ok (.ok .broadcast)
  else match s.ip4Host.find? (fun h => h.address = src && !h.network.contains dst) with
  | some h =>
    match h.gateway with
    | none => .ok (.error .dropEtherNoGatewayIp4)
    | some g =>
      match arp g with
      | some m => .ok (.ok m)
      | none => .ok (.error .dropEtherGatewayArpCacheFail)
  | none =>
    match arp dst with
    | some m => .ok (.ok m)
    | none => .ok (.error .dropEtherArpCacheFail)

/-- ether/phtx.py:126-201: the destination MAC for an IPv6 packet, or the drop reason. -/
def etherDstIp6 (s : Stack) (nd : NdLookup) (src dst : Ip6Address) : Py (Except TxStatus MacAddress) :=
  if dst.isMulticast then do return .ok (← dst.multicastMac)
  else match s.ip6Host.find? (fun h => h.address = src && !h.network.contains dst) with
  | some h =>
    match h.gateway with
    | none => .ok (.error .dropEtherNoGatewayIp6)
    | some g =>
      match nd g with
      | some m => .ok (.ok m)
      | none => .ok (.error .dropEtherGatewayNdCacheFail)
  | none =>
    match nd dst with
    | some m => .ok (.ok m)
    | none => .ok (.error .dropEtherNdCacheFail)

/-- ether/phtx.py:126-324: the destination MAC when none is given. -/
def etherDst (s : Stack) (arp : ArpLookup) (nd : NdLookup) : Pkt → Py (Except TxStatus MacAddress)
  | .ip6 h _ => etherDstIp6 s nd h.src h.dst
  | .ip4 h _ => etherDstIp4 s arp h.src h.dst
  | .ip4Frag h _ => etherDstIp4 s arp h.src h.dst
  | _ => .ok (.error .dropEtherResolutionFail)

/-- ether/phtx.py:66-324: `_phtx_ether`; the result is the status and the frames queued on the TX ring. -/
def phtxEther (s : Stack) (arp : ArpLookup) (nd : NdLookup) (esrc edst : MacAddress) (p : Pkt) :
    Py (TxStatus × List Outgoing) :=
  let src := if esrc.isUnspecified then s.mac else esrc
  if ¬ edst.isUnspecified then .ok (.passedEtherToTxRing, [⟨src, edst, p⟩])
  else match etherDst s arp nd p with
    | .error e => .error e
    | .ok (.ok m) => .ok (.passedEtherToTxRing, [⟨src, m, p⟩])
    | .ok (.error st) => .ok (st, [])

/-- `[data[_ : m + _] for _ in range(0, len(data), m)]` (ip4/phtx.py:290, ip6_ext_frag/phtx.py:72), for `m > 0`;
`range` raises `ValueError` for `m = 0`. -/
def dataFrags (data : Bytes) (m : Nat) : Py (List Bytes) :=
  if m = 0 then .error .valueError
  else .ok ((List.range ((data.length + m - 1) / m)).map (fun i => slice data (i * m) (m + i * m)))

/-- The loops of ip4/phtx.py:291-308 and ip6_ext_frag/phtx.py:73-96: `send` gets the running offset, `flag_mf` (whether
this is not the last fragment) and the fragment. -/
def sendFrags (send : Nat → Bool → Bytes → Py (TxStatus × List Outgoing)) :
    Nat → List Bytes → Py (List TxStatus × List Outgoing)
  | _, [] => .ok ([], [])
  | offset, d :: ds => do
    let (st, out) ← send offset (!ds.isEmpty) d
    let (sts, outs) ← sendFrags send (offset + d.length) ds
    return (st :: sts, out ++ outs)

/-- The loops of ip4/phtx.py:311-321 and ip6_ext_frag/phtx.py:89-104. -/
def mostSevere (order : List TxStatus) (unknown : TxStatus) (sts : List TxStatus) : TxStatus :=
  (order.find? (· ∈ sts)).getD unknown

/-- ip4/phtx.py:311-317 -/
def severityIp4 : List TxStatus :=
  [.dropEtherResolutionFail, .dropEtherNoGatewayIp4, .dropEtherArpCacheFail, .dropEtherGatewayArpCacheFail,
   .passedEtherToTxRing]

/-- ip6_ext_frag/phtx.py:89-95 -/
def severityIp6 : List TxStatus :=
  [.dropEtherResolutionFail, .dropEtherNoGatewayIp6, .dropEtherNdCacheFail, .dropEtherGatewayNdCacheFail,
   .passedEtherToTxRing]

/-- The fragment header arguments of ip4/phtx.py:295-304 (`dscp`, `ecn` and `options` keep their defaults). -/
def fragTx (src dst : Ip4Address) (ttl id proto offset : Nat) (mf : Bool) : Ip4.Tx :=
  { src := src, dst := dst, ttl := ttl, dscp := 0, ecn := 0, id := id, df := false, mf := mf, offset := offset,
    options := [], proto := proto }

/-- The whole-packet header arguments of ip4/phtx.py:270-272 (ip4/fpa.py:75-89 gives the defaults). -/
def packetTx (src dst : Ip4Address) (ttl proto : Nat) : Ip4.Tx :=
  { src := src, dst := dst, ttl := ttl, dscp := 0, ecn := 0, id := 0, df := false, mf := false, offset := 0,
    options := [], proto := proto }

/-- ip4/phtx.py:294-308: one fragment, built by `Ip4FragAssembler` (whose constructor asserts) and handed to the link
layer. -/
def sendFragIp4 (s : Stack) (arp : Nat → ArpLookup) (src dst : Ip4Address) (ttl proto id : Nat)
    (offset : Nat) (mf : Bool) (d : Bytes) : Py (TxStatus × List Outgoing) := do
  let h := fragTx src dst ttl id proto offset mf
  h.asserts
  phtxEther s (arp offset) (fun _ => none) .zero .zero (.ip4Frag h d)

/-- ip4/phtx.py:232-321: `_phtx_ip4`.  `config.IP4_SUPPORT` is on.  The second component is the result or exception, the
first the handler's state afterwards (kept also when an exception is raised).  Other threads may change the ARP cache
while the fragments are sent: `arp n` is what lookups give when the fragment at offset `n` (or the whole packet, `n = 0`)
is sent.  `s.mtu - h.hlen` is natural-number subtraction: the model is faithful for MTUs of at least 20.  The frames
queued before an exception are not in the result; the only exceptions are the same for every fragment, so there are
none. -/
def phtxIp4 (s : Stack) (arp : Nat → ArpLookup) (src dst : Ip4Address) (ttl : Nat) (c : L4) :
    Stack × Py (TxStatus × List Outgoing) :=
  if ¬ (0 < ttl ∧ ttl < 256) then (s, .error .assertionError)
  else match validateSrcIp4 s src dst c.kind with
  | .error e => (s, .ok (e, []))
  | .ok src => match validateDstIp4 dst with
    | .error e => (s, .ok (e, []))
    | .ok dst =>
      let h := packetTx src dst ttl c.proto
      match h.asserts with
      | .error e => (s, .error e)
      | .ok () =>
        if h.hlen + c.len ≤ s.mtu then
          (s, phtxEther s (arp 0) (fun _ => none) .zero .zero (.ip4 h c.toCarried))
        else
          match (do
            let ps ← Ip4.pshdrSum src dst c.proto c.len
            let data ← c.assemble ps
            dataFrags data ((s.mtu - h.hlen) &&& 0b1111111111111000)) with
          | .error e => (s, .error e)
          | .ok frags =>
            let s' := { s with ip4Id := s.ip4Id + 1 }
            (s', do
              let (sts, outs) ← sendFrags (sendFragIp4 s' arp src dst ttl c.proto s'.ip4Id) 0 frags
              return (mostSevere severityIp4 .dropIp4Unknown sts, outs))

/-- The header arguments of ip6/phtx.py:245-247 (ip6/fpa.py:71-87 gives the defaults). -/
def packetTx6 (src dst : Ip6Address) (hop : Nat) : Ip6.Tx :=
  { src := src, dst := dst, hop := hop, dscp := 0, ecn := 0, flow := 0 }

/-- The assertions of the `Ip6Assembler` constructor (ip6/fpa.py:88-104). -/
def ip6Asserts (h : Ip6.Tx) (proto : Nat) : Py Unit := do
  pyAssert (h.hop ≤ 0xFF)
  pyAssert (h.dscp ≤ 0x3F)
  pyAssert (h.ecn ≤ 0x03)
  pyAssert (h.flow ≤ 0xFFFFFF)
  pyAssert (proto == 58 || proto == 17 || proto == 6 || proto == 44 || proto == 255)

/-- ip6/phtx.py:208-257: `_phtx_ip6` up to the point where the packet is found too long: either the result, or the
validated source and destination. -/
def phtxIp6Small (s : Stack) (nd : NdLookup) (src dst : Ip6Address) (hop : Nat) (c : L4) :
    Py (TxStatus × List Outgoing ⊕ Ip6Address × Ip6Address) := do
  pyAssert (decide (0 < hop) && decide (hop < 256))
  match validateSrcIp6 s src dst c.kind with
  | .error e => return .inl (e, [])
  | .ok src => match validateDstIp6 dst with
    | .error e => return .inl (e, [])
    | .ok dst =>
      let h := packetTx6 src dst hop
      ip6Asserts h c.proto
      if 40 + c.len ≤ s.mtu then
        return .inl (← phtxEther s (fun _ => none) nd .zero .zero (.ip6 h c.toCarried))
      else return .inr (src, dst)

/-- ip6_ext_frag/phtx.py:76-95: one fragment goes through `_phtx_ip6` again, with the default hop limit 64.
It always fits the MTU; in the model a fragment that did not would be reported as `nonTermination` (the Python code
would fragment it again). -/
def sendFragIp6 (s : Stack) (nd : Nat → NdLookup) (src dst : Ip6Address) (next id : Nat)
    (offset : Nat) (mf : Bool) (d : Bytes) : Py (TxStatus × List Outgoing) := do
  pyAssert (next == 58 || next == 17 || next == 6 || next == 255)
  match ← phtxIp6Small s (nd offset) src dst 64 { Ip6Frag.carried next offset mf id d with kind := .other } with
  | .inl r => return r
  | .inr _ => .error .nonTermination

/-- ip6/phtx.py:208-269 with ip6_ext_frag/phtx.py:54-104; `nd n` as in `phtxIp4`. -/
def phtxIp6 (s : Stack) (nd : Nat → NdLookup) (src dst : Ip6Address) (hop : Nat) (c : L4) :
    Stack × Py (TxStatus × List Outgoing) :=
  match phtxIp6Small s (nd 0) src dst hop c with
  | .error e => (s, .error e)
  | .ok (.inl r) => (s, .ok r)
  | .ok (.inr (src, dst)) =>
    match (do
      let ps ← Ip6.pshdrSum src dst c.len c.proto
      let data ← c.assemble ps
      dataFrags data ((s.mtu - 40 - 8) &&& 0b1111111111111000)) with
    | .error e => (s, .error e)
    | .ok frags =>
      let s' := { s with ip6Id := s.ip6Id + 1 }
      (s', do
        let (sts, outs) ← sendFrags (sendFragIp6 s' nd src dst c.proto s'.ip6Id) 0 frags
        return (mostSevere severityIp6 .dropIp6ExtFragUnknown sts, outs))

/-- lib/ip_helper.py:125-141 -/
def pickLocalIp4 (s : Stack) (remote : Ip4Address) : Ip4Address :=
  match firstAddr4 s.ip4Host (·.network.contains remote) with
  | some a => a
  | none => (firstAddr4 s.ip4Host (·.gateway.isSome)).getD .zero

/-- lib/ip_helper.py:106-122 -/
def pickLocalIp6 (s : Stack) (remote : Ip6Address) : Ip6Address :=
  match firstAddr6 s.ip6Host (·.network.contains remote) with
  | some a => a
  | none => (firstAddr6 s.ip6Host (·.gateway.isSome)).getD .zero

end Verif
