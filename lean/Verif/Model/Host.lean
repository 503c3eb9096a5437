import Verif.Model.Rx
import Verif.Model.Cache
import Verif.Model.Wire
/-!
A host as a whole: the state of the packet handler and the sockets (`Node`) together with the two neighbour caches.  The transmit functions
of `Model/Tx.lean`, `Model/Socket.lean` and `Model/Rx.lean` take the answers of the caches as given; here the same functions ask the
caches of the host, and the ARP requests and neighbour solicitations that a miss sends are among the frames queued.

Simplification: a call of the API, or the handling of one frame, is one step; nothing else happens in between (the other files
leave the answers of the caches open for each packet).  TCP sessions are in `Model/TcpStack.lean`: here a delivered segment has no effect.
-/
namespace Verif

structure Host where
  node : Node
  arp : Cache Ip4Address
  nd : Cache Ip6Address

namespace Host

/-- The frames queued and the result of a transmit call (or the exception). -/
abbrev Res := Host × Py (TxStatus × List Outgoing)

/-- The state of the packet handler. -/
def stack (h : Host) : Stack := h.node.stack
def withStack (h : Host) (s : Stack) : Host := { h with node := { h.node with stack := s } }
def withSocks (h : Host) (ss : Socks) : Host := { h with node := { h.node with socks := ss } }

/-- ether/phtx.py:204-317: the address that `stack.arp_cache.find_entry` is called with, for a packet from `src` to `dst`. -/
def ask4 (s : Stack) (src dst : Ip4Address) : Option Ip4Address :=
  if dst.isMulticast then none
  else if dst.isLimitedBroadcast then none
  else if s.ip4Host.any (fun h => h.address = src && (dst = h.network.address || dst = h.network.bcast)) then none
  else match s.ip4Host.find? (fun h => h.address = src && !h.network.contains dst) with
  | some h => h.gateway
  | none => some dst

/-- ether/phtx.py:126-201: the same for `stack.nd_cache.find_entry`. -/
def ask6 (s : Stack) (src dst : Ip6Address) : Option Ip6Address :=
  if dst.isMulticast then none
  else match s.ip6Host.find? (fun h => h.address = src && !h.network.contains dst) with
  | some h => h.gateway
  | none => some dst

/-- arp_cache.py:179-193: `_send_arp_request`, and what `_phtx_arp` and `_phtx_ether` make of it. -/
def arpRequest (s : Stack) (tpa : Ip4Address) : Py (List Outgoing) :=
  match phtxEther s (fun _ => none) (fun _ => none) (s.arpRequest tpa).1 (s.arpRequest tpa).2.1 (s.arpRequest tpa).2.2 with
  | .error e => .error e
  | .ok (_, outs) => .ok outs

/-- nd_cache.py:185-206: `_send_icmp6_neighbor_solicitation`.  It goes to a multicast address, so that the cache is not asked again. -/
def ndRequest (s : Stack) (target : Ip6Address) : Py (List Outgoing) :=
  match target.solicitedNodeMulticast with
  | .error e => .error e
  | .ok dst =>
    match (phtxIcmp6 s ⟨fun _ _ => none, fun _ _ => none⟩ (s.ndSource target) dst 255 (.neighborSolicitation target [.slla s.mac])).2 with
    | .error e => .error e
    | .ok (_, outs) => .ok outs

/-- The requests for a list of addresses. -/
def requests {A : Type} (f : A → Py (List Outgoing)) : List A → Py (List Outgoing)
  | [] => .ok []
  | a :: l => do
    let x ← f a
    let xs ← requests f l
    return x ++ xs

/-- The packet `p` goes out after the cache has been asked, with the answer `m`, which made it send `asked`. -/
def finish (s : Stack) (asked : Py (List Outgoing)) (m : Option MacAddress) (p : Pkt) : Py (TxStatus × List Outgoing) := do
  let reqs ← asked
  let (st, outs) ← phtxEther s (fun _ => m) (fun _ => m) .zero .zero p
  return (st, reqs ++ outs)

/-- ether/phtx.py:66-324: `_phtx_ether` without link-layer addresses, as the IP layer calls it. -/
def link (h : Host) (p : Pkt) : Res :=
  match p with
  | .ip4 hd _ | .ip4Frag hd _ =>
    match ask4 h.stack hd.src hd.dst with
    | none => (h, finish h.stack (.ok []) none p)
    | some a =>
      let (c, m, asked) := h.arp.find a
      ({ h with arp := c }, finish h.stack (requests (arpRequest h.stack) asked) m p)
  | .ip6 hd _ =>
    match ask6 h.stack hd.src hd.dst with
    | none => (h, finish h.stack (.ok []) none p)
    | some a =>
      let (c, m, asked) := h.nd.find a
      ({ h with nd := c }, finish h.stack (requests (ndRequest h.stack) asked) m p)
  | _ => (h, finish h.stack (.ok []) none p)

/-- The loops of ip4/phtx.py:291-308 and ip6_ext_frag/phtx.py:73-96, as `sendFrags`. -/
def frags (send : Host → Nat → Bool → Bytes → Res) : Host → Nat → List Bytes → Host × Py (List TxStatus × List Outgoing)
  | h, _, [] => (h, .ok ([], []))
  | h, offset, d :: ds =>
    match send h offset (!ds.isEmpty) d with
    | (h, .error e) => (h, .error e)
    | (h, .ok (st, out)) =>
      match frags send h (offset + d.length) ds with
      | (h, .error e) => (h, .error e)
      | (h, .ok (sts, outs)) => (h, .ok (st :: sts, out ++ outs))

/-- ip4/phtx.py:294-308, as `sendFragIp4`. -/
def frag4 (src dst : Ip4Address) (ttl proto id : Nat) (h : Host) (offset : Nat) (mf : Bool) (d : Bytes) : Res :=
  let hd := fragTx src dst ttl id proto offset mf
  match hd.asserts with
  | .error e => (h, .error e)
  | .ok () => h.link (.ip4Frag hd d)

/-- ip4/phtx.py:232-321: `_phtx_ip4`, as `phtxIp4`. -/
def ip4 (h : Host) (src dst : Ip4Address) (ttl : Nat) (c : L4) : Res :=
  if ¬ (0 < ttl ∧ ttl < 256) then (h, .error .assertionError)
  else match validateSrcIp4 h.stack src dst c.kind with
  | .error e => (h, .ok (e, []))
  | .ok src => match validateDstIp4 dst with
    | .error e => (h, .ok (e, []))
    | .ok dst =>
      let hd := packetTx src dst ttl c.proto
      match hd.asserts with
      | .error e => (h, .error e)
      | .ok () =>
        if hd.hlen + c.len ≤ h.stack.mtu then h.link (.ip4 hd c.toCarried)
        else
          match (do
            let ps ← Ip4.pshdrSum src dst c.proto c.len
            let data ← c.assemble ps
            dataFrags data ((h.stack.mtu - hd.hlen) &&& 0b1111111111111000)) with
          | .error e => (h, .error e)
          | .ok ds =>
            let h' := h.withStack { h.stack with ip4Id := h.stack.ip4Id + 1 }
            match frags (frag4 src dst ttl c.proto h'.stack.ip4Id) h' 0 ds with
            | (h', .error e) => (h', .error e)
            | (h', .ok (sts, outs)) => (h', .ok (mostSevere severityIp4 .dropIp4Unknown sts, outs))

/-- ip6/phtx.py:208-257, as `phtxIp6Small`. -/
def ip6Small (h : Host) (src dst : Ip6Address) (hop : Nat) (c : L4) : Host × Py (TxStatus × List Outgoing ⊕ Ip6Address × Ip6Address) :=
  if ¬ (0 < hop ∧ hop < 256) then (h, .error .assertionError)
  else match validateSrcIp6 h.stack src dst c.kind with
  | .error e => (h, .ok (.inl (e, [])))
  | .ok src => match validateDstIp6 dst with
    | .error e => (h, .ok (.inl (e, [])))
    | .ok dst =>
      let hd := packetTx6 src dst hop
      match ip6Asserts hd c.proto with
      | .error e => (h, .error e)
      | .ok () =>
        if 40 + c.len ≤ h.stack.mtu then
          match h.link (.ip6 hd c.toCarried) with
          | (h, .error e) => (h, .error e)
          | (h, .ok r) => (h, .ok (.inl r))
        else (h, .ok (.inr (src, dst)))

/-- ip6_ext_frag/phtx.py:76-95, as `sendFragIp6`. -/
def frag6 (src dst : Ip6Address) (next id : Nat) (h : Host) (offset : Nat) (mf : Bool) (d : Bytes) : Res :=
  if next ≠ 58 ∧ next ≠ 17 ∧ next ≠ 6 ∧ next ≠ 255 then (h, .error .assertionError)
  else match h.ip6Small src dst 64 { Ip6Frag.carried next offset mf id d with kind := .other } with
  | (h, .error e) => (h, .error e)
  | (h, .ok (.inl r)) => (h, .ok r)
  | (h, .ok (.inr _)) => (h, .error .nonTermination)

/-- ip6/phtx.py:208-269 with ip6_ext_frag/phtx.py:54-104, as `phtxIp6`. -/
def ip6 (h : Host) (src dst : Ip6Address) (hop : Nat) (c : L4) : Res :=
  match h.ip6Small src dst hop c with
  | (h, .error e) => (h, .error e)
  | (h, .ok (.inl r)) => (h, .ok r)
  | (h, .ok (.inr (src, dst))) =>
    match (do
      let ps ← Ip6.pshdrSum src dst c.len c.proto
      let data ← c.assemble ps
      dataFrags data ((h.stack.mtu - 40 - 8) &&& 0b1111111111111000)) with
    | .error e => (h, .error e)
    | .ok ds =>
      let h' := h.withStack { h.stack with ip6Id := h.stack.ip6Id + 1 }
      match frags (frag6 src dst c.proto h'.stack.ip6Id) h' 0 ds with
      | (h', .error e) => (h', .error e)
      | (h', .ok (sts, outs)) => (h', .ok (mostSevere severityIp6 .dropIp6ExtFragUnknown sts, outs))

/-- icmp4/phtx.py:59-114, as `phtxIcmp4`. -/
def icmp4 (h : Host) (src dst : Ip4Address) (m : Icmp4.Msg) : Res := h.ip4 src dst 64 { Icmp4.carried m with kind := .other }

/-- icmp6/phtx.py:71-203, as `phtxIcmp6`. -/
def icmp6 (h : Host) (src dst : Ip6Address) (hop : Nat) (m : Icmp6.Msg) : Res := h.ip6 src dst hop { Icmp6.carried m with kind := m.kind }

/-- tcp/phtx.py:65-182, as `phtxTcp`. -/
def tcp (h : Host) (src dst : IpAddress) (x : Tcp.Tx) : Res :=
  if ¬ (x.sport ≤ 0xFFFF ∧ x.dport ≤ 0xFFFF ∧ x.seq ≤ 0xFFFFFFFF ∧ x.ack ≤ 0xFFFFFFFF ∧ x.win ≤ 0xFFFF ∧ x.urp ≤ 0xFFFF) then
    (h, .error .assertionError)
  else
    let c : L4 := { Tcp.carried x with kind := .other }
    match src, dst with
    | .v6 s, .v6 d => h.ip6 s d 64 c
    | .v4 s, .v4 d => h.ip4 s d 64 c
    | _, _ => (h, .ok (.dropTcpUnknown, []))

/-- udp/phtx.py:54-96, as `phtxUdp`. -/
def udp (h : Host) (src dst : IpAddress) (sport dport : Nat) (data : Bytes) : Res :=
  if ¬ (sport ≤ 0xFFFF ∧ dport ≤ 0xFFFF) then (h, .error .assertionError)
  else
    let c : L4 := { Udp.carried sport dport data with kind := .udp sport dport }
    match src, dst with
    | .v6 s, .v6 d => h.ip6 s d 64 c
    | .v4 s, .v4 d => h.ip4 s d 64 c
    | _, _ => (h, .ok (.dropUdpUnknown, []))

/-- The frames a transmit call has queued. -/
def queued : Res → Host × Py (List Outgoing)
  | (h, .error e) => (h, .error e)
  | (h, .ok (_, outs)) => (h, .ok outs)

/-- What the receive handlers' calls do (see `Eff`), at time `t`. -/
def apply (t : Int) (h : Host) : Eff → Host × Py (List Outgoing)
  | .txArp esrc edst oper sha spa tha tpa =>
    queued (h, phtxEther h.stack (fun _ => none) (fun _ => none) esrc edst (.arp oper sha spa tha tpa))
  | .txIcmp4 src dst m => queued (h.icmp4 src dst m)
  | .txIcmp6 src dst hop m => queued (h.icmp6 src dst hop m)
  | .txTcp src dst x => queued (h.tcp src dst x)
  | .arpLearn ip mac => ({ h with arp := h.arp.add ip mac t }, .ok [])
  | .ndLearn ip mac => ({ h with nd := h.nd.add ip mac t }, .ok [])
  | e => (h.withSocks (e.onSocks h.node.socks), .ok [])

/-- One after the other. -/
def applyAll (t : Int) : Host → List Eff → Host × Py (List Outgoing)
  | h, [] => (h, .ok [])
  | h, e :: es =>
    match h.apply t e with
    | (h, .error x) => (h, .error x)
    | (h, .ok out) =>
      match applyAll t h es with
      | (h, .error x) => (h, .error x)
      | (h, .ok outs) => (h, .ok (out ++ outs))

/-- packet_handler.py:294-304 with ether/phrx.py:56-103: a frame is taken from the RX ring and handled; the frames queued because of it. -/
def receive (h : Host) (t₀ t₁ t : Int) (depth : Nat) (F : Bytes) : Host × Py (List Outgoing) :=
  match Rx.ether h.node t₀ t₁ depth F with
  | (n, .error e) => ({ h with node := n }, .error e)
  | (n, .ok effs) => applyAll t { h with node := n } effs

/-- udp/socket.py:243-286, as `Socks.sendto`. -/
def sendto (h : Host) (r : Nat) (data : Bytes) (addr : Option IpAddress) (port : Int) (choice : Nat) : Host × Py (Nat × List Outgoing) :=
  match h.node.socks.socks[r]? with
  | none => (h, .error .keyError)
  | some s =>
    if ¬ (0 ≤ port ∧ port < 65536) then (h, .error .overflowError)
    else
      let (ss, bound) : Socks × Py Sock :=
        if 1 ≤ s.id.lport ∧ s.id.lport < 65536 then (h.node.socks, .ok s)
        else
          let popped : Socks := { h.node.socks with table := h.node.socks.table.erase s.id }
          match Socks.pickLocalPort popped choice with
          | .error e => (popped, .error e)
          | .ok p => (popped.register r s { s.id with lport := p }, .ok { s with id := { s.id with lport := p } })
      match bound with
      | .error e => (h.withSocks ss, .error e)
      | .ok s =>
        match Socks.setIpAddresses h.stack s addr s.id.lip s.id.lport port.toNat with
        | (u, .error e) => (h.withSocks (ss.put r { s with unreachable := u }), .error e)
        | (u, .ok (lip, rip)) =>
          let (h', res) := (h.withSocks (ss.put r { s with unreachable := u })).udp lip rip s.id.lport port.toNat data
          (h', Socks.sentLen data res)

/-- The answers the caches would give. -/
def links (h : Host) : Socks.Links :=
  ⟨fun _ a => (h.arp.get? a).map (·.mac), fun _ a => (h.nd.get? a).map (·.mac)⟩

end Host
end Verif
