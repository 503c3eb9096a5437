import Verif.Model.Rx
/-!
The packet counters of the transmit side: `/repo/pytcp/lib/packet_stats.py:126-228` and the places in
`/repo/pytcp/protocols/*/phtx.py` where they are increased.

`CountedTx.f` is the transmit function of `Model/Tx.lean`, `Model/Socket.lean` or `Model/Rx.lean` once more, branch by branch, with the
list of the counters it increases, in the order in which it does.  (`Props/StatsTx.lean` shows that apart from the counters they are the same
functions.)  The `..__no_proto_support__drop` counters are never increased, because both protocol switches are on, as in config.py;
`icmp4__unknown__drop` and `icmp6__unknown__drop` are not, because the assemblers' constructors refuse other messages (the code would
increase the first of the two for both protocols, icmp6/phtx.py:202).
-/
namespace Verif

/-- lib/packet_stats.py:126-228: the counters, by their names there. -/
inductive CountTx
  | ether__pre_assemble | ether__src_unspec__fill | ether__src_spec | ether__dst_spec__send
  | ether__dst_unspec__ip6_lookup | ether__dst_unspec__ip6_lookup__multicast__send | ether__dst_unspec__ip6_lookup__extnet__no_gw__drop
  | ether__dst_unspec__ip6_lookup__extnet__gw_nd_cache_hit__send | ether__dst_unspec__ip6_lookup__extnet__gw_nd_cache_miss__drop
  | ether__dst_unspec__ip6_lookup__locnet__nd_cache_hit__send | ether__dst_unspec__ip6_lookup__locnet__nd_cache_miss__drop
  | ether__dst_unspec__ip4_lookup | ether__dst_unspec__ip4_lookup__multicast__send
  | ether__dst_unspec__ip4_lookup__limited_broadcast__send | ether__dst_unspec__ip4_lookup__network_broadcast__send
  | ether__dst_unspec__ip4_lookup__extnet__no_gw__drop | ether__dst_unspec__ip4_lookup__extnet__gw_arp_cache_hit__send
  | ether__dst_unspec__ip4_lookup__extnet__gw_arp_cache_miss__drop | ether__dst_unspec__ip4_lookup__locnet__arp_cache_hit__send
  | ether__dst_unspec__ip4_lookup__locnet__arp_cache_miss__drop | ether__dst_unspec__drop
  | arp__pre_assemble | arp__no_proto_support__drop | arp__op_request__send | arp__op_reply__send
  | ip4__pre_assemble | ip4__no_proto_support__drop | ip4__src_not_owned__drop | ip4__src_multicast__replace | ip4__src_multicast__drop
  | ip4__src_limited_broadcast__replace | ip4__src_limited_broadcast__drop | ip4__src_network_broadcast__replace
  | ip4__src_network_unspecified__replace_local | ip4__src_network_unspecified__replace_external | ip4__src_unspecified__send
  | ip4__src_unspecified__drop | ip4__dst_unspecified__drop | ip4__mtu_ok__send | ip4__mtu_exceed__frag | ip4__mtu_exceed__frag__send
  | ip6__pre_assemble | ip6__no_proto_support__drop | ip6__src_not_owned__drop | ip6__src_multicast__replace | ip6__src_multicast__drop
  | ip6__src_network_unspecified__replace_local | ip6__src_network_unspecified__replace_external | ip6__src_unspecified__send
  | ip6__src_unspecified__drop | ip6__dst_unspecified__drop | ip6__mtu_ok__send | ip6__mtu_exceed__frag
  | ip6_ext_frag__pre_assemble | ip6_ext_frag__send
  | icmp4__pre_assemble | icmp4__echo_reply__send | icmp4__echo_request__send | icmp4__unreachable_port__send | icmp4__unknown__drop
  | icmp6__pre_assemble | icmp6__echo_reply__send | icmp6__echo_request__send | icmp6__unreachable_port__send
  | icmp6__nd_router_solicitation__send | icmp6__nd_router_advertisement__send | icmp6__nd_neighbor_solicitation__send
  | icmp6__nd_neighbor_advertisement__send | icmp6__mld2_report__send | icmp6__unknown__drop
  | tcp__pre_assemble | tcp__flag_ns | tcp__flag_crw | tcp__flag_ece | tcp__flag_urg | tcp__flag_ack | tcp__flag_psh | tcp__flag_rst
  | tcp__flag_syn | tcp__flag_fin | tcp__send | tcp__unknown__drop | tcp__opt_nop | tcp__opt_mss | tcp__opt_wscale
  | udp__pre_assemble | udp__send | udp__unknown__drop
  deriving DecidableEq, Repr

namespace CountedTx
open CountTx

/-- Counters first, then what follows. -/
def after {α : Type} (cs : List CountTx) (r : List CountTx × α) : List CountTx × α := (cs ++ r.1, r.2)

/-- `if c: self.packet_stats_tx.x += 1` -/
def countIf (c : Bool) (x : CountTx) : List CountTx := if c then [x] else []

/-- ether/phtx.py:204-317 -/
def dst4 (s : Stack) (arp : ArpLookup) (src dst : Ip4Address) : List CountTx × Py (Except TxStatus MacAddress) :=
  after [ether__dst_unspec__ip4_lookup] <|
    if dst.isMulticast then ([ether__dst_unspec__ip4_lookup__multicast__send], do return .ok (← dst.multicastMac))
    else if dst.isLimitedBroadcast then ([ether__dst_unspec__ip4_lookup__limited_broadcast__send], .ok (.ok .broadcast))
    else if s.ip4Host.any (fun h => h.address = src && (dst = h.network.address || dst = h.network.bcast)) then
      ([ether__dst_unspec__ip4_lookup__network_broadcast__send], .ok (.ok .broadcast))
    else match s.ip4Host.find? (fun h => h.address = src && !h.network.contains dst) with
    | some h =>
      match h.gateway with
      | none => ([ether__dst_unspec__ip4_lookup__extnet__no_gw__drop], .ok (.error .dropEtherNoGatewayIp4))
      | some g =>
        match arp g with
        | some m => ([ether__dst_unspec__ip4_lookup__extnet__gw_arp_cache_hit__send], .ok (.ok m))
        | none => ([ether__dst_unspec__ip4_lookup__extnet__gw_arp_cache_miss__drop], .ok (.error .dropEtherGatewayArpCacheFail))
    | none =>
      match arp dst with
      | some m => ([ether__dst_unspec__ip4_lookup__locnet__arp_cache_hit__send], .ok (.ok m))
      | none => ([ether__dst_unspec__ip4_lookup__locnet__arp_cache_miss__drop], .ok (.error .dropEtherArpCacheFail))

/-- ether/phtx.py:126-201 -/
def dst6 (s : Stack) (nd : NdLookup) (src dst : Ip6Address) : List CountTx × Py (Except TxStatus MacAddress) :=
  after [ether__dst_unspec__ip6_lookup] <|
    if dst.isMulticast then ([ether__dst_unspec__ip6_lookup__multicast__send], do return .ok (← dst.multicastMac))
    else match s.ip6Host.find? (fun h => h.address = src && !h.network.contains dst) with
    | some h =>
      match h.gateway with
      | none => ([ether__dst_unspec__ip6_lookup__extnet__no_gw__drop], .ok (.error .dropEtherNoGatewayIp6))
      | some g =>
        match nd g with
        | some m => ([ether__dst_unspec__ip6_lookup__extnet__gw_nd_cache_hit__send], .ok (.ok m))
        | none => ([ether__dst_unspec__ip6_lookup__extnet__gw_nd_cache_miss__drop], .ok (.error .dropEtherGatewayNdCacheFail))
    | none =>
      match nd dst with
      | some m => ([ether__dst_unspec__ip6_lookup__locnet__nd_cache_hit__send], .ok (.ok m))
      | none => ([ether__dst_unspec__ip6_lookup__locnet__nd_cache_miss__drop], .ok (.error .dropEtherNdCacheFail))

/-- ether/phtx.py:126-324 -/
def dst (s : Stack) (arp : ArpLookup) (nd : NdLookup) : Pkt → List CountTx × Py (Except TxStatus MacAddress)
  | .ip6 h _ => dst6 s nd h.src h.dst
  | .ip4 h _ => dst4 s arp h.src h.dst
  | .ip4Frag h _ => dst4 s arp h.src h.dst
  | _ => ([ether__dst_unspec__drop], .ok (.error .dropEtherResolutionFail))

/-- ether/phtx.py:66-324 -/
def ether (s : Stack) (arp : ArpLookup) (nd : NdLookup) (esrc edst : MacAddress) (p : Pkt) : List CountTx × Py (TxStatus × List Outgoing) :=
  let src := if esrc.isUnspecified then s.mac else esrc
  after [ether__pre_assemble, if esrc.isUnspecified then ether__src_unspec__fill else ether__src_spec] <|
    if ¬ edst.isUnspecified then ([ether__dst_spec__send], .ok (.passedEtherToTxRing, [⟨src, edst, p⟩]))
    else match dst s arp nd p with
      | (cs, .error e) => (cs, .error e)
      | (cs, .ok (.ok m)) => (cs, .ok (.passedEtherToTxRing, [⟨src, m, p⟩]))
      | (cs, .ok (.error st)) => (cs, .ok (st, []))

/-- arp/phtx.py:55-100; the assertion is that of the assembler's constructor (arp/fpa.py:69). -/
def arp (s : Stack) (l : Socks.Links) (esrc edst : MacAddress) (oper : Nat) (sha : MacAddress) (spa : Ip4Address) (tha : MacAddress)
    (tpa : Ip4Address) : List CountTx × Py (TxStatus × List Outgoing) :=
  after ([arp__pre_assemble] ++ countIf (oper = 1) arp__op_request__send ++ countIf (oper = 2) arp__op_reply__send) <|
    if oper = 1 ∨ oper = 2 then ether s (l.arp 0) (l.nd 0) esrc edst (.arp oper sha spa tha tpa)
    else ([], .error .assertionError)

/-- ip4/phtx.py:59-211 -/
def src4 (s : Stack) (src dst : Ip4Address) (kind : L4Kind) : List CountTx × Except TxStatus Ip4Address :=
  if ¬ (src ∈ s.ip4Unicast ∨ src ∈ s.ip4Multicast ∨ src ∈ s.ip4Broadcast ∨ src = .zero) then
    ([ip4__src_not_owned__drop], .error .dropIp4SrcNotOwned)
  else if src ∈ s.ip4Multicast then
    match s.ip4Unicast with
    | a :: _ => ([ip4__src_multicast__replace], .ok a)
    | [] => ([ip4__src_multicast__drop], .error .dropIp4SrcMulticast)
  else if src.isLimitedBroadcast then
    match s.ip4Unicast with
    | a :: _ => ([ip4__src_limited_broadcast__replace], .ok a)
    | [] => ([ip4__src_limited_broadcast__drop], .error .dropIp4SrcLimitedBroadcast)
  else
    let fromBroadcast := if src ∈ s.ip4Broadcast then firstAddr4 s.ip4Host (·.network.bcast = src) else none
    match fromBroadcast with
    | some a => ([ip4__src_network_broadcast__replace], .ok a)
    | none =>
      if src.isUnspecified then
        match firstAddr4 s.ip4Host (·.network.contains dst) with
        | some a => ([ip4__src_network_unspecified__replace_local], .ok a)
        | none =>
          match firstAddr4 s.ip4Host (·.gateway.isSome) with
          | some a => ([ip4__src_network_unspecified__replace_external], .ok a)
          | none =>
            if kind = .udp 68 67 then ([ip4__src_unspecified__send], .ok src)
            else ([ip4__src_unspecified__drop], .error .dropIp4SrcUnspecified)
      else ([], .ok src)

/-- ip4/phtx.py:214-229 -/
def dstIp4 (dst : Ip4Address) : List CountTx × Except TxStatus Ip4Address :=
  if dst.isUnspecified then ([ip4__dst_unspecified__drop], .error .dropIp4DstUnspecified) else ([], .ok dst)

/-- ip6/phtx.py:63-187 -/
def src6 (s : Stack) (src dst : Ip6Address) (kind : L4Kind) : List CountTx × Except TxStatus Ip6Address :=
  if ¬ (src ∈ s.ip6Unicast ∨ src ∈ s.ip6Multicast ∨ src = .zero) then ([ip6__src_not_owned__drop], .error .dropIp6SrcNotOwned)
  else if src ∈ s.ip6Multicast then
    match s.ip6Unicast with
    | a :: _ => ([ip6__src_multicast__replace], .ok a)
    | [] => ([ip6__src_multicast__drop], .error .dropIp6SrcMulticast)
  else if src.isUnspecified then
    match firstAddr6 s.ip6Host (·.network.contains dst) with
    | some a => ([ip6__src_network_unspecified__replace_local], .ok a)
    | none =>
      match firstAddr6 s.ip6Host (·.gateway.isSome) with
      | some a => ([ip6__src_network_unspecified__replace_external], .ok a)
      | none =>
        if kind.maySendUnspecified6 then ([ip6__src_unspecified__send], .ok src)
        else ([ip6__src_unspecified__drop], .error .dropIp6SrcUnspecified)
  else ([], .ok src)

/-- ip6/phtx.py:190-205 -/
def dstIp6 (dst : Ip6Address) : List CountTx × Except TxStatus Ip6Address :=
  if dst.isUnspecified then ([ip6__dst_unspecified__drop], .error .dropIp6DstUnspecified) else ([], .ok dst)

/-- The loops of ip4/phtx.py:291-308 and ip6_ext_frag/phtx.py:73-96. -/
def frags (send : Nat → Bool → Bytes → List CountTx × Py (TxStatus × List Outgoing)) :
    Nat → List Bytes → List CountTx × Py (List TxStatus × List Outgoing)
  | _, [] => ([], .ok ([], []))
  | offset, d :: ds =>
    match send offset (!ds.isEmpty) d with
    | (cs, .error e) => (cs, .error e)
    | (cs, .ok (st, out)) =>
      match frags send (offset + d.length) ds with
      | (cs', .error e) => (cs ++ cs', .error e)
      | (cs', .ok (sts, outs)) => (cs ++ cs', .ok (st :: sts, out ++ outs))

/-- ip4/phtx.py:294-308 -/
def frag4 (s : Stack) (arp : Nat → ArpLookup) (src dst : Ip4Address) (ttl proto id : Nat) (offset : Nat) (mf : Bool) (d : Bytes) :
    List CountTx × Py (TxStatus × List Outgoing) :=
  let h := fragTx src dst ttl id proto offset mf
  match h.asserts with
  | .error e => ([], .error e)
  | .ok () => after [ip4__mtu_exceed__frag__send] (ether s (arp offset) (fun _ => none) .zero .zero (.ip4Frag h d))

/-- ip4/phtx.py:232-321 -/
def ip4 (s : Stack) (arp : Nat → ArpLookup) (src dst : Ip4Address) (ttl : Nat) (c : L4) : List CountTx × Socks.Sent :=
  after [ip4__pre_assemble] <|
    if ¬ (0 < ttl ∧ ttl < 256) then ([], s, .error .assertionError)
    else match src4 s src dst c.kind with
    | (cs, .error e) => (cs, s, .ok (e, []))
    | (cs, .ok src) => match dstIp4 dst with
      | (cs', .error e) => (cs ++ cs', s, .ok (e, []))
      | (cs', .ok dst) =>
        after (cs ++ cs') <|
          let h := packetTx src dst ttl c.proto
          match h.asserts with
          | .error e => ([], s, .error e)
          | .ok () =>
            if h.hlen + c.len ≤ s.mtu then
              let r := ether s (arp 0) (fun _ => none) .zero .zero (.ip4 h c.toCarried)
              (ip4__mtu_ok__send :: r.1, s, r.2)
            else
              after [ip4__mtu_exceed__frag] <|
                match (do
                  let ps ← Ip4.pshdrSum src dst c.proto c.len
                  let data ← c.assemble ps
                  dataFrags data ((s.mtu - h.hlen) &&& 0b1111111111111000)) with
                | .error e => ([], s, .error e)
                | .ok ds =>
                  let s' := { s with ip4Id := s.ip4Id + 1 }
                  match frags (frag4 s' arp src dst ttl c.proto s'.ip4Id) 0 ds with
                  | (cs, .error e) => (cs, s', .error e)
                  | (cs, .ok (sts, outs)) => (cs, s', .ok (mostSevere severityIp4 .dropIp4Unknown sts, outs))

/-- ip6/phtx.py:208-257, as `phtxIp6Small` -/
def ip6Small (s : Stack) (nd : NdLookup) (src dst : Ip6Address) (hop : Nat) (c : L4) :
    List CountTx × Py (TxStatus × List Outgoing ⊕ Ip6Address × Ip6Address) :=
  after [ip6__pre_assemble] <|
    if ¬ (0 < hop ∧ hop < 256) then ([], .error .assertionError)
    else match src6 s src dst c.kind with
    | (cs, .error e) => (cs, .ok (.inl (e, [])))
    | (cs, .ok src) => match dstIp6 dst with
      | (cs', .error e) => (cs ++ cs', .ok (.inl (e, [])))
      | (cs', .ok dst) =>
        after (cs ++ cs') <|
          let h := packetTx6 src dst hop
          match ip6Asserts h c.proto with
          | .error e => ([], .error e)
          | .ok () =>
            if 40 + c.len ≤ s.mtu then
              match ether s (fun _ => none) nd .zero .zero (.ip6 h c.toCarried) with
              | (cs, .error e) => (ip6__mtu_ok__send :: cs, .error e)
              | (cs, .ok r) => (ip6__mtu_ok__send :: cs, .ok (.inl r))
            else ([ip6__mtu_exceed__frag], .ok (.inr (src, dst)))

/-- ip6_ext_frag/phtx.py:76-95, as `sendFragIp6` -/
def frag6 (s : Stack) (nd : Nat → NdLookup) (src dst : Ip6Address) (next id : Nat) (offset : Nat) (mf : Bool) (d : Bytes) :
    List CountTx × Py (TxStatus × List Outgoing) :=
  if ¬ (next = 58 ∨ next = 17 ∨ next = 6 ∨ next = 255) then ([], .error .assertionError)
  else match ip6Small s (nd offset) src dst 64 { Ip6Frag.carried next offset mf id d with kind := .other } with
  | (cs, .error e) => (ip6_ext_frag__send :: cs, .error e)
  | (cs, .ok (.inl r)) => (ip6_ext_frag__send :: cs, .ok r)
  | (cs, .ok (.inr _)) => (ip6_ext_frag__send :: cs, .error .nonTermination)

/-- ip6/phtx.py:208-269 with ip6_ext_frag/phtx.py:54-104 -/
def ip6 (s : Stack) (nd : Nat → NdLookup) (src dst : Ip6Address) (hop : Nat) (c : L4) : List CountTx × Socks.Sent :=
  match ip6Small s (nd 0) src dst hop c with
  | (cs, .error e) => (cs, s, .error e)
  | (cs, .ok (.inl r)) => (cs, s, .ok r)
  | (cs, .ok (.inr (src, dst))) =>
    after (cs ++ [ip6_ext_frag__pre_assemble]) <|
      match (do
        let ps ← Ip6.pshdrSum src dst c.len c.proto
        let data ← c.assemble ps
        dataFrags data ((s.mtu - 40 - 8) &&& 0b1111111111111000)) with
      | .error e => ([], s, .error e)
      | .ok ds =>
        let s' := { s with ip6Id := s.ip6Id + 1 }
        match frags (frag6 s' nd src dst c.proto s'.ip6Id) 0 ds with
        | (cs, .error e) => (cs, s', .error e)
        | (cs, .ok (sts, outs)) => (cs, s', .ok (mostSevere severityIp6 .dropIp6ExtFragUnknown sts, outs))

/-- udp/phtx.py:54-96 -/
def udp (st : Stack) (l : Socks.Links) (src dst : IpAddress) (sport dport : Nat) (data : Bytes) : List CountTx × Socks.Sent :=
  after [udp__pre_assemble] <|
    if ¬ (sport ≤ 0xFFFF ∧ dport ≤ 0xFFFF) then ([], st, .error .assertionError)
    else
      let c : L4 := { Udp.carried sport dport data with kind := .udp sport dport }
      match src, dst with
      | .v6 s, .v6 d => after [udp__send] (ip6 st l.nd s d 64 c)
      | .v4 s, .v4 d => after [udp__send] (ip4 st l.arp s d 64 c)
      | _, _ => ([udp__unknown__drop], st, .ok (.dropUdpUnknown, []))

/-- `if tcp_mss:`, an argument that is given and not 0 -/
def truthy : Option Nat → Option Nat
  | some 0 => none
  | x => x

/-- tcp/phtx.py:102-113: the options made of the arguments `tcp_mss` and `tcp_wscale`. -/
def tcpOptions (mss wscale : Option Nat) : List Tcp.Opt :=
  (match truthy mss with | some m => [.mss m] | none => []) ++ match truthy wscale with | some w => [.nop, .wscale w] | none => []

/-- tcp/phtx.py:104-112 -/
def optionCounts (mss wscale : Option Nat) : List CountTx :=
  countIf (truthy mss).isSome tcp__opt_mss ++ countIf (truthy wscale).isSome tcp__opt_nop ++ countIf (truthy wscale).isSome tcp__opt_wscale

/-- tcp/phtx.py:136-161 -/
def flagCounts (f : Tcp.Flags) : List CountTx :=
  countIf f.ns tcp__flag_ns ++ countIf f.crw tcp__flag_crw ++ countIf f.ece tcp__flag_ece ++ countIf f.urg tcp__flag_urg ++
    countIf f.ack tcp__flag_ack ++ countIf f.psh tcp__flag_psh ++ countIf f.rst tcp__flag_rst ++ countIf f.syn tcp__flag_syn ++
    countIf f.fin tcp__flag_fin

/-- tcp/phtx.py:65-182; `h.options` is ignored, the options are made of `mss` and `wscale`.  (The assertions of the options' constructors
are left to the assembling.) -/
def tcp (st : Stack) (l : Socks.Links) (src dst : IpAddress) (h : Tcp.Tx) (mss wscale : Option Nat) : List CountTx × Socks.Sent :=
  after ([tcp__pre_assemble] ++ optionCounts mss wscale) <|
    if ¬ (h.sport ≤ 0xFFFF ∧ h.dport ≤ 0xFFFF ∧ h.seq ≤ 0xFFFFFFFF ∧ h.ack ≤ 0xFFFFFFFF ∧ h.win ≤ 0xFFFF ∧ h.urp ≤ 0xFFFF) then
      ([], st, .error .assertionError)
    else
      after (flagCounts h.flags) <|
        let c : L4 := { Tcp.carried { h with options := tcpOptions mss wscale } with kind := .other }
        match src, dst with
        | .v6 s, .v6 d => after [tcp__send] (ip6 st l.nd s d 64 c)
        | .v4 s, .v4 d => after [tcp__send] (ip4 st l.arp s d 64 c)
        | _, _ => ([tcp__unknown__drop], st, .ok (.dropTcpUnknown, []))

/-- icmp4/phtx.py:87-106: the counter of a message -/
def counter4 : Icmp4.Msg → CountTx
  | .echoReply .. => icmp4__echo_reply__send
  | .echoRequest .. => icmp4__echo_request__send
  | .portUnreachable .. => icmp4__unreachable_port__send

/-- icmp4/phtx.py:59-114 (the assertions of the assembler's constructor are left to the assembling, as in `phtxIcmp4`) -/
def icmp4 (st : Stack) (l : Socks.Links) (src dst : Ip4Address) (m : Icmp4.Msg) : List CountTx × Socks.Sent :=
  after [icmp4__pre_assemble, counter4 m] (ip4 st l.arp src dst 64 { Icmp4.carried m with kind := .other })

/-- icmp6/phtx.py:127-198: the counter of a message -/
def counter6 : Icmp6.Msg → CountTx
  | .echoReply .. => icmp6__echo_reply__send
  | .echoRequest .. => icmp6__echo_request__send
  | .portUnreachable .. => icmp6__unreachable_port__send
  | .routerSolicitation .. => icmp6__nd_router_solicitation__send
  | .routerAdvertisement .. => icmp6__nd_router_advertisement__send
  | .neighborSolicitation .. => icmp6__nd_neighbor_solicitation__send
  | .neighborAdvertisement .. => icmp6__nd_neighbor_advertisement__send
  | .mld2Report .. => icmp6__mld2_report__send

/-- icmp6/phtx.py:71-203 (assertions as for `icmp4`) -/
def icmp6 (st : Stack) (l : Socks.Links) (src dst : Ip6Address) (hop : Nat) (m : Icmp6.Msg) : List CountTx × Socks.Sent :=
  after [icmp6__pre_assemble, counter6 m] (ip6 st l.nd src dst hop { Icmp6.carried m with kind := m.kind })

end CountedTx
end Verif
