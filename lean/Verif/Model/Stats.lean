import Verif.Model.Rx
/-!
The packet counters of the receive side: `/repo/pytcp/lib/packet_stats.py:41-119` and the places in
`/repo/pytcp/protocols/*/phrx.py` where they are increased.

`Counted.f` is the handler `Rx.f` of `Model/Rx.lean` once more, branch by branch, with the list of the counters it increases, in the
order in which it does.  (`Props/Stats.lean` shows that apart from the counters the two are the same function.)  The counter
`udp__echo_native__respond_udp` is never increased, because `UDP_ECHO_NATIVE_DISABLE` is on, as in config.py.
-/
namespace Verif

/-- lib/packet_stats.py:41-119: the counters, by their names there. -/
inductive CountRx
  | ether__pre_parse | ether__failed_parse__drop | ether__dst_unknown__drop | ether__dst_unicast | ether__dst_multicast
  | ether__dst_broadcast
  | arp__pre_parse | arp__failed_parse__drop | arp__op_request | arp__op_request__ip_conflict | arp__op_request__tpa_stack__respond
  | arp__op_request__tpa_unknown__drop | arp__op_request__update_arp_cache | arp__op_reply | arp__op_reply__ip_conflict
  | arp__op_reply__update_arp_cache | arp__op_reply__update_arp_cache_gratuitous
  | ip4__pre_parse | ip4__failed_parse__drop | ip4__dst_unknown__drop | ip4__dst_unicast | ip4__dst_multicast | ip4__dst_broadcast
  | ip4__frag | ip4__defrag
  | ip6__pre_parse | ip6__failed_parse__drop | ip6__dst_unknown__drop | ip6__dst_unicast | ip6__dst_multicast
  | ip6_ext_frag__pre_parse | ip6_ext_frag__failed_parse | ip6_ext_frag__defrag
  | icmp4__pre_parse | icmp4__failed_parse__drop | icmp4__echo_request__respond_echo_reply | icmp4__unreachable
  | icmp6__pre_parse | icmp6__failed_parse__drop | icmp6__nd_neighbor_solicitation
  | icmp6__nd_neighbor_solicitation__target_unknown__drop | icmp6__nd_neighbor_solicitation__target_stack__respond
  | icmp6__nd_neighbor_solicitation__update_nd_cache | icmp6__nd_neighbor_solicitation__dad | icmp6__nd_neighbor_advertisement
  | icmp6__nd_neighbor_advertisement__run_dad | icmp6__nd_neighbor_advertisement__update_nd_cache | icmp6__nd_router_solicitation
  | icmp6__nd_router_advertisement | icmp6__echo_request__respond_echo_reply | icmp6__unreachable
  | udp__pre_parse | udp__failed_parse__drop | udp__socket_match | udp__ip_source_unspecified | udp__echo_native__respond_udp
  | udp__no_socket_match__respond_icmp4_unreachable | udp__no_socket_match__respond_icmp6_unreachable
  | tcp__pre_parse | tcp__failed_parse__drop | tcp__socket_match_active__forward_to_socket
  | tcp__socket_match_listening__forward_to_socket | tcp__no_socket_match__respond_rst
  deriving DecidableEq, Repr

namespace Counted
open CountRx

/-- Counters first, then what follows. -/
def after {α : Type} (cs : List CountRx) (r : List CountRx × α) : List CountRx × α := (cs ++ r.1, r.2)

/-- `if c: self.packet_stats_rx.x += 1` -/
def countIf (c : Bool) (x : CountRx) : List CountRx := if c then [x] else []

/-- arp/phrx.py:56-165.  (The counter after `_phtx_arp` is increased if that does not raise, and it does not.) -/
def arp (n : Node) (dst : MacAddress) (f : Bytes) : List CountRx × Py (List Eff) :=
  after [arp__pre_parse] <|
    match Arp.parse f with
    | .error e => ([], .error e)
    | .ok (some _) => ([arp__failed_parse__drop], .ok [])
    | .ok none =>
      match Arp.read f with
      | .error e => ([], .error e)
      | .ok h =>
        if h.oper = 1 then
          after [arp__op_request] <|
            if h.spa ∈ n.stack.ip4Unicast then ([arp__op_request__ip_conflict], .ok [])
            else if h.tpa ∈ n.stack.ip4Unicast then
              ([arp__op_request__tpa_stack__respond, arp__op_request__update_arp_cache],
                .ok [.txArp n.stack.mac h.sha 2 n.stack.mac h.tpa h.sha h.spa, .arpLearn h.spa h.sha])
            else ([arp__op_request__tpa_unknown__drop], .ok [])
        else if h.oper = 2 then
          after [arp__op_reply] <|
            if dst = n.stack.mac ∧ h.spa ∈ n.ip4Candidates ∧ h.tha = n.stack.mac ∧ h.tpa.isUnspecified then
              ([arp__op_reply__ip_conflict], .ok [.arpConflict h.spa])
            else if dst = n.stack.mac then ([arp__op_reply__update_arp_cache], .ok [.arpLearn h.spa h.sha])
            else if dst.isBroadcast ∧ h.spa = h.tpa then
              ([arp__op_reply__update_arp_cache_gratuitous], .ok [.arpLearn h.spa h.sha])
            else ([], .ok [])
        else ([], .ok [])

/-- icmp4/phrx.py:61-154 -/
def icmp4 (n : Node) (src dst : Ip4Address) (dlen : Nat) (f : Bytes) : List CountRx × Py (List Eff) :=
  after [icmp4__pre_parse] <|
    match Icmp4.parse f dlen with
    | .error e => ([], .error e)
    | .ok (some _) => ([icmp4__failed_parse__drop], .ok [])
    | .ok none =>
      match Icmp4.read f dlen with
      | .error e => ([], .error e)
      | .ok (.echo t _ id seq data) =>
        if t = 8 then ([icmp4__echo_request__respond_echo_reply], .ok [.txIcmp4 dst src (.echoReply id seq data)]) else ([], .ok [])
      | .ok (.unreachable _ data) => ([icmp4__unreachable], do return Rx.unreachable n (← Rx.quoted4 data))
      | .ok (.other _ _) => ([], .ok [])

/-- icmp6/phrx.py:91-153 -/
def neighborSolicitation (n : Node) (src : Ip6Address) (target : Ip6Address) (opts : List Icmp6.RxOpt) : List CountRx × List Eff :=
  after [icmp6__nd_neighbor_solicitation] <|
    if target ∉ n.stack.ip6Unicast then ([icmp6__nd_neighbor_solicitation__target_unknown__drop], [])
    else
      let learn := match Icmp6.sllaOf opts with
        | some m =>
          if src.isUnspecified || src.isMulticast then ([], [])
          else ([icmp6__nd_neighbor_solicitation__update_nd_cache], [Eff.ndLearn src m])
        | none => ([], [])
      (learn.1 ++ countIf src.isUnspecified icmp6__nd_neighbor_solicitation__dad ++
          [icmp6__nd_neighbor_solicitation__target_stack__respond],
        learn.2 ++ [.txIcmp6 target (Rx.naDst src) 255
          (.neighborAdvertisement false (!src.isUnspecified) src.isUnspecified target [.tlla n.stack.mac])])

/-- icmp6/phrx.py:155-182 -/
def neighborAdvertisement (n : Node) (target : Ip6Address) (opts : List Icmp6.RxOpt) : List CountRx × List Eff :=
  after [icmp6__nd_neighbor_advertisement] <|
    if some target = n.ip6Candidate then ([icmp6__nd_neighbor_advertisement__run_dad], [.dadAnswer (Icmp6.tllaOf opts)])
    else match Icmp6.tllaOf opts with
      | some m => ([icmp6__nd_neighbor_advertisement__update_nd_cache], [.ndLearn target m])
      | none => ([], [])

/-- icmp6/phrx.py:70-288 -/
def icmp6 (n : Node) (src dst : Ip6Address) (hop dlen ps : Nat) (f : Bytes) : List CountRx × Py (List Eff) :=
  after [icmp6__pre_parse] <|
    match Icmp6.parse f dlen ps src dst hop with
    | .error e => ([], .error e)
    | .ok (some _) => ([icmp6__failed_parse__drop], .ok [])
    | .ok none =>
      match Icmp6.read f dlen with
      | .error e => ([], .error e)
      | .ok (.neighborSolicitation target opts) =>
        ((neighborSolicitation n src target opts).1, .ok (neighborSolicitation n src target opts).2)
      | .ok (.neighborAdvertisement _ _ _ target opts) =>
        ((neighborAdvertisement n target opts).1, .ok (neighborAdvertisement n target opts).2)
      | .ok (.routerSolicitation _) => ([icmp6__nd_router_solicitation], .ok [])
      | .ok (.routerAdvertisement _ _ _ _ _ _ opts) =>
        ([icmp6__nd_router_advertisement], .ok [.routerPrefixes ((Icmp6.piOf opts).map (·, src))])
      | .ok (.echo t id seq data) =>
        if t = 128 then ([icmp6__echo_request__respond_echo_reply], .ok [.txIcmp6 dst src 255 (.echoReply id seq data)])
        else ([], .ok [])
      | .ok (.unreachable _ data) => ([icmp6__unreachable], do return Rx.unreachable n (← Rx.quoted6 data))
      | .ok (.other _ _) => ([], .ok [])

/-- udp/phrx.py:136-165 -/
def portUnreachable (ip : Rx.IpHdr) : List CountRx × List Eff :=
  match ip.src, ip.dst with
  | .v6 s, .v6 d => ([udp__no_socket_match__respond_icmp6_unreachable], [.txIcmp6 d s 64 (.portUnreachable ip.packetCopy)])
  | .v4 s, .v4 d => ([udp__no_socket_match__respond_icmp4_unreachable], [.txIcmp4 d s (.portUnreachable ip.packetCopy)])
  | _, _ => ([], [])

/-- udp/phrx.py:55-167 -/
def udp (n : Node) (ip : Rx.IpHdr) (f : Bytes) : List CountRx × Py (List Eff) :=
  after [udp__pre_parse] <|
    match Udp.parse f ip.dlen ip.pshdrSum with
    | .error e => ([], .error e)
    | .ok (some _) => ([udp__failed_parse__drop], .ok [])
    | .ok none =>
      match Udp.read f with
      | .error e => ([], .error e)
      | .ok h =>
        let m : UdpMd := ⟨ip.dst, h.dport, ip.src, h.sport, h.data⟩
        match n.socks.match? m with
        | some r => ([udp__socket_match], .ok [.udpDeliver r m])
        | none =>
          if ip.src.isUnspecified then ([udp__ip_source_unspecified], .ok [])
          else ((portUnreachable ip).1, .ok (portUnreachable ip).2)

/-- tcp/phrx.py:52-153 -/
def tcp (n : Node) (ip : Rx.IpHdr) (f : Bytes) : List CountRx × Py (List Eff) :=
  after [tcp__pre_parse] <|
    match Tcp.parse f ip.dlen ip.pshdrSum with
    | .error e => ([], .error e)
    | .ok (some _) => ([tcp__failed_parse__drop], .ok [])
    | .ok none =>
      match Tcp.read f ip.dlen with
      | .error e => ([], .error e)
      | .ok h =>
        let m := Rx.tcpMd ip h
        match n.socks.table.get? m.active with
        | some r => ([tcp__socket_match_active__forward_to_socket], .ok [.tcpDeliver r m])
        | none =>
          match (if m.syn && !(m.ack || m.fin || m.rst) then m.listening.findSome? n.socks.table.get? else none) with
          | some r => ([tcp__socket_match_listening__forward_to_socket], .ok [.tcpDeliver r m])
          | none => ([tcp__no_socket_match__respond_rst], .ok [.txTcp ip.dst ip.src (Rx.resetFor h)])

/-- ip4/phrx.py:185-195 -/
def ip4Dispatch (n : Node) (h : Ip4.Hdr) (f : Bytes) : List CountRx × Py (List Eff) :=
  if h.proto = 1 then icmp4 n h.src h.dst h.dlen f
  else if h.proto = 17 then udp n (Rx.ofIp4 h) f
  else if h.proto = 6 then tcp n (Rx.ofIp4 h) f
  else ([], .ok [])

/-- ip4/phrx.py:166-173 -/
def ip4Accepted (s : Stack) (dst : Ip4Address) : List CountRx :=
  countIf (dst ∈ s.ip4Unicast) ip4__dst_unicast ++ countIf (dst ∈ s.ip4Multicast) ip4__dst_multicast ++
    countIf (dst ∈ s.ip4Broadcast) ip4__dst_broadcast

/-- ip4/phrx.py:133-195 -/
def ip4 (n : Node) (t₀ t₁ : Int) (f : Bytes) : List CountRx × Node × Py (List Eff) :=
  after [ip4__pre_parse] <|
    match Ip4.parse f with
    | .error e => ([], n, .error e)
    | .ok (some _) => ([ip4__failed_parse__drop], n, .ok [])
    | .ok none =>
      match Ip4.read f with
      | .error e => ([], n, .error e)
      | .ok h =>
        if !Rx.ip4ForUs n.stack h.dst then ([ip4__dst_unknown__drop], n, .ok [])
        else
          after (ip4Accepted n.stack h.dst) <|
            if h.offset ≠ 0 ∨ h.mf then
              after [ip4__frag] <|
                let (flows, r) := Frag.defragIp4 n.flows4 t₀ t₁ h
                let n := { n with flows4 := flows }
                match r with
                | .error e => ([], n, .error e)
                | .ok none => ([], n, .ok [])
                | .ok (some g) =>
                  -- the second parse is the end of `_defragment_ip4_packet` (ip4/phrx.py:127-130), before the counter
                  match (do
                    let failed ← Ip4.parse g
                    let h ← Ip4.read g
                    return (failed, h)) with
                  | .error e => ([], n, .error e)
                  | .ok (failed, h) =>
                    after [ip4__defrag] ((ip4Dispatch n h (if failed.isSome then g else h.rest)).1, n,
                      (ip4Dispatch n h (if failed.isSome then g else h.rest)).2)
            else ((ip4Dispatch n h h.rest).1, n, (ip4Dispatch n h h.rest).2)

/-- ip6/phrx.py:85-89 -/
def ip6Accepted (s : Stack) (dst : Ip6Address) : List CountRx :=
  countIf (dst ∈ s.ip6Unicast) ip6__dst_unicast ++ countIf (dst ∈ s.ip6Multicast) ip6__dst_multicast

/-- ip6/phrx.py:56-105 with ip6_ext_frag/phrx.py:126-147 -/
def ip6 (n : Node) (t₀ t₁ : Int) : Nat → Bytes → List CountRx × Node × Py (List Eff)
  | depth, f =>
    after [ip6__pre_parse] <|
      match Ip6.parse f with
      | .error e => ([], n, .error e)
      | .ok (some _) => ([ip6__failed_parse__drop], n, .ok [])
      | .ok none =>
        match Ip6.read f with
        | .error e => ([], n, .error e)
        | .ok h =>
          if !(h.dst ∈ n.stack.ip6Unicast || h.dst ∈ n.stack.ip6Multicast) then ([ip6__dst_unknown__drop], n, .ok [])
          else
            after (ip6Accepted n.stack h.dst) <|
              if h.next = 44 then
                after [ip6_ext_frag__pre_parse] <|
                  match Ip6Frag.parse h.rest with
                  | .error e => ([], n, .error e)
                  | .ok (some _) => ([ip6_ext_frag__failed_parse], n, .ok [])
                  | .ok none =>
                    match Ip6Frag.read h.rest h.dlen with
                    | .error e => ([], n, .error e)
                    | .ok x =>
                      match Frag.defragIp6 n.flows6 t₀ t₁ h x with
                      | (flows, .error e) => ([], { n with flows6 := flows }, .error e)
                      | (flows, .ok none) => ([], { n with flows6 := flows }, .ok [])
                      | (flows, .ok (some g)) =>
                        after [ip6_ext_frag__defrag] <|
                          match depth with
                          | 0 => ([], { n with flows6 := flows }, .error .nonTermination)
                          | depth + 1 => ip6 { n with flows6 := flows } t₀ t₁ depth g
              else if h.next = 58 then
                ((icmp6 n h.src h.dst h.hop h.dlen h.pshdrSum h.rest).1, n, (icmp6 n h.src h.dst h.hop h.dlen h.pshdrSum h.rest).2)
              else if h.next = 17 then ((udp n (Rx.ofIp6 h) h.rest).1, n, (udp n (Rx.ofIp6 h) h.rest).2)
              else if h.next = 6 then ((tcp n (Rx.ofIp6 h) h.rest).1, n, (tcp n (Rx.ofIp6 h) h.rest).2)
              else ([], n, .ok [])

/-- ether/phrx.py:89-96 -/
def etherAccepted (n : Node) (dst : MacAddress) : List CountRx :=
  countIf (dst = n.stack.mac) ether__dst_unicast ++ countIf (dst ∈ n.macMulticast) ether__dst_multicast ++
    countIf (dst = .broadcast) ether__dst_broadcast

/-- ether/phrx.py:56-108 -/
def ether (n : Node) (t₀ t₁ : Int) (depth : Nat) (f : Bytes) : List CountRx × Node × Py (List Eff) :=
  after [ether__pre_parse] <|
    match Ether.parse f with
    | .error e => ([], n, .error e)
    | .ok (some _) => ([ether__failed_parse__drop], n, .ok [])
    | .ok none =>
      match Ether.read f with
      | .error e => ([], n, .error e)
      | .ok h =>
        if !Rx.etherForUs n h.dst then ([ether__dst_unknown__drop], n, .ok [])
        else
          after (etherAccepted n h.dst) <|
            if h.type = Ether.typeArp then ((arp n h.dst h.data).1, n, (arp n h.dst h.data).2)
            else if h.type = Ether.typeIp4 then ip4 n t₀ t₁ h.data
            else if h.type = Ether.typeIp6 then ip6 n t₀ t₁ depth h.data
            else ([], n, .ok [])

end Counted

end Verif
