import Verif.Model.StatsTx
import Verif.Spec.Stats
/-!
What the packet counters of the transmit side should say.
-/
namespace Verif.Spec

/-- What the transmit side can be asked to send: `_phtx_arp`, `_phtx_udp`, `_phtx_tcp`, `_phtx_icmp4`, `_phtx_icmp6`. -/
inductive Order
  | arp (esrc edst : MacAddress) (oper : Nat) (sha : MacAddress) (spa : Ip4Address) (tha : MacAddress) (tpa : Ip4Address)
  | udp (src dst : IpAddress) (sport dport : Nat) (data : Bytes)
  | tcp (src dst : IpAddress) (h : Tcp.Tx) (mss wscale : Option Nat)
  | icmp4 (src dst : Ip4Address) (m : Icmp4.Msg)
  | icmp6 (src dst : Ip6Address) (hop : Nat) (m : Icmp6.Msg)

/-- One call: the state of the stack at that time, what the caches answer, and what is to be sent. -/
structure CallOut where
  stack : Stack
  links : Socks.Links
  order : Order

/-- The counters it increases, and what it returns. -/
def CallOut.run (r : CallOut) : List CountTx × Py (TxStatus × List Outgoing) :=
  match r.order with
  | .arp esrc edst oper sha spa tha tpa => CountedTx.arp r.stack r.links esrc edst oper sha spa tha tpa
  | .udp src dst sport dport data => let x := CountedTx.udp r.stack r.links src dst sport dport data; (x.1, x.2.2)
  | .tcp src dst h mss wscale => let x := CountedTx.tcp r.stack r.links src dst h mss wscale; (x.1, x.2.2)
  | .icmp4 src dst m => let x := CountedTx.icmp4 r.stack r.links src dst m; (x.1, x.2.2)
  | .icmp6 src dst hop m => let x := CountedTx.icmp6 r.stack r.links src dst hop m; (x.1, x.2.2)

/-- It raised an exception. -/
def CallOut.raised (r : CallOut) : Bool := !r.run.2.isOk
/-- The frames it has queued (none, if it raised). -/
def CallOut.frames (r : CallOut) : List Outgoing := match r.run.2 with | .ok x => x.2 | .error _ => []
/-- It returned this status. -/
def CallOut.returned (r : CallOut) (st : TxStatus) : Bool := match r.run.2 with | .ok x => x.1 = st | .error _ => false

/-- The value of a counter after a history. -/
def counterTx (h : List CallOut) (c : CountTx) : Nat := (h.flatMap (·.run.1)).count c

open CountTx in
/-- The counters for frames that are queued. -/
def queuedTx (c : CountTx → Nat) : Nat :=
  c ether__dst_spec__send + c ether__dst_unspec__ip6_lookup__multicast__send + c ether__dst_unspec__ip6_lookup__extnet__gw_nd_cache_hit__send +
    c ether__dst_unspec__ip6_lookup__locnet__nd_cache_hit__send + c ether__dst_unspec__ip4_lookup__multicast__send +
    c ether__dst_unspec__ip4_lookup__limited_broadcast__send + c ether__dst_unspec__ip4_lookup__network_broadcast__send +
    c ether__dst_unspec__ip4_lookup__extnet__gw_arp_cache_hit__send + c ether__dst_unspec__ip4_lookup__locnet__arp_cache_hit__send

open CountTx in
/-- Every packet is counted once at every layer: as given to it, and as one of the things that can become of it there; `e` is the number
of exceptions. -/
structure BalancedTx (c : CountTx → Nat) (e : Nat) : Prop where
  source : c ether__pre_assemble = c ether__src_unspec__fill + c ether__src_spec
  dest : c ether__pre_assemble =
    c ether__dst_spec__send + c ether__dst_unspec__ip6_lookup + c ether__dst_unspec__ip4_lookup + c ether__dst_unspec__drop
  ip6Lookup : c ether__dst_unspec__ip6_lookup =
    c ether__dst_unspec__ip6_lookup__multicast__send + c ether__dst_unspec__ip6_lookup__extnet__no_gw__drop +
    c ether__dst_unspec__ip6_lookup__extnet__gw_nd_cache_hit__send + c ether__dst_unspec__ip6_lookup__extnet__gw_nd_cache_miss__drop +
    c ether__dst_unspec__ip6_lookup__locnet__nd_cache_hit__send + c ether__dst_unspec__ip6_lookup__locnet__nd_cache_miss__drop
  ip4Lookup : c ether__dst_unspec__ip4_lookup =
    c ether__dst_unspec__ip4_lookup__multicast__send + c ether__dst_unspec__ip4_lookup__limited_broadcast__send +
    c ether__dst_unspec__ip4_lookup__network_broadcast__send + c ether__dst_unspec__ip4_lookup__extnet__no_gw__drop +
    c ether__dst_unspec__ip4_lookup__extnet__gw_arp_cache_hit__send + c ether__dst_unspec__ip4_lookup__extnet__gw_arp_cache_miss__drop +
    c ether__dst_unspec__ip4_lookup__locnet__arp_cache_hit__send + c ether__dst_unspec__ip4_lookup__locnet__arp_cache_miss__drop
  /-- what the link layer is given -/
  toLink : c ether__pre_assemble =
    c arp__op_request__send + c arp__op_reply__send + c ip4__mtu_ok__send + c ip4__mtu_exceed__frag__send + c ip6__mtu_ok__send
  arp : AddsUp e (c arp__pre_assemble) (c arp__op_request__send + c arp__op_reply__send)
  ip4 : AddsUp e (c ip4__pre_assemble)
    (c ip4__src_not_owned__drop + c ip4__src_multicast__drop + c ip4__src_limited_broadcast__drop + c ip4__src_unspecified__drop +
      c ip4__dst_unspecified__drop + c ip4__mtu_ok__send + c ip4__mtu_exceed__frag)
  ip6 : AddsUp e (c ip6__pre_assemble)
    (c ip6__src_not_owned__drop + c ip6__src_multicast__drop + c ip6__src_unspecified__drop + c ip6__dst_unspecified__drop +
      c ip6__mtu_ok__send + c ip6__mtu_exceed__frag)
  frag6 : AddsUp e (c ip6__mtu_exceed__frag) (c ip6_ext_frag__pre_assemble)
  /-- what the internet layer is given; every fragment of an IPv6 packet is given to it once more -/
  toIp : c ip4__pre_assemble + c ip6__pre_assemble = c udp__send + c tcp__send +
    (c icmp4__echo_reply__send + c icmp4__echo_request__send + c icmp4__unreachable_port__send) +
    (c icmp6__echo_reply__send + c icmp6__echo_request__send + c icmp6__unreachable_port__send + c icmp6__nd_router_solicitation__send +
      c icmp6__nd_router_advertisement__send + c icmp6__nd_neighbor_solicitation__send + c icmp6__nd_neighbor_advertisement__send +
      c icmp6__mld2_report__send) + c ip6_ext_frag__send
  udp : AddsUp e (c udp__pre_assemble) (c udp__send + c udp__unknown__drop)
  tcp : AddsUp e (c tcp__pre_assemble) (c tcp__send + c tcp__unknown__drop)
  icmp4 : c icmp4__pre_assemble = c icmp4__echo_reply__send + c icmp4__echo_request__send + c icmp4__unreachable_port__send
  icmp6 : c icmp6__pre_assemble = c icmp6__echo_reply__send + c icmp6__echo_request__send + c icmp6__unreachable_port__send +
    c icmp6__nd_router_solicitation__send + c icmp6__nd_router_advertisement__send + c icmp6__nd_neighbor_solicitation__send +
    c icmp6__nd_neighbor_advertisement__send + c icmp6__mld2_report__send
  never : c arp__no_proto_support__drop = 0 ∧ c ip4__no_proto_support__drop = 0 ∧ c ip6__no_proto_support__drop = 0 ∧
    c icmp4__unknown__drop = 0 ∧ c icmp6__unknown__drop = 0

open CountTx in
/-- The counter that goes with a status that says that a packet was dropped. -/
def dropCounter : TxStatus → Option CountTx
  | .dropEtherArpCacheFail => some ether__dst_unspec__ip4_lookup__locnet__arp_cache_miss__drop
  | .dropEtherNdCacheFail => some ether__dst_unspec__ip6_lookup__locnet__nd_cache_miss__drop
  | .dropEtherNoGatewayIp4 => some ether__dst_unspec__ip4_lookup__extnet__no_gw__drop
  | .dropEtherNoGatewayIp6 => some ether__dst_unspec__ip6_lookup__extnet__no_gw__drop
  | .dropEtherGatewayArpCacheFail => some ether__dst_unspec__ip4_lookup__extnet__gw_arp_cache_miss__drop
  | .dropEtherGatewayNdCacheFail => some ether__dst_unspec__ip6_lookup__extnet__gw_nd_cache_miss__drop
  | .dropEtherResolutionFail => some ether__dst_unspec__drop
  | .dropArpNoProtocolSupport => some arp__no_proto_support__drop
  | .dropIp4NoProtocolSupport => some ip4__no_proto_support__drop
  | .dropIp4SrcNotOwned => some ip4__src_not_owned__drop
  | .dropIp4SrcMulticast => some ip4__src_multicast__drop
  | .dropIp4SrcLimitedBroadcast => some ip4__src_limited_broadcast__drop
  | .dropIp4SrcUnspecified => some ip4__src_unspecified__drop
  | .dropIp4DstUnspecified => some ip4__dst_unspecified__drop
  | .dropIp6NoProtocolSupport => some ip6__no_proto_support__drop
  | .dropIp6SrcNotOwned => some ip6__src_not_owned__drop
  | .dropIp6SrcMulticast => some ip6__src_multicast__drop
  | .dropIp6SrcUnspecified => some ip6__src_unspecified__drop
  | .dropIp6DstUnspecified => some ip6__dst_unspecified__drop
  | .dropUdpUnknown => some udp__unknown__drop
  | .dropTcpUnknown => some tcp__unknown__drop
  | .passedEtherToTxRing | .dropIp4Unknown | .dropIp6ExtFragUnknown => none

/-- A call of `_phtx_tcp` with these flags, options (if given and not 0) and numbers that fit their fields. -/
def CallOut.tcpWith (p : Tcp.Tx → Option Nat → Option Nat → Bool) (r : CallOut) : Bool :=
  match r.order with
  | .tcp _ _ h mss wscale => p h mss wscale
  | _ => false

/-- The numbers fit their fields. -/
def inRange (h : Tcp.Tx) : Bool :=
  h.sport ≤ 0xFFFF && h.dport ≤ 0xFFFF && h.seq ≤ 0xFFFFFFFF && h.ack ≤ 0xFFFFFFFF && h.win ≤ 0xFFFF && h.urp ≤ 0xFFFF

def given (x : Option Nat) : Bool := x.any (· ≠ 0)

open CountTx in
/-- The counters for what was asked for, `c`, say how often it was asked for. -/
structure TruthfulTx (c : CountTx → Nat) (h : List CallOut) : Prop where
  arp : c arp__pre_assemble = h.countP fun r => match r.order with | .arp .. => true | _ => false
  udp : c udp__pre_assemble = h.countP fun r => match r.order with | .udp .. => true | _ => false
  tcp : c tcp__pre_assemble = h.countP (·.tcpWith fun _ _ _ => true)
  icmp4 : c icmp4__pre_assemble = h.countP fun r => match r.order with | .icmp4 .. => true | _ => false
  icmp6 : c icmp6__pre_assemble = h.countP fun r => match r.order with | .icmp6 .. => true | _ => false
  arpRequests : c arp__op_request__send = h.countP fun r => match r.order with | .arp _ _ oper .. => oper = 1 | _ => false
  arpReplies : c arp__op_reply__send = h.countP fun r => match r.order with | .arp _ _ oper .. => oper = 2 | _ => false
  echoRequests4 : c icmp4__echo_request__send = h.countP fun r => match r.order with | .icmp4 _ _ (.echoRequest ..) => true | _ => false
  echoReplies4 : c icmp4__echo_reply__send = h.countP fun r => match r.order with | .icmp4 _ _ (.echoReply ..) => true | _ => false
  unreachable4 : c icmp4__unreachable_port__send = h.countP fun r => match r.order with | .icmp4 _ _ (.portUnreachable ..) => true | _ => false
  echoRequests6 : c icmp6__echo_request__send = h.countP fun r => match r.order with | .icmp6 _ _ _ (.echoRequest ..) => true | _ => false
  echoReplies6 : c icmp6__echo_reply__send = h.countP fun r => match r.order with | .icmp6 _ _ _ (.echoReply ..) => true | _ => false
  unreachable6 : c icmp6__unreachable_port__send = h.countP fun r => match r.order with | .icmp6 _ _ _ (.portUnreachable ..) => true | _ => false
  routerSolicitations : c icmp6__nd_router_solicitation__send =
    h.countP fun r => match r.order with | .icmp6 _ _ _ (.routerSolicitation ..) => true | _ => false
  routerAdvertisements : c icmp6__nd_router_advertisement__send =
    h.countP fun r => match r.order with | .icmp6 _ _ _ (.routerAdvertisement ..) => true | _ => false
  solicitations : c icmp6__nd_neighbor_solicitation__send =
    h.countP fun r => match r.order with | .icmp6 _ _ _ (.neighborSolicitation ..) => true | _ => false
  advertisements : c icmp6__nd_neighbor_advertisement__send =
    h.countP fun r => match r.order with | .icmp6 _ _ _ (.neighborAdvertisement ..) => true | _ => false
  reports : c icmp6__mld2_report__send = h.countP fun r => match r.order with | .icmp6 _ _ _ (.mld2Report ..) => true | _ => false
  mss : c tcp__opt_mss = h.countP (·.tcpWith fun _ m _ => given m)
  wscale : c tcp__opt_wscale = h.countP (·.tcpWith fun _ _ w => given w)
  nop : c tcp__opt_nop = h.countP (·.tcpWith fun _ _ w => given w)
  ns : c tcp__flag_ns = h.countP (·.tcpWith fun x _ _ => inRange x && x.flags.ns)
  crw : c tcp__flag_crw = h.countP (·.tcpWith fun x _ _ => inRange x && x.flags.crw)
  ece : c tcp__flag_ece = h.countP (·.tcpWith fun x _ _ => inRange x && x.flags.ece)
  urg : c tcp__flag_urg = h.countP (·.tcpWith fun x _ _ => inRange x && x.flags.urg)
  ack : c tcp__flag_ack = h.countP (·.tcpWith fun x _ _ => inRange x && x.flags.ack)
  psh : c tcp__flag_psh = h.countP (·.tcpWith fun x _ _ => inRange x && x.flags.psh)
  rst : c tcp__flag_rst = h.countP (·.tcpWith fun x _ _ => inRange x && x.flags.rst)
  syn : c tcp__flag_syn = h.countP (·.tcpWith fun x _ _ => inRange x && x.flags.syn)
  fin : c tcp__flag_fin = h.countP (·.tcpWith fun x _ _ => inRange x && x.flags.fin)

open CountTx in
/-- When each of the counters for IPv4 source addresses is to be increased. -/
def Source4 (s : Stack) (src dst : Ip4Address) (kind : L4Kind) : CountTx → Prop
  | ip4__src_not_owned__drop =>
    src ≠ .zero ∧ (∀ h ∈ s.ip4Host, src ≠ h.address ∧ src ≠ h.network.bcast) ∧ src ∉ s.ip4Multicast ∧ src ≠ .limitedBroadcast
  | ip4__src_multicast__replace => src ∈ s.ip4Multicast ∧ s.ip4Host ≠ []
  | ip4__src_multicast__drop => src ∈ s.ip4Multicast ∧ s.ip4Host = []
  | ip4__src_limited_broadcast__replace => src = .limitedBroadcast ∧ s.ip4Host ≠ []
  | ip4__src_limited_broadcast__drop => src = .limitedBroadcast ∧ s.ip4Host = []
  | ip4__src_network_broadcast__replace => ∃ h ∈ s.ip4Host, src = h.network.bcast
  | ip4__src_network_unspecified__replace_local => src = .zero ∧ ∃ h ∈ s.ip4Host, h.network.contains dst
  | ip4__src_network_unspecified__replace_external =>
    src = .zero ∧ (∀ h ∈ s.ip4Host, ¬ h.network.contains dst) ∧ ∃ h ∈ s.ip4Host, h.gateway ≠ none
  | ip4__src_unspecified__send =>
    src = .zero ∧ (∀ h ∈ s.ip4Host, ¬ h.network.contains dst ∧ h.gateway = none) ∧ kind = .udp 68 67
  | ip4__src_unspecified__drop =>
    src = .zero ∧ (∀ h ∈ s.ip4Host, ¬ h.network.contains dst ∧ h.gateway = none) ∧ kind ≠ .udp 68 67
  | _ => False

open CountTx in
/-- When each of the counters for IPv6 source addresses is to be increased. -/
def Source6 (s : Stack) (src dst : Ip6Address) (kind : L4Kind) : CountTx → Prop
  | ip6__src_not_owned__drop => src ≠ .zero ∧ (∀ h ∈ s.ip6Host, src ≠ h.address) ∧ src ∉ s.ip6Multicast
  | ip6__src_multicast__replace => src ∈ s.ip6Multicast ∧ s.ip6Host ≠ []
  | ip6__src_multicast__drop => src ∈ s.ip6Multicast ∧ s.ip6Host = []
  | ip6__src_network_unspecified__replace_local => src = .zero ∧ ∃ h ∈ s.ip6Host, h.network.contains dst
  | ip6__src_network_unspecified__replace_external =>
    src = .zero ∧ (∀ h ∈ s.ip6Host, ¬ h.network.contains dst) ∧ ∃ h ∈ s.ip6Host, h.gateway ≠ none
  | ip6__src_unspecified__send =>
    src = .zero ∧ (∀ h ∈ s.ip6Host, ¬ h.network.contains dst ∧ h.gateway = none) ∧ (kind = .icmp6 135 0 ∨ ∃ n, kind = .icmp6 143 n)
  | ip6__src_unspecified__drop =>
    src = .zero ∧ (∀ h ∈ s.ip6Host, ¬ h.network.contains dst ∧ h.gateway = none) ∧ kind ≠ .icmp6 135 0 ∧ ∀ n, kind ≠ .icmp6 143 n
  | _ => False

/-- The source is an address of this host, the destination is not in its network, and its gateway is like this. -/
def Away4 (s : Stack) (src dst : Ip4Address) (p : Option Ip4Address → Prop) : Prop :=
  ∃ h ∈ s.ip4Host, h.address = src ∧ ¬ h.network.contains dst ∧ p h.gateway
/-- The destination is in the network of the source (or the source is not an address of this host). -/
def Local4 (s : Stack) (src dst : Ip4Address) : Prop := ∀ h ∈ s.ip4Host, h.address = src → h.network.contains dst
/-- As `Away4` -/
def Away6 (s : Stack) (src dst : Ip6Address) (p : Option Ip6Address → Prop) : Prop :=
  ∃ h ∈ s.ip6Host, h.address = src ∧ ¬ h.network.contains dst ∧ p h.gateway
/-- As `Local4` -/
def Local6 (s : Stack) (src dst : Ip6Address) : Prop := ∀ h ∈ s.ip6Host, h.address = src → h.network.contains dst

open CountTx in
/-- When each of the counters for finding the link-layer destination of an IPv4 packet is to be increased. -/
def Lookup4 (s : Stack) (arp : ArpLookup) (src dst : Ip4Address) : CountTx → Prop
  | ether__dst_unspec__ip4_lookup => True
  | ether__dst_unspec__ip4_lookup__multicast__send => dst.isMulticast
  | ether__dst_unspec__ip4_lookup__limited_broadcast__send => dst = .limitedBroadcast
  | ether__dst_unspec__ip4_lookup__network_broadcast__send =>
    ∃ h ∈ s.ip4Host, h.address = src ∧ (dst = h.network.address ∨ dst = h.network.bcast)
  | ether__dst_unspec__ip4_lookup__extnet__no_gw__drop => Away4 s src dst (· = none)
  | ether__dst_unspec__ip4_lookup__extnet__gw_arp_cache_hit__send => Away4 s src dst (fun g => ∃ a m, g = some a ∧ arp a = some m)
  | ether__dst_unspec__ip4_lookup__extnet__gw_arp_cache_miss__drop => Away4 s src dst (fun g => ∃ a, g = some a ∧ arp a = none)
  | ether__dst_unspec__ip4_lookup__locnet__arp_cache_hit__send => Local4 s src dst ∧ ∃ m, arp dst = some m
  | ether__dst_unspec__ip4_lookup__locnet__arp_cache_miss__drop => Local4 s src dst ∧ arp dst = none
  | _ => False

open CountTx in
/-- When each of the counters for finding the link-layer destination of an IPv6 packet is to be increased. -/
def Lookup6 (s : Stack) (nd : NdLookup) (src dst : Ip6Address) : CountTx → Prop
  | ether__dst_unspec__ip6_lookup => True
  | ether__dst_unspec__ip6_lookup__multicast__send => dst.isMulticast
  | ether__dst_unspec__ip6_lookup__extnet__no_gw__drop => Away6 s src dst (· = none)
  | ether__dst_unspec__ip6_lookup__extnet__gw_nd_cache_hit__send => Away6 s src dst (fun g => ∃ a m, g = some a ∧ nd a = some m)
  | ether__dst_unspec__ip6_lookup__extnet__gw_nd_cache_miss__drop => Away6 s src dst (fun g => ∃ a, g = some a ∧ nd a = none)
  | ether__dst_unspec__ip6_lookup__locnet__nd_cache_hit__send => Local6 s src dst ∧ ∃ m, nd dst = some m
  | ether__dst_unspec__ip6_lookup__locnet__nd_cache_miss__drop => Local6 s src dst ∧ nd dst = none
  | _ => False

end Verif.Spec
