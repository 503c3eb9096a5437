import Verif.Model.Stats
/-!
What the packet counters of the receive side should say.
-/
namespace Verif.Spec

/-- A frame is received: the state of the stack at that time, the clock readings of the reassembly, the frame. -/
structure FrameIn where
  node : Node
  t₀ : Int
  t₁ : Int
  depth : Nat
  frame : Bytes

/-- The counters it increases. -/
def FrameIn.counts (r : FrameIn) : List CountRx := (Counted.ether r.node r.t₀ r.t₁ r.depth r.frame).1
/-- What the stack does because of it (nothing, if the handler raises). -/
def FrameIn.effects (r : FrameIn) : List Eff :=
  match (Rx.ether r.node r.t₀ r.t₁ r.depth r.frame).2 with
  | .ok l => l
  | .error _ => []
/-- The handler raised an exception. -/
def FrameIn.raised (r : FrameIn) : Bool := !(Rx.ether r.node r.t₀ r.t₁ r.depth r.frame).2.isOk

/-- The value of a counter after a history. -/
def counter (h : List FrameIn) (c : CountRx) : Nat := (h.flatMap (·.counts)).count c
/-- In how many cases an exception was raised. -/
def exceptions (h : List FrameIn) : Nat := h.countP (·.raised)

/-- The kinds of effects. -/
inductive Did
  | arpReply | echoReply4 | portUnreachable4 | echoReply6 | portUnreachable6 | advertisement | reset
  | arpLearned | ndLearned | conflict | dadAnswer | prefixes | datagram | socketError | segment | opening | other
  deriving DecidableEq

def did : Eff → Did
  | .txArp .. => .arpReply
  | .txIcmp4 _ _ (.echoReply ..) => .echoReply4
  | .txIcmp4 _ _ (.portUnreachable ..) => .portUnreachable4
  | .txIcmp4 _ _ _ => .other
  | .txIcmp6 _ _ _ (.echoReply ..) => .echoReply6
  | .txIcmp6 _ _ _ (.portUnreachable ..) => .portUnreachable6
  | .txIcmp6 _ _ _ (.neighborAdvertisement ..) => .advertisement
  | .txIcmp6 _ _ _ _ => .other
  | .txTcp .. => .reset
  | .arpLearn .. => .arpLearned
  | .ndLearn .. => .ndLearned
  | .arpConflict .. => .conflict
  | .dadAnswer .. => .dadAnswer
  | .routerPrefixes .. => .prefixes
  | .udpDeliver .. => .datagram
  | .udpUnreachable .. => .socketError
  | .tcpDeliver _ m => if m.syn && !(m.ack || m.fin || m.rst) then .opening else .segment

/-- How often the stack did something of this kind. -/
def done (h : List FrameIn) (k : Did) : Nat := ((h.flatMap (·.effects)).map did).count k

open CountRx in
/-- The counters that speak of something the stack did say how often it did that: `c` are the counters, `d` what was done. -/
structure Truthful (c : CountRx → Nat) (d : Did → Nat) : Prop where
  arpReplies : c arp__op_request__tpa_stack__respond = d .arpReply
  arpLearned : c arp__op_request__update_arp_cache + c arp__op_reply__update_arp_cache +
    c arp__op_reply__update_arp_cache_gratuitous = d .arpLearned
  arpConflicts : c arp__op_reply__ip_conflict = d .conflict
  echoReplies4 : c icmp4__echo_request__respond_echo_reply = d .echoReply4
  echoReplies6 : c icmp6__echo_request__respond_echo_reply = d .echoReply6
  portUnreachable4 : c udp__no_socket_match__respond_icmp4_unreachable = d .portUnreachable4
  portUnreachable6 : c udp__no_socket_match__respond_icmp6_unreachable = d .portUnreachable6
  advertisements : c icmp6__nd_neighbor_solicitation__target_stack__respond = d .advertisement
  ndLearned : c icmp6__nd_neighbor_solicitation__update_nd_cache + c icmp6__nd_neighbor_advertisement__update_nd_cache = d .ndLearned
  dadAnswers : c icmp6__nd_neighbor_advertisement__run_dad = d .dadAnswer
  prefixes : c icmp6__nd_router_advertisement = d .prefixes
  datagrams : c udp__socket_match = d .datagram
  socketErrors : d .socketError ≤ c icmp4__unreachable + c icmp6__unreachable
  segments : c tcp__socket_match_active__forward_to_socket + c tcp__socket_match_listening__forward_to_socket =
    d .segment + d .opening
  listeners : c tcp__socket_match_listening__forward_to_socket ≤ d .opening
  resets : c tcp__no_socket_match__respond_rst = d .reset
  nothingElse : d .other = 0

/-- `total` is what the parts add up to, but for `e` cases at most. -/
def AddsUp (e total parts : Nat) : Prop := parts ≤ total ∧ total ≤ parts + e

open CountRx in
/-- Every packet is counted once at every layer: as received, and as one of the things that can become of it there; `e` is the number
of exceptions. -/
structure Balanced (c : CountRx → Nat) (e : Nat) : Prop where
  ether : AddsUp e (c ether__pre_parse)
    (c ether__failed_parse__drop + c ether__dst_unknown__drop + c ether__dst_unicast + c ether__dst_multicast + c ether__dst_broadcast)
  arp : AddsUp e (c arp__pre_parse) (c arp__failed_parse__drop + c arp__op_request + c arp__op_reply)
  arpRequests : c arp__op_request =
    c arp__op_request__ip_conflict + c arp__op_request__tpa_stack__respond + c arp__op_request__tpa_unknown__drop
  arpReplies : c arp__op_reply__ip_conflict + c arp__op_reply__update_arp_cache + c arp__op_reply__update_arp_cache_gratuitous ≤ c arp__op_reply
  ip4 : AddsUp e (c ip4__pre_parse)
    (c ip4__failed_parse__drop + c ip4__dst_unknown__drop + c ip4__dst_unicast + c ip4__dst_multicast + c ip4__dst_broadcast)
  ip4Frag : c ip4__defrag ≤ c ip4__frag
  ip6 : AddsUp e (c ip6__pre_parse)
    (c ip6__failed_parse__drop + c ip6__dst_unknown__drop + c ip6__dst_unicast + c ip6__dst_multicast)
  ip6Frag : c ip6_ext_frag__failed_parse + c ip6_ext_frag__defrag ≤ c ip6_ext_frag__pre_parse
  icmp4 : c icmp4__failed_parse__drop + c icmp4__echo_request__respond_echo_reply + c icmp4__unreachable ≤ c icmp4__pre_parse
  icmp6 : c icmp6__failed_parse__drop + c icmp6__nd_neighbor_solicitation + c icmp6__nd_neighbor_advertisement +
    c icmp6__nd_router_solicitation + c icmp6__nd_router_advertisement + c icmp6__echo_request__respond_echo_reply + c icmp6__unreachable ≤
    c icmp6__pre_parse
  solicitations : c icmp6__nd_neighbor_solicitation =
    c icmp6__nd_neighbor_solicitation__target_unknown__drop + c icmp6__nd_neighbor_solicitation__target_stack__respond
  dad : c icmp6__nd_neighbor_solicitation__dad + c icmp6__nd_neighbor_solicitation__update_nd_cache ≤
    c icmp6__nd_neighbor_solicitation__target_stack__respond
  advertisements : c icmp6__nd_neighbor_advertisement__run_dad + c icmp6__nd_neighbor_advertisement__update_nd_cache ≤
    c icmp6__nd_neighbor_advertisement
  udp : AddsUp e (c udp__pre_parse)
    (c udp__failed_parse__drop + c udp__socket_match + c udp__ip_source_unspecified + c udp__no_socket_match__respond_icmp4_unreachable +
      c udp__no_socket_match__respond_icmp6_unreachable)
  tcp : AddsUp e (c tcp__pre_parse)
    (c tcp__failed_parse__drop + c tcp__socket_match_active__forward_to_socket + c tcp__socket_match_listening__forward_to_socket +
      c tcp__no_socket_match__respond_rst)
  /-- what the link layer hands on comes from what it has accepted; a reassembled IPv6 packet is received once more -/
  fromEther : c arp__pre_parse + c ip4__pre_parse + c ip6__pre_parse ≤
    c ether__dst_unicast + c ether__dst_multicast + c ether__dst_broadcast + c ip6_ext_frag__defrag
  /-- what the internet layer hands on is a packet that it has accepted, or has put together -/
  fromIp : c icmp4__pre_parse + c icmp6__pre_parse + c udp__pre_parse + c tcp__pre_parse + c ip4__frag + c ip6_ext_frag__pre_parse ≤
    c ip4__dst_unicast + c ip4__dst_multicast + c ip4__dst_broadcast + c ip4__defrag + c ip6__dst_unicast + c ip6__dst_multicast

/-- No address of the stack is of two sorts, and there is an IPv4 address. -/
structure Sorted (n : Node) : Prop where
  mac : n.stack.mac ≠ .broadcast ∧ n.stack.mac ∉ n.macMulticast ∧ .broadcast ∉ n.macMulticast
  ip4 : n.stack.ip4Unicast ≠ [] ∧ (∀ a ∈ n.stack.ip4Unicast, a ∉ n.stack.ip4Multicast ∧ a ∉ n.stack.ip4Broadcast) ∧
    ∀ a ∈ n.stack.ip4Multicast, a ∉ n.stack.ip4Broadcast
  ip6 : ∀ a ∈ n.stack.ip6Unicast, a ∉ n.stack.ip6Multicast

end Verif.Spec
