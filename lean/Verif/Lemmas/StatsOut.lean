import Verif.Lemmas.Stats
import Verif.Spec.Stats
/-! What the handlers can count and do, as finite lists of outcomes, and what follows for every frame. -/
namespace Verif.Counted
open Spec CountRx

instance (e t p : Nat) : Decidable (AddsUp e t p) := inferInstanceAs (Decidable (_ ∧ _))

/-- Counters, and what was done (`none`: an exception was raised). -/
def shape (r : List CountRx × Py (List Eff)) : List CountRx × Option (List Did) :=
  (r.1, match r.2 with | .ok l => some (l.map did) | .error _ => none)

/-- The counters of one outcome tell the truth. -/
def Tr (x : List CountRx × Option (List Did)) : Prop := Truthful (fun c => x.1.count c) (fun k => (x.2.getD []).count k)

/-- The exceptions of one outcome. -/
def exc (x : List CountRx × Option (List Did)) : Nat := if x.2.isNone then 1 else 0

/-- What comes from the link layer and the internet layer. -/
def toNet (cs : List CountRx) : Nat := cs.count arp__pre_parse + cs.count ip4__pre_parse + cs.count ip6__pre_parse
def accepted2 (cs : List CountRx) : Nat :=
  cs.count ether__dst_unicast + cs.count ether__dst_multicast + cs.count ether__dst_broadcast
def again (cs : List CountRx) : Nat := cs.count ip6_ext_frag__defrag
def toUpper (cs : List CountRx) : Nat :=
  cs.count icmp4__pre_parse + cs.count icmp6__pre_parse + cs.count udp__pre_parse + cs.count tcp__pre_parse + cs.count ip4__frag +
    cs.count ip6_ext_frag__pre_parse
def accepted3 (cs : List CountRx) : Nat :=
  cs.count ip4__dst_unicast + cs.count ip4__dst_multicast + cs.count ip4__dst_broadcast + cs.count ip4__defrag +
    cs.count ip6__dst_unicast + cs.count ip6__dst_multicast

/-- `Balanced`, but for what one layer hands to another. -/
structure Local (c : CountRx → Nat) (e : Nat) : Prop where
  ether : AddsUp e (c ether__pre_parse)
    (c ether__failed_parse__drop + c ether__dst_unknown__drop + c ether__dst_unicast + c ether__dst_multicast + c ether__dst_broadcast)
  arp : AddsUp e (c arp__pre_parse) (c arp__failed_parse__drop + c arp__op_request + c arp__op_reply)
  arpRequests : c arp__op_request =
    c arp__op_request__ip_conflict + c arp__op_request__tpa_stack__respond + c arp__op_request__tpa_unknown__drop
  arpReplies : c arp__op_reply__ip_conflict + c arp__op_reply__update_arp_cache + c arp__op_reply__update_arp_cache_gratuitous ≤ c arp__op_reply
  ip4 : AddsUp e (c ip4__pre_parse)
    (c ip4__failed_parse__drop + c ip4__dst_unknown__drop + c ip4__dst_unicast + c ip4__dst_multicast + c ip4__dst_broadcast)
  ip4Frag : c ip4__defrag ≤ c ip4__frag
  ip6 : AddsUp e (c ip6__pre_parse)
    (c ip6__failed_parse__drop + c ip6__dst_unknown__drop + c ip6__dst_unicast + c ip6__dst_multicast)
  ip6Frag : c ip6_ext_frag__failed_parse + c ip6_ext_frag__defrag ≤ c ip6_ext_frag__pre_parse
  icmp4 : c icmp4__failed_parse__drop + c icmp4__echo_request__respond_echo_reply + c icmp4__unreachable ≤ c icmp4__pre_parse
  icmp6 : c icmp6__failed_parse__drop + c icmp6__nd_neighbor_solicitation + c icmp6__nd_neighbor_advertisement +
    c icmp6__nd_router_solicitation + c icmp6__nd_router_advertisement + c icmp6__echo_request__respond_echo_reply + c icmp6__unreachable ≤
    c icmp6__pre_parse
  solicitations : c icmp6__nd_neighbor_solicitation =
    c icmp6__nd_neighbor_solicitation__target_unknown__drop + c icmp6__nd_neighbor_solicitation__target_stack__respond
  dad : c icmp6__nd_neighbor_solicitation__dad + c icmp6__nd_neighbor_solicitation__update_nd_cache ≤
    c icmp6__nd_neighbor_solicitation__target_stack__respond
  advertisements : c icmp6__nd_neighbor_advertisement__run_dad + c icmp6__nd_neighbor_advertisement__update_nd_cache ≤
    c icmp6__nd_neighbor_advertisement
  udp : AddsUp e (c udp__pre_parse)
    (c udp__failed_parse__drop + c udp__socket_match + c udp__ip_source_unspecified + c udp__no_socket_match__respond_icmp4_unreachable +
      c udp__no_socket_match__respond_icmp6_unreachable)
  tcp : AddsUp e (c tcp__pre_parse)
    (c tcp__failed_parse__drop + c tcp__socket_match_active__forward_to_socket + c tcp__socket_match_listening__forward_to_socket +
      c tcp__no_socket_match__respond_rst)

/-- The counters of one outcome balance. -/
def Lo (x : List CountRx × Option (List Did)) : Prop := Local (fun c => x.1.count c) (exc x)

theorem Truthful.add {c c' : CountRx → Nat} {d d' : Did → Nat} (h : Truthful c d) (h' : Truthful c' d') :
    Truthful (fun x => c x + c' x) (fun k => d k + d' k) := by
  constructor <;> try dsimp only
  · have a := h.arpReplies
    have b := h'.arpReplies
    omega
  · have a := h.arpLearned
    have b := h'.arpLearned
    omega
  · have a := h.arpConflicts
    have b := h'.arpConflicts
    omega
  · have a := h.echoReplies4
    have b := h'.echoReplies4
    omega
  · have a := h.echoReplies6
    have b := h'.echoReplies6
    omega
  · have a := h.portUnreachable4
    have b := h'.portUnreachable4
    omega
  · have a := h.portUnreachable6
    have b := h'.portUnreachable6
    omega
  · have a := h.advertisements
    have b := h'.advertisements
    omega
  · have a := h.ndLearned
    have b := h'.ndLearned
    omega
  · have a := h.dadAnswers
    have b := h'.dadAnswers
    omega
  · have a := h.prefixes
    have b := h'.prefixes
    omega
  · have a := h.datagrams
    have b := h'.datagrams
    omega
  · have a := h.socketErrors
    have b := h'.socketErrors
    omega
  · have a := h.segments
    have b := h'.segments
    omega
  · have a := h.listeners
    have b := h'.listeners
    omega
  · have a := h.resets
    have b := h'.resets
    omega
  · have a := h.nothingElse
    have b := h'.nothingElse
    omega

theorem AddsUp.add {e e' t t' p p' : Nat} (h : AddsUp e t p) (h' : AddsUp e' t' p') : AddsUp (e + e') (t + t') (p + p') := by
  unfold AddsUp at *
  omega

theorem Local.add {c c' : CountRx → Nat} {e e' : Nat} (h : Local c e) (h' : Local c' e') : Local (fun x => c x + c' x) (e + e') := by
  constructor <;> try dsimp only
  · have a := h.ether
    have b := h'.ether
    unfold AddsUp at *
    omega
  · have a := h.arp
    have b := h'.arp
    unfold AddsUp at *
    omega
  · have a := h.arpRequests
    have b := h'.arpRequests
    omega
  · have a := h.arpReplies
    have b := h'.arpReplies
    omega
  · have a := h.ip4
    have b := h'.ip4
    unfold AddsUp at *
    omega
  · have a := h.ip4Frag
    have b := h'.ip4Frag
    omega
  · have a := h.ip6
    have b := h'.ip6
    unfold AddsUp at *
    omega
  · have a := h.ip6Frag
    have b := h'.ip6Frag
    omega
  · have a := h.icmp4
    have b := h'.icmp4
    omega
  · have a := h.icmp6
    have b := h'.icmp6
    omega
  · have a := h.solicitations
    have b := h'.solicitations
    omega
  · have a := h.dad
    have b := h'.dad
    omega
  · have a := h.advertisements
    have b := h'.advertisements
    omega
  · have a := h.udp
    have b := h'.udp
    unfold AddsUp at *
    omega
  · have a := h.tcp
    have b := h'.tcp
    unfold AddsUp at *
    omega

theorem Balanced.add {c c' : CountRx → Nat} {e e' : Nat} (h : Balanced c e) (h' : Balanced c' e') :
    Balanced (fun x => c x + c' x) (e + e') := by
  constructor <;> try dsimp only
  · have a := h.ether
    have b := h'.ether
    unfold AddsUp at *
    omega
  · have a := h.arp
    have b := h'.arp
    unfold AddsUp at *
    omega
  · have a := h.arpRequests
    have b := h'.arpRequests
    omega
  · have a := h.arpReplies
    have b := h'.arpReplies
    omega
  · have a := h.ip4
    have b := h'.ip4
    unfold AddsUp at *
    omega
  · have a := h.ip4Frag
    have b := h'.ip4Frag
    omega
  · have a := h.ip6
    have b := h'.ip6
    unfold AddsUp at *
    omega
  · have a := h.ip6Frag
    have b := h'.ip6Frag
    omega
  · have a := h.icmp4
    have b := h'.icmp4
    omega
  · have a := h.icmp6
    have b := h'.icmp6
    omega
  · have a := h.solicitations
    have b := h'.solicitations
    omega
  · have a := h.dad
    have b := h'.dad
    omega
  · have a := h.advertisements
    have b := h'.advertisements
    omega
  · have a := h.udp
    have b := h'.udp
    unfold AddsUp at *
    omega
  · have a := h.tcp
    have b := h'.tcp
    unfold AddsUp at *
    omega
  · have a := h.fromEther
    have b := h'.fromEther
    omega
  · have a := h.fromIp
    have b := h'.fromIp
    omega

theorem Tr.app {a b : List CountRx} {o : Option (List Did)} (h : Tr (a, some [])) (h' : Tr (b, o)) : Tr (a ++ b, o) := by
  have := Truthful.add h h'
  unfold Tr
  simpa [List.count_append] using this

theorem Lo.app {a b : List CountRx} {o : Option (List Did)} (h : Lo (a, some [])) (h' : Lo (b, o)) : Lo (a ++ b, o) := by
  have := Local.add h h'
  unfold Lo
  simpa [List.count_append, exc] using this

theorem Truthful.of_eq {c c' : CountRx → Nat} {d d' : Did → Nat} (h : Truthful c d) (h1 : c = c') (h2 : d = d') : Truthful c' d' := h1 ▸ h2 ▸ h
theorem Balanced.of_eq {c c' : CountRx → Nat} {e e' : Nat} (h : Balanced c e) (h1 : c = c') (h2 : e = e') : Balanced c' e' := h1 ▸ h2 ▸ h

def arpOut : List (List CountRx × Option (List Did)) :=
  [([arp__pre_parse], none),
   ([arp__pre_parse, arp__failed_parse__drop], some []),
   ([arp__pre_parse, arp__op_request, arp__op_request__ip_conflict], some []),
   ([arp__pre_parse, arp__op_request, arp__op_request__tpa_stack__respond, arp__op_request__update_arp_cache], some [.arpReply, .arpLearned]),
   ([arp__pre_parse, arp__op_request, arp__op_request__tpa_unknown__drop], some []),
   ([arp__pre_parse, arp__op_reply, arp__op_reply__ip_conflict], some [.conflict]),
   ([arp__pre_parse, arp__op_reply, arp__op_reply__update_arp_cache], some [.arpLearned]),
   ([arp__pre_parse, arp__op_reply, arp__op_reply__update_arp_cache_gratuitous], some [.arpLearned]),
   ([arp__pre_parse, arp__op_reply], some [])]

def icmp4Out : List (List CountRx × Option (List Did)) :=
  [([icmp4__pre_parse], none),
   ([icmp4__pre_parse, icmp4__failed_parse__drop], some []),
   ([icmp4__pre_parse, icmp4__echo_request__respond_echo_reply], some [.echoReply4]),
   ([icmp4__pre_parse], some []),
   ([icmp4__pre_parse, icmp4__unreachable], none),
   ([icmp4__pre_parse, icmp4__unreachable], some []),
   ([icmp4__pre_parse, icmp4__unreachable], some [.socketError])]

def icmp6Out : List (List CountRx × Option (List Did)) :=
  [([icmp6__pre_parse], none),
   ([icmp6__pre_parse, icmp6__failed_parse__drop], some []),
   ([icmp6__pre_parse, icmp6__nd_neighbor_solicitation, icmp6__nd_neighbor_solicitation__target_unknown__drop], some []),
   ([icmp6__pre_parse, icmp6__nd_neighbor_solicitation, icmp6__nd_neighbor_solicitation__update_nd_cache, icmp6__nd_neighbor_solicitation__target_stack__respond], some [.ndLearned, .advertisement]),
   ([icmp6__pre_parse, icmp6__nd_neighbor_solicitation, icmp6__nd_neighbor_solicitation__dad, icmp6__nd_neighbor_solicitation__target_stack__respond], some [.advertisement]),
   ([icmp6__pre_parse, icmp6__nd_neighbor_solicitation, icmp6__nd_neighbor_solicitation__target_stack__respond], some [.advertisement]),
   ([icmp6__pre_parse, icmp6__nd_neighbor_advertisement, icmp6__nd_neighbor_advertisement__run_dad], some [.dadAnswer]),
   ([icmp6__pre_parse, icmp6__nd_neighbor_advertisement, icmp6__nd_neighbor_advertisement__update_nd_cache], some [.ndLearned]),
   ([icmp6__pre_parse, icmp6__nd_neighbor_advertisement], some []),
   ([icmp6__pre_parse, icmp6__nd_router_solicitation], some []),
   ([icmp6__pre_parse, icmp6__nd_router_advertisement], some [.prefixes]),
   ([icmp6__pre_parse, icmp6__echo_request__respond_echo_reply], some [.echoReply6]),
   ([icmp6__pre_parse], some []),
   ([icmp6__pre_parse, icmp6__unreachable], none),
   ([icmp6__pre_parse, icmp6__unreachable], some []),
   ([icmp6__pre_parse, icmp6__unreachable], some [.socketError])]

def udpOut : List (List CountRx × Option (List Did)) :=
  [([udp__pre_parse], none),
   ([udp__pre_parse, udp__failed_parse__drop], some []),
   ([udp__pre_parse, udp__socket_match], some [.datagram]),
   ([udp__pre_parse, udp__ip_source_unspecified], some []),
   ([udp__pre_parse, udp__no_socket_match__respond_icmp4_unreachable], some [.portUnreachable4]),
   ([udp__pre_parse, udp__no_socket_match__respond_icmp6_unreachable], some [.portUnreachable6])]

def tcpOut : List (List CountRx × Option (List Did)) :=
  [([tcp__pre_parse], none),
   ([tcp__pre_parse, tcp__failed_parse__drop], some []),
   ([tcp__pre_parse, tcp__socket_match_active__forward_to_socket], some [.segment]),
   ([tcp__pre_parse, tcp__socket_match_active__forward_to_socket], some [.opening]),
   ([tcp__pre_parse, tcp__socket_match_listening__forward_to_socket], some [.opening]),
   ([tcp__pre_parse, tcp__no_socket_match__respond_rst], some [.reset])]

theorem arp_oper {f : Bytes} {x : Arp.Hdr} (h : Arp.parse f = .ok none) (hx : Arp.read f = .ok x) : x.oper = 1 ∨ x.oper = 2 := by
  have ho : Arp.oper f = .ok x.oper := by
    unfold Arp.read at hx
    cases h1 : Arp.oper f with
    | error e => simp [h1, bind, Except.bind] at hx
    | ok o =>
      cases h2 : Arp.sha f <;> cases h3 : Arp.spa f <;> cases h4 : Arp.tha f <;> cases h5 : Arp.tpa f <;>
        simp [h1, h2, h3, h4, h5, bind, Except.bind, pure, Except.pure] at hx
      rw [← hx]
  unfold Arp.parse at h
  rw [ho] at h
  apply Classical.byContradiction
  intro hn
  revert h
  cases Arp.hrtype f <;> cases Arp.prtype f <;> cases Arp.hrlen f <;> cases Arp.prlen f <;>
    simp only [bind, Except.bind, pure, Except.pure, if_pos hn] <;> repeat' split
  all_goals simp

theorem arp_out (n : Node) (dst : MacAddress) (f : Bytes) : shape (arp n dst f) ∈ arpOut := by
  unfold arp
  cases h : Arp.parse f with
  | error e => simp [shape, after, arpOut]
  | ok r =>
    cases r with
    | some x => simp [shape, after, arpOut]
    | none =>
      have ho : ∀ x, Arp.read f = .ok x → x.oper = 1 ∨ x.oper = 2 := fun x hx => arp_oper h hx
      cases h' : Arp.read f with
      | error e => simp [shape, after, arpOut]
      | ok x =>
        dsimp only
        rcases ho x h' with h1 | h1
        · rw [if_pos h1]
          repeat' split
          all_goals simp [shape, after, arpOut, did]
        · rw [if_neg (by omega), if_pos h1]
          repeat' split
          all_goals simp [shape, after, arpOut, did]

theorem unreachable_did (n : Node) (m : Option UdpMd) : (Rx.unreachable n m).map did = [] ∨ (Rx.unreachable n m).map did = [.socketError] := by
  unfold Rx.unreachable
  repeat' split
  all_goals simp [did]

theorem icmp4_out (n : Node) (src dst : Ip4Address) (dlen : Nat) (f : Bytes) : shape (icmp4 n src dst dlen f) ∈ icmp4Out := by
  unfold icmp4
  cases h : Icmp4.parse f dlen with
  | error e => simp [shape, after, icmp4Out]
  | ok r =>
    cases r with
    | some x => simp [shape, after, icmp4Out]
    | none =>
      cases h' : Icmp4.read f dlen with
      | error e => simp [shape, after, icmp4Out]
      | ok x =>
        cases x with
        | echo t c id seq data =>
          dsimp only
          split <;> simp [shape, after, icmp4Out, did]
        | unreachable c data =>
          dsimp only
          cases Rx.quoted4 data with
          | error e => simp [shape, after, icmp4Out, bind, Except.bind]
          | ok m =>
            rcases unreachable_did n m with h | h <;> simp [shape, after, icmp4Out, bind, Except.bind, pure, Except.pure, h]
        | other t c => simp [shape, after, icmp4Out]

theorem ns_out (n : Node) (src target : Ip6Address) (opts : List Icmp6.RxOpt) :
    (icmp6__pre_parse :: (neighborSolicitation n src target opts).1, some ((neighborSolicitation n src target opts).2.map did)) ∈ icmp6Out := by
  unfold neighborSolicitation
  split
  · simp [after, icmp6Out]
  · cases Icmp6.sllaOf opts with
    | none =>
      cases hu : src.isUnspecified <;> simp [after, icmp6Out, countIf, did]
    | some m =>
      cases hu : src.isUnspecified <;> cases hm : src.isMulticast <;> simp [after, icmp6Out, countIf, did]

theorem na_out (n : Node) (target : Ip6Address) (opts : List Icmp6.RxOpt) :
    (icmp6__pre_parse :: (neighborAdvertisement n target opts).1, some ((neighborAdvertisement n target opts).2.map did)) ∈ icmp6Out := by
  unfold neighborAdvertisement
  split
  · simp [after, icmp6Out, did]
  · cases Icmp6.tllaOf opts <;> simp [after, icmp6Out, did]

theorem icmp6_out (n : Node) (src dst : Ip6Address) (hop dlen ps : Nat) (f : Bytes) : shape (icmp6 n src dst hop dlen ps f) ∈ icmp6Out := by
  unfold icmp6
  cases h : Icmp6.parse f dlen ps src dst hop with
  | error e => simp [shape, after, icmp6Out]
  | ok r =>
    cases r with
    | some x => simp [shape, after, icmp6Out]
    | none =>
      cases h' : Icmp6.read f dlen with
      | error e => simp [shape, after, icmp6Out]
      | ok x =>
        cases x with
        | neighborSolicitation t o => exact ns_out n src t o
        | neighborAdvertisement a b c t o => exact na_out n t o
        | routerSolicitation o => simp [shape, after, icmp6Out]
        | routerAdvertisement a b c d e f o => simp [shape, after, icmp6Out, did]
        | echo t id seq data =>
          dsimp only
          split <;> simp [shape, after, icmp6Out, did]
        | unreachable c data =>
          dsimp only
          cases Rx.quoted6 data with
          | error e => simp [shape, after, icmp6Out, bind, Except.bind]
          | ok m =>
            rcases unreachable_did n m with h | h <;> simp [shape, after, icmp6Out, bind, Except.bind, pure, Except.pure, h]
        | other t c => simp [shape, after, icmp6Out]

/-- Both addresses are of the same version. -/
def SameVersion (ip : Rx.IpHdr) : Prop := (∃ s d, ip.src = .v4 s ∧ ip.dst = .v4 d) ∨ ∃ s d, ip.src = .v6 s ∧ ip.dst = .v6 d

theorem udp_out (n : Node) {ip : Rx.IpHdr} (hv : SameVersion ip) (f : Bytes) : shape (udp n ip f) ∈ udpOut := by
  unfold udp
  cases h : Udp.parse f ip.dlen ip.pshdrSum with
  | error e => simp [shape, after, udpOut]
  | ok r =>
    cases r with
    | some x => simp [shape, after, udpOut]
    | none =>
      cases h' : Udp.read f with
      | error e => simp [shape, after, udpOut]
      | ok x =>
        dsimp only
        cases n.socks.match? _ with
        | some r => simp [shape, after, udpOut, did]
        | none =>
          dsimp only
          split
          · simp [shape, after, udpOut]
          · rcases hv with ⟨s, d, h1, h2⟩ | ⟨s, d, h1, h2⟩ <;> simp [shape, after, udpOut, portUnreachable, h1, h2, did]

theorem tcp_out (n : Node) (ip : Rx.IpHdr) (f : Bytes) : shape (tcp n ip f) ∈ tcpOut := by
  unfold tcp
  cases h : Tcp.parse f ip.dlen ip.pshdrSum with
  | error e => simp [shape, after, tcpOut]
  | ok r =>
    cases r with
    | some x => simp [shape, after, tcpOut]
    | none =>
      cases h' : Tcp.read f ip.dlen with
      | error e => simp [shape, after, tcpOut]
      | ok x =>
        dsimp only
        cases n.socks.table.get? (Rx.tcpMd ip x).active with
        | some r => cases hs : ((Rx.tcpMd ip x).syn && !((Rx.tcpMd ip x).ack || (Rx.tcpMd ip x).fin || (Rx.tcpMd ip x).rst)) <;>
            simp only [shape, after, tcpOut, did, List.map_cons, List.map_nil, hs] <;> simp
        | none =>
          dsimp only
          cases hs : ((Rx.tcpMd ip x).syn && !((Rx.tcpMd ip x).ack || (Rx.tcpMd ip x).fin || (Rx.tcpMd ip x).rst)) with
          | false => simp [shape, after, tcpOut, did]
          | true =>
            simp only [if_true]
            cases (Rx.tcpMd ip x).listening.findSome? n.socks.table.get? <;>
              simp only [shape, after, tcpOut, did, List.map_cons, List.map_nil, hs] <;> simp

/-- What is true of the outcomes of the protocols above IP. -/
def Up (x : List CountRx × Option (List Did)) : Prop :=
  Tr x ∧ Lo x ∧ toUpper x.1 ≤ 1 ∧ accepted3 x.1 = 0 ∧ toNet x.1 = 0 ∧ accepted2 x.1 = 0 ∧ again x.1 = 0

theorem up_icmp4 : ∀ x ∈ icmp4Out, Up x := by
  intro x hx
  simp only [icmp4Out, List.mem_cons, List.not_mem_nil, or_false] at hx
  rcases hx with rfl | rfl | rfl | rfl | rfl | rfl | rfl <;>
    exact ⟨by constructor <;> decide, by constructor <;> decide, by decide, by decide, by decide, by decide, by decide⟩

theorem up_icmp6 : ∀ x ∈ icmp6Out, Up x := by
  intro x hx
  simp only [icmp6Out, List.mem_cons, List.not_mem_nil, or_false] at hx
  rcases hx with rfl | rfl | rfl | rfl | rfl | rfl | rfl | rfl | rfl | rfl | rfl | rfl | rfl | rfl | rfl | rfl <;>
    exact ⟨by constructor <;> decide, by constructor <;> decide, by decide, by decide, by decide, by decide, by decide⟩

theorem up_udp : ∀ x ∈ udpOut, Up x := by
  intro x hx
  simp only [udpOut, List.mem_cons, List.not_mem_nil, or_false] at hx
  rcases hx with rfl | rfl | rfl | rfl | rfl | rfl <;>
    exact ⟨by constructor <;> decide, by constructor <;> decide, by decide, by decide, by decide, by decide, by decide⟩

theorem up_tcp : ∀ x ∈ tcpOut, Up x := by
  intro x hx
  simp only [tcpOut, List.mem_cons, List.not_mem_nil, or_false] at hx
  rcases hx with rfl | rfl | rfl | rfl | rfl | rfl <;>
    exact ⟨by constructor <;> decide, by constructor <;> decide, by decide, by decide, by decide, by decide, by decide⟩

/-- What is true of the outcomes of ARP, IPv4 and IPv6: `Tr` always, the rest for sorted addresses. -/
def Mid (x : List CountRx × Option (List Did)) : Prop :=
  Lo x ∧ toUpper x.1 ≤ accepted3 x.1 ∧ toNet x.1 ≤ 1 + again x.1 ∧ accepted2 x.1 = 0

theorem mid_arp : ∀ x ∈ arpOut, Tr x ∧ Mid x := by
  intro x hx
  simp only [arpOut, List.mem_cons, List.not_mem_nil, or_false] at hx
  rcases hx with rfl | rfl | rfl | rfl | rfl | rfl | rfl | rfl | rfl <;>
    exact ⟨by constructor <;> decide, by constructor <;> decide, by decide, by decide, by decide⟩

theorem toUpper_app (a b : List CountRx) : toUpper (a ++ b) = toUpper a + toUpper b := by
  simp only [toUpper, List.count_append]
  omega
theorem accepted3_app (a b : List CountRx) : accepted3 (a ++ b) = accepted3 a + accepted3 b := by
  simp only [accepted3, List.count_append]
  omega
theorem toNet_app (a b : List CountRx) : toNet (a ++ b) = toNet a + toNet b := by
  simp only [toNet, List.count_append]
  omega
theorem accepted2_app (a b : List CountRx) : accepted2 (a ++ b) = accepted2 a + accepted2 b := by
  simp only [accepted2, List.count_append]
  omega
theorem again_app (a b : List CountRx) : again (a ++ b) = again a + again b := by
  simp only [again, List.count_append]

theorem up_none : Up ([], some []) := ⟨by constructor <;> decide, by constructor <;> decide, by decide, by decide, by decide, by decide, by decide⟩
theorem up_error : Up ([], none) := ⟨by constructor <;> decide, by constructor <;> decide, by decide, by decide, by decide, by decide, by decide⟩

theorem ofIp4_same (h : Ip4.Hdr) : SameVersion (Rx.ofIp4 h) := .inl ⟨_, _, rfl, rfl⟩
theorem ofIp6_same (h : Ip6.Hdr) : SameVersion (Rx.ofIp6 h) := .inr ⟨_, _, rfl, rfl⟩

theorem up_dispatch4 (n : Node) (h : Ip4.Hdr) (f : Bytes) : Up (shape (ip4Dispatch n h f)) := by
  unfold ip4Dispatch
  split
  · exact up_icmp4 _ (icmp4_out ..)
  · split
    · exact up_udp _ (udp_out _ (ofIp4_same h) _)
    · split
      · exact up_tcp _ (tcp_out ..)
      · exact up_none

/-- Some counters of the link or the internet layer first. -/
structure Pre (n : Node) (cs : List CountRx) (up acc net ag : Nat) : Prop where
  tr : Tr (cs, some [])
  lo : Sorted n → Lo (cs, some [])
  up : Sorted n → toUpper cs = up
  acc : Sorted n → accepted3 cs = acc
  net : toNet cs = net
  again : again cs = ag
  acc2 : accepted2 cs = 0

theorem Tr.of_pre {n : Node} {cs b : List CountRx} {o : Option (List Did)} {u a t g : Nat} (h : Pre n cs u a t g) (hb : Tr (b, o)) : Tr (cs ++ b, o) :=
  h.tr.app hb

theorem acc4_pre {n : Node} {dst : Ip4Address} (h : Rx.ip4ForUs n.stack dst = true) :
    Pre n (ip4__pre_parse :: ip4Accepted n.stack dst) 0 1 1 0 := by
  unfold Rx.ip4ForUs at h
  unfold ip4Accepted
  have hs : Sorted n → (dst ∈ n.stack.ip4Unicast ∧ dst ∉ n.stack.ip4Multicast ∧ dst ∉ n.stack.ip4Broadcast) ∨
      (dst ∉ n.stack.ip4Unicast ∧ dst ∈ n.stack.ip4Multicast ∧ dst ∉ n.stack.ip4Broadcast) ∨
      (dst ∉ n.stack.ip4Unicast ∧ dst ∉ n.stack.ip4Multicast ∧ dst ∈ n.stack.ip4Broadcast) := by
    intro hs
    have h1 := hs.ip4.1
    have h2 := hs.ip4.2.1 dst
    have h3 := hs.ip4.2.2 dst
    simp only [Bool.or_eq_true, decide_eq_true_eq, List.isEmpty_iff] at h
    by_cases a1 : dst ∈ n.stack.ip4Unicast <;> by_cases a2 : dst ∈ n.stack.ip4Multicast <;> by_cases a3 : dst ∈ n.stack.ip4Broadcast <;>
      simp_all
  by_cases a1 : dst ∈ n.stack.ip4Unicast <;> by_cases a2 : dst ∈ n.stack.ip4Multicast <;> by_cases a3 : dst ∈ n.stack.ip4Broadcast <;>
    simp only [a1, a2, a3, decide_true, decide_false, countIf, if_true, if_false, Bool.false_eq_true] <;>
    refine ⟨by constructor <;> decide, fun s => ?_, fun s => ?_, fun s => ?_, by decide, by decide, by decide⟩ <;>
    first
    | (constructor <;> decide)
    | decide
    | (exfalso; have := hs s; simp_all)

theorem acc6_pre {n : Node} {dst : Ip6Address} (h : (decide (dst ∈ n.stack.ip6Unicast) || decide (dst ∈ n.stack.ip6Multicast)) = true) :
    Pre n (ip6__pre_parse :: ip6Accepted n.stack dst) 0 1 1 0 := by
  unfold ip6Accepted
  have hs : Sorted n → (dst ∈ n.stack.ip6Unicast ∧ dst ∉ n.stack.ip6Multicast) ∨
      (dst ∉ n.stack.ip6Unicast ∧ dst ∈ n.stack.ip6Multicast) := by
    intro hs
    have h1 := hs.ip6 dst
    simp only [Bool.or_eq_true, decide_eq_true_eq] at h
    by_cases a1 : dst ∈ n.stack.ip6Unicast <;> by_cases a2 : dst ∈ n.stack.ip6Multicast <;> simp_all
  by_cases a1 : dst ∈ n.stack.ip6Unicast <;> by_cases a2 : dst ∈ n.stack.ip6Multicast <;>
    simp only [a1, a2, decide_true, decide_false, countIf, if_true, if_false, Bool.false_eq_true] <;>
    refine ⟨by constructor <;> decide, fun s => ?_, fun s => ?_, fun s => ?_, by decide, by decide, by decide⟩ <;>
    first
    | (constructor <;> decide)
    | decide
    | (exfalso; have := hs s; simp_all)

theorem Pre.snoc {n : Node} {cs : List CountRx} {u a t g u' a' t' g' : Nat} (h : Pre n cs u a t g) (c : List CountRx) (h' : Pre n c u' a' t' g') :
    Pre n (cs ++ c) (u + u') (a + a') (t + t') (g + g') := by
  refine ⟨h.tr.app h'.tr, fun s => (h.lo s).app (h'.lo s), fun s => ?_, fun s => ?_, ?_, ?_, ?_⟩
  · rw [toUpper_app, h.up s, h'.up s]
  · rw [accepted3_app, h.acc s, h'.acc s]
  · rw [toNet_app, h.net, h'.net]
  · rw [again_app, h.again, h'.again]
  · rw [accepted2_app, h.acc2, h'.acc2]

/-- A packet of the network layer: truthful, and in order if the addresses are sorted. -/
def Net (n : Node) (x : List CountRx × Option (List Did)) : Prop := Tr x ∧ (Sorted n → Mid x)

theorem Net.of_up {n : Node} {cs : List CountRx} {x : List CountRx × Option (List Did)} {u a t g : Nat} (h : Pre n cs u a t g) (hx : Up x)
    (h1 : u + 1 ≤ a) (h2 : t ≤ 1 + g) : Net n (cs ++ x.1, x.2) := by
  obtain ⟨ht, hl, hu, ha, hn, h2', hg⟩ := hx
  refine ⟨h.tr.app ht, fun s => ⟨(h.lo s).app hl, ?_, ?_, ?_⟩⟩
  · show toUpper (cs ++ x.1) ≤ accepted3 (cs ++ x.1)
    rw [toUpper_app, accepted3_app, h.up s, h.acc s]
    omega
  · show toNet (cs ++ x.1) ≤ 1 + again (cs ++ x.1)
    rw [toNet_app, again_app, h.net, h.again]
    omega
  · show accepted2 (cs ++ x.1) = 0
    rw [accepted2_app, h.acc2, h2']

theorem Net.of_net {n : Node} {cs : List CountRx} {x : List CountRx × Option (List Did)} {u a t g : Nat} (h : Pre n cs u a t g) (hx : Net n x)
    (h1 : u ≤ a) (h2 : t ≤ g) : Net n (cs ++ x.1, x.2) := by
  obtain ⟨ht, hm⟩ := hx
  refine ⟨h.tr.app ht, fun s => ?_⟩
  obtain ⟨hl, hu, hn, h2'⟩ := hm s
  refine ⟨(h.lo s).app hl, ?_, ?_, ?_⟩
  · show toUpper (cs ++ x.1) ≤ accepted3 (cs ++ x.1)
    rw [toUpper_app, accepted3_app, h.up s, h.acc s]
    omega
  · show toNet (cs ++ x.1) ≤ 1 + again (cs ++ x.1)
    rw [toNet_app, again_app, h.net, h.again]
    omega
  · show accepted2 (cs ++ x.1) = 0
    rw [accepted2_app, h.acc2, h2']

/-- The outcome of a handler of the network layer. -/
def shape3 (r : List CountRx × Node × Py (List Eff)) : List CountRx × Option (List Did) := shape (r.1, r.2.2)

theorem frag_pre (n : Node) : Pre n [ip4__frag] 1 0 0 0 :=
  ⟨by constructor <;> decide, fun _ => by constructor <;> decide, fun _ => by decide, fun _ => by decide, by decide, by decide, by decide⟩
theorem frag_defrag_pre (n : Node) : Pre n [ip4__frag, ip4__defrag] 1 1 0 0 :=
  ⟨by constructor <;> decide, fun _ => by constructor <;> decide, fun _ => by decide, fun _ => by decide, by decide, by decide, by decide⟩
theorem frag6_pre (n : Node) : Pre n [ip6_ext_frag__pre_parse] 1 0 0 0 :=
  ⟨by constructor <;> decide, fun _ => by constructor <;> decide, fun _ => by decide, fun _ => by decide, by decide, by decide, by decide⟩
theorem frag6_failed_pre (n : Node) : Pre n [ip6_ext_frag__pre_parse, ip6_ext_frag__failed_parse] 1 0 0 0 :=
  ⟨by constructor <;> decide, fun _ => by constructor <;> decide, fun _ => by decide, fun _ => by decide, by decide, by decide, by decide⟩
theorem frag6_defrag_pre (n : Node) : Pre n [ip6_ext_frag__pre_parse, ip6_ext_frag__defrag] 1 0 0 1 :=
  ⟨by constructor <;> decide, fun _ => by constructor <;> decide, fun _ => by decide, fun _ => by decide, by decide, by decide, by decide⟩

theorem mid_none {n : Node} {x : List CountRx × Option (List Did)} (h : Tr x ∧ Mid x) : Net n x := ⟨h.1, fun _ => h.2⟩

theorem Net.of_pre {n : Node} {cs : List CountRx} {u a t g : Nat} {o : Option (List Did)} (h : Pre n cs u a t g)
    (ho : o = none ∨ o = some []) (h1 : u ≤ a) (h2 : t ≤ 1 + g) : Net n (cs, o) := by
  have hx : Tr ([], o) ∧ Lo ([], o) := by
    rcases ho with rfl | rfl
    · exact ⟨up_error.1, up_error.2.1⟩
    · exact ⟨up_none.1, up_none.2.1⟩
  have := h.tr.app hx.1
  rw [List.append_nil] at this
  refine ⟨this, fun s => ?_⟩
  have hl := (h.lo s).app hx.2
  rw [List.append_nil] at hl
  refine ⟨hl, ?_, ?_, h.acc2⟩
  · show toUpper cs ≤ accepted3 cs
    rw [h.up s, h.acc s]
    exact h1
  · show toNet cs ≤ 1 + again cs
    rw [h.net, h.again]
    exact h2

theorem shape_error (cs : List CountRx) (e : PyErr) : shape (cs, .error e) = (cs, none) := rfl
theorem shape_nil (cs : List CountRx) : shape (cs, .ok []) = (cs, some []) := rfl
theorem shape_app (cs : List CountRx) (r : List CountRx × Py (List Eff)) : shape (cs ++ r.1, r.2) = (cs ++ (shape r).1, (shape r).2) := rfl

theorem net_ip4 (n : Node) (t₀ t₁ : Int) (f : Bytes) : Net n (shape3 (ip4 n t₀ t₁ f)) := by
  unfold ip4
  have hbad : Net n ([ip4__pre_parse], none) := mid_none ⟨by constructor <;> decide, by constructor <;> decide, by decide, by decide, by decide⟩
  have hfail : Net n ([ip4__pre_parse, ip4__failed_parse__drop], some []) := mid_none ⟨by constructor <;> decide, by constructor <;> decide, by decide, by decide, by decide⟩
  have hunk : Net n ([ip4__pre_parse, ip4__dst_unknown__drop], some []) := mid_none ⟨by constructor <;> decide, by constructor <;> decide, by decide, by decide, by decide⟩
  cases h : Ip4.parse f with
  | error e => exact hbad
  | ok r =>
    cases r with
    | some x => exact hfail
    | none =>
      cases h' : Ip4.read f with
      | error e => exact hbad
      | ok x =>
        dsimp only
        cases hf : Rx.ip4ForUs n.stack x.dst with
        | false => exact hunk
        | true =>
          have hp := acc4_pre hf
          simp only [Bool.not_true, Bool.false_eq_true, if_false]
          split
          · cases hd : Frag.defragIp4 n.flows4 t₀ t₁ x with
            | mk flows r =>
              cases r with
              | error e => exact Net.of_pre (hp.snoc _ (frag_pre n)) (.inl rfl) (by omega) (by omega)
              | ok g =>
                cases g with
                | none => exact Net.of_pre (hp.snoc _ (frag_pre n)) (.inr rfl) (by omega) (by omega)
                | some g =>
                  dsimp only
                  cases (do
                    let failed ← Ip4.parse g
                    let h ← Ip4.read g
                    return (failed, h) : Py (Option String × Ip4.Hdr)) with
                  | error e => exact Net.of_pre (hp.snoc _ (frag_pre n)) (.inl rfl) (by omega) (by omega)
                  | ok y =>
                    obtain ⟨failed, y⟩ := y
                    have := Net.of_up (hp.snoc _ (frag_defrag_pre n))
                      (up_dispatch4 { n with flows4 := flows } y (if failed.isSome then g else y.rest)) (by omega) (by omega)
                    simpa [shape3, shape, after] using this
          · exact Net.of_up hp (up_dispatch4 n x x.rest) (by omega) (by omega)

theorem net_ip6 (t₀ t₁ : Int) (depth : Nat) (n : Node) (f : Bytes) : Net n (shape3 (ip6 n t₀ t₁ depth f)) := by
  unfold ip6
  have hbad : Net n ([ip6__pre_parse], none) := mid_none ⟨by constructor <;> decide, by constructor <;> decide, by decide, by decide, by decide⟩
  have hfail : Net n ([ip6__pre_parse, ip6__failed_parse__drop], some []) := mid_none ⟨by constructor <;> decide, by constructor <;> decide, by decide, by decide, by decide⟩
  have hunk : Net n ([ip6__pre_parse, ip6__dst_unknown__drop], some []) := mid_none ⟨by constructor <;> decide, by constructor <;> decide, by decide, by decide, by decide⟩
  cases h : Ip6.parse f with
  | error e => exact hbad
  | ok r =>
    cases r with
    | some x => exact hfail
    | none =>
      cases h' : Ip6.read f with
      | error e => exact hbad
      | ok x =>
        dsimp only
        cases hf : (decide (x.dst ∈ n.stack.ip6Unicast) || decide (x.dst ∈ n.stack.ip6Multicast)) with
        | false => exact hunk
        | true =>
          have hp := acc6_pre hf
          simp only [Bool.not_true, Bool.false_eq_true, if_false]
          split
          · cases hx : Ip6Frag.parse x.rest with
            | error e => exact Net.of_pre (hp.snoc _ (frag6_pre n)) (.inl rfl) (by omega) (by omega)
            | ok r =>
              cases r with
              | some y => exact Net.of_pre (hp.snoc _ (frag6_failed_pre n)) (.inr rfl) (by omega) (by omega)
              | none =>
                cases hy : Ip6Frag.read x.rest x.dlen with
                | error e => exact Net.of_pre (hp.snoc _ (frag6_pre n)) (.inl rfl) (by omega) (by omega)
                | ok y =>
                  dsimp only
                  cases hd : Frag.defragIp6 n.flows6 t₀ t₁ x y with
                  | mk flows r =>
                    cases r with
                    | error e => exact Net.of_pre (hp.snoc _ (frag6_pre n)) (.inl rfl) (by omega) (by omega)
                    | ok g =>
                      cases g with
                      | none => exact Net.of_pre (hp.snoc _ (frag6_pre n)) (.inr rfl) (by omega) (by omega)
                      | some g =>
                        cases depth with
                        | zero => exact Net.of_pre (hp.snoc _ (frag6_defrag_pre n)) (.inl rfl) (by omega) (by omega)
                        | succ depth =>
                          have ih := net_ip6 t₀ t₁ depth { n with flows6 := flows } g
                          have ih' : Net n (shape3 (ip6 { n with flows6 := flows } t₀ t₁ depth g)) :=
                            ⟨ih.1, fun s => ih.2 ⟨s.mac, s.ip4, s.ip6⟩⟩
                          have := Net.of_net (hp.snoc _ (frag6_defrag_pre n)) ih' (by omega) (by omega)
                          simpa [shape3, shape, after] using this
          · split
            · exact Net.of_up hp (up_icmp6 _ (icmp6_out ..)) (by omega) (by omega)
            · split
              · exact Net.of_up hp (up_udp _ (udp_out _ (ofIp6_same x) _)) (by omega) (by omega)
              · split
                · exact Net.of_up hp (up_tcp _ (tcp_out ..)) (by omega) (by omega)
                · exact Net.of_pre (o := some []) hp (.inr rfl) (by omega) (by omega) |> fun h => by
                    simpa [shape3, shape, after] using h
termination_by depth

/-- Some counters of the link layer first. -/
theorem acc2_pre {n : Node} {dst : MacAddress} (h : Rx.etherForUs n dst = true) :
    Tr (ether__pre_parse :: etherAccepted n dst, some []) ∧ (Sorted n → Lo (ether__pre_parse :: etherAccepted n dst, some []) ∧
      accepted2 (ether__pre_parse :: etherAccepted n dst) = 1) ∧ toUpper (ether__pre_parse :: etherAccepted n dst) = 0 ∧
      toNet (ether__pre_parse :: etherAccepted n dst) = 0 := by
  unfold Rx.etherForUs at h
  unfold etherAccepted
  have hs : Sorted n → (decide (dst = n.stack.mac), decide (dst ∈ n.macMulticast), decide (dst = .broadcast)) ∈
      [(true, false, false), (false, true, false), (false, false, true)] := by
    intro hs
    obtain ⟨h1, h2, h3⟩ := hs.mac
    simp only [Bool.or_eq_true, decide_eq_true_eq] at h
    by_cases a1 : dst = n.stack.mac
    · subst a1
      simp [h1, h2]
    · by_cases a3 : dst = .broadcast
      · subst a3
        simp [a1, h3]
      · have a2 : dst ∈ n.macMulticast := by
          rcases h with (h | h) | h
          · exact absurd h a1
          · exact h
          · exact absurd h a3
        simp [a1, a2, a3]
  revert hs
  generalize decide (dst = n.stack.mac) = b1
  generalize decide (dst ∈ n.macMulticast) = b2
  generalize decide (dst = .broadcast) = b3
  intro hs
  cases b1 <;> cases b2 <;> cases b3 <;> simp only [countIf, if_true, if_false, Bool.false_eq_true] <;>
    refine ⟨by constructor <;> decide, fun s => ⟨?_, ?_⟩, by decide, by decide⟩ <;>
    first
    | (constructor <;> decide)
    | decide
    | (exfalso; have := hs s; simp at this)

/-- The outcome of a received frame: truthful, and balanced if the addresses are sorted. -/
def Frame (n : Node) (x : List CountRx × Option (List Did)) : Prop := Tr x ∧ (Sorted n → Balanced (fun c => x.1.count c) (exc x))

theorem frame_of_local {n : Node} {x : List CountRx × Option (List Did)} (ht : Tr x) (h : Sorted n → Lo x ∧ toNet x.1 ≤ accepted2 x.1 + again x.1 ∧
    toUpper x.1 ≤ accepted3 x.1) : Frame n x := by
  refine ⟨ht, fun s => ?_⟩
  obtain ⟨hl, h1, h2⟩ := h s
  exact ⟨hl.ether, hl.arp, hl.arpRequests, hl.arpReplies, hl.ip4, hl.ip4Frag, hl.ip6, hl.ip6Frag, hl.icmp4, hl.icmp6, hl.solicitations, hl.dad,
    hl.advertisements, hl.udp, hl.tcp, h1, h2⟩

theorem frame_ether (n : Node) (t₀ t₁ : Int) (depth : Nat) (f : Bytes) : Frame n (shape3 (ether n t₀ t₁ depth f)) := by
  unfold ether
  have hbad : Frame n ([ether__pre_parse], none) :=
    frame_of_local (by constructor <;> decide) fun _ => ⟨by constructor <;> decide, by decide, by decide⟩
  have hfail : Frame n ([ether__pre_parse, ether__failed_parse__drop], some []) :=
    frame_of_local (by constructor <;> decide) fun _ => ⟨by constructor <;> decide, by decide, by decide⟩
  have hunk : Frame n ([ether__pre_parse, ether__dst_unknown__drop], some []) :=
    frame_of_local (by constructor <;> decide) fun _ => ⟨by constructor <;> decide, by decide, by decide⟩
  cases h : Ether.parse f with
  | error e => exact hbad
  | ok r =>
    cases r with
    | some x => exact hfail
    | none =>
      cases h' : Ether.read f with
      | error e => exact hbad
      | ok x =>
        dsimp only
        cases hf : Rx.etherForUs n x.dst with
        | false => exact hunk
        | true =>
          obtain ⟨ht, hl, hu, hn⟩ := acc2_pre hf
          have key : ∀ y : List CountRx × Option (List Did), Net n y → Frame n ((ether__pre_parse :: etherAccepted n x.dst) ++ y.1, y.2) := by
            intro y hy
            refine frame_of_local (ht.app hy.1) fun s => ?_
            obtain ⟨ml, mu, mn, _⟩ := hy.2 s
            obtain ⟨l1, l2⟩ := hl s
            refine ⟨l1.app ml, ?_, ?_⟩
            · rw [toNet_app, accepted2_app, again_app, hn, l2]
              omega
            · rw [toUpper_app, accepted3_app, hu]
              omega
          simp only [Bool.not_true, Bool.false_eq_true, if_false]
          split
          · exact key _ (mid_none (mid_arp _ (arp_out n x.dst x.data)))
          · split
            · exact key _ (net_ip4 n t₀ t₁ x.data)
            · split
              · exact key _ (net_ip6 t₀ t₁ depth n x.data)
              · exact key ([], some []) (mid_none ⟨by constructor <;> decide, by constructor <;> decide, by decide, by decide, by decide⟩)

end Verif.Counted
