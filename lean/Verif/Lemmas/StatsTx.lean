import Verif.Spec.StatsTx
import Verif.Lemmas.StatsOut
/-! The counted transmit functions: the same as those of the model, and what they count. -/
namespace Verif.CountedTx
open Spec CountTx

/-! ### Without the counters they are the functions of the model -/

theorem same_dst4 (s : Stack) (arp : ArpLookup) (a b : Ip4Address) : (dst4 s arp a b).2 = etherDstIp4 s arp a b := by
  unfold dst4 etherDstIp4 after; repeat' split
  all_goals first | rfl | simp_all

theorem same_dst6 (s : Stack) (nd : NdLookup) (a b : Ip6Address) : (dst6 s nd a b).2 = etherDstIp6 s nd a b := by
  unfold dst6 etherDstIp6 after; repeat' split
  all_goals first | rfl | simp_all

theorem same_dst (s : Stack) (arp : ArpLookup) (nd : NdLookup) (p : Pkt) : (dst s arp nd p).2 = etherDst s arp nd p := by
  cases p <;> simp [dst, etherDst, same_dst4, same_dst6]

theorem same_ether (s : Stack) (arp : ArpLookup) (nd : NdLookup) (esrc edst : MacAddress) (p : Pkt) :
    (ether s arp nd esrc edst p).2 = phtxEther s arp nd esrc edst p := by
  unfold ether phtxEther after
  rw [← same_dst]
  dsimp only
  split
  · rfl
  · generalize dst s arp nd p = r
    obtain ⟨cs, r⟩ := r
    rcases r with e | (e | m) <;> rfl

theorem same_src4 (s : Stack) (a b : Ip4Address) (k : L4Kind) : (src4 s a b k).2 = validateSrcIp4 s a b k := by
  unfold src4 validateSrcIp4; dsimp only
  split
  · rfl
  split
  · generalize s.ip4Unicast = u; cases u <;> rfl
  split
  · generalize s.ip4Unicast = u; cases u <;> rfl
  generalize (if a ∈ s.ip4Broadcast then firstAddr4 s.ip4Host (·.network.bcast = a) else none) = o
  cases o with
  | some x => rfl
  | none =>
    dsimp only
    split
    · generalize firstAddr4 s.ip4Host (·.network.contains b) = o
      cases o with
      | some x => rfl
      | none =>
        dsimp only
        generalize firstAddr4 s.ip4Host (·.gateway.isSome) = o
        cases o with
        | some x => rfl
        | none => dsimp only; split <;> rfl
    · rfl

theorem same_dstIp4 (d : Ip4Address) : (dstIp4 d).2 = validateDstIp4 d := by
  unfold dstIp4 validateDstIp4; split <;> rfl

theorem same_src6 (s : Stack) (a b : Ip6Address) (k : L4Kind) : (src6 s a b k).2 = validateSrcIp6 s a b k := by
  unfold src6 validateSrcIp6
  split
  · rfl
  split
  · generalize s.ip6Unicast = u; cases u <;> rfl
  split
  · generalize firstAddr6 s.ip6Host (·.network.contains b) = o
    cases o with
    | some x => rfl
    | none =>
      dsimp only
      generalize firstAddr6 s.ip6Host (·.gateway.isSome) = o
      cases o with
      | some x => rfl
      | none => dsimp only; split <;> rfl
  · rfl

theorem same_dstIp6 (d : Ip6Address) : (dstIp6 d).2 = validateDstIp6 d := by
  unfold dstIp6 validateDstIp6; split <;> rfl

theorem same_frags {send : Nat → Bool → Bytes → List CountTx × Py (TxStatus × List Outgoing)}
    {send' : Nat → Bool → Bytes → Py (TxStatus × List Outgoing)} (h : ∀ o b d, (send o b d).2 = send' o b d) :
    ∀ (ds : List Bytes) (o : Nat), (frags send o ds).2 = sendFrags send' o ds
  | [], _ => rfl
  | d :: ds, o => by
    have ih := same_frags h ds (o + d.length)
    simp only [frags, sendFrags, ← h, ← ih]
    generalize send o (!ds.isEmpty) d = r
    obtain ⟨cs, r⟩ := r
    cases r with
    | error e => rfl
    | ok r =>
      obtain ⟨st, out⟩ := r
      dsimp only
      generalize frags send (o + d.length) ds = r
      obtain ⟨cs', r⟩ := r
      rcases r with e | ⟨sts, outs⟩ <;> rfl

theorem same_frag4 (s : Stack) (arp : Nat → ArpLookup) (a b : Ip4Address) (ttl proto id o : Nat) (mf : Bool) (d : Bytes) :
    (frag4 s arp a b ttl proto id o mf d).2 = sendFragIp4 s arp a b ttl proto id o mf d := by
  unfold frag4 sendFragIp4; dsimp only
  generalize (fragTx a b ttl id proto o mf).asserts = r
  cases r with
  | error e => rfl
  | ok u => simp only [after, same_ether]; rfl

theorem same_ip4 (s : Stack) (arp : Nat → ArpLookup) (a b : Ip4Address) (ttl : Nat) (c : L4) :
    (ip4 s arp a b ttl c).2 = phtxIp4 s arp a b ttl c := by
  unfold ip4 phtxIp4 after; dsimp only
  split
  · rfl
  rw [← same_src4]
  generalize src4 s a b c.kind = r
  obtain ⟨cs, r⟩ := r
  cases r with
  | error e => rfl
  | ok a' =>
    dsimp only
    rw [← same_dstIp4]
    generalize dstIp4 b = r
    obtain ⟨cs', r⟩ := r
    cases r with
    | error e => rfl
    | ok b' =>
      dsimp only
      generalize (packetTx a' b' ttl c.proto).asserts = r
      cases r with
      | error e => rfl
      | ok u =>
        dsimp only
        split
        · rw [same_ether]
        · dsimp only
          generalize (do
            let ps ← Ip4.pshdrSum a' b' c.proto c.len
            let data ← c.assemble ps
            dataFrags data ((s.mtu - (packetTx a' b' ttl c.proto).hlen) &&& 0b1111111111111000)) = r
          cases r with
          | error e => rfl
          | ok ds =>
            dsimp only
            rw [← same_frags (same_frag4 { s with ip4Id := s.ip4Id + 1 } arp a' b' ttl c.proto (s.ip4Id + 1))]
            generalize frags (frag4 { s with ip4Id := s.ip4Id + 1 } arp a' b' ttl c.proto (s.ip4Id + 1)) 0 ds = r
            obtain ⟨cs, r⟩ := r
            rcases r with e | ⟨sts, outs⟩ <;> rfl

theorem same_ip6Small (s : Stack) (nd : NdLookup) (a b : Ip6Address) (hop : Nat) (c : L4) :
    (ip6Small s nd a b hop c).2 = phtxIp6Small s nd a b hop c := by
  unfold ip6Small phtxIp6Small after; dsimp only
  by_cases h : 0 < hop ∧ hop < 256
  · rw [if_neg (by simpa using h)]
    have : pyAssert (decide (0 < hop) && decide (hop < 256)) = .ok () := by simp [pyAssert, h.1, h.2]
    rw [this]
    show _ = (match validateSrcIp6 s a b c.kind with | .error e => _ | .ok src => _)
    rw [← same_src6]
    generalize src6 s a b c.kind = r
    obtain ⟨cs, r⟩ := r
    cases r with
    | error e => rfl
    | ok a' =>
      dsimp only
      rw [← same_dstIp6]
      generalize dstIp6 b = r
      obtain ⟨cs', r⟩ := r
      cases r with
      | error e => rfl
      | ok b' =>
        dsimp only
        generalize ip6Asserts (packetTx6 a' b' hop) c.proto = r
        cases r with
        | error e => rfl
        | ok u =>
          dsimp only
          show _ = (if 40 + c.len ≤ s.mtu then _ else _)
          split
          · rw [← same_ether]
            generalize ether s (fun _ => none) nd .zero .zero (.ip6 (packetTx6 a' b' hop) c.toCarried) = r
            obtain ⟨cs, r⟩ := r
            cases r <;> rfl
          · rfl
  · rw [if_pos h]
    have : pyAssert (decide (0 < hop) && decide (hop < 256)) = .error .assertionError := by
      unfold pyAssert; rw [if_neg (by simpa using h)]
    rw [this]; rfl

theorem same_frag6 (s : Stack) (nd : Nat → NdLookup) (a b : Ip6Address) (next id o : Nat) (mf : Bool) (d : Bytes) :
    (frag6 s nd a b next id o mf d).2 = sendFragIp6 s nd a b next id o mf d := by
  unfold frag6 sendFragIp6
  by_cases h : next = 58 ∨ next = 17 ∨ next = 6 ∨ next = 255
  · rw [if_neg (fun hn => hn h)]
    have : pyAssert (next == 58 || next == 17 || next == 6 || next == 255) = .ok () := by
      unfold pyAssert; rw [if_pos (by simpa [or_assoc] using h)]
    rw [this, ← same_ip6Small]
    generalize ip6Small s (nd o) a b 64 { Ip6Frag.carried next o mf id d with kind := .other } = r
    obtain ⟨cs, r⟩ := r
    rcases r with e | (r | r) <;> rfl
  · rw [if_pos h]
    have : pyAssert (next == 58 || next == 17 || next == 6 || next == 255) = .error .assertionError := by
      unfold pyAssert; rw [if_neg (by simpa [or_assoc] using h)]
    rw [this]; rfl

theorem same_ip6 (s : Stack) (nd : Nat → NdLookup) (a b : Ip6Address) (hop : Nat) (c : L4) :
    (ip6 s nd a b hop c).2 = phtxIp6 s nd a b hop c := by
  unfold ip6 phtxIp6
  rw [← same_ip6Small]
  generalize ip6Small s (nd 0) a b hop c = r
  obtain ⟨cs, r⟩ := r
  rcases r with e | (r | ⟨a', b'⟩)
  · rfl
  · rfl
  · dsimp only [after]
    generalize (do
        let ps ← Ip6.pshdrSum a' b' c.len c.proto
        let data ← c.assemble ps
        dataFrags data ((s.mtu - 40 - 8) &&& 0b1111111111111000)) = r
    cases r with
    | error e => rfl
    | ok ds =>
      dsimp only
      rw [← same_frags (same_frag6 { s with ip6Id := s.ip6Id + 1 } nd a' b' c.proto (s.ip6Id + 1))]
      generalize frags (frag6 { s with ip6Id := s.ip6Id + 1 } nd a' b' c.proto (s.ip6Id + 1)) 0 ds = r
      obtain ⟨cs, r⟩ := r
      rcases r with e | ⟨sts, outs⟩ <;> rfl

/-! ### Linear equations between counters -/

/-- What is on one side of an equation, less what is on the other. -/
def sum (cs : List CountTx) (L : List CountTx) : Nat := (cs.map fun x => L.count x).sum
def diff (q : List CountTx × List CountTx) (L : List CountTx) : Int := (sum q.1 L : Int) - sum q.2 L

@[simp] theorem sum_append (cs L M : List CountTx) : sum cs (L ++ M) = sum cs L + sum cs M := by
  unfold sum
  induction cs with
  | nil => rfl
  | cons x cs ih => rw [List.map_cons, List.sum_cons, ih, List.map_cons, List.sum_cons, List.map_cons, List.sum_cons, List.count_append]; omega

@[simp] theorem diff_append (q : List CountTx × List CountTx) (L M : List CountTx) : diff q (L ++ M) = diff q L + diff q M := by
  unfold diff; simp only [sum_append]; omega

theorem diff_cons (q : List CountTx × List CountTx) (x : CountTx) (L : List CountTx) : diff q (x :: L) = diff q [x] + diff q L :=
  diff_append q [x] L

@[simp] theorem diff_nil (q : List CountTx × List CountTx) : diff q [] = 0 := by
  have : ∀ cs, sum cs [] = 0 := fun cs => by
    induction cs with
    | nil => rfl
    | cons x cs ih => simpa [sum] using ih
  simp [diff, this]

def qSource : List CountTx × List CountTx := ([ether__pre_assemble], [ether__src_unspec__fill, ether__src_spec])
def qDest : List CountTx × List CountTx :=
  ([ether__pre_assemble], [ether__dst_spec__send, ether__dst_unspec__ip6_lookup, ether__dst_unspec__ip4_lookup, ether__dst_unspec__drop])
def qLook6 : List CountTx × List CountTx :=
  ([ether__dst_unspec__ip6_lookup],
    [ether__dst_unspec__ip6_lookup__multicast__send, ether__dst_unspec__ip6_lookup__extnet__no_gw__drop,
      ether__dst_unspec__ip6_lookup__extnet__gw_nd_cache_hit__send, ether__dst_unspec__ip6_lookup__extnet__gw_nd_cache_miss__drop,
      ether__dst_unspec__ip6_lookup__locnet__nd_cache_hit__send, ether__dst_unspec__ip6_lookup__locnet__nd_cache_miss__drop])
def qLook4 : List CountTx × List CountTx :=
  ([ether__dst_unspec__ip4_lookup],
    [ether__dst_unspec__ip4_lookup__multicast__send, ether__dst_unspec__ip4_lookup__limited_broadcast__send,
      ether__dst_unspec__ip4_lookup__network_broadcast__send, ether__dst_unspec__ip4_lookup__extnet__no_gw__drop,
      ether__dst_unspec__ip4_lookup__extnet__gw_arp_cache_hit__send, ether__dst_unspec__ip4_lookup__extnet__gw_arp_cache_miss__drop,
      ether__dst_unspec__ip4_lookup__locnet__arp_cache_hit__send, ether__dst_unspec__ip4_lookup__locnet__arp_cache_miss__drop])
def qLink : List CountTx × List CountTx :=
  ([ether__pre_assemble], [arp__op_request__send, arp__op_reply__send, ip4__mtu_ok__send, ip4__mtu_exceed__frag__send, ip6__mtu_ok__send])
def qIp4 : List CountTx × List CountTx :=
  ([ip4__pre_assemble], [ip4__src_not_owned__drop, ip4__src_multicast__drop, ip4__src_limited_broadcast__drop, ip4__src_unspecified__drop,
    ip4__dst_unspecified__drop, ip4__mtu_ok__send, ip4__mtu_exceed__frag])
def qIp6 : List CountTx × List CountTx :=
  ([ip6__pre_assemble], [ip6__src_not_owned__drop, ip6__src_multicast__drop, ip6__src_unspecified__drop, ip6__dst_unspecified__drop,
    ip6__mtu_ok__send, ip6__mtu_exceed__frag])
def qFrag : List CountTx × List CountTx := ([ip6__mtu_exceed__frag], [ip6_ext_frag__pre_assemble])
def qIp : List CountTx × List CountTx :=
  ([ip4__pre_assemble, ip6__pre_assemble],
    [udp__send, tcp__send, icmp4__echo_reply__send, icmp4__echo_request__send, icmp4__unreachable_port__send, icmp6__echo_reply__send,
      icmp6__echo_request__send, icmp6__unreachable_port__send, icmp6__nd_router_solicitation__send, icmp6__nd_router_advertisement__send,
      icmp6__nd_neighbor_solicitation__send, icmp6__nd_neighbor_advertisement__send, icmp6__mld2_report__send, ip6_ext_frag__send])
def qSent : List CountTx × List CountTx :=
  ([ether__dst_spec__send, ether__dst_unspec__ip6_lookup__multicast__send, ether__dst_unspec__ip6_lookup__extnet__gw_nd_cache_hit__send,
    ether__dst_unspec__ip6_lookup__locnet__nd_cache_hit__send, ether__dst_unspec__ip4_lookup__multicast__send,
    ether__dst_unspec__ip4_lookup__limited_broadcast__send, ether__dst_unspec__ip4_lookup__network_broadcast__send,
    ether__dst_unspec__ip4_lookup__extnet__gw_arp_cache_hit__send, ether__dst_unspec__ip4_lookup__locnet__arp_cache_hit__send], [])

/-- Counters of the link layer and the internet layer that are increased at all. -/
def low : CountTx → Bool
  | ether__pre_assemble | ether__src_unspec__fill | ether__src_spec | ether__dst_spec__send
  | ether__dst_unspec__ip6_lookup | ether__dst_unspec__ip6_lookup__multicast__send | ether__dst_unspec__ip6_lookup__extnet__no_gw__drop
  | ether__dst_unspec__ip6_lookup__extnet__gw_nd_cache_hit__send | ether__dst_unspec__ip6_lookup__extnet__gw_nd_cache_miss__drop
  | ether__dst_unspec__ip6_lookup__locnet__nd_cache_hit__send | ether__dst_unspec__ip6_lookup__locnet__nd_cache_miss__drop
  | ether__dst_unspec__ip4_lookup | ether__dst_unspec__ip4_lookup__multicast__send
  | ether__dst_unspec__ip4_lookup__limited_broadcast__send | ether__dst_unspec__ip4_lookup__network_broadcast__send
  | ether__dst_unspec__ip4_lookup__extnet__no_gw__drop | ether__dst_unspec__ip4_lookup__extnet__gw_arp_cache_hit__send
  | ether__dst_unspec__ip4_lookup__extnet__gw_arp_cache_miss__drop | ether__dst_unspec__ip4_lookup__locnet__arp_cache_hit__send
  | ether__dst_unspec__ip4_lookup__locnet__arp_cache_miss__drop | ether__dst_unspec__drop
  | ip4__pre_assemble | ip4__src_not_owned__drop | ip4__src_multicast__replace | ip4__src_multicast__drop
  | ip4__src_limited_broadcast__replace | ip4__src_limited_broadcast__drop | ip4__src_network_broadcast__replace
  | ip4__src_network_unspecified__replace_local | ip4__src_network_unspecified__replace_external | ip4__src_unspecified__send
  | ip4__src_unspecified__drop | ip4__dst_unspecified__drop | ip4__mtu_ok__send | ip4__mtu_exceed__frag | ip4__mtu_exceed__frag__send
  | ip6__pre_assemble | ip6__src_not_owned__drop | ip6__src_multicast__replace | ip6__src_multicast__drop
  | ip6__src_network_unspecified__replace_local | ip6__src_network_unspecified__replace_external | ip6__src_unspecified__send
  | ip6__src_unspecified__drop | ip6__dst_unspecified__drop | ip6__mtu_ok__send | ip6__mtu_exceed__frag
  | ip6_ext_frag__pre_assemble | ip6_ext_frag__send => true
  | _ => false

/-- What the lower layers count in one call, `e` being the number of exceptions, `link` and `ip` the packets that come from above to the link
layer and to the internet layer, `i4`, `i6`, `fr` those of which IPv4, IPv6 and IPv6 fragmentation have not yet counted what becomes of
them, `n` the frames counted as queued. -/
structure Fits (L : List CountTx) (link ip i4 i6 fr n : Int) : Prop where
  source : diff qSource L = 0
  dest : diff qDest L = 0
  look6 : diff qLook6 L = 0
  look4 : diff qLook4 L = 0
  link : diff qLink L = link
  ip4 : diff qIp4 L = i4
  ip6 : diff qIp6 L = i6
  frag : diff qFrag L = fr
  ip : diff qIp L = ip
  sent : diff qSent L = n
  low : ∀ x ∈ L, low x = true

instance (L : List CountTx) (link ip i4 i6 fr n : Int) : Decidable (Fits L link ip i4 i6 fr n) :=
  decidable_of_iff (diff qSource L = 0 ∧ diff qDest L = 0 ∧ diff qLook6 L = 0 ∧ diff qLook4 L = 0 ∧ diff qLink L = link ∧ diff qIp4 L = i4 ∧
    diff qIp6 L = i6 ∧ diff qFrag L = fr ∧ diff qIp L = ip ∧ diff qSent L = n ∧ ∀ x ∈ L, CountedTx.low x = true)
    ⟨fun ⟨a, b, c, d, e, f, g, h, i, j, k⟩ => ⟨a, b, c, d, e, f, g, h, i, j, k⟩,
      fun ⟨a, b, c, d, e, f, g, h, i, j, k⟩ => ⟨a, b, c, d, e, f, g, h, i, j, k⟩⟩

theorem Fits.append {L M : List CountTx} {a b c d e f a' b' c' d' e' f' : Int} (h : Fits L a b c d e f) (k : Fits M a' b' c' d' e' f') :
    Fits (L ++ M) (a + a') (b + b') (c + c') (d + d') (e + e') (f + f') where
  source := by rw [diff_append, h.source, k.source]; rfl
  dest := by rw [diff_append, h.dest, k.dest]; rfl
  look6 := by rw [diff_append, h.look6, k.look6]; rfl
  look4 := by rw [diff_append, h.look4, k.look4]; rfl
  link := by rw [diff_append, h.link, k.link]
  ip4 := by rw [diff_append, h.ip4, k.ip4]
  ip6 := by rw [diff_append, h.ip6, k.ip6]
  frag := by rw [diff_append, h.frag, k.frag]
  ip := by rw [diff_append, h.ip, k.ip]
  sent := by rw [diff_append, h.sent, k.sent]
  low x hx := (List.mem_append.mp hx).elim (h.low x) (k.low x)

theorem Fits.nil : Fits [] 0 0 0 0 0 0 := by decide

/-- Exceptions of a result. -/
def exc {α : Type} (r : Py α) : Int := if r.isOk then 0 else 1

/-- One call of the lower layers: packets `link` and `ip` come to it from above. -/
def Sound (link ip : Int) (L : List CountTx) (r : Py (TxStatus × List Outgoing)) : Prop :=
  (∃ i4 i6 fr n : Int, Fits L link ip i4 i6 fr n ∧ 0 ≤ i4 ∧ 0 ≤ i6 ∧ 0 ≤ fr ∧ 0 ≤ n ∧ i4 ≤ exc r ∧ i6 ≤ exc r ∧ fr ≤ exc r ∧
    ∀ st outs, r = .ok (st, outs) → (outs.length : Int) = n) ∧
  ∀ st outs, r = .ok (st, outs) → (∀ x, dropCounter st = some x → x ∈ L) ∧ (st = .passedEtherToTxRing → outs ≠ [])

theorem exc_nonneg {α : Type} (r : Py α) : 0 ≤ exc r := by unfold exc; split <;> decide

theorem Sound.of_error {link ip i4 i6 fr n : Int} {L : List CountTx} (e : PyErr) (h : Fits L link ip i4 i6 fr n)
    (h4 : 0 ≤ i4 ∧ i4 ≤ 1) (h6 : 0 ≤ i6 ∧ i6 ≤ 1) (hr : 0 ≤ fr ∧ fr ≤ 1) (hn : 0 ≤ n) : Sound link ip L (.error e) :=
  ⟨⟨i4, i6, fr, n, h, h4.1, h6.1, hr.1, hn, h4.2, h6.2, hr.2, fun _ _ e => by cases e⟩, fun _ _ e => by cases e⟩

theorem Sound.of_drop {link ip : Int} {L : List CountTx} {st : TxStatus} (h : Fits L link ip 0 0 0 0) (hp : st ≠ .passedEtherToTxRing)
    (hx : ∀ x, dropCounter st = some x → x ∈ L) : Sound link ip L (.ok (st, [])) := by
  refine ⟨⟨0, 0, 0, 0, h, by decide, by decide, by decide, by decide, exc_nonneg _, exc_nonneg _, exc_nonneg _, ?_⟩, ?_⟩ <;>
    (intro st' outs' e; cases e)
  · rfl
  · exact ⟨hx, fun h => absurd h hp⟩

theorem Sound.of_pass {link ip : Int} {L : List CountTx} (o : Outgoing) (h : Fits L link ip 0 0 0 1) :
    Sound link ip L (.ok (.passedEtherToTxRing, [o])) := by
  refine ⟨⟨0, 0, 0, 1, h, by decide, by decide, by decide, by decide, exc_nonneg _, exc_nonneg _, exc_nonneg _, ?_⟩, ?_⟩ <;>
    (intro st' outs' e; cases e)
  · rfl
  · exact ⟨fun x hx => by simp [dropCounter] at hx, fun _ => by simp⟩

/-! ### The link layer -/

/-- What becomes of a lookup: an exception, a frame, or a drop. -/
def kind : Py (Except TxStatus MacAddress) → Option (Option TxStatus)
  | .error _ => none
  | .ok (.ok _) => some none
  | .ok (.error st) => some (some st)

def dstTable : List (List CountTx × Option (Option TxStatus)) :=
  [([ether__dst_unspec__ip4_lookup, ether__dst_unspec__ip4_lookup__multicast__send], none),
   ([ether__dst_unspec__ip4_lookup, ether__dst_unspec__ip4_lookup__multicast__send], some none),
   ([ether__dst_unspec__ip4_lookup, ether__dst_unspec__ip4_lookup__limited_broadcast__send], some none),
   ([ether__dst_unspec__ip4_lookup, ether__dst_unspec__ip4_lookup__network_broadcast__send], some none),
   ([ether__dst_unspec__ip4_lookup, ether__dst_unspec__ip4_lookup__extnet__no_gw__drop], some (some .dropEtherNoGatewayIp4)),
   ([ether__dst_unspec__ip4_lookup, ether__dst_unspec__ip4_lookup__extnet__gw_arp_cache_hit__send], some none),
   ([ether__dst_unspec__ip4_lookup, ether__dst_unspec__ip4_lookup__extnet__gw_arp_cache_miss__drop], some (some .dropEtherGatewayArpCacheFail)),
   ([ether__dst_unspec__ip4_lookup, ether__dst_unspec__ip4_lookup__locnet__arp_cache_hit__send], some none),
   ([ether__dst_unspec__ip4_lookup, ether__dst_unspec__ip4_lookup__locnet__arp_cache_miss__drop], some (some .dropEtherArpCacheFail)),
   ([ether__dst_unspec__ip6_lookup, ether__dst_unspec__ip6_lookup__multicast__send], none),
   ([ether__dst_unspec__ip6_lookup, ether__dst_unspec__ip6_lookup__multicast__send], some none),
   ([ether__dst_unspec__ip6_lookup, ether__dst_unspec__ip6_lookup__extnet__no_gw__drop], some (some .dropEtherNoGatewayIp6)),
   ([ether__dst_unspec__ip6_lookup, ether__dst_unspec__ip6_lookup__extnet__gw_nd_cache_hit__send], some none),
   ([ether__dst_unspec__ip6_lookup, ether__dst_unspec__ip6_lookup__extnet__gw_nd_cache_miss__drop], some (some .dropEtherGatewayNdCacheFail)),
   ([ether__dst_unspec__ip6_lookup, ether__dst_unspec__ip6_lookup__locnet__nd_cache_hit__send], some none),
   ([ether__dst_unspec__ip6_lookup, ether__dst_unspec__ip6_lookup__locnet__nd_cache_miss__drop], some (some .dropEtherNdCacheFail)),
   ([ether__dst_unspec__drop], some (some .dropEtherResolutionFail))]

theorem dst4_table (s : Stack) (arp : ArpLookup) (a b : Ip4Address) : ((dst4 s arp a b).1, kind (dst4 s arp a b).2) ∈ dstTable := by
  unfold dst4 after
  split
  · cases b.multicastMac with
    | error e =>
      exact (by decide : ([ether__dst_unspec__ip4_lookup, ether__dst_unspec__ip4_lookup__multicast__send], none) ∈ dstTable)
    | ok m =>
      exact (by decide : ([ether__dst_unspec__ip4_lookup, ether__dst_unspec__ip4_lookup__multicast__send], some none) ∈ dstTable)
  repeat' split
  all_goals (dsimp only [kind]; decide)

theorem dst6_table (s : Stack) (nd : NdLookup) (a b : Ip6Address) : ((dst6 s nd a b).1, kind (dst6 s nd a b).2) ∈ dstTable := by
  unfold dst6 after
  split
  · cases b.multicastMac with
    | error e =>
      exact (by decide : ([ether__dst_unspec__ip6_lookup, ether__dst_unspec__ip6_lookup__multicast__send], none) ∈ dstTable)
    | ok m =>
      exact (by decide : ([ether__dst_unspec__ip6_lookup, ether__dst_unspec__ip6_lookup__multicast__send], some none) ∈ dstTable)
  repeat' split
  all_goals (dsimp only [kind]; decide)

theorem dst_table (s : Stack) (arp : ArpLookup) (nd : NdLookup) (p : Pkt) : ((dst s arp nd p).1, kind (dst s arp nd p).2) ∈ dstTable := by
  cases p with
  | ip4 h c => exact dst4_table s arp h.src h.dst
  | ip4Frag h c => exact dst4_table s arp h.src h.dst
  | ip6 h c => exact dst6_table s nd h.src h.dst
  | arp => exact (by decide : ([ether__dst_unspec__drop], some (some TxStatus.dropEtherResolutionFail)) ∈ dstTable)
  | raw => exact (by decide : ([ether__dst_unspec__drop], some (some TxStatus.dropEtherResolutionFail)) ∈ dstTable)

def preLists : List (List CountTx) := [[ether__pre_assemble, ether__src_unspec__fill], [ether__pre_assemble, ether__src_spec]]

theorem table_fits : ∀ pre ∈ preLists, ∀ t ∈ dstTable,
    Fits (pre ++ t.1) 1 0 0 0 0 (if (t.2.bind id).isSome then 0 else 1) ∧
    ∀ st ∈ t.2.bind id, st ≠ .passedEtherToTxRing ∧ ∀ x ∈ dropCounter st, x ∈ pre ++ t.1 := by decide +kernel

theorem spec_fits : ∀ pre ∈ preLists, Fits (pre ++ [ether__dst_spec__send]) 1 0 0 0 0 1 := by decide +kernel

theorem ether_sound (s : Stack) (arp : ArpLookup) (nd : NdLookup) (esrc edst : MacAddress) (p : Pkt) :
    Sound 1 0 (ether s arp nd esrc edst p).1 (ether s arp nd esrc edst p).2 := by
  unfold ether after
  dsimp only
  have hpre : [ether__pre_assemble, if esrc.isUnspecified then ether__src_unspec__fill else ether__src_spec] ∈ preLists := by
    split <;> decide
  generalize [ether__pre_assemble, if esrc.isUnspecified then ether__src_unspec__fill else ether__src_spec] = pre at hpre
  generalize (if esrc.isUnspecified then s.mac else esrc) = src
  split
  · exact Sound.of_pass _ (spec_fits pre hpre)
  · have ht := dst_table s arp nd p
    generalize dst s arp nd p = r at ht
    obtain ⟨cs, r⟩ := r
    obtain ⟨hf, hd⟩ := table_fits pre hpre _ ht
    rcases r with e | (st | m)
    · exact Sound.of_error e hf (by decide) (by decide) (by decide) (Int.le.intro 1 rfl)
    · exact Sound.of_drop hf (hd st rfl).1 (hd st rfl).2
    · exact Sound.of_pass _ hf

/-- More counters before. -/
theorem Sound.before {link ip a b : Int} {L M : List CountTx} {r : Py (TxStatus × List Outgoing)} (h : Sound link ip L r)
    (k : Fits M a b 0 0 0 0) : Sound (a + link) (b + ip) (M ++ L) r := by
  obtain ⟨⟨i4, i6, fr, n, hf, h1, h2, h3, h4, h5, h6, h7, h8⟩, hd⟩ := h
  refine ⟨⟨i4, i6, fr, n, ?_, h1, h2, h3, h4, h5, h6, h7, h8⟩, fun st outs e => ⟨fun x hx => ?_, (hd st outs e).2⟩⟩
  · simpa using k.append hf
  · exact List.mem_append_right _ ((hd st outs e).1 x hx)

/-! ### Fragments -/

/-- The fragments together. -/
def SoundAll (L : List CountTx) (r : Py (List TxStatus × List Outgoing)) : Prop :=
  (∃ i4 i6 fr n : Int, Fits L 0 0 i4 i6 fr n ∧ 0 ≤ i4 ∧ 0 ≤ i6 ∧ 0 ≤ fr ∧ 0 ≤ n ∧ i4 ≤ exc r ∧ i6 ≤ exc r ∧ fr ≤ exc r ∧
    ∀ sts outs, r = .ok (sts, outs) → (outs.length : Int) = n) ∧
  ∀ sts outs, r = .ok (sts, outs) → (∀ st ∈ sts, ∀ x, dropCounter st = some x → x ∈ L) ∧ (.passedEtherToTxRing ∈ sts → outs ≠ [])

theorem frags_sound {send : Nat → Bool → Bytes → List CountTx × Py (TxStatus × List Outgoing)}
    (h : ∀ o b d, Sound 0 0 (send o b d).1 (send o b d).2) : ∀ (ds : List Bytes) (o : Nat), SoundAll (frags send o ds).1 (frags send o ds).2
  | [], _ => by
    refine ⟨⟨0, 0, 0, 0, Fits.nil, by decide, by decide, by decide, by decide, exc_nonneg _, exc_nonneg _, exc_nonneg _, ?_⟩, ?_⟩ <;>
      (intro sts outs e; cases e)
    · rfl
    · exact ⟨fun st hs => absurd hs (by simp), fun hs => absurd hs (by simp)⟩
  | d :: ds, o => by
    have ih := frags_sound h ds (o + d.length)
    have h1 := h o (!ds.isEmpty) d
    simp only [frags]
    generalize send o (!ds.isEmpty) d = r at h1
    obtain ⟨cs, r⟩ := r
    obtain ⟨⟨i4, i6, fr, n, hf, p1, p2, p3, p4, p5, p6, p7, p8⟩, hd⟩ := h1
    cases r with
    | error e =>
      refine ⟨⟨i4, i6, fr, n, hf, p1, p2, p3, p4, p5, p6, p7, ?_⟩, ?_⟩ <;> (intro sts outs e; cases e)
    | ok r =>
      obtain ⟨st, out⟩ := r
      dsimp only
      generalize frags send (o + d.length) ds = r at ih
      obtain ⟨cs', r⟩ := r
      obtain ⟨⟨j4, j6, fr', n', hf', q1, q2, q3, q4, q5, q6, q7, q8⟩, hd'⟩ := ih
      have e0 : exc (.ok (st, out) : Py (TxStatus × List Outgoing)) = 0 := rfl
      simp only [e0] at p5 p6 p7
      have hall := hf.append hf'
      rw [Int.add_zero] at hall
      cases r with
      | error e =>
        have e1 : exc (.error e : Py (List TxStatus × List Outgoing)) = 1 := rfl
        simp only [e1] at q5 q6 q7
        refine ⟨⟨_, _, _, _, hall, by omega, by omega, by omega, by omega, ?_, ?_, ?_, ?_⟩, ?_⟩
        · show _ ≤ (1 : Int); omega
        · show _ ≤ (1 : Int); omega
        · show _ ≤ (1 : Int); omega
        all_goals (intro sts outs e; cases e)
      | ok r =>
        obtain ⟨sts, outs⟩ := r
        have e1 : exc (.ok (sts, outs) : Py (List TxStatus × List Outgoing)) = 0 := rfl
        simp only [e1] at q5 q6 q7
        refine ⟨⟨_, _, _, _, hall, by omega, by omega, by omega, by omega, ?_, ?_, ?_, ?_⟩, ?_⟩
        · show _ ≤ (0 : Int); omega
        · show _ ≤ (0 : Int); omega
        · show _ ≤ (0 : Int); omega
        all_goals (intro sts' outs' e; cases e)
        · have a := p8 st out rfl
          have b := q8 sts outs rfl
          rw [List.length_append]; omega
        · obtain ⟨a1, a2⟩ := hd st out rfl
          obtain ⟨b1, b2⟩ := hd' sts outs rfl
          refine ⟨fun x hx y hy => ?_, fun hm => ?_⟩
          · rcases List.mem_cons.mp hx with rfl | hx
            · exact List.mem_append_left _ (a1 y hy)
            · exact List.mem_append_right _ (b1 x hx y hy)
          · rcases List.mem_cons.mp hm with e | hm
            · have := a2 e.symm; simp [this]
            · have := b2 hm; simp [this]

theorem SoundAll.severe {L : List CountTx} {sts : List TxStatus} {outs : List Outgoing} {order : List TxStatus} {u : TxStatus}
    (hu : dropCounter u = none) (hp : u ≠ .passedEtherToTxRing) (h : SoundAll L (.ok (sts, outs))) :
    Sound 0 0 L (.ok (mostSevere order u sts, outs)) := by
  obtain ⟨⟨i4, i6, fr, n, hf, p1, p2, p3, p4, p5, p6, p7, p8⟩, hd⟩ := h
  refine ⟨⟨i4, i6, fr, n, hf, p1, p2, p3, p4, p5, p6, p7, ?_⟩, ?_⟩ <;> (intro st' outs' e; cases e)
  · exact p8 sts outs rfl
  · obtain ⟨a, b⟩ := hd sts outs rfl
    unfold mostSevere
    cases hs : order.find? (· ∈ sts) with
    | none =>
      simp only [Option.getD_none]
      exact ⟨fun x hx => (by rw [hu] at hx; cases hx), fun h => absurd h hp⟩
    | some st =>
      have hm : st ∈ sts := by simpa using List.find?_some hs
      simp only [Option.getD_some]
      exact ⟨a st hm, fun h => b (h ▸ hm)⟩

theorem frag4_sound (s : Stack) (arp : Nat → ArpLookup) (a b : Ip4Address) (ttl proto id o : Nat) (mf : Bool) (d : Bytes) :
    Sound 0 0 (frag4 s arp a b ttl proto id o mf d).1 (frag4 s arp a b ttl proto id o mf d).2 := by
  unfold frag4; dsimp only
  split
  · exact Sound.of_error _ Fits.nil (by decide) (by decide) (by decide) (by decide)
  · exact (ether_sound s (arp o) (fun _ => none) .zero .zero _).before (M := [ip4__mtu_exceed__frag__send]) (a := -1) (b := 0) (by decide)

/-! ### IPv4 -/

def src4Table : List (List CountTx × Option TxStatus) :=
  [([ip4__src_not_owned__drop], some .dropIp4SrcNotOwned), ([ip4__src_multicast__replace], none),
   ([ip4__src_multicast__drop], some .dropIp4SrcMulticast), ([ip4__src_limited_broadcast__replace], none),
   ([ip4__src_limited_broadcast__drop], some .dropIp4SrcLimitedBroadcast), ([ip4__src_network_broadcast__replace], none),
   ([ip4__src_network_unspecified__replace_local], none), ([ip4__src_network_unspecified__replace_external], none),
   ([ip4__src_unspecified__send], none), ([ip4__src_unspecified__drop], some .dropIp4SrcUnspecified), ([], none)]

def dropOf {α : Type} : Except TxStatus α → Option TxStatus
  | .error st => some st
  | .ok _ => none

theorem src4_table (s : Stack) (a b : Ip4Address) (k : L4Kind) : ((src4 s a b k).1, dropOf (src4 s a b k).2) ∈ src4Table := by
  unfold src4; dsimp only
  repeat' split
  all_goals (dsimp only [dropOf]; decide)

theorem src4_fits : ∀ t ∈ src4Table,
    Fits t.1 0 0 (if t.2.isSome then -1 else 0) 0 0 0 ∧ ∀ st ∈ t.2, st ≠ .passedEtherToTxRing ∧ ∀ x ∈ dropCounter st, x ∈ t.1 := by decide +kernel

theorem ip4_sound (s : Stack) (arp : Nat → ArpLookup) (a b : Ip4Address) (ttl : Nat) (c : L4) :
    Sound 0 1 (ip4 s arp a b ttl c).1 (ip4 s arp a b ttl c).2.2 := by
  unfold ip4 after; dsimp only
  have pre : Fits [ip4__pre_assemble] 0 1 1 0 0 0 := by decide
  split
  · exact Sound.of_error _ pre (by decide) (by decide) (by decide) (by decide)
  have ht := src4_table s a b c.kind
  generalize src4 s a b c.kind = r at ht
  obtain ⟨cs, r⟩ := r
  have hf := src4_fits _ ht
  cases r with
  | error st =>
    dsimp only [dropOf] at hf ⊢
    exact Sound.of_drop (pre.append hf.1) (hf.2 st rfl).1 fun x hx => List.mem_append_right _ ((hf.2 st rfl).2 x hx)
  | ok a' =>
    dsimp only [dropOf] at hf ⊢
    have pre' := pre.append hf.1
    simp only [Option.isSome_none, Bool.false_eq_true, if_false, Int.add_zero, Int.zero_add] at pre'
    by_cases hb : b.isUnspecified
    · rw [show dstIp4 b = ([ip4__dst_unspecified__drop], .error .dropIp4DstUnspecified) from if_pos hb]
      dsimp only
      have : Fits [ip4__dst_unspecified__drop] 0 0 (-1) 0 0 0 := by decide
      rw [← List.append_assoc]
      exact Sound.of_drop (pre'.append this) (by decide) fun x hx => List.mem_append_right _ (by cases hx; decide)
    · rw [show dstIp4 b = ([], .ok b) from if_neg hb]
      dsimp only
      rw [List.append_nil]
      split
      · rw [List.append_nil]
        exact Sound.of_error _ pre' (by decide) (by decide) (by decide) (by decide)
      · split
        · have := (ether_sound s (arp 0) (fun _ => none) .zero .zero (.ip4 (packetTx a' b ttl c.proto) c.toCarried)).before
            (M := [ip4__pre_assemble] ++ cs ++ [ip4__mtu_ok__send]) (a := -1) (b := 1)
            (by have := pre'.append (show Fits [ip4__mtu_ok__send] (-1) 0 (-1) 0 0 0 by decide); exact this)
          simpa [List.append_assoc] using this
        · have pre'' := pre'.append (show Fits [ip4__mtu_exceed__frag] 0 0 (-1) 0 0 0 by decide)
          split
          · have := Sound.of_error (by assumption) pre'' (by decide) (by decide) (by decide) (by decide)
            simpa [List.append_assoc] using this
          · rename_i ds hds
            have := frags_sound (frag4_sound { s with ip4Id := s.ip4Id + 1 } arp a' b ttl c.proto (s.ip4Id + 1)) ds 0
            generalize frags (frag4 { s with ip4Id := s.ip4Id + 1 } arp a' b ttl c.proto (s.ip4Id + 1)) 0 ds = r at this
            obtain ⟨cs', r⟩ := r
            cases r with
            | error e =>
              have hs : Sound 0 0 cs' (.error e) := by
                obtain ⟨⟨i4, i6, fr, n, hf, p1, p2, p3, p4, p5, p6, p7, p8⟩, hd⟩ := this
                exact ⟨⟨i4, i6, fr, n, hf, p1, p2, p3, p4, p5, p6, p7, fun _ _ e => by cases e⟩, fun _ _ e => by cases e⟩
              have := hs.before pre''
              simpa [List.append_assoc] using this
            | ok r =>
              obtain ⟨sts, outs⟩ := r
              have := (this.severe (order := severityIp4) (u := .dropIp4Unknown) rfl (by decide)).before pre''
              simpa [List.append_assoc] using this

/-! ### IPv6 -/

def src6Table : List (List CountTx × Option TxStatus) :=
  [([ip6__src_not_owned__drop], some .dropIp6SrcNotOwned), ([ip6__src_multicast__replace], none),
   ([ip6__src_multicast__drop], some .dropIp6SrcMulticast),
   ([ip6__src_network_unspecified__replace_local], none), ([ip6__src_network_unspecified__replace_external], none),
   ([ip6__src_unspecified__send], none), ([ip6__src_unspecified__drop], some .dropIp6SrcUnspecified), ([], none)]

theorem src6_table (s : Stack) (a b : Ip6Address) (k : L4Kind) : ((src6 s a b k).1, dropOf (src6 s a b k).2) ∈ src6Table := by
  unfold src6
  repeat' split
  all_goals (dsimp only [dropOf]; decide)

theorem src6_fits : ∀ t ∈ src6Table,
    Fits t.1 0 0 0 (if t.2.isSome then -1 else 0) 0 0 ∧ ∀ st ∈ t.2, st ≠ .passedEtherToTxRing ∧ ∀ x ∈ dropCounter st, x ∈ t.1 := by decide +kernel

/-- `ip6Small` either does everything, or leaves a packet to be fragmented. -/
def SoundSmall (L : List CountTx) : Py (TxStatus × List Outgoing ⊕ Ip6Address × Ip6Address) → Prop
  | .error e => Sound 0 1 L (.error e)
  | .ok (.inl r) => Sound 0 1 L (.ok r)
  | .ok (.inr _) => Fits L 0 1 0 0 1 0

theorem ip6Small_sound (s : Stack) (nd : NdLookup) (a b : Ip6Address) (hop : Nat) (c : L4) :
    SoundSmall (ip6Small s nd a b hop c).1 (ip6Small s nd a b hop c).2 := by
  unfold ip6Small after; dsimp only
  have pre : Fits [ip6__pre_assemble] 0 1 0 1 0 0 := by decide
  split
  · exact Sound.of_error _ pre (by decide) (by decide) (by decide) (by decide)
  have ht := src6_table s a b c.kind
  generalize src6 s a b c.kind = r at ht
  obtain ⟨cs, r⟩ := r
  have hf := src6_fits _ ht
  cases r with
  | error st =>
    dsimp only [dropOf] at hf ⊢
    exact Sound.of_drop (pre.append hf.1) (hf.2 st rfl).1 fun x hx => List.mem_append_right _ ((hf.2 st rfl).2 x hx)
  | ok a' =>
    dsimp only [dropOf] at hf ⊢
    have pre' := pre.append hf.1
    simp only [Option.isSome_none, Bool.false_eq_true, if_false, Int.add_zero, Int.zero_add] at pre'
    by_cases hb : b.isUnspecified
    · rw [show dstIp6 b = ([ip6__dst_unspecified__drop], .error .dropIp6DstUnspecified) from if_pos hb]
      dsimp only
      have : Fits [ip6__dst_unspecified__drop] 0 0 0 (-1) 0 0 := by decide
      rw [← List.append_assoc]
      exact Sound.of_drop (pre'.append this) (by decide) fun x hx => List.mem_append_right _ (by cases hx; decide)
    · rw [show dstIp6 b = ([], .ok b) from if_neg hb]
      dsimp only
      rw [List.append_nil]
      split
      · rw [List.append_nil]
        exact Sound.of_error _ pre' (by decide) (by decide) (by decide) (by decide)
      · split
        · have := (ether_sound s (fun _ => none) nd .zero .zero (.ip6 (packetTx6 a' b hop) c.toCarried)).before
            (M := [ip6__pre_assemble] ++ cs ++ [ip6__mtu_ok__send]) (a := -1) (b := 1)
            (by have := pre'.append (show Fits [ip6__mtu_ok__send] (-1) 0 0 (-1) 0 0 by decide); exact this)
          generalize ether s (fun _ => none) nd .zero .zero (.ip6 (packetTx6 a' b hop) c.toCarried) = r at this
          obtain ⟨cs', r⟩ := r
          cases r with
          | error e => simpa [List.append_assoc, SoundSmall] using this
          | ok r => simpa [List.append_assoc, SoundSmall] using this
        · have := pre'.append (show Fits [ip6__mtu_exceed__frag] 0 0 0 (-1) 1 0 by decide)
          simpa [List.append_assoc, SoundSmall] using this

theorem frag6_sound (s : Stack) (nd : Nat → NdLookup) (a b : Ip6Address) (next id o : Nat) (mf : Bool) (d : Bytes) :
    Sound 0 0 (frag6 s nd a b next id o mf d).1 (frag6 s nd a b next id o mf d).2 := by
  unfold frag6
  split
  · exact Sound.of_error _ Fits.nil (by decide) (by decide) (by decide) (by decide)
  · have h := ip6Small_sound s (nd o) a b 64 { Ip6Frag.carried next o mf id d with kind := .other }
    generalize ip6Small s (nd o) a b 64 { Ip6Frag.carried next o mf id d with kind := .other } = r at h
    obtain ⟨cs, r⟩ := r
    have hx : Fits [ip6_ext_frag__send] 0 (-1) 0 0 0 0 := by decide
    rcases r with e | (r | r)
    · exact Sound.before (r := .error e) h hx
    · exact Sound.before (r := .ok r) h hx
    · exact Sound.of_error _ (hx.append h) (by decide) (by decide) (by decide) (by decide)

theorem ip6_sound (s : Stack) (nd : Nat → NdLookup) (a b : Ip6Address) (hop : Nat) (c : L4) :
    Sound 0 1 (ip6 s nd a b hop c).1 (ip6 s nd a b hop c).2.2 := by
  unfold ip6
  have h := ip6Small_sound s (nd 0) a b hop c
  generalize ip6Small s (nd 0) a b hop c = r at h
  obtain ⟨cs, r⟩ := r
  rcases r with e | (r | ⟨a', b'⟩)
  · exact h
  · exact h
  · dsimp only [after]
    have pre := Fits.append h (show Fits [ip6_ext_frag__pre_assemble] 0 0 0 0 (-1) 0 by decide)
    split
    · have := Sound.of_error (by assumption) pre (by decide) (by decide) (by decide) (by decide)
      simpa [List.append_assoc] using this
    · rename_i ds hds
      have := frags_sound (frag6_sound { s with ip6Id := s.ip6Id + 1 } nd a' b' c.proto (s.ip6Id + 1)) ds 0
      generalize frags (frag6 { s with ip6Id := s.ip6Id + 1 } nd a' b' c.proto (s.ip6Id + 1)) 0 ds = r at this
      obtain ⟨cs', r⟩ := r
      cases r with
      | error e =>
        have hs : Sound 0 0 cs' (.error e) := by
          obtain ⟨⟨i4, i6, fr, n, hf, p1, p2, p3, p4, p5, p6, p7, p8⟩, hd⟩ := this
          exact ⟨⟨i4, i6, fr, n, hf, p1, p2, p3, p4, p5, p6, p7, fun _ _ e => by cases e⟩, fun _ _ e => by cases e⟩
        have := hs.before pre
        simpa [List.append_assoc] using this
      | ok r =>
        obtain ⟨sts, outs⟩ := r
        have := (this.severe (order := severityIp6) (u := .dropIp6ExtFragUnknown) rfl (by decide)).before pre
        simpa [List.append_assoc] using this

/-! ### The upper layers -/

def qArp : List CountTx × List CountTx := ([arp__pre_assemble], [arp__op_request__send, arp__op_reply__send])
def qUdp : List CountTx × List CountTx := ([udp__pre_assemble], [udp__send, udp__unknown__drop])
def qTcp : List CountTx × List CountTx := ([tcp__pre_assemble], [tcp__send, tcp__unknown__drop])
def qIcmp4 : List CountTx × List CountTx :=
  ([icmp4__pre_assemble], [icmp4__echo_reply__send, icmp4__echo_request__send, icmp4__unreachable_port__send])
def qIcmp6 : List CountTx × List CountTx :=
  ([icmp6__pre_assemble], [icmp6__echo_reply__send, icmp6__echo_request__send, icmp6__unreachable_port__send, icmp6__nd_router_solicitation__send,
    icmp6__nd_router_advertisement__send, icmp6__nd_neighbor_solicitation__send, icmp6__nd_neighbor_advertisement__send, icmp6__mld2_report__send])
def qNever : List CountTx × List CountTx :=
  ([arp__no_proto_support__drop, ip4__no_proto_support__drop, ip6__no_proto_support__drop, icmp4__unknown__drop, icmp6__unknown__drop], [])

/-- What the upper layers count in a call. -/
structure Top (L : List CountTx) (link ip ar ud tc : Int) : Prop where
  source : diff qSource L = 0
  dest : diff qDest L = 0
  look6 : diff qLook6 L = 0
  look4 : diff qLook4 L = 0
  link : diff qLink L = link
  ip4 : diff qIp4 L = 0
  ip6 : diff qIp6 L = 0
  frag : diff qFrag L = 0
  ip : diff qIp L = ip
  sent : diff qSent L = 0
  arp : diff qArp L = ar
  udp : diff qUdp L = ud
  tcp : diff qTcp L = tc
  icmp4 : diff qIcmp4 L = 0
  icmp6 : diff qIcmp6 L = 0
  never : diff qNever L = 0

instance (L : List CountTx) (link ip ar ud tc : Int) : Decidable (Top L link ip ar ud tc) :=
  decidable_of_iff (diff qSource L = 0 ∧ diff qDest L = 0 ∧ diff qLook6 L = 0 ∧ diff qLook4 L = 0 ∧ diff qLink L = link ∧ diff qIp4 L = 0 ∧
    diff qIp6 L = 0 ∧ diff qFrag L = 0 ∧ diff qIp L = ip ∧ diff qSent L = 0 ∧ diff qArp L = ar ∧ diff qUdp L = ud ∧ diff qTcp L = tc ∧
    diff qIcmp4 L = 0 ∧ diff qIcmp6 L = 0 ∧ diff qNever L = 0)
    ⟨fun ⟨a, b, c, d, e, f, g, h, i, j, k, l, m, n, o, p⟩ => ⟨a, b, c, d, e, f, g, h, i, j, k, l, m, n, o, p⟩,
      fun ⟨a, b, c, d, e, f, g, h, i, j, k, l, m, n, o, p⟩ => ⟨a, b, c, d, e, f, g, h, i, j, k, l, m, n, o, p⟩⟩

theorem Top.append {L M : List CountTx} {a b c d e a' b' c' d' e' : Int} (h : Top L a b c d e) (k : Top M a' b' c' d' e') :
    Top (L ++ M) (a + a') (b + b') (c + c') (d + d') (e + e') where
  source := by rw [diff_append, h.source, k.source]; rfl
  dest := by rw [diff_append, h.dest, k.dest]; rfl
  look6 := by rw [diff_append, h.look6, k.look6]; rfl
  look4 := by rw [diff_append, h.look4, k.look4]; rfl
  link := by rw [diff_append, h.link, k.link]
  ip4 := by rw [diff_append, h.ip4, k.ip4]; rfl
  ip6 := by rw [diff_append, h.ip6, k.ip6]; rfl
  frag := by rw [diff_append, h.frag, k.frag]; rfl
  ip := by rw [diff_append, h.ip, k.ip]
  sent := by rw [diff_append, h.sent, k.sent]; rfl
  arp := by rw [diff_append, h.arp, k.arp]
  udp := by rw [diff_append, h.udp, k.udp]
  tcp := by rw [diff_append, h.tcp, k.tcp]
  icmp4 := by rw [diff_append, h.icmp4, k.icmp4]; rfl
  icmp6 := by rw [diff_append, h.icmp6, k.icmp6]; rfl
  never := by rw [diff_append, h.never, k.never]; rfl

theorem Top.countIf (c : Bool) {x : CountTx} (h : Top [x] 0 0 0 0 0) : Top (countIf c x) 0 0 0 0 0 := by
  cases c
  · exact (by decide : Top [] 0 0 0 0 0)
  · exact h

theorem top_options (m w : Option Nat) : Top (optionCounts m w) 0 0 0 0 0 := by
  unfold optionCounts
  exact ((Top.countIf _ (by decide)).append (Top.countIf _ (by decide))).append (Top.countIf _ (by decide))

theorem top_flags (f : Tcp.Flags) : Top (flagCounts f) 0 0 0 0 0 := by
  unfold flagCounts
  exact ((((((((Top.countIf _ (by decide)).append (Top.countIf _ (by decide))).append (Top.countIf _ (by decide))).append
    (Top.countIf _ (by decide))).append (Top.countIf _ (by decide))).append (Top.countIf _ (by decide))).append
    (Top.countIf _ (by decide))).append (Top.countIf _ (by decide))).append (Top.countIf _ (by decide))

theorem count_low {M : List CountTx} (h : ∀ x ∈ M, low x = true) {x : CountTx} (hx : low x = false) : M.count x = 0 := by
  rw [List.count_eq_zero]
  intro hm
  rw [h x hm] at hx
  cases hx

theorem diff_low {M : List CountTx} (h : ∀ x ∈ M, low x = true) {q : List CountTx × List CountTx}
    (hq : ∀ x ∈ q.1 ++ q.2, low x = false) : diff q M = 0 := by
  have : ∀ cs, (∀ x ∈ cs, low x = false) → sum cs M = 0 := by
    intro cs
    induction cs with
    | nil => intro _; rfl
    | cons x cs ih =>
      intro hc
      have h1 := ih fun y hy => hc y (List.mem_cons_of_mem _ hy)
      have h2 := count_low h (hc x List.mem_cons_self)
      unfold sum at h1 ⊢
      rw [List.map_cons, List.sum_cons, h1, h2]
  unfold diff
  rw [this _ fun x hx => hq x (List.mem_append_left _ hx), this _ fun x hx => hq x (List.mem_append_right _ hx)]
  rfl

/-- One call: what the upper layers count, `T`, and what the lower ones count, `M`. -/
theorem balanced_of {T M : List CountTx} {link ip ar ud tc i4 i6 fr n : Int} {e : Nat} (ht : Top T (-link) (-ip) ar ud tc)
    (hs : Fits M link ip i4 i6 fr n) (h4 : 0 ≤ i4 ∧ i4 ≤ e) (h6 : 0 ≤ i6 ∧ i6 ≤ e) (hr : 0 ≤ fr ∧ fr ≤ e) (ha : 0 ≤ ar ∧ ar ≤ e)
    (hu : 0 ≤ ud ∧ ud ≤ e) (hc : 0 ≤ tc ∧ tc ≤ e) :
    BalancedTx (fun x => (T ++ M).count x) e ∧ (queuedTx (fun x => (T ++ M).count x) : Int) = n := by
  have a1 : diff qSource (T ++ M) = 0 := by rw [diff_append, ht.source, hs.source]; rfl
  have a2 : diff qDest (T ++ M) = 0 := by rw [diff_append, ht.dest, hs.dest]; rfl
  have a3 : diff qLook6 (T ++ M) = 0 := by rw [diff_append, ht.look6, hs.look6]; rfl
  have a4 : diff qLook4 (T ++ M) = 0 := by rw [diff_append, ht.look4, hs.look4]; rfl
  have a5 : diff qLink (T ++ M) = 0 := by rw [diff_append, ht.link, hs.link]; omega
  have a6 : diff qIp4 (T ++ M) = i4 := by rw [diff_append, ht.ip4, hs.ip4]; omega
  have a7 : diff qIp6 (T ++ M) = i6 := by rw [diff_append, ht.ip6, hs.ip6]; omega
  have a8 : diff qFrag (T ++ M) = fr := by rw [diff_append, ht.frag, hs.frag]; omega
  have a9 : diff qIp (T ++ M) = 0 := by rw [diff_append, ht.ip, hs.ip]; omega
  have a10 : diff qSent (T ++ M) = n := by rw [diff_append, ht.sent, hs.sent]; omega
  have a11 : diff qArp (T ++ M) = ar := by rw [diff_append, ht.arp, diff_low hs.low (by decide)]; omega
  have a12 : diff qUdp (T ++ M) = ud := by rw [diff_append, ht.udp, diff_low hs.low (by decide)]; omega
  have a13 : diff qTcp (T ++ M) = tc := by rw [diff_append, ht.tcp, diff_low hs.low (by decide)]; omega
  have a14 : diff qIcmp4 (T ++ M) = 0 := by rw [diff_append, ht.icmp4, diff_low hs.low (by decide)]; rfl
  have a15 : diff qIcmp6 (T ++ M) = 0 := by rw [diff_append, ht.icmp6, diff_low hs.low (by decide)]; rfl
  have a16 : diff qNever (T ++ M) = 0 := by rw [diff_append, ht.never, diff_low hs.low (by decide)]; rfl
  generalize T ++ M = L at *
  clear ht hs
  simp only [diff, sum, qSource, qDest, qLook6, qLook4, qLink, qIp4, qIp6, qFrag, qIp, qSent, qArp, qUdp, qTcp, qIcmp4, qIcmp6, qNever,
    List.map_cons, List.map_nil, List.sum_cons, List.sum_nil] at a1 a2 a3 a4 a5 a6 a7 a8 a9 a10 a11 a12 a13 a14 a15 a16
  constructor
  · constructor
    case arp | ip4 | ip6 | frag6 | udp | tcp => all_goals (unfold AddsUp; omega)
    all_goals omega
  · simp only [queuedTx]; omega

/-! ### Calls -/

/-- One call. -/
structure CallOk (L : List CountTx) (r : Py (TxStatus × List Outgoing)) : Prop where
  balanced : BalancedTx (fun x => L.count x) (if r.isOk then 0 else 1)
  frames : ∀ st outs, r = .ok (st, outs) → outs.length = queuedTx (fun x => L.count x)
  reason : ∀ st outs, r = .ok (st, outs) → ∀ x, dropCounter st = some x → x ∈ L
  passed : ∀ outs, r = .ok (.passedEtherToTxRing, outs) → outs ≠ []

theorem callOk_of {T M : List CountTx} {link ip : Int} {r : Py (TxStatus × List Outgoing)} (ht : Top T (-link) (-ip) 0 0 0)
    (hs : Sound link ip M r) : CallOk (T ++ M) r := by
  obtain ⟨⟨i4, i6, fr, n, hf, p1, p2, p3, p4, p5, p6, p7, p8⟩, hd⟩ := hs
  have he : ((if r.isOk then 0 else 1 : Nat) : Int) = exc r := by unfold exc; split <;> rfl
  obtain ⟨hb, hq⟩ := balanced_of (e := if r.isOk then 0 else 1) ht hf (by omega) (by omega) (by omega) (by omega) (by omega) (by omega)
  refine ⟨hb, fun st outs e => ?_, fun st outs e x hx => List.mem_append_right _ ((hd st outs e).1 x hx), fun outs e => (hd _ outs e).2 rfl⟩
  have := p8 st outs e
  omega

theorem callOk_error {T : List CountTx} {ar ud tc : Int} (e : PyErr) (ht : Top T 0 0 ar ud tc) (ha : 0 ≤ ar ∧ ar ≤ 1) (hu : 0 ≤ ud ∧ ud ≤ 1)
    (hc : 0 ≤ tc ∧ tc ≤ 1) : CallOk T (.error e) := by
  obtain ⟨hb, -⟩ := balanced_of (e := 1) (link := 0) (ip := 0) ht Fits.nil (by decide) (by decide) (by decide) ha hu hc
  rw [List.append_nil] at hb
  exact ⟨hb, fun _ _ e => by (cases e), fun _ _ e => by (cases e), fun _ e => by (cases e)⟩

theorem callOk_drop {T : List CountTx} {st : TxStatus} (ht : Top T 0 0 0 0 0) (hp : st ≠ .passedEtherToTxRing)
    (hx : ∀ x, dropCounter st = some x → x ∈ T) : CallOk T (.ok (st, [])) := by
  obtain ⟨hb, hq⟩ := balanced_of (e := 0) (link := 0) (ip := 0) ht Fits.nil (by decide) (by decide) (by decide) (by decide) (by decide) (by decide)
  rw [List.append_nil] at hb hq
  refine ⟨hb, ?_, ?_, ?_⟩
  · intro st outs e; cases e; simp only [List.length_nil]; omega
  · intro st outs e; cases e; exact hx
  · intro outs e; cases e; exact absurd rfl hp

theorem arp_ok (s : Stack) (l : Socks.Links) (esrc edst : MacAddress) (oper : Nat) (sha : MacAddress) (spa : Ip4Address) (tha : MacAddress)
    (tpa : Ip4Address) : CallOk (arp s l esrc edst oper sha spa tha tpa).1 (arp s l esrc edst oper sha spa tha tpa).2 := by
  unfold arp after
  split
  · rename_i h
    rcases h with rfl | rfl
    · exact callOk_of (T := [arp__pre_assemble, arp__op_request__send]) (by decide) (ether_sound s (l.arp 0) (l.nd 0) esrc edst _)
    · exact callOk_of (T := [arp__pre_assemble, arp__op_reply__send]) (by decide) (ether_sound s (l.arp 0) (l.nd 0) esrc edst _)
  · rename_i h
    have h1 : decide (oper = 1) = false := by simp; omega
    have h2 : decide (oper = 2) = false := by simp; omega
    rw [h1, h2]
    exact callOk_error (T := [arp__pre_assemble]) (ar := 1) (ud := 0) (tc := 0) .assertionError (by decide) (by decide) (by decide) (by decide)

theorem udp_ok (st : Stack) (l : Socks.Links) (src dst : IpAddress) (sport dport : Nat) (data : Bytes) :
    CallOk (udp st l src dst sport dport data).1 (udp st l src dst sport dport data).2.2 := by
  unfold udp after
  split
  · exact callOk_error (T := [udp__pre_assemble]) (ar := 0) (ud := 1) (tc := 0) .assertionError (by decide) (by decide) (by decide) (by decide)
  · cases src <;> cases dst
    · exact callOk_of (T := [udp__pre_assemble, udp__send]) (by decide) (ip4_sound st l.arp _ _ 64 _)
    · exact callOk_drop (T := [udp__pre_assemble, udp__unknown__drop]) (by decide) (by decide) (by decide)
    · exact callOk_drop (T := [udp__pre_assemble, udp__unknown__drop]) (by decide) (by decide) (by decide)
    · exact callOk_of (T := [udp__pre_assemble, udp__send]) (by decide) (ip6_sound st l.nd _ _ 64 _)

theorem tcp_ok (st : Stack) (l : Socks.Links) (src dst : IpAddress) (h : Tcp.Tx) (m w : Option Nat) :
    CallOk (tcp st l src dst h m w).1 (tcp st l src dst h m w).2.2 := by
  unfold tcp after
  have ho := top_options m w
  have hf := top_flags h.flags
  generalize optionCounts m w = O at ho ⊢
  generalize flagCounts h.flags = F at hf ⊢
  have pre := (show Top [tcp__pre_assemble] 0 0 0 0 1 by decide).append ho
  split
  · dsimp only; rw [List.append_nil]
    exact callOk_error .assertionError pre (by decide) (by decide) (by decide)
  · cases src <;> cases dst <;> dsimp only
    · rename_i a b
      have := callOk_of (link := 0) (ip := 1) ((pre.append hf).append (show Top [tcp__send] 0 (-1) 0 0 (-1) by decide))
        (ip4_sound st l.arp a b 64 { Tcp.carried { h with options := tcpOptions m w } with kind := .other })
      simpa only [List.append_assoc] using this
    · have := callOk_drop (st := .dropTcpUnknown) ((pre.append hf).append (show Top [tcp__unknown__drop] 0 0 0 0 (-1) by decide)) (by decide)
        (fun x hx => List.mem_append_right _ (by cases hx; decide))
      simpa only [List.append_assoc] using this
    · have := callOk_drop (st := .dropTcpUnknown) ((pre.append hf).append (show Top [tcp__unknown__drop] 0 0 0 0 (-1) by decide)) (by decide)
        (fun x hx => List.mem_append_right _ (by cases hx; decide))
      simpa only [List.append_assoc] using this
    · rename_i a b
      have := callOk_of (link := 0) (ip := 1) ((pre.append hf).append (show Top [tcp__send] 0 (-1) 0 0 (-1) by decide))
        (ip6_sound st l.nd a b 64 { Tcp.carried { h with options := tcpOptions m w } with kind := .other })
      simpa only [List.append_assoc] using this

theorem icmp4_ok (st : Stack) (l : Socks.Links) (src dst : Ip4Address) (m : Icmp4.Msg) :
    CallOk (icmp4 st l src dst m).1 (icmp4 st l src dst m).2.2 := by
  have : Top [icmp4__pre_assemble, counter4 m] 0 (-1) 0 0 0 := by cases m <;> (dsimp only [counter4]; decide)
  exact callOk_of this (ip4_sound st l.arp src dst 64 _)

theorem icmp6_ok (st : Stack) (l : Socks.Links) (src dst : Ip6Address) (hop : Nat) (m : Icmp6.Msg) :
    CallOk (icmp6 st l src dst hop m).1 (icmp6 st l src dst hop m).2.2 := by
  have : Top [icmp6__pre_assemble, counter6 m] 0 (-1) 0 0 0 := by cases m <;> (dsimp only [counter6]; decide)
  exact callOk_of this (ip6_sound st l.nd src dst hop _)

theorem call_ok (r : CallOut) : CallOk r.run.1 r.run.2 := by
  obtain ⟨s, l, o⟩ := r
  cases o with
  | arp => exact arp_ok ..
  | udp => exact udp_ok ..
  | tcp => exact tcp_ok ..
  | icmp4 => exact icmp4_ok ..
  | icmp6 => exact icmp6_ok ..

end Verif.CountedTx
