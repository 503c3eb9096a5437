import Verif.Lemmas.StatsOut
import Verif.Lemmas.WireTcp
import Verif.Props.Wire
/-!
C87: the packet counters of the receive side.
-/
namespace Verif
open Spec CountRx

/-- C87: but for the counters, the handler with counters is the handler of which the other properties speak. -/
theorem C87_same (n : Node) (t₀ t₁ : Int) (depth : Nat) (F : Bytes) : (Counted.ether n t₀ t₁ depth F).2 = Rx.ether n t₀ t₁ depth F :=
  Counted.ether_eq n t₀ t₁ depth F

namespace Counted

/-- The layer a counter belongs to. -/
def layer : CountRx → Nat
  | ether__pre_parse | ether__failed_parse__drop | ether__dst_unknown__drop | ether__dst_unicast | ether__dst_multicast
  | ether__dst_broadcast => 0
  | arp__pre_parse | arp__failed_parse__drop | arp__op_request | arp__op_request__ip_conflict | arp__op_request__tpa_stack__respond
  | arp__op_request__tpa_unknown__drop | arp__op_request__update_arp_cache | arp__op_reply | arp__op_reply__ip_conflict
  | arp__op_reply__update_arp_cache | arp__op_reply__update_arp_cache_gratuitous => 1
  | ip4__pre_parse | ip4__failed_parse__drop | ip4__dst_unknown__drop | ip4__dst_unicast | ip4__dst_multicast | ip4__dst_broadcast
  | ip4__frag | ip4__defrag => 2
  | ip6__pre_parse | ip6__failed_parse__drop | ip6__dst_unknown__drop | ip6__dst_unicast | ip6__dst_multicast => 3
  | ip6_ext_frag__pre_parse | ip6_ext_frag__failed_parse | ip6_ext_frag__defrag => 4
  | icmp4__pre_parse | icmp4__failed_parse__drop | icmp4__echo_request__respond_echo_reply | icmp4__unreachable => 5
  | udp__pre_parse | udp__failed_parse__drop | udp__socket_match | udp__ip_source_unspecified | udp__echo_native__respond_udp
  | udp__no_socket_match__respond_icmp4_unreachable | udp__no_socket_match__respond_icmp6_unreachable => 7
  | tcp__pre_parse | tcp__failed_parse__drop | tcp__socket_match_active__forward_to_socket
  | tcp__socket_match_listening__forward_to_socket | tcp__no_socket_match__respond_rst => 8
  | _ => 6

theorem layer_arp : ∀ x ∈ arpOut, arp__pre_parse ∈ x.1 ∧ ∀ c ∈ x.1, layer c = 1 := by decide +kernel
theorem layer_icmp4 : ∀ x ∈ icmp4Out, icmp4__pre_parse ∈ x.1 ∧ ∀ c ∈ x.1, layer c = 5 := by decide +kernel
theorem layer_icmp6 : ∀ x ∈ icmp6Out, icmp6__pre_parse ∈ x.1 ∧ ∀ c ∈ x.1, layer c = 6 := by decide +kernel
theorem layer_udp : ∀ x ∈ udpOut, udp__pre_parse ∈ x.1 ∧ ∀ c ∈ x.1, layer c = 7 := by decide +kernel
theorem layer_tcp : ∀ x ∈ tcpOut, tcp__pre_parse ∈ x.1 ∧ ∀ c ∈ x.1, layer c = 8 := by decide +kernel

theorem arp_layer (n : Node) (dst : MacAddress) (f : Bytes) : arp__pre_parse ∈ (arp n dst f).1 ∧ ∀ c ∈ (arp n dst f).1, layer c = 1 :=
  layer_arp _ (arp_out n dst f)
theorem icmp4_layer (n : Node) (src dst : Ip4Address) (dlen : Nat) (f : Bytes) :
    icmp4__pre_parse ∈ (icmp4 n src dst dlen f).1 ∧ ∀ c ∈ (icmp4 n src dst dlen f).1, layer c = 5 :=
  layer_icmp4 _ (icmp4_out n src dst dlen f)
theorem icmp6_layer (n : Node) (src dst : Ip6Address) (hop dlen ps : Nat) (f : Bytes) :
    icmp6__pre_parse ∈ (icmp6 n src dst hop dlen ps f).1 ∧ ∀ c ∈ (icmp6 n src dst hop dlen ps f).1, layer c = 6 :=
  layer_icmp6 _ (icmp6_out n src dst hop dlen ps f)
theorem udp_layer (n : Node) {ip : Rx.IpHdr} (hv : SameVersion ip) (f : Bytes) :
    udp__pre_parse ∈ (udp n ip f).1 ∧ ∀ c ∈ (udp n ip f).1, layer c = 7 :=
  layer_udp _ (udp_out n hv f)
theorem tcp_layer (n : Node) (ip : Rx.IpHdr) (f : Bytes) : tcp__pre_parse ∈ (tcp n ip f).1 ∧ ∀ c ∈ (tcp n ip f).1, layer c = 8 :=
  layer_tcp _ (tcp_out n ip f)

theorem mem_countIf {b : Bool} {c x : CountRx} : c ∈ countIf b x ↔ b = true ∧ c = x := by
  cases b <;> simp [countIf]

theorem dispatch4_layer (n : Node) (h : Ip4.Hdr) (f : Bytes) :
    (icmp4__pre_parse ∈ (ip4Dispatch n h f).1 ↔ h.proto = 1) ∧ (udp__pre_parse ∈ (ip4Dispatch n h f).1 ↔ h.proto = 17) ∧
      (tcp__pre_parse ∈ (ip4Dispatch n h f).1 ↔ h.proto = 6) ∧ ∀ c ∈ (ip4Dispatch n h f).1, 5 ≤ layer c := by
  unfold ip4Dispatch
  split
  · next h1 =>
    obtain ⟨a, b⟩ := icmp4_layer n h.src h.dst h.dlen f
    refine ⟨by simp [h1, a], ?_, ?_, fun c hc => by rw [b c hc]⟩
    · constructor
      · intro hc; exact absurd (b _ hc) (by decide)
      · intro; omega
    · constructor
      · intro hc; exact absurd (b _ hc) (by decide)
      · intro; omega
  · split
    · next h1 =>
      obtain ⟨a, b⟩ := udp_layer n (ofIp4_same h) f
      refine ⟨?_, by simp [h1, a], ?_, fun c hc => by rw [b c hc]; omega⟩
      · constructor
        · intro hc; exact absurd (b _ hc) (by decide)
        · intro; omega
      · constructor
        · intro hc; exact absurd (b _ hc) (by decide)
        · intro; omega
    · split
      · next h1 =>
        obtain ⟨a, b⟩ := tcp_layer n (Rx.ofIp4 h) f
        refine ⟨?_, ?_, by simp [h1, a], fun c hc => by rw [b c hc]; omega⟩
        · constructor
          · intro hc; exact absurd (b _ hc) (by decide)
          · intro; omega
        · constructor
          · intro hc; exact absurd (b _ hc) (by decide)
          · intro; omega
      · next h1 h2 h3 => simp [h1, h2, h3]

theorem ip4Accepted_layer (s : Stack) (dst : Ip4Address) : ∀ c ∈ ip4Accepted s dst, layer c = 2 := by
  intro c hc
  simp only [ip4Accepted, List.mem_append, mem_countIf] at hc
  rcases hc with (⟨-, rfl⟩ | ⟨-, rfl⟩) | ⟨-, rfl⟩ <;> rfl
theorem ip6Accepted_layer (s : Stack) (dst : Ip6Address) : ∀ c ∈ ip6Accepted s dst, layer c = 3 := by
  intro c hc
  simp only [ip6Accepted, List.mem_append, mem_countIf] at hc
  rcases hc with ⟨-, rfl⟩ | ⟨-, rfl⟩ <;> rfl
theorem etherAccepted_layer (n : Node) (dst : MacAddress) : ether__pre_parse ∉ etherAccepted n dst ∧ ∀ c ∈ etherAccepted n dst, layer c = 0 := by
  constructor
  · simp [etherAccepted, mem_countIf]
  · intro c hc
    simp only [etherAccepted, List.mem_append, mem_countIf] at hc
    rcases hc with (⟨-, rfl⟩ | ⟨-, rfl⟩) | ⟨-, rfl⟩ <;> rfl

theorem ip4_layer (n : Node) (t₀ t₁ : Int) (f : Bytes) : ∀ c ∈ (ip4 n t₀ t₁ f).1, 2 ≤ layer c ∧ layer c ≠ 3 := by
  intro c
  unfold ip4
  have hd : ∀ n h f, c ∈ (ip4Dispatch n h f).1 → 2 ≤ layer c ∧ layer c ≠ 3 := fun n h f hc => by
    have := (dispatch4_layer n h f).2.2.2 c hc
    omega
  have ha : ∀ s dst, c ∈ ip4Accepted s dst → 2 ≤ layer c ∧ layer c ≠ 3 := fun s dst hc => by
    have := ip4Accepted_layer s dst c hc
    omega
  repeat' split
  all_goals simp only [after_fst, List.mem_append, List.mem_cons, List.not_mem_nil, or_false, false_or]
  all_goals
    intro hc
    repeat' (first | subst hc | (rcases hc with hc | hc))
    all_goals first
      | exact ha _ _ hc
      | exact hd _ _ _ hc
      | decide

theorem ip6_layer (t₀ t₁ : Int) (depth : Nat) (n : Node) (f : Bytes) : ∀ c ∈ (ip6 n t₀ t₁ depth f).1, 3 ≤ layer c := by
  intro c
  unfold ip6
  have ha : ∀ s dst, c ∈ ip6Accepted s dst → 3 ≤ layer c := fun s dst hc => by
    have := ip6Accepted_layer s dst c hc
    omega
  have hi : ∀ n a b h dl ps f, c ∈ (icmp6 n a b h dl ps f).1 → 3 ≤ layer c := fun n a b h dl ps f hc => by
    have := (icmp6_layer n a b h dl ps f).2 c hc
    omega
  have hu : ∀ n h f, c ∈ (udp n (Rx.ofIp6 h) f).1 → 3 ≤ layer c := fun n h f hc => by
    have := (udp_layer n (ofIp6_same h) f).2 c hc
    omega
  have ht : ∀ n ip f, c ∈ (tcp n ip f).1 → 3 ≤ layer c := fun n ip f hc => by
    have := (tcp_layer n ip f).2 c hc
    omega
  have ih : ∀ d n g, d < depth → c ∈ (ip6 n t₀ t₁ d g).1 → 3 ≤ layer c := fun d n g hd hc => ip6_layer t₀ t₁ d n g c hc
  repeat' split
  all_goals simp only [after_fst, List.mem_append, List.mem_cons, List.not_mem_nil, or_false, false_or]
  all_goals
    intro hc
    repeat' (first
      | exact ha _ _ hc
      | exact hi _ _ _ _ _ _ _ hc
      | exact hu _ _ _ hc
      | exact ht _ _ _ hc
      | exact ih _ _ _ (Nat.lt_succ_self _) hc
      | subst hc
      | (rcases hc with hc | hc))
    all_goals decide
termination_by depth

theorem frame_received (r : FrameIn) : Truthful (fun c => r.counts.count c) (fun k => (r.effects.map did).count k) ∧
    (Sorted r.node → Balanced (fun c => r.counts.count c) (if r.raised then 1 else 0)) := by
  have h := frame_ether r.node r.t₀ r.t₁ r.depth r.frame
  have e := ether_eq r.node r.t₀ r.t₁ r.depth r.frame
  unfold FrameIn.counts FrameIn.effects FrameIn.raised
  unfold Frame Tr shape3 shape exc at h
  rw [e] at h
  cases hx : (Rx.ether r.node r.t₀ r.t₁ r.depth r.frame).2 with
  | error x =>
    rw [hx] at h
    simpa [Except.isOk, Except.toBool] using h
  | ok l =>
    rw [hx] at h
    simpa [Except.isOk, Except.toBool] using h

theorem counter_cons (r : FrameIn) (h : List FrameIn) : counter (r :: h) = fun c => r.counts.count c + counter h c := by
  funext c
  simp [counter, List.count_append]
theorem done_cons (r : FrameIn) (h : List FrameIn) : done (r :: h) = fun k => (r.effects.map did).count k + done h k := by
  funext k
  simp [done, List.count_append]
theorem exceptions_cons (r : FrameIn) (h : List FrameIn) : exceptions (r :: h) = (if r.raised then 1 else 0) + exceptions h := by
  simp only [exceptions, List.countP_cons]
  omega

end Counted

/-- C87: whatever frames are received, in whatever states: each counter that speaks of something the stack did (a reply sent, a cache
entry made, a datagram or segment handed to a socket, …) says how often it did that. -/
theorem C87_truthful (h : List FrameIn) : Truthful (counter h) (done h) := by
  induction h with
  | nil => constructor <;> decide
  | cons r h ih =>
    rw [Counted.counter_cons, Counted.done_cons]
    exact Counted.Truthful.add (Counted.frame_received r).1 ih

/-- C87: every frame is counted as received. -/
theorem C87_total (h : List FrameIn) : counter h ether__pre_parse = h.length := by
  have one : ∀ r : FrameIn, r.counts.count ether__pre_parse = 1 := by
    intro r
    unfold FrameIn.counts Counted.ether
    have no : ∀ l : List CountRx, (∀ c ∈ l, 1 ≤ Counted.layer c) → l.count ether__pre_parse = 0 := fun l hl =>
      List.count_eq_zero.mpr fun hc => absurd (hl _ hc) (by decide)
    have ha := fun dst => List.count_eq_zero.mpr (Counted.etherAccepted_layer r.node dst).1
    repeat' split
    all_goals simp only [Counted.after_fst, List.count_append, ha, List.append_nil]
    · rfl
    · rfl
    · rfl
    · rfl
    · rw [no (Counted.arp _ _ _).1 fun c hc => by rw [(Counted.arp_layer _ _ _).2 c hc]]; rfl
    · rw [no (Counted.ip4 _ _ _ _).1 fun c hc => Nat.le_trans (by omega) (Counted.ip4_layer _ _ _ _ c hc).1]; rfl
    · rw [no (Counted.ip6 _ _ _ _ _).1 fun c hc => Nat.le_trans (by omega) (Counted.ip6_layer _ _ _ _ _ c hc)]; rfl
    · rfl
  induction h with
  | nil => rfl
  | cons r h ih =>
    rw [Counted.counter_cons]
    simp only [one, ih, List.length_cons]
    omega

/-- C87: whatever frames are received by a stack that has IPv4 addresses and whose addresses are of one sort each, the counters add up:
at every layer, what is received is what is dropped (for one reason) and what is accepted (as one sort), and what a layer receives is what the
layer below has accepted. -/
theorem C87_balanced_partial (h : List FrameIn) (hs : ∀ r ∈ h, Sorted r.node) : Balanced (counter h) (exceptions h) := by
  induction h with
  | nil => constructor <;> decide
  | cons r h ih =>
    rw [Counted.counter_cons, Counted.exceptions_cons]
    exact Counted.Balanced.add ((Counted.frame_received r).2 (hs r (by simp))) (ih fun x hx => hs x (by simp [hx]))

/-! ### What the counters count, on the bytes of a frame -/

/-- C87: a frame without a whole Ethernet header or with a type below 0x600 is counted as received and as malformed, and nowhere else. -/
theorem C87_link_malformed {F : Bytes} (hF : F.length < 14 ∨ be F 12 2 < 0x600) (n : Node) (t₀ t₁ : Int) (d : Nat) :
    FrameIn.counts ⟨n, t₀, t₁, d, F⟩ = [ether__pre_parse, ether__failed_parse__drop] := by
  unfold FrameIn.counts Counted.ether
  by_cases h : F.length < 14
  · simp [Ether.parse, h, Counted.after]
  · have h12 := u16_be (f := F) (i := 12) (by omega)
    simp [Ether.parse, Ether.type, h12, show be F 12 2 < 0x600 by omega, Counted.after, h, py_ok_bind, py_pure]

namespace Counted

theorem ether_read {F : Bytes} (hl : 14 ≤ F.length) (ht : 0x600 ≤ be F 12 2) : Ether.parse F = .ok none ∧
    ∃ e, Ether.read F = .ok e ∧ e.dst.int = be F 0 6 ∧ e.type = be F 12 2 ∧ e.data = F.drop 14 := by
  obtain ⟨d, hd, hd'⟩ := mac_be (f := F) (i := 0) (by omega)
  obtain ⟨s, hs, -⟩ := mac_be (f := F) (i := 6) (by omega)
  have h12 := u16_be (f := F) (i := 12) (by omega)
  refine ⟨?_, ⟨d, s, be F 12 2, F.drop 14⟩, ?_, hd', rfl, rfl⟩
  · simp only [Ether.parse, Ether.type, h12, py_ok_bind, py_pure]
    rw [if_neg (by omega), if_neg (by omega)]
  · simp only [Nat.zero_add, Nat.reduceAdd] at hd hs
    simp only [Ether.read, Ether.dst, hd, Ether.src, hs, Ether.type, h12, py_ok_bind, py_pure, Ether.data]
    rfl

theorem not_mem_of_layer {l : List CountRx} {c : CountRx} {k : Nat} (h : ∀ c ∈ l, k ≤ layer c) (hc : layer c < k) : c ∉ l := fun hm => by
  have := h c hm
  omega

/-- What is counted for a frame that is for us. -/
theorem ether_counts {n : Node} {F : Bytes} {e : Ether.Hdr} (h1 : Ether.parse F = .ok none) (h2 : Ether.read F = .ok e) (h3 : MacForUs n e.dst)
    (t₀ t₁ : Int) (d : Nat) :
    ∃ l, (Counted.ether n t₀ t₁ d F).1 = ether__pre_parse :: etherAccepted n e.dst ++ l ∧ (∀ c ∈ l, 1 ≤ layer c) ∧
      (e.type = 0x0806 → l = (Counted.arp n e.dst e.data).1) ∧ (e.type = 0x0800 → l = (Counted.ip4 n t₀ t₁ e.data).1) ∧
      (e.type = 0x86DD → l = (Counted.ip6 n t₀ t₁ d e.data).1) ∧
      (e.type ≠ 0x0806 → e.type ≠ 0x0800 → e.type ≠ 0x86DD → l = []) := by
  unfold Counted.ether
  simp only [h1, h2, (etherForUs_iff n e.dst).mpr h3, Bool.not_true, Bool.false_eq_true, if_false, after_fst]
  split
  · next h =>
    refine ⟨_, rfl, fun c hc => by rw [(arp_layer _ _ _).2 c hc], fun _ => rfl, ?_, ?_, ?_⟩ <;> simp [h, Ether.typeArp]
  · next h =>
    split
    · next h' =>
      refine ⟨_, rfl, fun c hc => Nat.le_trans (by omega) (ip4_layer _ _ _ _ c hc).1, ?_, fun _ => rfl, ?_, ?_⟩ <;> simp [h', Ether.typeIp4]
    · next h' =>
      split
      · next h'' =>
        refine ⟨_, rfl, fun c hc => Nat.le_trans (by omega) (ip6_layer _ _ _ _ _ c hc), ?_, ?_, fun _ => rfl, ?_⟩ <;> simp [h'', Ether.typeIp6]
      · next h'' =>
        simp only [Ether.typeArp, Ether.typeIp4, Ether.typeIp6] at h h' h''
        exact ⟨[], by simp, by simp, fun x => absurd x h, fun x => absurd x h', fun x => absurd x h'', fun _ _ _ => rfl⟩

end Counted

/-- C87: a well-formed frame is counted by its destination (not as malformed): as unknown if it is not for the stack, or else as unicast, multicast
and broadcast according to its address; and as ARP, IPv4 or IPv6, if it is for the stack, by its type. -/
theorem C87_link {n : Node} {F : Bytes} {m : MacAddress} (hl : 14 ≤ F.length) (ht : 0x600 ≤ be F 12 2) (hm : m.int = be F 0 6)
    (t₀ t₁ : Int) (d : Nat) :
    let l := FrameIn.counts ⟨n, t₀, t₁, d, F⟩
    (ether__failed_parse__drop ∉ l) ∧ (ether__dst_unknown__drop ∈ l ↔ ¬ MacForUs n m) ∧ (ether__dst_unicast ∈ l ↔ m = n.stack.mac) ∧
      (ether__dst_multicast ∈ l ↔ m ∈ n.macMulticast) ∧ (ether__dst_broadcast ∈ l ↔ m.int = 0xFFFFFFFFFFFF) ∧
      (arp__pre_parse ∈ l ↔ MacForUs n m ∧ be F 12 2 = 0x0806) ∧ (ip4__pre_parse ∈ l ↔ MacForUs n m ∧ be F 12 2 = 0x0800) ∧
      (ip6__pre_parse ∈ l ↔ MacForUs n m ∧ be F 12 2 = 0x86DD) := by
  obtain ⟨h1, e, h2, h3, h4, h5⟩ := Counted.ether_read hl ht
  have em : e.dst = m := MacAddress.ext' (h3.trans hm.symm)
  have hb : m = MacAddress.broadcast ↔ m.int = 0xFFFFFFFFFFFF := ⟨fun h => h ▸ rfl, fun h => MacAddress.ext' h⟩
  rw [← em] at hb ⊢
  rw [← h4]
  unfold FrameIn.counts
  dsimp only
  by_cases hf : MacForUs n e.dst
  · obtain ⟨l, e1, e2, e3, e4, e5, e6⟩ := Counted.ether_counts h1 h2 hf t₀ t₁ d
    rw [e1]
    have n1 := Counted.not_mem_of_layer (c := ether__failed_parse__drop) e2 (by decide)
    have n2 := Counted.not_mem_of_layer (c := ether__dst_unknown__drop) e2 (by decide)
    have n3 := Counted.not_mem_of_layer (c := ether__dst_unicast) e2 (by decide)
    have n4 := Counted.not_mem_of_layer (c := ether__dst_multicast) e2 (by decide)
    have n5 := Counted.not_mem_of_layer (c := ether__dst_broadcast) e2 (by decide)
    simp only [Counted.etherAccepted, List.mem_append, List.mem_cons, Counted.mem_countIf, n1, n2, n3, n4, n5, hf, decide_eq_true_eq, reduceCtorEq,
      and_false, or_false, false_or, and_true, not_true, true_and, hb, not_false_eq_true]
    refine ⟨?_, ?_, ?_⟩
    · constructor
      · intro hc
        apply Classical.byContradiction
        intro hn
        by_cases h8 : e.type = 0x0800
        · rw [e4 h8] at hc; exact absurd (Counted.ip4_layer _ _ _ _ _ hc) (by decide)
        · by_cases h6 : e.type = 0x86DD
          · rw [e5 h6] at hc; exact absurd (Counted.ip6_layer _ _ _ _ _ _ hc) (by decide)
          · rw [e6 hn h8 h6] at hc; simp at hc
      · intro h; rw [e3 h]; exact (Counted.arp_layer _ _ _).1
    · constructor
      · intro hc
        apply Classical.byContradiction
        intro hn
        by_cases h8 : e.type = 0x0806
        · rw [e3 h8] at hc; exact absurd ((Counted.arp_layer _ _ _).2 _ hc) (by decide)
        · by_cases h6 : e.type = 0x86DD
          · rw [e5 h6] at hc; exact absurd (Counted.ip6_layer _ _ _ _ _ _ hc) (by decide)
          · rw [e6 h8 hn h6] at hc; simp at hc
      · intro h; rw [e4 h]; simp [Counted.ip4]
    · constructor
      · intro hc
        apply Classical.byContradiction
        intro hn
        by_cases h8 : e.type = 0x0806
        · rw [e3 h8] at hc; exact absurd ((Counted.arp_layer _ _ _).2 _ hc) (by decide)
        · by_cases h6 : e.type = 0x0800
          · rw [e4 h6] at hc; exact absurd (Counted.ip4_layer _ _ _ _ _ hc) (by decide)
          · rw [e6 h8 h6 hn] at hc; simp at hc
      · intro h; rw [e5 h]; unfold Counted.ip6; simp
  · have hx : (Counted.ether n t₀ t₁ d F).1 = [ether__pre_parse, ether__dst_unknown__drop] := by
      have : Rx.etherForUs n e.dst = false := by rw [Bool.eq_false_iff, ne_eq, etherForUs_iff]; exact hf
      unfold Counted.ether
      simp [h1, h2, this, Counted.after]
    rw [hx]
    unfold MacForUs at hf
    simp only [not_or] at hf
    simp [MacForUs, hf.1, hf.2.1, hf.2.2]

/-- C87: an ARP message is counted by its operation, and by what becomes of it. -/
theorem C87_arp {n : Node} {F : Bytes} {e : Ether.Hdr} {h : Arp.Hdr} (he : HoldsEther n F e) (ht : e.type = 0x0806)
    (hp : Arp.parse e.data = .ok none) (hr : Arp.read e.data = .ok h) (t₀ t₁ : Int) (d : Nat) :
    let l := FrameIn.counts ⟨n, t₀, t₁, d, F⟩
    arp__failed_parse__drop ∉ l ∧ (arp__op_request ∈ l ↔ h.oper = 1) ∧ (arp__op_reply ∈ l ↔ h.oper = 2) ∧
      (arp__op_request__ip_conflict ∈ l ↔ h.oper = 1 ∧ Owns4 n h.spa) ∧
      (arp__op_request__tpa_stack__respond ∈ l ↔ h.oper = 1 ∧ ¬ Owns4 n h.spa ∧ Owns4 n h.tpa) ∧
      (arp__op_request__tpa_unknown__drop ∈ l ↔ h.oper = 1 ∧ ¬ Owns4 n h.spa ∧ ¬ Owns4 n h.tpa) ∧
      (arp__op_reply__ip_conflict ∈ l ↔
        h.oper = 2 ∧ e.dst = n.stack.mac ∧ h.spa ∈ n.ip4Candidates ∧ h.tha = n.stack.mac ∧ h.tpa.int = 0) ∧
      (arp__op_reply__update_arp_cache ∈ l → e.dst = n.stack.mac) ∧
      (arp__op_reply__update_arp_cache_gratuitous ∈ l → e.dst ≠ n.stack.mac ∧ e.dst.int = 0xFFFFFFFFFFFF ∧ h.spa = h.tpa) := by
  obtain ⟨l, e1, e2, e3, -⟩ := Counted.ether_counts he.1 he.2.1 he.2.2 t₀ t₁ d
  have hu : h.tpa.isUnspecified = true ↔ h.tpa.int = 0 := by simp [Ip4Address.isUnspecified]
  have hb : e.dst.isBroadcast = true ↔ e.dst.int = 0xFFFFFFFFFFFF := by simp [MacAddress.isBroadcast]
  have skip : ∀ c, Counted.layer c = 1 → (c ∈ FrameIn.counts ⟨n, t₀, t₁, d, F⟩ ↔ c ∈ l) := by
    intro c hc
    unfold FrameIn.counts
    dsimp only
    rw [e1, List.mem_append, List.mem_cons]
    constructor
    · rintro ((h | h) | h)
      · subst h; exact absurd hc (by decide)
      · have := (Counted.etherAccepted_layer n e.dst).2 c h
        omega
      · exact h
    · exact .inr
  dsimp only
  rw [skip _ rfl, skip _ rfl, skip _ rfl, skip _ rfl, skip _ rfl, skip _ rfl, skip _ rfl, skip _ rfl, skip _ rfl, e3 ht]
  simp only [Counted.arp, hp, hr, ← mem_ip4Unicast, ← hu, ← hb]
  rcases Counted.arp_oper hp hr with ho | ho
  · rw [if_pos ho]
    by_cases h1 : h.spa ∈ n.stack.ip4Unicast
    · simp [h1, ho]
    · by_cases h2 : h.tpa ∈ n.stack.ip4Unicast <;> simp [h1, h2, ho]
  · rw [if_neg (by omega), if_pos ho]
    by_cases h1 : e.dst = n.stack.mac ∧ h.spa ∈ n.ip4Candidates ∧ h.tha = n.stack.mac ∧ h.tpa.isUnspecified = true
    · rw [if_pos h1]
      simp [h1, ho]
    · rw [if_neg h1]
      by_cases h2 : e.dst = n.stack.mac
      · rw [if_pos h2]
        simp [h2, ho] at h1 ⊢
        exact h1
      · rw [if_neg h2]
        by_cases h3 : e.dst.isBroadcast = true ∧ h.spa = h.tpa
        · rw [if_pos h3]
          simp [h2, h3, ho]
        · rw [if_neg h3]
          simp [h2, ho]

/-- C87: a whole, well-formed IPv4 packet in a frame for the stack is counted by its destination and by its protocol, and not as malformed or as a
fragment. -/
theorem C87_ip4 {n : Node} {F : Bytes} {e : Ether.Hdr} {src dst : Ip4Address} {proto : Nat} {payload : Bytes} (he : HoldsEther n F e)
    (ht : e.type = 0x0800) (hp : Ip4Packet e.data src dst proto payload) (t₀ t₁ : Int) (d : Nat) :
    let l := FrameIn.counts ⟨n, t₀, t₁, d, F⟩
    let forUs := n.stack.ip4Host = [] ∨ Listens4 n dst
    ip4__failed_parse__drop ∉ l ∧ ip4__frag ∉ l ∧ (ip4__dst_unknown__drop ∈ l ↔ ¬ forUs) ∧
      (ip4__dst_unicast ∈ l ↔ Owns4 n dst) ∧ (ip4__dst_multicast ∈ l ↔ dst ∈ n.stack.ip4Multicast) ∧
      (ip4__dst_broadcast ∈ l ↔ (∃ h ∈ n.stack.ip4Host, h.network.broadcast = .ok dst) ∨ dst.int = 0xFFFFFFFF) ∧
      (icmp4__pre_parse ∈ l ↔ forUs ∧ proto = 1) ∧ (udp__pre_parse ∈ l ↔ forUs ∧ proto = 17) ∧ (tcp__pre_parse ∈ l ↔ forUs ∧ proto = 6) := by
  obtain ⟨l, e1, e2, -, e4, -⟩ := Counted.ether_counts he.1 he.2.1 he.2.2 t₀ t₁ d
  have skip : ∀ c, 1 ≤ Counted.layer c → (c ∈ FrameIn.counts ⟨n, t₀, t₁, d, F⟩ ↔ c ∈ l) := by
    intro c hc
    unfold FrameIn.counts
    dsimp only
    rw [e1, List.mem_append, List.mem_cons]
    constructor
    · rintro ((h | h) | h)
      · subst h; exact absurd hc (by decide)
      · have := (Counted.etherAccepted_layer n e.dst).2 c h
        omega
      · exact h
    · exact .inr
  obtain ⟨a1, h, a2, a3, a4, a5, a6, a7, -⟩ := Ip4.accept hp
  have hbc : dst ∈ n.stack.ip4Broadcast ↔ (∃ h ∈ n.stack.ip4Host, h.network.broadcast = .ok dst) ∨ dst.int = 0xFFFFFFFF := by
    have : dst = Ip4Address.limitedBroadcast ↔ dst.int = 0xFFFFFFFF :=
      ⟨fun h => h ▸ rfl, fun h => by cases dst; simp at h; subst h; rfl⟩
    rw [mem_ip4Broadcast, this, or_comm]
  dsimp only
  rw [skip _ (by decide), skip _ (by decide), skip _ (by decide), skip _ (by decide), skip _ (by decide), skip _ (by decide), skip _ (by decide),
    skip _ (by decide), skip _ (by decide), e4 ht]
  unfold Counted.ip4
  simp only [a1, a2, a4]
  by_cases hf : n.stack.ip4Host = [] ∨ Listens4 n dst
  · have hf' := (ip4ForUs_iff n dst).mpr hf
    obtain ⟨d1, d2, d3, d4⟩ := Counted.dispatch4_layer n h h.rest
    rw [a5] at d1 d2 d3
    have n1 := Counted.not_mem_of_layer (c := ip4__failed_parse__drop) d4 (by decide)
    have n2 := Counted.not_mem_of_layer (c := ip4__frag) d4 (by decide)
    have n3 := Counted.not_mem_of_layer (c := ip4__dst_unknown__drop) d4 (by decide)
    have n4 := Counted.not_mem_of_layer (c := ip4__dst_unicast) d4 (by decide)
    have n5 := Counted.not_mem_of_layer (c := ip4__dst_multicast) d4 (by decide)
    have n6 := Counted.not_mem_of_layer (c := ip4__dst_broadcast) d4 (by decide)
    simp only [hf', Bool.not_true, Bool.false_eq_true, if_false, a6, a7, ne_eq, not_true, or_self, Counted.after_fst, Counted.ip4Accepted, List.mem_append,
      List.mem_cons, Counted.mem_countIf, reduceCtorEq, decide_eq_true_eq, and_false, or_false, false_or, and_true, n1, n2, n3, n4, n5, n6, d1, d2, d3, hf,
      true_and, List.not_mem_nil, not_false_eq_true, mem_ip4Unicast, hbc]
  · have hf' : Rx.ip4ForUs n.stack dst = false := by rw [Bool.eq_false_iff, ne_eq, ip4ForUs_iff]; exact hf
    have hf2 := hf
    simp only [not_or, Listens4] at hf2
    obtain ⟨-, g1, g2, g3, g4⟩ := hf2
    simp only [hf', Bool.not_false, if_true]
    simp [hf, g1, g2, g4]
    exact fun x hx hb => g3 ⟨x, hx, hb⟩

/-- C87: an IPv6 packet in a frame for the stack is counted as malformed if it is, and else by its destination and by what follows the header. -/
theorem C87_ip6 {n : Node} {F : Bytes} {e : Ether.Hdr} {src dst : Ip6Address} {hop next : Nat} {payload : Bytes} (he : HoldsEther n F e)
    (ht : e.type = 0x86DD) (hp : Ip6Packet e.data src dst hop next payload) (h44 : next ≠ 44) (t₀ t₁ : Int) (d : Nat) :
    let l := FrameIn.counts ⟨n, t₀, t₁, d, F⟩
    ip6__failed_parse__drop ∉ l ∧ ip6_ext_frag__pre_parse ∉ l ∧ (ip6__dst_unknown__drop ∈ l ↔ ¬ Listens6 n dst) ∧
      (ip6__dst_unicast ∈ l ↔ Owns6 n dst) ∧ (ip6__dst_multicast ∈ l ↔ dst ∈ n.stack.ip6Multicast) ∧
      (icmp6__pre_parse ∈ l ↔ Listens6 n dst ∧ next = 58) ∧ (udp__pre_parse ∈ l ↔ Listens6 n dst ∧ next = 17) ∧
      (tcp__pre_parse ∈ l ↔ Listens6 n dst ∧ next = 6) := by
  obtain ⟨l, e1, e2, -, -, e5, -⟩ := Counted.ether_counts he.1 he.2.1 he.2.2 t₀ t₁ d
  have skip : ∀ c, 1 ≤ Counted.layer c → (c ∈ FrameIn.counts ⟨n, t₀, t₁, d, F⟩ ↔ c ∈ l) := by
    intro c hc
    unfold FrameIn.counts
    dsimp only
    rw [e1, List.mem_append, List.mem_cons]
    constructor
    · rintro ((h | h) | h)
      · subst h; exact absurd hc (by decide)
      · have := (Counted.etherAccepted_layer n e.dst).2 c h
        omega
      · exact h
    · exact .inr
  obtain ⟨a1, h, a2, a3, a4, a5, a6, a7, -⟩ := Ip6.accept hp
  dsimp only
  rw [skip _ (by decide), skip _ (by decide), skip _ (by decide), skip _ (by decide), skip _ (by decide), skip _ (by decide), skip _ (by decide),
    skip _ (by decide), e5 ht]
  unfold Counted.ip6
  simp only [a1, a2, a4]
  by_cases hf : Listens6 n dst
  · have hf' := (ip6ForUs_iff n dst).mpr hf
    have key : ∀ k : List CountRx, (∀ c ∈ k, 5 ≤ Counted.layer c) → (icmp6__pre_parse ∈ k ↔ next = 58) → (udp__pre_parse ∈ k ↔ next = 17) →
        (tcp__pre_parse ∈ k ↔ next = 6) →
        let l := [ip6__pre_parse] ++ (Counted.ip6Accepted n.stack dst ++ k)
        ip6__failed_parse__drop ∉ l ∧ ip6_ext_frag__pre_parse ∉ l ∧ (ip6__dst_unknown__drop ∈ l ↔ ¬ Listens6 n dst) ∧
          (ip6__dst_unicast ∈ l ↔ Owns6 n dst) ∧ (ip6__dst_multicast ∈ l ↔ dst ∈ n.stack.ip6Multicast) ∧
          (icmp6__pre_parse ∈ l ↔ Listens6 n dst ∧ next = 58) ∧ (udp__pre_parse ∈ l ↔ Listens6 n dst ∧ next = 17) ∧
          (tcp__pre_parse ∈ l ↔ Listens6 n dst ∧ next = 6) := by
      intro k d4 d1 d2 d3
      have n1 := Counted.not_mem_of_layer (c := ip6__failed_parse__drop) d4 (by decide)
      have n2 := Counted.not_mem_of_layer (c := ip6_ext_frag__pre_parse) d4 (by decide)
      have n3 := Counted.not_mem_of_layer (c := ip6__dst_unknown__drop) d4 (by decide)
      have n4 := Counted.not_mem_of_layer (c := ip6__dst_unicast) d4 (by decide)
      have n5 := Counted.not_mem_of_layer (c := ip6__dst_multicast) d4 (by decide)
      simp only [Counted.ip6Accepted, List.mem_append, List.mem_cons, Counted.mem_countIf, reduceCtorEq, decide_eq_true_eq, and_false, or_false, false_or,
        and_true, n1, n2, n3, n4, n5, d1, d2, d3, hf, true_and, List.not_mem_nil, not_false_eq_true, mem_ip6Unicast, not_true]
    rw [a5]
    simp only [hf', Bool.not_true, Bool.false_eq_true, if_false, h44, Counted.after_fst]
    split
    · next h1 =>
      obtain ⟨b1, b2⟩ := Counted.icmp6_layer n h.src dst h.hop h.dlen h.pshdrSum h.rest
      refine key _ (fun c hc => by rw [b2 c hc]; omega) (by simp [h1, b1]) ⟨fun hc => absurd (b2 _ hc) (by decide), by omega⟩
        ⟨fun hc => absurd (b2 _ hc) (by decide), by omega⟩
    · split
      · next h1 =>
        obtain ⟨b1, b2⟩ := Counted.udp_layer n (Counted.ofIp6_same h) h.rest
        refine key _ (fun c hc => by rw [b2 c hc]; omega) ⟨fun hc => absurd (b2 _ hc) (by decide), by omega⟩ (by simp [h1, b1])
          ⟨fun hc => absurd (b2 _ hc) (by decide), by omega⟩
      · split
        · next h1 =>
          obtain ⟨b1, b2⟩ := Counted.tcp_layer n (Rx.ofIp6 h) h.rest
          refine key _ (fun c hc => by rw [b2 c hc]; omega) ⟨fun hc => absurd (b2 _ hc) (by decide), by omega⟩
            ⟨fun hc => absurd (b2 _ hc) (by decide), by omega⟩ (by simp [h1, b1])
        · next h1 h2 h3 => exact key [] (by simp) (by simp [h1]) (by simp [h2]) (by simp [h3])
  · have hf' : (decide (dst ∈ n.stack.ip6Unicast) || decide (dst ∈ n.stack.ip6Multicast)) = false := by
      rw [Bool.eq_false_iff, ne_eq, ip6ForUs_iff]; exact hf
    have hf2 := hf
    simp only [not_or, Listens6] at hf2
    simp only [hf', Bool.not_false, if_true]
    simp [hf, hf2.1, hf2.2]

/-- What is counted for a packet brought to the stack, above the internet layer. -/
theorem Counted.upper_counts {n : Node} {F f : Bytes} {ip : Rx.IpHdr} {proto : Nat} (H : HoldsIp n F ip proto f) (t₀ t₁ : Int) (d : Nat) (c : CountRx)
    (hc : 7 ≤ Counted.layer c) :
    (proto = 17 → (c ∈ FrameIn.counts ⟨n, t₀, t₁, d, F⟩ ↔ c ∈ (Counted.udp n ip f).1)) ∧
    (proto = 6 → (c ∈ FrameIn.counts ⟨n, t₀, t₁, d, F⟩ ↔ c ∈ (Counted.tcp n ip f).1)) := by
  have hne : ∀ {a : CountRx}, Counted.layer a < 7 → c ≠ a := fun h e => by subst e; omega
  unfold FrameIn.counts
  rcases H with ⟨h, ⟨e, he, ht, hp, hr, hl, ho, hm⟩, hx, rfl, rfl⟩ | ⟨h, ⟨e, he, ht, hp, hr, hl⟩, hx, rfl, rfl⟩
  · obtain ⟨l, e1, e2, -, e4, -⟩ := Counted.ether_counts he.1 he.2.1 he.2.2 t₀ t₁ d
    have hf := (ip4ForUs_iff n h.dst).mpr (.inr hl)
    have n1 : c ∉ Counted.etherAccepted n e.dst := fun hh => by
      have := (Counted.etherAccepted_layer n e.dst).2 c hh; omega
    have n2 : c ∉ Counted.ip4Accepted n.stack h.dst := fun hh => by
      have := Counted.ip4Accepted_layer n.stack h.dst c hh; omega
    dsimp only
    rw [e1, e4 ht]
    unfold Counted.ip4
    simp only [hp, hr, hf, Bool.not_true, Bool.false_eq_true, if_false, ho, hm, ne_eq, not_true, or_self, Counted.after_fst, List.mem_append,
      List.mem_cons, n1, n2, List.not_mem_nil, or_false, false_or, hne (a := ether__pre_parse) (by decide), hne (a := ip4__pre_parse) (by decide),
      Counted.ip4Dispatch, hx]
    constructor
    · intro h17; simp only [h17]; exact Iff.rfl
    · intro h6; simp only [h6]; exact Iff.rfl
  · obtain ⟨l, e1, e2, -, -, e5, -⟩ := Counted.ether_counts he.1 he.2.1 he.2.2 t₀ t₁ d
    have hf := (ip6ForUs_iff n h.dst).mpr hl
    have n1 : c ∉ Counted.etherAccepted n e.dst := fun hh => by
      have := (Counted.etherAccepted_layer n e.dst).2 c hh; omega
    have n2 : c ∉ Counted.ip6Accepted n.stack h.dst := fun hh => by
      have := Counted.ip6Accepted_layer n.stack h.dst c hh; omega
    dsimp only
    rw [e1, e5 ht]
    unfold Counted.ip6
    simp only [hp, hr, hf, Bool.not_true, Bool.false_eq_true, if_false, Counted.after_fst, List.mem_append, hx,
      List.mem_cons, n1, n2, List.not_mem_nil, or_false, false_or, hne (a := ether__pre_parse) (by decide), hne (a := ip6__pre_parse) (by decide)]
    constructor
    · intro h17; subst h17; simp; rfl
    · intro h6; subst h6; simp; rfl

/-- C87: a UDP datagram with non-zero ports and a right checksum is not counted as malformed, and as one without a source only if it has none. -/
theorem C87_udp {n : Node} {F p data : Bytes} {src dst : IpAddress} {sport dport : Nat} (H : Brings n F src dst 17 p)
    (hu : IsUdp p sport dport data) (hs : sport ≠ 0) (hd : dport ≠ 0) (t₀ t₁ : Int) (d : Nat) :
    let l := FrameIn.counts ⟨n, t₀, t₁, d, F⟩
    udp__pre_parse ∈ l ∧ udp__failed_parse__drop ∉ l ∧ (udp__ip_source_unspecified ∈ l → src.isUnspecified = true) := by
  obtain ⟨ip, f, h1, rfl, rfl, h4, h5, h6, h7, h8, h9⟩ := H.holds
  obtain ⟨a1, a2⟩ := Udp.accept h5 h6 h9 hu hs hd
  rw [← h4] at a1
  dsimp only
  rw [(Counted.upper_counts h1 t₀ t₁ d _ (by decide)).1 rfl, (Counted.upper_counts h1 t₀ t₁ d _ (by decide)).1 rfl,
    (Counted.upper_counts h1 t₀ t₁ d _ (by decide)).1 rfl]
  unfold Counted.udp
  simp only [a1, a2, Counted.after_fst]
  cases n.socks.match? _ with
  | some r => simp
  | none =>
    dsimp only
    cases hsrc : ip.src.isUnspecified with
    | true => simp
    | false =>
      simp only [Bool.false_eq_true, if_false]
      unfold Counted.portUnreachable
      split <;> simp

/-- C87: a TCP segment with a right checksum, and that is not one no TCP sends, is not counted as malformed. -/
theorem C87_tcp {n : Node} {F p : Bytes} {src dst : IpAddress} {opts : List (Nat × Bytes)} (H : Brings n F src dst 6 p) (ht : IsTcp p opts)
    (ho : ¬ OddTcp p) (t₀ t₁ : Int) (d : Nat) :
    tcp__pre_parse ∈ FrameIn.counts ⟨n, t₀, t₁, d, F⟩ ∧ tcp__failed_parse__drop ∉ FrameIn.counts ⟨n, t₀, t₁, d, F⟩ := by
  obtain ⟨ip, f, h1, rfl, rfl, h4, h5, h6, h7, h8, h9⟩ := H.holds
  obtain ⟨a1, h, a2, a3⟩ := Tcp.accept h5 h6 h9 ht ho
  rw [← h4] at a1 a2
  rw [(Counted.upper_counts h1 t₀ t₁ d _ (by decide)).2 rfl, (Counted.upper_counts h1 t₀ t₁ d _ (by decide)).2 rfl]
  unfold Counted.tcp
  simp only [a1, a2, Counted.after_fst]
  cases n.socks.table.get? _ with
  | some r => simp
  | none =>
    dsimp only
    cases (if (Rx.tcpMd ip h).syn && !((Rx.tcpMd ip h).ack || (Rx.tcpMd ip h).fin || (Rx.tcpMd ip h).rst) then
            (Rx.tcpMd ip h).listening.findSome? n.socks.table.get? else none) <;> simp

/-- C87: such a segment is counted as one for a connection exactly if there is a socket for this connection, as one for a listener exactly if there is none
but a listening socket takes it, and as one that is answered by a reset exactly if no socket takes it. -/
theorem C87_tcp_socket {hist : List (Spec.Env × Spec.Op)} {n : Node} {F p : Bytes} {src dst : IpAddress} {opts : List (Nat × Bytes)}
    (hn : n.socks = (Spec.run hist).1) (H : Brings n F src dst 6 p) (ht : IsTcp p opts) (ho : ¬ OddTcp p) (t₀ t₁ : Int) (d : Nat) :
    let l := FrameIn.counts ⟨n, t₀, t₁, d, F⟩
    let connected := ∃ r s, Registered n.socks r s ∧ s.id = ⟨dst.family, .stream, dst, be p 2 2, src, be p 0 2⟩
    let taken := ∃ r s, Registered n.socks r s ∧ TakesSegment s.id (segment src dst p opts)
    (tcp__socket_match_active__forward_to_socket ∈ l ↔ connected) ∧
      (tcp__socket_match_listening__forward_to_socket ∈ l ↔ ¬ connected ∧ taken) ∧ (tcp__no_socket_match__respond_rst ∈ l ↔ ¬ taken) := by
  obtain ⟨ip, f, h1, rfl, rfl, h4, h5, h6, h7, h8, h9⟩ := H.holds
  obtain ⟨a1, h, a2, a3⟩ := Tcp.accept h5 h6 h9 ht ho
  have w : n.socks.Wf := by rw [hn]; exact Socks.run_wf hist
  have a3 := a3 ip
  rw [← h4] at a1 a2
  dsimp only
  rw [(Counted.upper_counts h1 t₀ t₁ d _ (by decide)).2 rfl, (Counted.upper_counts h1 t₀ t₁ d _ (by decide)).2 rfl,
    (Counted.upper_counts h1 t₀ t₁ d _ (by decide)).2 rfl]
  unfold Counted.tcp
  simp only [a1, a2, Counted.after_fst, a3]
  rw [show (⟨ip.dst.family, .stream, ip.dst, be p 2 2, ip.src, be p 0 2⟩ : SockId) = (segment ip.src ip.dst p opts).active from rfl]
  generalize segment ip.src ip.dst p opts = m
  cases hg : n.socks.table.get? m.active with
  | some r =>
    obtain ⟨s, hs, hid⟩ := w.holds _ _ hg
    have hr : Registered n.socks r s := ⟨hs, by rw [hid]; exact hg⟩
    have hc : ∃ r s, Registered n.socks r s ∧ s.id = m.active := ⟨r, s, hr, hid⟩
    have ht : ∃ r s, Registered n.socks r s ∧ TakesSegment s.id m := ⟨r, s, hr, by rw [hid]; exact ⟨rfl, rfl, rfl, .inl ⟨rfl, rfl, rfl⟩⟩⟩
    simp [hc, ht]
  | none =>
    have hc : ¬ ∃ r s, Registered n.socks r s ∧ s.id = m.active := by
      rintro ⟨r, s, hr, hid⟩
      rw [← hid, hr.2] at hg
      cases hg
    dsimp only
    cases hl : (if m.syn && !(m.ack || m.fin || m.rst) then m.listening.findSome? n.socks.table.get? else none) with
    | some r =>
      have ht : ∃ r s, Registered n.socks r s ∧ TakesSegment s.id m := by
        by_contra hno
        have := tcpMatch_none w (m := m) fun r s hr ht => hno ⟨r, s, hr, ht⟩
        rw [Rx.tcpMatch, hg] at this
        dsimp only at this
        rw [hl] at this
        cases this
      simp [hc, ht]
    | none =>
      have ht : ¬ ∃ r s, Registered n.socks r s ∧ TakesSegment s.id m := by
        rintro ⟨r, s, hr, t1, t2, t3, ⟨t4, t5, t6⟩ | ⟨⟨t4, t5, t6, t7⟩, t8, t9, t10⟩⟩
        · exact hc ⟨r, s, hr, by
            rw [TcpMd.active, ← t1, ← t2, ← t3, ← t4, ← t5, ← t6]⟩
        · rw [t4, t5, t6, t7] at hl
          simp only [Bool.or_self, Bool.not_false, Bool.and_self, if_true, List.findSome?_eq_none_iff] at hl
          have hmem : s.id ∈ m.listening := by
            simp only [TcpMd.listening, IpAddress.unspecified_eq, List.mem_cons, List.not_mem_nil, or_false]
            generalize s.id = id at *
            obtain ⟨i1, i2, i3, i4, i5, i6⟩ := id
            dsimp only at *
            subst t1 t2 t3 t9 t10
            rcases t8 with rfl | rfl
            · exact .inl rfl
            · exact .inr rfl
          have := hl _ hmem
          rw [hr.2] at this
          cases this
      simp [hc, ht]

/-! ### Where the counters do not add up -/

/-- C87 needs an IPv4 address: before the stack has one (while it asks a DHCP server for it), a packet for any address is accepted, and counted
under no destination. -/
theorem C87_uncounted {n : Node} {F : Bytes} {e : Ether.Hdr} {src dst : Ip4Address} {payload : Bytes} (he : HoldsEther n F e)
    (ht : e.type = 0x0800) (hp : Ip4Packet e.data src dst 17 payload) (hn : n.stack.ip4Host = []) (hm : dst ∉ n.stack.ip4Multicast)
    (hb : dst.int ≠ 0xFFFFFFFF) (t₀ t₁ : Int) (d : Nat) :
    let l := FrameIn.counts ⟨n, t₀, t₁, d, F⟩
    udp__pre_parse ∈ l ∧ ip4__failed_parse__drop ∉ l ∧ ip4__dst_unknown__drop ∉ l ∧ ip4__dst_unicast ∉ l ∧ ip4__dst_multicast ∉ l ∧
      ip4__dst_broadcast ∉ l := by
  obtain ⟨a1, -, a3, a4, a5, a6, -, a8, -⟩ := C87_ip4 he ht hp t₀ t₁ d
  refine ⟨a8.mpr ⟨.inl hn, rfl⟩, a1, fun h => a3.mp h (.inl hn), fun h => ?_, fun h => hm (a5.mp h), fun h => ?_⟩
  · obtain ⟨x, hx, -⟩ := a4.mp h
    simp [hn] at hx
  · rcases a6.mp h with ⟨x, hx, -⟩ | h
    · simp [hn] at hx
    · exact hb h

/-- C87 needs addresses of one sort: an address that is also the broadcast address of its network (a host with a 32-bit mask) is counted as
unicast and as broadcast. -/
theorem C87_twice {n : Node} {F : Bytes} {e : Ether.Hdr} {src : Ip4Address} {h : Ip4Host} {proto : Nat} {payload : Bytes}
    (he : HoldsEther n F e) (ht : e.type = 0x0800) (hp : Ip4Packet e.data src h.address proto payload) (hh : h ∈ n.stack.ip4Host)
    (hb : h.network.broadcast = .ok h.address) (t₀ t₁ : Int) (d : Nat) :
    ip4__dst_unicast ∈ FrameIn.counts ⟨n, t₀, t₁, d, F⟩ ∧ ip4__dst_broadcast ∈ FrameIn.counts ⟨n, t₀, t₁, d, F⟩ := by
  obtain ⟨-, -, -, a4, -, a6, -⟩ := C87_ip4 he ht hp t₀ t₁ d
  exact ⟨a4.mpr ⟨h, hh, rfl⟩, a6.mpr (.inl ⟨h, hh, hb⟩)⟩

namespace Example.Stats
open Example.Wire Example.Rx

theorem sorted_node : Sorted node :=
  ⟨by decide +kernel, by decide +kernel, by decide +kernel⟩

/-- Two pings, a datagram for nobody, a SYN and half a frame: what they are counted as. -/
def received : List FrameIn :=
  [frame4 31 1 100 202 ping4, frame6 11 58 ping6, frame4 30 17 100 187 dgram, frame4 48 6 100 180 syn, [1, 2, 3]].map (⟨node, 0, 0, 5, ·⟩)

example : (∀ r ∈ received, Sorted r.node) ∧ received.length = 5 := ⟨by
  intro r hr
  simp only [received, List.mem_map] at hr
  obtain ⟨f, -, rfl⟩ := hr
  exact sorted_node, rfl⟩
example : [ether__pre_parse, ether__failed_parse__drop, ether__dst_unicast, ip4__pre_parse, ip4__dst_unicast, ip6__pre_parse, ip6__dst_unicast,
    icmp4__echo_request__respond_echo_reply, icmp6__echo_request__respond_echo_reply, udp__pre_parse, tcp__pre_parse,
    udp__failed_parse__drop, tcp__failed_parse__drop].map (counter received) = [5, 1, 4, 3, 3, 1, 1, 1, 1, 1, 1, 0, 0] := by decide +kernel
example : exceptions received = 0 ∧ done received .echoReply4 = 1 ∧ done received .echoReply6 = 1 := by decide +kernel

/-- C87_link, C87_ip4, C87_ip6, C87_udp, C87_tcp: the frames above meet the hypotheses. -/
example : ∃ e, HoldsEther node (frame4 31 1 100 202 ping4) e ∧ e.type = 0x0800 ∧ Ip4Packet e.data peer4 Example.host4.address 1 ping4 := by
  have H : Brings4 node (frame4 31 1 100 202 ping4) peer4 Example.host4.address 1 ping4 := brings4 rfl (by unfold Valid; decide +kernel)
  obtain ⟨e, h1, h2, h3⟩ := ether_accept H.length H.mac (by rw [H.type]; omega)
  exact ⟨e, h1, by rw [h2, H.type], by rw [h3]; exact H.packet⟩

/-- C87_tcp_socket: after `bind` to port 80 the SYN is counted as one for a listener; with no sockets, as one that is answered by a reset. -/
def bound : Node := { node with socks :=
  let e : Spec.Env := ⟨Example.stack, ⟨fun _ _ => none, fun _ _ => none⟩⟩
  (Spec.run [(e, .socket .inet4 .stream), (e, .bind 0 (some (.v4 .zero)) 80 0)]).1 }
example : ∃ hist, bound.socks = (Spec.run hist).1 := ⟨_, rfl⟩
example : Brings bound (frame4 48 6 100 180 syn) (.v4 peer4) (.v4 Example.host4.address) 6 syn := by
  have H : Brings4 node (frame4 48 6 100 180 syn) peer4 Example.host4.address 6 syn := brings4 rfl (by unfold Valid; decide +kernel)
  obtain ⟨h1, h2, h3, h4, h5⟩ := H
  exact .v4 ⟨h1, h2, h3, h4, h5⟩ (by unfold Valid; decide +kernel)
example : tcp__socket_match_listening__forward_to_socket ∈ FrameIn.counts ⟨bound, 0, 0, 5, frame4 48 6 100 180 syn⟩ ∧
    tcp__no_socket_match__respond_rst ∈ FrameIn.counts ⟨node, 0, 0, 5, frame4 48 6 100 180 syn⟩ := by decide +kernel

/-- C87_uncounted: before there is an address, a datagram for 10.0.1.7. -/
def early : Node := { node with stack := { Example.stack with ip4Host := [] } }
example : ∃ e, HoldsEther early (frame4 30 17 100 187 dgram) e ∧ e.type = 0x0800 ∧ Ip4Packet e.data peer4 Example.host4.address 17 dgram ∧
    early.stack.ip4Host = [] ∧ Example.host4.address ∉ early.stack.ip4Multicast := by
  have H : Brings4 node (frame4 30 17 100 187 dgram) peer4 Example.host4.address 17 dgram := brings4 rfl (by unfold Valid; decide +kernel)
  obtain ⟨e, h1, h2, h3⟩ := ether_accept (n := early) H.length H.mac (by rw [H.type]; omega)
  exact ⟨e, h1, by rw [h2, H.type], by rw [h3]; exact H.packet, rfl, by decide +kernel⟩

/-- C87_twice: 10.0.1.7/32. -/
def mask32 : Ip4Mask := ⟨0xFFFFFFFF, by decide, (validateBits_iff _ _ (by decide)).mpr ⟨32, by decide, by decide⟩⟩
def single : Ip4Host := ⟨Example.host4.address, Ip4Network.ofMask Example.host4.address mask32, none⟩
example : single.network.broadcast = .ok single.address := by decide +kernel

end Example.Stats

end Verif
