import Verif.Props.Stats
import Verif.Props.Accept
import Verif.Props.AcceptIp
import Verif.Lemmas.Deaf
/-! C87: exactly which messages are counted as malformed. -/
namespace Verif
open Spec CountRx

namespace Counted

/-- What is counted for a whole IPv4 packet, and whether its handling raised: as its payload says. -/
theorem ether_ip4 {n : Node} {F : Bytes} {h : Ip4.Hdr} (H : HoldsIp4 n F h) (t₀ t₁ : Int) (d : Nat) : ∃ l, (∀ c ∈ l, layer c < 5) ∧
    (Counted.ether n t₀ t₁ d F).1 = l ++ (ip4Dispatch n h h.rest).1 ∧ (Rx.ether n t₀ t₁ d F).2 = (ip4Dispatch n h h.rest).2 := by
  obtain ⟨e, he, ht, hp, hr, hl, ho, hm⟩ := H
  have hf := (ip4ForUs_iff n h.dst).mpr (.inr hl)
  have n1 := (Counted.etherAccepted_layer n e.dst).2
  have n2 := Counted.ip4Accepted_layer n.stack h.dst
  refine ⟨[ether__pre_parse] ++ etherAccepted n e.dst ++ [ip4__pre_parse] ++ ip4Accepted n.stack h.dst, ?_, ?_, ?_⟩
  · intro c hc
    simp only [List.mem_append, List.mem_singleton] at hc
    rcases hc with ((rfl | hc) | rfl) | hc
    · decide
    · have := n1 c hc; omega
    · decide
    · have := n2 c hc; omega
  · unfold Counted.ether
    simp only [he.1, he.2.1, (etherForUs_iff n e.dst).mpr he.2.2, Bool.not_true, Bool.false_eq_true, if_false, after_fst, ht, Ether.typeArp, Ether.typeIp4]
    unfold Counted.ip4
    simp [hp, hr, hf, ho, hm, after_fst]
  · rw [← Counted.ether_eq]
    unfold Counted.ether
    simp only [he.1, he.2.1, (etherForUs_iff n e.dst).mpr he.2.2, Bool.not_true, Bool.false_eq_true, if_false, after, ht, Ether.typeArp, Ether.typeIp4]
    unfold Counted.ip4
    simp [hp, hr, hf, ho, hm, after]

/-- The same for IPv6. -/
theorem ether_ip6 {n : Node} {F : Bytes} {h : Ip6.Hdr} (H : HoldsIp6 n F h) (t₀ t₁ : Int) (d : Nat) : ∃ l, (∀ c ∈ l, layer c < 5) ∧
    (h.next = 58 → (Counted.ether n t₀ t₁ d F).1 = l ++ (icmp6 n h.src h.dst h.hop h.dlen h.pshdrSum h.rest).1 ∧
      (Rx.ether n t₀ t₁ d F).2 = (icmp6 n h.src h.dst h.hop h.dlen h.pshdrSum h.rest).2) ∧
    (h.next = 17 → (Counted.ether n t₀ t₁ d F).1 = l ++ (udp n (Rx.ofIp6 h) h.rest).1 ∧ (Rx.ether n t₀ t₁ d F).2 = (udp n (Rx.ofIp6 h) h.rest).2) ∧
    (h.next = 6 → (Counted.ether n t₀ t₁ d F).1 = l ++ (tcp n (Rx.ofIp6 h) h.rest).1 ∧ (Rx.ether n t₀ t₁ d F).2 = (tcp n (Rx.ofIp6 h) h.rest).2) := by
  obtain ⟨e, he, ht, hp, hr, hl⟩ := H
  have hf := (ip6ForUs_iff n h.dst).mpr hl
  have n1 := (Counted.etherAccepted_layer n e.dst).2
  have n2 := Counted.ip6Accepted_layer n.stack h.dst
  refine ⟨[ether__pre_parse] ++ etherAccepted n e.dst ++ [ip6__pre_parse] ++ ip6Accepted n.stack h.dst, ?_, ?_⟩
  · intro c hc
    simp only [List.mem_append, List.mem_singleton] at hc
    rcases hc with ((rfl | hc) | rfl) | hc
    · decide
    · have := n1 c hc; omega
    · decide
    · have := n2 c hc; omega
  · rw [← Counted.ether_eq]
    unfold Counted.ether
    simp only [he.1, he.2.1, (etherForUs_iff n e.dst).mpr he.2.2, Bool.not_true, Bool.false_eq_true, if_false, after, ht, Ether.typeArp, Ether.typeIp4,
      Ether.typeIp6]
    unfold Counted.ip6
    refine ⟨fun hx => ?_, fun hx => ?_, fun hx => ?_⟩ <;> simp [hp, hr, hf, hx, after]

/-- the counts of one handler within those of the frame -/
theorem within {l m : List CountRx} {c : CountRx} (hl : ∀ c ∈ l, layer c < 5) (hc : 5 ≤ layer c) : c ∈ l ++ m ↔ c ∈ m := by
  rw [List.mem_append]
  exact ⟨fun h => h.elim (fun h => by have := hl c h; omega) id, .inr⟩

/-- `drop` is counted exactly if the parser refuses. -/
theorem drops {α : Type} {drop pre : CountRx} {p : Py (Option String)} {x : List CountRx × Py α} {good : Prop} {z : α}
    (hg : p = .ok none ↔ good) (hne : pre ≠ drop) (hx : drop ∉ x.1) (r : List CountRx × Py α)
    (hr : r = after [pre] (match p with | .error e => ([], .error e) | .ok (some _) => ([drop], .ok z) | .ok none => x)) :
    drop ∈ r.1 ↔ ¬ good ∧ r.2.isOk = true := by
  subst hr
  rw [← hg]
  have hne' : drop ≠ pre := fun h => hne h.symm
  match p with
  | .error e => simp [after, hne', Except.isOk, Except.toBool]
  | .ok none => simp [after, hne', hx]
  | .ok (some _) => simp [after, Except.isOk, Except.toBool]

end Counted

/-- C87: an ICMP message in an IPv4 packet for the stack is counted as malformed exactly if its checksum is wrong or it is not in order; as an echo
request that is answered exactly if it is in order and one; and as an unreachable message exactly if it is in order and one. -/
theorem C87_icmp4 {n : Node} {F p : Bytes} {src dst : Ip4Address} (H : Brings4 n F src dst 1 p) (t₀ t₁ : Int) (d : Nat) :
    let l := FrameIn.counts ⟨n, t₀, t₁, d, F⟩
    let good := Valid p ∧ Icmp4InOrder p
    icmp4__pre_parse ∈ l ∧ (icmp4__failed_parse__drop ∈ l ↔ ¬ good) ∧
      (icmp4__echo_request__respond_echo_reply ∈ l ↔ good ∧ be p 0 1 = 8) ∧ (icmp4__unreachable ∈ l ↔ good ∧ be p 0 1 = 3) := by
  obtain ⟨h, a1, a2, a3, a4, a5, a6, a7, -, -, a10, -⟩ := H.holds
  obtain ⟨l, e1, e2, -⟩ := Counted.ether_ip4 a1 t₀ t₁ d
  have e : h.rest = p ++ h.rest.drop p.length := by conv_lhs => rw [← List.take_append_drop p.length h.rest, a6]
  have hg := C106_icmp4 p (h.rest.drop p.length) a10
  rw [← e] at hg
  unfold FrameIn.counts
  dsimp only
  rw [e2, Counted.within e1 (by decide), Counted.within e1 (by decide), Counted.within e1 (by decide), Counted.within e1 (by decide), ← hg]
  unfold Counted.ip4Dispatch Counted.icmp4
  simp only [a4, if_true, Counted.after_fst, a5]
  obtain ⟨r, hr, hn⟩ := C22_icmp4_total h.rest p.length
  rw [hr]
  cases r with
  | some x => simp
  | none =>
    obtain ⟨h4, h5, hd, hhd⟩ := hn rfl
    simp only [hhd]
    have t0 : idx h.rest 0 = .ok (be p 0 1) := by
      rw [idx_be (f := h.rest) (i := 0) (by omega), be_of_take a6 (by omega)]
    have hx := hhd
    unfold Icmp4.read Icmp4.type at hx
    simp only [t0, py_ok_bind] at hx
    obtain ⟨c, hc⟩ : ∃ c, Icmp4.code h.rest = .ok c := ⟨_, idx_be (f := h.rest) (i := 1) (by omega)⟩
    simp only [hc, py_ok_bind] at hx
    generalize be p 0 1 = t at hx ⊢
    by_cases t8 : t = 0 ∨ t = 8
    · rw [if_pos t8] at hx
      cases h1 : Icmp4.ecId h.rest <;> simp only [h1, py_ok_bind, py_error_bind, reduceCtorEq] at hx
      cases h2 : Icmp4.ecSeq h.rest <;> simp only [h2, py_ok_bind, py_error_bind, reduceCtorEq] at hx
      cases h3 : Icmp4.ecData h.rest p.length <;> simp only [h3, py_ok_bind, py_error_bind, reduceCtorEq] at hx
      cases hx
      rcases t8 with rfl | rfl <;> simp
    · rw [if_neg t8] at hx
      by_cases t3 : t = 3
      · rw [if_pos t3] at hx
        cases h3 : Icmp4.unData h.rest p.length <;> simp only [h3, py_ok_bind, py_error_bind, reduceCtorEq] at hx
        cases hx
        subst t3
        simp
      · rw [if_neg t3] at hx
        cases hx
        simp [t3]; omega

theorem Counted.udp_drops (n : Node) (ip : Rx.IpHdr) (f : Bytes) (good : Prop) (hg : Udp.parse f ip.dlen ip.pshdrSum = .ok none ↔ good) :
    udp__failed_parse__drop ∈ (Counted.udp n ip f).1 ↔ ¬ good ∧ (Counted.udp n ip f).2.isOk = true := by
  refine Counted.drops hg (by decide) ?_ _ rfl
  split
  · simp
  · dsimp only
    split
    · simp
    · split
      · simp
      · unfold Counted.portUnreachable
        split <;> simp

theorem Counted.tcp_drops (n : Node) (ip : Rx.IpHdr) (f : Bytes) (good : Prop) (hg : Tcp.parse f ip.dlen ip.pshdrSum = .ok none ↔ good) :
    tcp__failed_parse__drop ∈ (Counted.tcp n ip f).1 ↔ ¬ good ∧ (Counted.tcp n ip f).2.isOk = true := by
  refine Counted.drops hg (by decide) ?_ _ rfl
  split
  · simp
  · dsimp only
    split
    · simp
    · split <;> simp

theorem Counted.icmp6_drops (n : Node) (src dst : Ip6Address) (hop dlen ps : Nat) (f : Bytes) (good : Prop)
    (hg : Icmp6.parse f dlen ps src dst hop = .ok none ↔ good) :
    icmp6__failed_parse__drop ∈ (Counted.icmp6 n src dst hop dlen ps f).1 ↔ ¬ good ∧ (Counted.icmp6 n src dst hop dlen ps f).2.isOk = true := by
  refine Counted.drops hg (by decide) ?_ _ rfl
  split
  · simp
  · dsimp only
    unfold Counted.neighborSolicitation
    simp only [Counted.after_fst]
    split
    · simp
    · split
      · split <;> simp [Counted.mem_countIf]
      · simp [Counted.mem_countIf]
  · dsimp only
    unfold Counted.neighborAdvertisement
    simp only [Counted.after_fst]
    split
    · simp
    · split <;> simp
  · simp
  · simp
  · split <;> simp
  · simp
  · simp

/-- C87: a UDP datagram or TCP segment in an IPv4 packet for the stack is counted as malformed exactly if its checksum is wrong or it is not in order (and its
handling does not raise). -/
theorem C87_malformed4 {n : Node} {F p : Bytes} {src dst : Ip4Address} {proto : Nat} (H : Brings4 n F src dst proto p) (t₀ t₁ : Int) (d : Nat) :
    let r : FrameIn := ⟨n, t₀, t₁, d, F⟩
    (proto = 17 → (udp__failed_parse__drop ∈ r.counts ↔ ¬ (Valid (pseudoHdr4 src dst 17 p.length ++ p) ∧ UdpInOrder p) ∧ r.raised = false)) ∧
    (proto = 6 → ∃ pad, p ++ pad <:+ F ∧ (tcp__failed_parse__drop ∈ r.counts ↔
      ¬ (Valid (pseudoHdr4 src dst 6 p.length ++ p) ∧ TcpInOrder p pad) ∧ r.raised = false)) := by
  obtain ⟨h, a1, a2, a3, a4, a5, a6, a7, -, -, a10, a11⟩ := H.holds
  obtain ⟨l, e1, e2, e3⟩ := Counted.ether_ip4 a1 t₀ t₁ d
  have e : h.rest = p ++ h.rest.drop p.length := by conv_lhs => rw [← List.take_append_drop p.length h.rest, a6]
  unfold FrameIn.counts FrameIn.raised
  dsimp only
  rw [e3, e2, Counted.within e1 (by decide), Counted.within e1 (by decide)]
  unfold Counted.ip4Dispatch
  rw [a4]
  refine ⟨fun hp => ?_, fun hp => ⟨h.rest.drop p.length, ?_, ?_⟩⟩
  · subst hp
    have := C106_udp4 src dst p (h.rest.drop p.length) a10 _ a11
    rw [← e, ← a5] at this
    have := Counted.udp_drops n (Rx.ofIp4 h) h.rest _ this
    simpa [a5] using this
  · rw [← e]
    obtain ⟨x, he, -, b1, b2, -⟩ := a1
    rw [Ip4.read_rest b1 b2, (ether_fields he.1 he.2.1).2.2, List.drop_drop]
    exact List.drop_suffix _ _
  · subst hp
    have := C107_tcp4_partial src dst p (h.rest.drop p.length) a10 _ a11
    rw [← e, ← a5] at this
    have := Counted.tcp_drops n (Rx.ofIp4 h) h.rest _ this
    simpa [a5] using this

/-- C87: the same over IPv6, and for the ICMPv6 messages that are not of neighbour discovery (with the auxiliary data of C106). -/
theorem C87_malformed6 {n : Node} {F p : Bytes} {src dst : Ip6Address} {hop next : Nat} (H : Brings6 n F src dst hop next p) (t₀ t₁ : Int) (d : Nat) :
    let r : FrameIn := ⟨n, t₀, t₁, d, F⟩
    (next = 17 → (udp__failed_parse__drop ∈ r.counts ↔ ¬ (Valid (pseudoHdr6 src dst 17 p.length ++ p) ∧ UdpInOrder p) ∧ r.raised = false)) ∧
    (next = 6 → (tcp__failed_parse__drop ∈ r.counts ↔ ¬ (Valid (pseudoHdr6 src dst 6 p.length ++ p) ∧ TcpInOrder p []) ∧ r.raised = false)) ∧
    (next = 58 → be p 0 1 < 133 ∨ 136 < be p 0 1 →
      (icmp6__failed_parse__drop ∈ r.counts ↔ ¬ (Valid (pseudoHdr6 src dst 58 p.length ++ p) ∧ Icmp6InOrder 1 p hop) ∧ r.raised = false)) ∧
    (next = 58 → 133 ≤ be p 0 1 ∧ be p 0 1 ≤ 136 → (be p 0 1 = 133 → src.int ≠ 0) →
      (∀ opts, NdOptions (p.drop (ndSize (be p 0 1))) opts → GoodPrefixes opts) →
      (icmp6__failed_parse__drop ∈ r.counts ↔ ¬ (Valid (pseudoHdr6 src dst 58 p.length ++ p) ∧ NdInOrder src dst hop p) ∧ r.raised = false)) := by
  obtain ⟨h, a1, a2, a3, a4, a5, a6, a7, -, -, a10, a11⟩ := H.holds
  obtain ⟨l, e1, e58, e17, e6⟩ := Counted.ether_ip6 a1 t₀ t₁ d
  unfold FrameIn.counts FrameIn.raised
  dsimp only
  rw [a4] at e58 e17 e6
  subst a7 a5 a2 a3
  refine ⟨fun hp => ?_, fun hp => ?_, fun hp ht => ?_, fun hp ht hs ho => ?_⟩ <;> subst hp
  · rw [(e17 rfl).1, (e17 rfl).2, Counted.within e1 (by decide)]
    have := C106_udp6 h.src h.dst h.rest a10 _ a11
    rw [← a6] at this ⊢
    have := Counted.udp_drops n (Rx.ofIp6 h) h.rest _ this
    simpa using this
  · rw [(e6 rfl).1, (e6 rfl).2, Counted.within e1 (by decide)]
    have := C107_tcp6_partial h.src h.dst h.rest a10 _ a11
    rw [← a6] at this ⊢
    have := Counted.tcp_drops n (Rx.ofIp6 h) h.rest _ this
    simpa using this
  · rw [(e58 rfl).1, (e58 rfl).2, Counted.within e1 (by decide)]
    have := C106_icmp6_partial h.src h.dst h.hop h.rest a10 _ a11 ht
    rw [← a6] at this ⊢
    have := Counted.icmp6_drops n h.src h.dst h.hop h.dlen h.pshdrSum h.rest _ this
    simpa using this
  · rw [(e58 rfl).1, (e58 rfl).2, Counted.within e1 (by decide)]
    have := C106_nd_partial h.src h.dst h.hop h.rest a10 _ a11 ht hs ho
    rw [← a6] at this ⊢
    have := Counted.icmp6_drops n h.src h.dst h.hop h.dlen h.pshdrSum h.rest _ this
    simpa using this

theorem Ip6.next_of_read {p : Bytes} {h : Ip6.Hdr} (hr : Ip6.read p = .ok h) : h.next = be p 6 1 := by
  cases h2 : Ip6.next p with
  | error e =>
    rw [Ip6.read, h2] at hr
    cases h1 : Ip6.dlen p <;> simp [h1] at hr
  | ok v =>
  have : h.next = v := by
    rw [Ip6.read, h2] at hr
    simp only [bind, Except.bind, pure, Except.pure] at hr
    repeat' split at hr
    all_goals try cases hr
    rfl
  rw [this]
  unfold Ip6.next at h2
  by_cases hl : 6 < p.length
  · rw [idx_be hl] at h2
    cases h2; rfl
  · simp [idx, show p.length ≤ 6 by omega] at h2

theorem Counted.ip4_good (n : Node) (t₀ t₁ : Int) {p : Bytes} (hp : Ip4.parse p = .ok none) : ip4__failed_parse__drop ∉ (Counted.ip4 n t₀ t₁ p).1 := by
  have acc : ∀ a, ip4__failed_parse__drop ∉ Counted.ip4Accepted n.stack a := fun a => by simp [Counted.ip4Accepted, Counted.mem_countIf]
  have dis : ∀ n h f, ip4__failed_parse__drop ∉ (Counted.ip4Dispatch n h f).1 := fun n h f =>
    Counted.not_mem_of_layer (Counted.dispatch4_layer n h f).2.2.2 (by decide)
  unfold Counted.ip4
  rw [hp, Counted.after_fst]
  dsimp only
  rw [List.mem_append, List.mem_singleton]
  rintro (h | h)
  · cases h
  revert h
  split
  · simp
  · split
    · simp
    · simp only [Counted.after_fst, List.mem_append, acc, false_or]
      split
      · simp only [Counted.after_fst, List.mem_append, List.mem_singleton, reduceCtorEq, false_or]
        split
        · simp
        · simp
        · split
          · simp
          · simp [Counted.after_fst, dis]
      · exact dis _ _ _

/-- C87: an ARP message, IPv4 packet or IPv6 packet (that is not a fragment) in a frame for the stack is counted as malformed exactly if it is not in order
(and, for IPv4, its handling does not raise). -/
theorem C87_malformed {n : Node} {F : Bytes} (hl : 14 ≤ F.length) (hm : ∃ m : MacAddress, m.int = be F 0 6 ∧ MacForUs n m) (t₀ t₁ : Int) (d : Nat) :
    let r : FrameIn := ⟨n, t₀, t₁, d, F⟩
    (be F 12 2 = 0x0806 → (arp__failed_parse__drop ∈ r.counts ↔ ¬ ArpInOrder (F.drop 14))) ∧
    (be F 12 2 = 0x0800 → (ip4__failed_parse__drop ∈ r.counts ↔ ¬ Ip4InOrder (F.drop 14) ∧ r.raised = false)) ∧
    (be F 12 2 = 0x86DD → be F 20 1 ≠ 44 → (ip6__failed_parse__drop ∈ r.counts ↔ ¬ Ip6InOrder (F.drop 14))) := by
  have skip : ∀ {e : Ether.Hdr} {l : List CountRx} {c : CountRx}, 1 ≤ Counted.layer c →
      (c ∈ [ether__pre_parse] ++ (Counted.etherAccepted n e.dst ++ l) ↔ c ∈ l) := by
    intro e l c hc
    simp only [List.mem_append, List.mem_singleton]
    constructor
    · rintro (rfl | h | h)
      · exact absurd hc (by decide)
      · have := (Counted.etherAccepted_layer n e.dst).2 c h
        omega
      · exact h
    · exact fun h => .inr (.inr h)
  unfold FrameIn.counts FrameIn.raised
  dsimp only
  rw [← Counted.ether_eq]
  refine ⟨fun ht => ?_, fun ht => ?_, fun ht h44 => ?_⟩
  · obtain ⟨e, he, h2, h3⟩ := ether_accept (n := n) hl hm (by rw [ht]; omega)
    unfold Counted.ether
    simp only [he.1, he.2.1, (etherForUs_iff n e.dst).mpr he.2.2, Bool.not_true, Bool.false_eq_true, if_false, Counted.after_fst, h2, ht, Ether.typeArp, if_true]
    rw [skip (by decide), h3]
    obtain ⟨r, hr, hn⟩ := C22_arp_total (F.drop 14)
    rw [← C106_arp]
    unfold Counted.arp
    cases r with
    | some x => simp [hr, Counted.after_fst]
    | none =>
      obtain ⟨h, hh⟩ := hn rfl
      simp only [hr, hh, Counted.after_fst]
      repeat' split
      all_goals simp
  · obtain ⟨e, he, h2, h3⟩ := ether_accept (n := n) hl hm (by rw [ht]; omega)
    unfold Counted.ether
    simp only [he.1, he.2.1, (etherForUs_iff n e.dst).mpr he.2.2, Bool.not_true, Bool.false_eq_true, if_false, Counted.after, h2, ht, Ether.typeArp, Ether.typeIp4,
      if_true]
    rw [skip (by decide), h3, ← C107_ip4_partial]
    unfold Counted.ip4
    cases hp : Ip4.parse (F.drop 14) with
    | error e => simp [Counted.after, Except.isOk, Except.toBool]
    | ok r =>
      cases r with
      | some x => simp [Counted.after, Except.isOk, Except.toBool]
      | none =>
        simp only [not_true, false_and, iff_false]
        have := Counted.ip4_good n t₀ t₁ hp
        unfold Counted.ip4 at this
        rw [hp] at this
        exact this
  · obtain ⟨e, he, h2, h3⟩ := ether_accept (n := n) hl hm (by rw [ht]; omega)
    unfold Counted.ether
    simp only [he.1, he.2.1, (etherForUs_iff n e.dst).mpr he.2.2, Bool.not_true, Bool.false_eq_true, if_false, Counted.after_fst, h2, ht, Ether.typeArp, Ether.typeIp4,
      Ether.typeIp6]
    rw [if_neg (by decide), if_neg (by decide), if_pos trivial, skip (by decide), h3, ← C107_ip6]
    obtain ⟨r, hr, hn⟩ := C22_ip6_total (F.drop 14)
    unfold Counted.ip6
    cases r with
    | some x => simp [hr, Counted.after_fst]
    | none =>
      obtain ⟨h, hh⟩ := hn rfl
      have hx : h.next ≠ 44 := by
        rw [Ip6.next_of_read hh, be_drop]; exact h44
      have acc : ∀ a, ip6__failed_parse__drop ∉ Counted.ip6Accepted n.stack a := fun a => by simp [Counted.ip6Accepted, Counted.mem_countIf]
      have n1 : ∀ l : List CountRx, (∀ c ∈ l, 5 ≤ Counted.layer c) → ip6__failed_parse__drop ∉ l := fun l hl => Counted.not_mem_of_layer hl (by decide)
      simp only [hr, hh, hx, if_false, Counted.after_fst, List.mem_append, List.mem_singleton, reduceCtorEq, false_or, not_true, iff_false]
      split
      · simp
      · simp only [Counted.after_fst, List.mem_append, acc, false_or]
        split
        · exact n1 _ fun c hc => by rw [(Counted.icmp6_layer _ _ _ _ _ _ _).2 c hc]; omega
        · split
          · exact n1 _ fun c hc => by rw [(Counted.udp_layer n (Counted.ofIp6_same h) h.rest).2 c hc]; omega
          · split
            · exact n1 _ fun c hc => by rw [(Counted.tcp_layer n (Rx.ofIp6 h) h.rest).2 c hc]; omega
            · simp

namespace Example.StatsDrop
open Example.Wire Example.Rx

/-- A ping is counted as answered; the same with another byte is counted as malformed. -/
example : Brings4 node (frame4 31 1 100 202 ping4) peer4 Example.host4.address 1 ping4 := brings4 rfl (by unfold Valid; decide +kernel)
example : let l := FrameIn.counts ⟨node, 0, 0, 5, frame4 31 1 100 202 ping4⟩
    icmp4__echo_request__respond_echo_reply ∈ l ∧ icmp4__failed_parse__drop ∉ l := by decide +kernel
example : icmp4__failed_parse__drop ∈ FrameIn.counts ⟨node, 0, 0, 5, frame4 31 1 100 202 (ping4.set 4 99)⟩ := by decide +kernel
example : udp__failed_parse__drop ∈ FrameIn.counts ⟨node, 0, 0, 5, frame4 30 17 100 187 (dgram.set 4 99)⟩ ∧
    FrameIn.raised ⟨node, 0, 0, 5, frame4 30 17 100 187 (dgram.set 4 99)⟩ = false := by decide +kernel
example : icmp6__failed_parse__drop ∈ FrameIn.counts ⟨node, 0, 0, 5, frame6 11 58 (ping6.set 4 99)⟩ := by decide +kernel
end Example.StatsDrop

end Verif
