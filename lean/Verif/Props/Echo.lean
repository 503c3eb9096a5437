import Verif.Lemmas.Echo
import Verif.Lemmas.Cuts
import Verif.Props.Resolve
/-! C102: the UDP echo service, on a host. -/
namespace Verif
open Spec Echo

/-! ### What is sent back -/

/-- C102: what the service sends back is the message, or the picture that it names. -/
theorem C102_message (d : Bytes) : EchoOf d (answer d) ∧ ∀ x, EchoOf d x → x = answer d := by
  have a := occurs_iff (w := ascii "malpka") (by decide +kernel) (letters _ (by decide +kernel)) d
  have b := occurs_iff (w := ascii "malpa") (by decide +kernel) (letters _ (by decide +kernel)) d
  have c := occurs_iff (w := ascii "malpi") (by decide +kernel) (letters _ (by decide +kernel)) d
  rw [answer]
  by_cases h1 : Occurs (ascii "malpka") d
  · rw [if_pos (a.2 h1)]
    refine ⟨.malpka h1, fun x hx => ?_⟩
    cases hx <;> first | contradiction | rfl
  · rw [if_neg (fun x => h1 (a.1 x))]
    by_cases h2 : Occurs (ascii "malpa") d
    · rw [if_pos (b.2 h2)]
      refine ⟨.malpa h1 h2, fun x hx => ?_⟩
      cases hx <;> first | contradiction | rfl
    · rw [if_neg (fun x => h2 (b.1 x))]
      by_cases h3 : Occurs (ascii "malpi") d
      · rw [if_pos (c.2 h3)]
        refine ⟨.malpi h1 h2 h3, fun x hx => ?_⟩
        cases hx <;> first | contradiction | rfl
      · rw [if_neg (fun x => h3 (c.1 x))]
        refine ⟨.same h1 h2 h3, fun x hx => ?_⟩
        cases hx <;> first | contradiction | rfl

/-- C102: the third picture is the first two side by side, line by line. -/
theorem C102_picture : malpi.splitOn 10 = List.zipWith (· ++ ·) (malpka.splitOn 10) (malpa.splitOn 10) ++ [[]] ∧
    (malpka.splitOn 10).length = 23 ∧ (malpa.splitOn 10).length = 22 := by decide +kernel

/-- C102: whatever frames come in between, and whenever the service gets to run: it answers the datagrams in the order in which they were handed
to its socket, each once, to where it came from; those it has not come to yet still wait.  When its thread has ended, the datagram that it read
last is not answered, and neither is any later one. -/
theorem C102_order {r : Nat} {s : Service} (hr : ∃ x, s.host.node.socks.socks[r]? = some x) (hu : unread s.host r = []) (ha : s.alive = true)
    (hl : s.log = []) (evs : List Ev) :
    ∃ k, List.Forall₂ (fun m x => x.1 = m.rip ∧ x.2.1 = m.rport ∧ EchoOf m.data x.2.2) ((requested (Echo.run r s evs)).take k) (replied (Echo.run r s evs)) ∧
      ((Echo.run r s evs).alive = true → k ≤ (requested (Echo.run r s evs)).length ∧ unread (Echo.run r s evs).host r = (requested (Echo.run r s evs)).drop k) ∧
      ((Echo.run r s evs).alive = false → k < (requested (Echo.run r s evs)).length ∧ unread (Echo.run r s evs).host r = (requested (Echo.run r s evs)).drop (k + 1)) := by
  have h0 : Told r s := ⟨hr, 0, by simp [replied, hl], by simp [requested, hl, ha], by simp [requested, hl, ha, hu]⟩
  obtain ⟨-, k, h1, h2, h3⟩ := h0.run evs
  refine ⟨k, ?_, fun h => ?_, fun h => ?_⟩
  · rw [h1]
    generalize (requested (Echo.run r s evs)).take k = l
    induction l with
    | nil => exact .nil
    | cons m l ih => exact .cons ⟨rfl, rfl, (C102_message m.data).1⟩ ih
  · rw [h] at h2 h3; exact ⟨h2, h3⟩
  · rw [h] at h2 h3; exact ⟨h2, h3⟩

/-! ### One answer -/

theorem Spec.Serves.round {h : Host} {r port : Nat} {ip dst : IpAddress} {m : UdpMd} {rest : List UdpMd} (hs : Serves h r ip port)
    (hq : unread h r = m :: rest) (hm : m.rip = dst) (hf : ip.family = dst.family) (hp : m.rport < 65536) (choice : Nat) :
    ∃ h₁, h₁.stack = h.stack ∧ h₁.arp = h.arp ∧ h₁.nd = h.nd ∧ Serves h₁ r ip port ∧ unread h₁ r = rest ∧
      (ip.isUnspecified = true ∧ (Socks.pickLocalIp h.stack dst).isUnspecified = true ∧ ¬ (port = 68 ∧ m.rport = 67) →
        Echo.round h r choice = (h₁, .died .gaiError)) ∧
      (¬ (ip.isUnspecified = true ∧ (Socks.pickLocalIp h.stack dst).isUnspecified = true ∧ ¬ (port = 68 ∧ m.rport = 67)) →
        ∀ lip, lip = (if ip.isUnspecified then Socks.pickLocalIp h.stack dst else ip) → ∀ h' st outs,
          h₁.udp lip dst port m.rport (answer m.data) = (h', .ok (st, outs)) →
          Echo.round h r choice = (h', .answered dst m.rport (answer m.data)
            (if st = .passedEtherToTxRing then (answer m.data).length else 0) outs)) ∧
      (¬ (ip.isUnspecified = true ∧ (Socks.pickLocalIp h.stack dst).isUnspecified = true ∧ ¬ (port = 68 ∧ m.rport = 67)) →
        ∀ lip, lip = (if ip.isUnspecified then Socks.pickLocalIp h.stack dst else ip) → ∀ e,
          (h₁.udp lip dst port m.rport (answer m.data)).2 = .error e → (Echo.round h r choice).2 = .died e) := by
  obtain ⟨⟨⟨s, s1, s2, s3, s4⟩, hl⟩, hu⟩ := hs
  have hu := hu s s1
  subst hm
  rw [unread_some s1] at hq
  have hr : h.node.socks.recvfrom r = (h.node.socks.put r { s with queue := rest }, .ok (m.data, m.rip, m.rport)) := by
    rw [Socks.recvfrom, s1]; dsimp only; rw [hq]
  have hg : (h.withSocks (h.node.socks.put r { s with queue := rest })).node.socks.socks[r]? = some { s with queue := rest } := get_put _ s1
  obtain ⟨u, e1, e2⟩ := Host.sendto_from _ hg (dst := m.rip) (port := m.rport) (by dsimp only; rw [s3]; exact hl) hp
    (s4.trans hf) hu (answer m.data) choice
  dsimp only at e1 e2
  rw [s2, s3] at e1 e2
  refine ⟨(h.withSocks (h.node.socks.put r { s with queue := rest })).withSocks
      ((h.withSocks (h.node.socks.put r { s with queue := rest })).node.socks.put r { s with queue := rest, unreachable := u }), rfl, rfl, rfl, ?_, ?_, ?_, ?_, ?_⟩
  · refine ⟨⟨⟨_, get_put _ hg, s2, s3, s4⟩, hl⟩, fun s' h' => ?_⟩
    cases Option.some.inj ((get_put { s with queue := rest, unreachable := u } hg).symm.trans h')
    exact hu
  · exact unread_some (h := (h.withSocks _).withSocks _) (get_put { s with queue := rest, unreachable := u } hg)
  · intro hc
    rw [Echo.round, hr]
    dsimp only
    rw [e1 hc]
  · intro hc lip hlip h' st outs hudp
    rw [Echo.round, hr]
    dsimp only
    rw [e2 hc lip hlip, hudp]
    rfl
  · intro hc lip hlip e hudp
    rw [Echo.round, hr]
    dsimp only
    rw [e2 hc lip hlip, hudp]
    rfl

theorem leaves4 {st : Stack} {ip dst src : Ip4Address} (h : LeavesFrom4 st ip dst src) (h0 : 0 < src.int) :
    ¬ ((IpAddress.v4 ip).isUnspecified = true ∧ (Socks.pickLocalIp st (.v4 dst)).isUnspecified = true) ∧
    (IpAddress.v4 src) = (if (IpAddress.v4 ip).isUnspecified then Socks.pickLocalIp st (.v4 dst) else .v4 ip) := by
  rcases h with ⟨h, rfl⟩ | ⟨h, l₁, x, l₂, e, rfl, hx⟩
  · rw [ip4_specified h]
    refine ⟨fun x => ?_, rfl⟩
    cases x.1
  · have hz : (IpAddress.v4 ip).isUnspecified = true := by rw [IpAddress.isUnspecified, Ip4Address.isUnspecified, h]; rfl
    have hp : pickLocalIp4 st dst = x.address := by
      obtain ⟨c1, c2, -⟩ := C72_pick_local_ip4 st dst
      rcases hx with ⟨g1, g2⟩ | ⟨g1, g2, g3⟩
      · exact c1 x ⟨l₁, l₂, e, g2, g1⟩
      · exact (c2 g1).1 x ⟨l₁, l₂, e, g3, fun y hy => by simpa using g2 y hy⟩
    rw [if_pos hz, Socks.pickLocalIp, hp]
    refine ⟨fun y => ?_, rfl⟩
    have := y.2
    rw [ip4_specified h0] at this
    cases this

theorem leaves6 {st : Stack} {ip dst src : Ip6Address} (h : LeavesFrom6 st ip dst src) (h0 : 0 < src.int) :
    ¬ ((IpAddress.v6 ip).isUnspecified = true ∧ (Socks.pickLocalIp st (.v6 dst)).isUnspecified = true) ∧
    (IpAddress.v6 src) = (if (IpAddress.v6 ip).isUnspecified then Socks.pickLocalIp st (.v6 dst) else .v6 ip) := by
  rcases h with ⟨h, rfl⟩ | ⟨h, l₁, x, l₂, e, rfl, hx⟩
  · rw [ip6_specified h]
    refine ⟨fun x => ?_, rfl⟩
    cases x.1
  · have hz : (IpAddress.v6 ip).isUnspecified = true := by rw [IpAddress.isUnspecified, Ip6Address.isUnspecified, h]; rfl
    have hp : pickLocalIp6 st dst = x.address := by
      obtain ⟨c1, c2, -⟩ := C72_pick_local_ip6 st dst
      rcases hx with ⟨g1, g2⟩ | ⟨g1, g2, g3⟩
      · exact c1 x ⟨l₁, l₂, e, g2, g1⟩
      · exact (c2 g1).1 x ⟨l₁, l₂, e, g3, fun y hy => by simpa using g2 y hy⟩
    rw [if_pos hz, Socks.pickLocalIp, hp]
    refine ⟨fun y => ?_, rfl⟩
    have := y.2
    rw [ip6_specified h0] at this
    cases this

/-- C102: when the service runs, the first datagram that waits is answered with one frame: a UDP datagram with what is to be sent back, to where
the message came from, from the service's port, and from its address, or if that is 0.0.0.0 from the host's address in the first network that the
sender is in, or else the first one with a gateway. -/
theorem C102_reply4 {h : Host} {r port : Nat} {ip src dst a : Ip4Address} {nb : MacAddress} {m : UdpMd} {rest : List UdpMd}
    (hs : Serves h r (.v4 ip) port) (hq : unread h r = m :: rest) (hm : m.rip = .v4 dst) (hp : m.rport < 65536) (hl : LeavesFrom4 h.stack ip dst src)
    (ho : OwnSource4 h.stack src) (hn : NextHop4 h.stack src dst a) (hk : Knows4 h a nb)
    (hf : ∀ x, EchoOf m.data x → 28 + x.length ≤ h.stack.mtu) (hmtu : h.stack.mtu < 65536) (choice : Nat) :
    ∃ x G q, EchoOf m.data x ∧ Answers (Echo.round h r choice).2 (.v4 dst) m.rport x [G] ∧ Sends4 G h.stack.mac nb src dst 64 17 q ∧
      IsUdp q port m.rport x ∧ NearlyValid (pseudoHdr4 src dst 17 q.length) q 6 ∧
      unread (Echo.round h r choice).1 r = rest ∧ Serves (Echo.round h r choice).1 r (.v4 ip) port := by
  obtain ⟨h₁, x1, x2, x3, x4, x5, -, x6, -⟩ := hs.round hq hm rfl hp choice
  obtain ⟨l1, l2⟩ := leaves4 hl ho.ordinary.1
  have ex := (C102_message m.data).1
  obtain ⟨h', o, G, q, g1, g2, g3, g4⟩ := h₁.udp_sends4 (sport := port) (dport := m.rport) (data := answer m.data) hs.bound.ports.2 hp
    (by rw [x1]; exact ho) (by rw [x1]; exact hn) (m := nb) (by rw [Knows4, x2]; exact hk) (by rw [x1]; exact hf _ ex) (by rw [x1]; exact hmtu)
  rw [x6 (fun hc => l1 ⟨hc.1, hc.2.1⟩) _ l2 _ _ _ g1]
  rw [x1] at g4
  refine ⟨_, G, q, ex, ⟨[o], rfl, by simp [g3]⟩, g4.1, g4.2.1, g4.2.2, ?_, ?_⟩
  · rw [unread, g2.node]; exact x5
  · exact ⟨⟨by rw [g2.node]; exact x4.bound.bound, x4.bound.ports⟩, by rw [g2.node]; exact x4.udp⟩

/-- C102: an answer that does not fit the MTU leaves in several frames, which are, in order, the pieces of one datagram. -/
theorem C102_cuts4 {h : Host} {r port : Nat} {ip src dst a : Ip4Address} {nb : MacAddress} {m : UdpMd} {rest : List UdpMd}
    (hs : Serves h r (.v4 ip) port) (hq : unread h r = m :: rest) (hm : m.rip = .v4 dst) (hp : m.rport < 65536) (hl : LeavesFrom4 h.stack ip dst src)
    (ho : OwnSource4 h.stack src) (hn : NextHop4 h.stack src dst a) (hk : Knows4 h a nb)
    (hf : ∀ x, EchoOf m.data x → h.stack.mtu < 28 + x.length ∧ x.length < 65528) (hmtu : 28 ≤ h.stack.mtu ∧ h.stack.mtu < 65536)
    (hid : h.stack.ip4Id < 65535) (choice : Nat) :
    ∃ x Fs q fs, EchoOf m.data x ∧ Answers (Echo.round h r choice).2 (.v4 dst) m.rport x Fs ∧
      IsUdp q port m.rport x ∧ NearlyValid (pseudoHdr4 src dst 17 q.length) q 6 ∧ IsFragmentation q (h.stack.mtu - 20) fs ∧
      List.Forall₂ (Cut4 h.stack.mac nb h.stack.mtu src dst 64 17 (h.stack.ip4Id + 1)) fs Fs ∧
      unread (Echo.round h r choice).1 r = rest ∧ Serves (Echo.round h r choice).1 r (.v4 ip) port := by
  obtain ⟨h₁, x1, x2, x3, x4, x5, -, x6, -⟩ := hs.round hq hm rfl hp choice
  obtain ⟨l1, l2⟩ := leaves4 hl ho.ordinary.1
  have ex := (C102_message m.data).1
  obtain ⟨h', outs, Fs, q, fs, g1, g2, g3, g4, g5, g6, g7⟩ := h₁.udp_cuts4 (sport := port) (dport := m.rport) (data := answer m.data) hs.bound.ports.2 hp
    (by rw [x1]; exact ho) (by rw [x1]; exact hn) (m := nb) (by rw [Knows4, x2]; exact hk) (by rw [x1]; exact hf _ ex) (by rw [x1]; exact hmtu)
    (by rw [x1]; exact hid)
  rw [x6 (fun hc => l1 ⟨hc.1, hc.2.1⟩) _ l2 _ _ _ g1]
  rw [x1] at g6 g7
  refine ⟨_, Fs, q, fs, ex, ⟨outs, rfl, g3⟩, g4, g5, g6, g7, ?_, ?_⟩
  · rw [unread, g2]; exact x5
  · exact ⟨⟨by rw [g2]; exact x4.bound.bound, x4.bound.ports⟩, by rw [g2]; exact x4.udp⟩

theorem C102_reply6 {h : Host} {r port : Nat} {ip src dst a : Ip6Address} {nb : MacAddress} {m : UdpMd} {rest : List UdpMd}
    (hs : Serves h r (.v6 ip) port) (hq : unread h r = m :: rest) (hm : m.rip = .v6 dst) (hp : m.rport < 65536) (hl : LeavesFrom6 h.stack ip dst src)
    (ho : OwnSource6 h.stack src) (hn : NextHop6 h.stack src dst a) (hk : Knows6 h a nb)
    (hf : ∀ x, EchoOf m.data x → 48 + x.length ≤ h.stack.mtu) (hmtu : h.stack.mtu < 65536) (choice : Nat) :
    ∃ x G q, EchoOf m.data x ∧ Answers (Echo.round h r choice).2 (.v6 dst) m.rport x [G] ∧ Sends6 G h.stack.mac nb src dst 64 17 q ∧
      IsUdp q port m.rport x ∧ NearlyValid (pseudoHdr6 src dst 17 q.length) q 6 ∧
      unread (Echo.round h r choice).1 r = rest ∧ Serves (Echo.round h r choice).1 r (.v6 ip) port := by
  obtain ⟨h₁, x1, x2, x3, x4, x5, -, x6, -⟩ := hs.round hq hm rfl hp choice
  obtain ⟨l1, l2⟩ := leaves6 hl ho.ordinary.1
  have ex := (C102_message m.data).1
  obtain ⟨h', o, G, q, g1, g2, g3, g4⟩ := h₁.udp_sends6 (sport := port) (dport := m.rport) (data := answer m.data) hs.bound.ports.2 hp
    (by rw [x1]; exact ho) (by rw [x1]; exact hn) (m := nb) (by rw [Knows6, x3]; exact hk) (by rw [x1]; exact hf _ ex) (by rw [x1]; exact hmtu)
  rw [x6 (fun hc => l1 ⟨hc.1, hc.2.1⟩) _ l2 _ _ _ g1]
  rw [x1] at g4
  refine ⟨_, G, q, ex, ⟨[o], rfl, by simp [g3]⟩, g4.1, g4.2.1, g4.2.2, ?_, ?_⟩
  · rw [unread, g2.node]; exact x5
  · exact ⟨⟨by rw [g2.node]; exact x4.bound.bound, x4.bound.ports⟩, by rw [g2.node]; exact x4.udp⟩

theorem C102_cuts6 {h : Host} {r port : Nat} {ip src dst a : Ip6Address} {nb : MacAddress} {m : UdpMd} {rest : List UdpMd}
    (hs : Serves h r (.v6 ip) port) (hq : unread h r = m :: rest) (hm : m.rip = .v6 dst) (hp : m.rport < 65536) (hl : LeavesFrom6 h.stack ip dst src)
    (ho : OwnSource6 h.stack src) (hn : NextHop6 h.stack src dst a) (hk : Knows6 h a nb)
    (hf : ∀ x, EchoOf m.data x → h.stack.mtu < 48 + x.length ∧ x.length < 65528) (hmtu : 56 ≤ h.stack.mtu ∧ h.stack.mtu < 65536)
    (hid : h.stack.ip6Id + 1 < 2 ^ 32) (hpl : h.stack.PlainIp6) (choice : Nat) :
    ∃ x Fs q fs, EchoOf m.data x ∧ Answers (Echo.round h r choice).2 (.v6 dst) m.rport x Fs ∧
      IsUdp q port m.rport x ∧ NearlyValid (pseudoHdr6 src dst 17 q.length) q 6 ∧ IsFragmentation q (h.stack.mtu - 48) fs ∧
      List.Forall₂ (Cut6 h.stack.mac nb h.stack.mtu src dst 17 (h.stack.ip6Id + 1)) fs Fs ∧
      unread (Echo.round h r choice).1 r = rest ∧ Serves (Echo.round h r choice).1 r (.v6 ip) port := by
  obtain ⟨h₁, x1, x2, x3, x4, x5, -, x6, -⟩ := hs.round hq hm rfl hp choice
  obtain ⟨l1, l2⟩ := leaves6 hl ho.ordinary.1
  have ex := (C102_message m.data).1
  obtain ⟨h', outs, Fs, q, fs, g1, g2, g3, g4, g5, g6, g7⟩ := h₁.udp_cuts6 (sport := port) (dport := m.rport) (data := answer m.data) hs.bound.ports.2 hp
    (by rw [x1]; exact ho) (by rw [x1]; exact hn) (m := nb) (by rw [Knows6, x3]; exact hk) (by rw [x1]; exact hf _ ex) (by rw [x1]; exact hmtu)
    (by rw [x1]; exact hid) (by rw [x1]; exact hpl)
  rw [x6 (fun hc => l1 ⟨hc.1, hc.2.1⟩) _ l2 _ _ _ g1]
  rw [x1] at g6 g7
  refine ⟨_, Fs, q, fs, ex, ⟨outs, rfl, g3⟩, g4, g5, g6, g7, ?_, ?_⟩
  · rw [unread, g2]; exact x5
  · exact ⟨⟨by rw [g2]; exact x4.bound.bound, x4.bound.ports⟩, by rw [g2]; exact x4.udp⟩

/-! ### When the service ends -/

theorem noWay4 {st : Stack} (hz : ∀ x ∈ st.ip4Host, 0 < x.address.int) (dst : Ip4Address) :
    (Socks.pickLocalIp st (.v4 dst)).isUnspecified = true ↔ NoWay4 st dst := by
  obtain ⟨c1, c2, c3⟩ := C72_pick_local_ip4 st dst
  constructor
  · intro h
    have h0 : ∀ x ∈ st.ip4Host, pickLocalIp4 st dst ≠ x.address := by
      intro x hx e
      rw [Socks.pickLocalIp, e, ip4_specified (hz x hx)] at h
      cases h
    have first : ∀ (P : Ip4Host → Prop), (∃ x ∈ st.ip4Host, P x) → ∃ x, FirstHost st.ip4Host P x := by
      intro P
      generalize st.ip4Host = l
      rintro ⟨x, hx, hp⟩
      induction l with
      | nil => cases hx
      | cons y l ih =>
        by_cases hy : P y
        · exact ⟨y, [], l, rfl, hy, by simp⟩
        · have hx' : x ∈ l := by rcases List.mem_cons.1 hx with rfl | hx; exact absurd hp hy; exact hx
          obtain ⟨z, l₁, l₂, e, e1, e2⟩ := ih hx'
          exact ⟨z, y :: l₁, l₂, by rw [e]; rfl, e1, by intro w hw; rcases List.mem_cons.1 hw with rfl | hw; exact hy; exact e2 w hw⟩
    have mem : ∀ {P : Ip4Host → Prop} {x}, FirstHost st.ip4Host P x → x ∈ st.ip4Host := by
      rintro P x ⟨l₁, l₂, e, -⟩
      rw [e]; simp
    have n1 : ∀ x ∈ st.ip4Host, ¬ x.OnLink dst := fun x hx ho => by
      obtain ⟨y, hy⟩ := first (·.OnLink dst) ⟨x, hx, ho⟩
      exact h0 y (mem hy) (c1 y hy)
    intro x hx
    refine ⟨n1 x hx, Classical.byContradiction fun hg => ?_⟩
    obtain ⟨y, hy⟩ := first (fun x => x.gateway ≠ none) ⟨x, hx, hg⟩
    exact h0 y (mem hy) ((c2 n1).1 y hy)
  · intro h
    rw [Socks.pickLocalIp, (c2 fun x hx => (h x hx).1).2 fun x hx => (h x hx).2]
    rfl

theorem noWay6 {st : Stack} (hz : ∀ x ∈ st.ip6Host, 0 < x.address.int) (dst : Ip6Address) :
    (Socks.pickLocalIp st (.v6 dst)).isUnspecified = true ↔ NoWay6 st dst := by
  obtain ⟨c1, c2, c3⟩ := C72_pick_local_ip6 st dst
  constructor
  · intro h
    have h0 : ∀ x ∈ st.ip6Host, pickLocalIp6 st dst ≠ x.address := by
      intro x hx e
      rw [Socks.pickLocalIp, e, ip6_specified (hz x hx)] at h
      cases h
    have first : ∀ (P : Ip6Host → Prop), (∃ x ∈ st.ip6Host, P x) → ∃ x, FirstHost st.ip6Host P x := by
      intro P
      generalize st.ip6Host = l
      rintro ⟨x, hx, hp⟩
      induction l with
      | nil => cases hx
      | cons y l ih =>
        by_cases hy : P y
        · exact ⟨y, [], l, rfl, hy, by simp⟩
        · have hx' : x ∈ l := by rcases List.mem_cons.1 hx with rfl | hx; exact absurd hp hy; exact hx
          obtain ⟨z, l₁, l₂, e, e1, e2⟩ := ih hx'
          exact ⟨z, y :: l₁, l₂, by rw [e]; rfl, e1, by intro w hw; rcases List.mem_cons.1 hw with rfl | hw; exact hy; exact e2 w hw⟩
    have mem : ∀ {P : Ip6Host → Prop} {x}, FirstHost st.ip6Host P x → x ∈ st.ip6Host := by
      rintro P x ⟨l₁, l₂, e, -⟩
      rw [e]; simp
    have n1 : ∀ x ∈ st.ip6Host, ¬ x.OnLink dst := fun x hx ho => by
      obtain ⟨y, hy⟩ := first (·.OnLink dst) ⟨x, hx, ho⟩
      exact h0 y (mem hy) (c1 y hy)
    intro x hx
    refine ⟨n1 x hx, Classical.byContradiction fun hg => ?_⟩
    obtain ⟨y, hy⟩ := first (fun x => x.gateway ≠ none) ⟨x, hx, hg⟩
    exact h0 y (mem hy) ((c2 n1).1 y hy)
  · intro h
    rw [Socks.pickLocalIp, (c2 fun x hx => (h x hx).1).2 fun x hx => (h x hx).2]
    rfl

/-- C102: a message ends the service, when what is to be sent back fits into a packet, or else into a datagram that the stack can cut up, exactly if the service has the address 0.0.0.0 and the host
has no way to the sender (nor are the ports those of a DHCP client and server). -/
theorem C102_dies4 {h : Host} {r port : Nat} {ip dst : Ip4Address} {m : UdpMd} {rest : List UdpMd}
    (hs : Serves h r (.v4 ip) port) (hq : unread h r = m :: rest) (hm : m.rip = .v4 dst) (hp : m.rport < 65536)
    (hz : ∀ x ∈ h.stack.ip4Host, 0 < x.address.int) (choice : Nat)
    (hf : ∀ x, EchoOf m.data x → 28 + x.length ≤ h.stack.mtu ∨
      (x.length < 65528 ∧ (28 ≤ h.stack.mtu ∧ h.stack.mtu < 65536) ∧ h.stack.ip4Id < 65535)) :
    (∃ e, (Echo.round h r choice).2 = .died e) ↔ ip.int = 0 ∧ NoWay4 h.stack dst ∧ ¬ (port = 68 ∧ m.rport = 67) := by
  obtain ⟨h₁, x1, x2, x3, x4, x5, x6, x7, -⟩ := hs.round hq hm rfl hp choice
  rw [noWay4 hz] at x6 x7
  have hu : (IpAddress.v4 ip).isUnspecified = true ↔ ip.int = 0 := by
    rw [IpAddress.isUnspecified, Ip4Address.isUnspecified, beq_iff_eq]
  have hb : ∀ P : Prop, ((IpAddress.v4 ip).isUnspecified = true ∧ P) ↔ (ip.int = 0 ∧ P) := fun P => by rw [hu]
  rw [hb] at x6 x7
  by_cases hc : ip.int = 0 ∧ NoWay4 h.stack dst ∧ ¬ (port = 68 ∧ m.rport = 67)
  · exact ⟨fun _ => hc, fun _ => by rw [x6 hc]; exact ⟨_, rfl⟩⟩
  · refine ⟨?_, fun h => absurd h hc⟩
    rintro ⟨e, he⟩
    have : ∃ lip, (IpAddress.v4 lip) = (if (IpAddress.v4 ip).isUnspecified then Socks.pickLocalIp h.stack (.v4 dst) else .v4 ip) := by
      split <;> exact ⟨_, rfl⟩
    obtain ⟨lip, hlip⟩ := this
    obtain ⟨⟨st, outs⟩, hx⟩ := h₁.udp4_big lip dst (lport := port) (rport := m.rport) (data := answer m.data) hs.bound.ports.2 hp
      (by rw [x1]; exact hf _ (C102_message _).1)
    rw [x7 hc _ hlip _ st outs (Prod.ext rfl hx)] at he
    cases he

theorem C102_dies6 {h : Host} {r port : Nat} {ip dst : Ip6Address} {m : UdpMd} {rest : List UdpMd}
    (hs : Serves h r (.v6 ip) port) (hq : unread h r = m :: rest) (hm : m.rip = .v6 dst) (hp : m.rport < 65536)
    (hz : ∀ x ∈ h.stack.ip6Host, 0 < x.address.int) (hf : ∀ x, EchoOf m.data x → x.length < 65528)
    (hmtu : 72 ≤ h.stack.mtu ∧ h.stack.mtu < 65536) (choice : Nat) :
    (∃ e, (Echo.round h r choice).2 = .died e) ↔ ip.int = 0 ∧ NoWay6 h.stack dst ∧ ¬ (port = 68 ∧ m.rport = 67) := by
  obtain ⟨h₁, x1, x2, x3, x4, x5, x6, x7, -⟩ := hs.round hq hm rfl hp choice
  rw [noWay6 hz] at x6 x7
  have hu : (IpAddress.v6 ip).isUnspecified = true ↔ ip.int = 0 := by
    rw [IpAddress.isUnspecified, Ip6Address.isUnspecified, beq_iff_eq]
  have hb : ∀ P : Prop, ((IpAddress.v6 ip).isUnspecified = true ∧ P) ↔ (ip.int = 0 ∧ P) := fun P => by rw [hu]
  rw [hb] at x6 x7
  by_cases hc : ip.int = 0 ∧ NoWay6 h.stack dst ∧ ¬ (port = 68 ∧ m.rport = 67)
  · exact ⟨fun _ => hc, fun _ => by rw [x6 hc]; exact ⟨_, rfl⟩⟩
  · refine ⟨?_, fun h => absurd h hc⟩
    rintro ⟨e, he⟩
    have : ∃ lip, (IpAddress.v6 lip) = (if (IpAddress.v6 ip).isUnspecified then Socks.pickLocalIp h.stack (.v6 dst) else .v6 ip) := by
      split <;> exact ⟨_, rfl⟩
    obtain ⟨lip, hlip⟩ := this
    obtain ⟨⟨st, outs⟩, hx⟩ := h₁.udp6_big lip dst (lport := port) (rport := m.rport) (data := answer m.data) hs.bound.ports.2 hp
      (hf _ (C102_message _).1) (by rw [x1]; exact hmtu)
    rw [x7 hc _ hlip _ st outs (Prod.ext rfl hx)] at he
    cases he

/-- C102 is violated: when the stack has cut up 65535 packets (C71), any message whose answer needs fragments ends the service. -/
theorem C102_exhausted_witness {h : Host} {r port : Nat} {ip src dst : Ip4Address} {m : UdpMd} {rest : List UdpMd}
    (hs : Serves h r (.v4 ip) port) (hq : unread h r = m :: rest) (hm : m.rip = .v4 dst) (hp : m.rport < 65536) (hl : LeavesFrom4 h.stack ip dst src)
    (ho : OwnSource4 h.stack src) (hd : dst.int ≠ 0) (hmtu : 28 ≤ h.stack.mtu ∧ h.stack.mtu < 65536)
    (hf : ∀ x, EchoOf m.data x → h.stack.mtu < 28 + x.length ∧ x.length < 65528) (hid : 65535 ≤ h.stack.ip4Id) (choice : Nat) :
    (Echo.round h r choice).2 = .died .assertionError := by
  obtain ⟨h₁, x1, -, -, -, -, -, -, x8⟩ := hs.round hq hm rfl hp choice
  obtain ⟨l1, l2⟩ := leaves4 hl ho.ordinary.1
  refine x8 (fun hc => l1 ⟨hc.1, hc.2.1⟩) _ l2 _ ?_
  refine h₁.udp4_exhausted (a := src) hs.bound.ports.2 hp (by rw [x1]; exact hmtu) (by rw [x1]; exact hf _ (C102_message _).1) (by rw [x1]; exact hid) ?_ hd
  rw [x1]
  exact ho.source dst _

/-! ### The socket, and what comes to it -/

theorem sendto_id {h : Host} {r : Nat} {s : Sock} (hs : h.node.socks.socks[r]? = some s) (hl : 1 ≤ s.id.lport ∧ s.id.lport < 65536) (data : Bytes)
    (addr : Option IpAddress) (port : Int) (choice : Nat) :
    ∃ s', (h.sendto r data addr port choice).1.node.socks.socks[r]? = some s' ∧ s'.id = s.id := by
  rw [Host.sendto, hs]
  dsimp only
  split
  · exact ⟨s, hs, rfl⟩
  simp only [if_pos hl]
  split
  · exact ⟨_, get_put _ hs, rfl⟩
  · next u lip rip _ => exact ⟨{ s with unreachable := u }, by rw [withSocks_udp]; exact get_put _ hs, rfl⟩

theorem serves_of {h h' : Host} {r port : Nat} {ip : IpAddress} {s s' : Sock} (hs : Serves h r ip port) (h1 : h.node.socks.socks[r]? = some s)
    (h2 : h'.node.socks.socks[r]? = some s') (hi : s'.id = s.id) : Serves h' r ip port := by
  obtain ⟨⟨⟨x, x1, x2⟩, hl⟩, hu⟩ := hs
  have hu := hu s h1
  rw [h1] at x1
  cases x1
  refine ⟨⟨⟨s', h2, by rw [hi]; exact x2⟩, hl⟩, fun y hy => ?_⟩
  rw [h2] at hy
  cases hy
  rw [hi]
  exact hu

theorem serves_step {r port : Nat} {ip : IpAddress} {s : Service} (hs : Serves s.host r ip port) (e : Ev) : Serves (Echo.step r s e).host r ip port := by
  obtain ⟨⟨⟨x, x1, x2, x3, x4⟩, hl⟩, hu⟩ := id hs
  cases e with
  | caches a n => exact ⟨⟨hs.bound.bound, hs.bound.ports⟩, hs.udp⟩
  | frame t₀ t₁ t d F =>
    obtain ⟨x', a1, -, a2⟩ := receive_queue x1 t₀ t₁ t d F
    exact serves_of hs x1 a1 a2
  | round choice =>
    have hd : Serves (Echo.round s.host r choice).1 r ip port := by
      cases hq : x.queue with
      | nil =>
        have : Echo.round s.host r choice = (s.host, .waits) := by rw [Echo.round, Socks.recvfrom, x1]; dsimp only; rw [hq]
        rw [this]; exact hs
      | cons m q =>
        have hr : s.host.node.socks.recvfrom r = (s.host.node.socks.put r { x with queue := q }, .ok (m.data, m.rip, m.rport)) := by
          rw [Socks.recvfrom, x1]; dsimp only; rw [hq]
        have hg : (s.host.withSocks (s.host.node.socks.put r { x with queue := q })).node.socks.socks[r]? = some { x with queue := q } := get_put _ x1
        obtain ⟨s', a1, a2⟩ := sendto_id hg (by rw [← x3] at hl; exact hl) (answer m.data) (some m.rip) m.rport choice
        have : (Echo.round s.host r choice).1 = ((s.host.withSocks (s.host.node.socks.put r { x with queue := q })).sendto r (answer m.data) (some m.rip) m.rport choice).1 := by
          rw [Echo.round, hr]
          dsimp only
          generalize (s.host.withSocks (s.host.node.socks.put r { x with queue := q })).sendto r (answer m.data) (some m.rip) m.rport choice = y
          obtain ⟨h', y⟩ := y
          cases y <;> rfl
        rw [this]
        exact serves_of hs x1 a1 a2
    rw [Echo.step]
    split
    · revert hd
      generalize Echo.round s.host r choice = y
      obtain ⟨h', y⟩ := y
      cases y
      · exact fun _ => hs
      · exact fun hd => hd
      · exact fun hd => hd
    · exact hs

/-- C102: a service that has been started has a UDP socket with the address and port it was given, with nothing to read yet, and it keeps this
socket, whatever happens. -/
theorem C102_started {h h' : Host} {r port choice : Nat} {ip : IpAddress} (hs : start h ip port choice = some (h', r)) (hp : 0 < port) :
    Serves h' r ip port ∧ unread h' r = [] ∧ h'.stack = h.stack ∧ ∀ evs, Serves (Echo.run r ⟨h', true, []⟩ evs).host r ip port := by
  have key : Serves h' r ip port ∧ unread h' r = [] ∧ h'.stack = h.stack := by
    rw [start, Socks.create] at hs
    dsimp only at hs
    rw [Socks.bind] at hs
    have hg : (h.node.socks.socks ++ [(⟨⟨ip.family, .dgram, ip.family.any, 0, ip.family.any, 0⟩, false, [], false⟩ : Sock)])[h.node.socks.socks.length]? =
        some ⟨⟨ip.family, .dgram, ip.family.any, 0, ip.family.any, 0⟩, false, [], false⟩ := by simp
    dsimp only at hs
    rw [hg] at hs
    dsimp only at hs
    rw [if_neg (by omega), if_neg (fun x => x rfl)] at hs
    by_cases h1 : (!(Socks.owned h.stack ip || ip.isUnspecified)) = true
    · rw [if_pos h1] at hs; cases hs
    rw [if_neg h1] at hs
    by_cases h2 : ¬ (0 ≤ (port : Int) ∧ (port : Int) < 65536)
    · rw [if_pos h2] at hs; cases hs
    rw [if_neg h2, if_pos (by omega)] at hs
    revert hs
    split
    · next e =>
      revert e
      split
      · rintro e hs; cases e; cases hs
      · rintro e; cases e
    · next ss e =>
      revert e
      split
      · intro e; cases e
      · intro e hs
        cases e
        cases hs
        have hg' : ((h.withSocks (Socks.register ⟨h.node.socks.socks ++ [(⟨⟨ip.family, .dgram, ip.family.any, 0, ip.family.any, 0⟩, false, [], false⟩ : Sock)], h.node.socks.table⟩ h.node.socks.socks.length ⟨⟨ip.family, .dgram, ip.family.any, 0, ip.family.any, 0⟩, false, [], false⟩
          ⟨ip.family, .dgram, ip, port, ip.family.any, 0⟩)).node.socks.socks)[h.node.socks.socks.length]? =
            some ⟨⟨ip.family, .dgram, ip, port, ip.family.any, 0⟩, false, [], false⟩ := by
          simp [Socks.register, Host.withSocks]
        refine ⟨⟨⟨⟨_, hg', rfl, rfl, rfl⟩, by omega⟩, fun s hs => ?_⟩, unread_some hg', rfl⟩
        cases Option.some.inj (hg'.symm.trans hs)
        rfl
  refine ⟨key.1, key.2.1, key.2.2, fun evs => ?_⟩
  have : ∀ (evs : List Ev) (s : Service), Serves s.host r ip port → Serves (Echo.run r s evs).host r ip port := by
    intro evs
    induction evs with
    | nil => exact fun _ h => h
    | cons e evs ih => exact fun s hs => ih _ (serves_step hs e)
  exact this evs _ key.1

theorem arrives {hist : List (Spec.Env × Spec.Op)} {h : Host} {F p data : Bytes} {src dst : IpAddress} {sport dport r : Nat}
    (hh : h.node.socks = (Spec.run hist).1) (H : Brings h.node F src dst 17 p) (hu : IsUdp p sport dport data) (hp : sport ≠ 0 ∧ dport ≠ 0)
    (hr : MostSpecific h.node.socks { lip := dst, lport := dport, rip := src, rport := sport, data := data } r) (t₀ t₁ t : Int) (d : Nat) :
    h.receive t₀ t₁ t d F = (h.withSocks (h.node.socks.deliver r { lip := dst, lport := dport, rip := src, rport := sport, data := data }), .ok []) ∧
      broughtBy r h t₀ t₁ t d F = [{ lip := dst, lport := dport, rip := src, rport := sport, data := data }] := by
  rcases C47_wire hh H hu hp.1 hp.2 t₀ t₁ d with ⟨r', ⟨s', k', x1, x2, x3⟩, e⟩ | ⟨hno, -⟩
  · have : r' = r := by
      obtain ⟨s₂, k₂, y1, y2, y3⟩ := hr
      rcases x3 _ _ _ y1 y2 with z | z
      · exact z.symm
      · rcases y3 _ _ _ x1 x2 with w | w
        · exact w
        · omega
    subst this
    refine ⟨Host.receive_one (t := t) e rfl, ?_⟩
    rw [broughtBy, e]
    simp [brought, Host.apply]
  · obtain ⟨s', k', x1, x2, -⟩ := hr
    rw [hno r s' x1] at x2; cases x2

/-- C102: a datagram that the host gets for the service's socket is among the datagrams to be answered, after those before it. -/
theorem C102_request {hist : List (Spec.Env × Spec.Op)} {s : Service} {F p data : Bytes} {src dst : IpAddress} {sport dport r : Nat}
    (hh : s.host.node.socks = (Spec.run hist).1) (H : Brings s.host.node F src dst 17 p) (hu : IsUdp p sport dport data) (hp : sport ≠ 0 ∧ dport ≠ 0)
    (hr : MostSpecific s.host.node.socks { lip := dst, lport := dport, rip := src, rport := sport, data := data } r) (t₀ t₁ t : Int) (d : Nat) :
    requested (Echo.step r s (.frame t₀ t₁ t d F)) = requested s ++ [{ lip := dst, lport := dport, rip := src, rport := sport, data := data }] := by
  have := (arrives hh H hu hp hr t₀ t₁ t d).2
  rw [requested, Echo.step]
  dsimp only
  rw [this]
  simp [requested, requested.asRequest]

/-! ### There and back -/

/-- C102: an application at host A sends a message to the service at host B; when the service has run, `recvfrom` at A gives what the service is
to send back.  The checksums must be right, which they are not always (C02). -/
theorem C102_round_trip4_partial {A B : Host} {r r' lport port : Nat} {ip src dst src' a a' : Ip4Address} {data : Bytes}
    {hist hist' : List (Spec.Env × Spec.Op)} (hb : BoundTo A r (.v4 src) lport) (hp : 0 < port ∧ port < 65536)
    (ho : OwnSource4 A.stack src) (hn : NextHop4 A.stack src dst a) (hk : Knows4 A a B.stack.mac) (hf : 28 + data.length ≤ A.stack.mtu)
    (hmtu : A.stack.mtu < 65536) (hB : Owns4 B.node dst) (hh : B.node.socks = (Spec.run hist).1)
    (hr : MostSpecific B.node.socks { lip := .v4 dst, lport := port, rip := .v4 src, rport := lport, data := data } r')
    (hs : Serves B r' (.v4 ip) port) (hq : unread B r' = [])
    (hl : LeavesFrom4 B.stack ip src src') (ho' : OwnSource4 B.stack src') (hn' : NextHop4 B.stack src' src a') (hk' : Knows4 B a' A.stack.mac)
    (hf' : ∀ x, EchoOf data x → 28 + x.length ≤ B.stack.mtu) (hmtu' : B.stack.mtu < 65536) (hh' : A.node.socks = (Spec.run hist').1)
    (hr' : ∀ x, EchoOf data x → MostSpecific A.node.socks { lip := .v4 src, lport := lport, rip := .v4 src', rport := port, data := x } r)
    (hq' : unread A r = []) (choice : Nat) :
    ∃ G q, Returns (A.sendto r data (some (.v4 dst)) port choice) data.length [G] ∧ Sends4 G A.stack.mac B.stack.mac src dst 64 17 q ∧
      NearlyValid (pseudoHdr4 src dst 17 q.length) q 6 ∧
      (Valid (pseudoHdr4 src dst 17 q.length ++ q) → ∀ t₀ t₁ t d choice', ∃ x G' q', EchoOf data x ∧
        Answers (Echo.round (B.receive t₀ t₁ t d G).1 r' choice').2 (.v4 src) lport x [G'] ∧
        Sends4 G' B.stack.mac A.stack.mac src' src 64 17 q' ∧ NearlyValid (pseudoHdr4 src' src 17 q'.length) q' 6 ∧
        (Valid (pseudoHdr4 src' src 17 q'.length ++ q') → ∀ t₀ t₁ t d,
          Puts ((A.sendto r data (some (.v4 dst)) port choice).1.receive t₀ t₁ t d G') [] ∧
          (((A.sendto r data (some (.v4 dst)) port choice).1.receive t₀ t₁ t d G').1.node.socks.recvfrom r).2 = .ok (x, .v4 src', port))) := by
  obtain ⟨G, q, g1, g0, g2, g3, g4⟩ := C88_sendto4 hb hp.2 ho hn hk hf hmtu choice
  refine ⟨G, q, g1, g2, g4, fun hv t₀ t₁ t d choice' => ?_⟩
  have hlp := hb.ports
  obtain ⟨e, -⟩ := arrives hh (.v4 (g2.brings (.inl rfl) (.inl hB)) hv) g3 ⟨by omega, by omega⟩ hr t₀ t₁ t d
  rw [e]
  obtain ⟨s, s1, s2, s3, s4⟩ := hs.bound.bound
  have hg : (B.withSocks (B.node.socks.deliver r' { lip := .v4 dst, lport := port, rip := .v4 src, rport := lport, data := data })).node.socks.socks[r']? =
      some { s with queue := s.queue ++ [{ lip := .v4 dst, lport := port, rip := .v4 src, rport := lport, data := data }] } := by
    rw [Socks.deliver, s1]; exact get_put _ s1
  have hs₁ := serves_of hs s1 hg rfl
  rw [unread_some s1] at hq
  obtain ⟨x, G', q', k1, k2, k3, k4, k5, -⟩ := C102_reply4 (rest := []) hs₁ (by rw [unread_some hg, hq]; rfl) rfl (by dsimp only; omega) hl ho' hn' hk'
    hf' hmtu' choice'
  refine ⟨x, G', q', k1, k2, k3, k5, fun hv' t₀ t₁ t d => ?_⟩
  obtain ⟨z, z1, -⟩ := hb.bound
  rw [unread_some z1] at hq'
  exact C88_datagram (s := z) (by rw [g0.node]; exact hh') (.v4 (k3.brings (.inl (by rw [Host.stack, g0.node]))
    (.inl (by rw [g0.node]; exact ho.own))) hv') k4 ⟨by omega, by dsimp only; omega⟩ (by rw [g0.node]; exact hr' x k1) (by rw [g0.node]; exact z1) hq' t₀ t₁ t d

theorem C102_round_trip6_partial {A B : Host} {r r' lport port : Nat} {ip src dst src' a a' : Ip6Address} {data : Bytes}
    {hist hist' : List (Spec.Env × Spec.Op)} (hb : BoundTo A r (.v6 src) lport) (hp : 0 < port ∧ port < 65536)
    (ho : OwnSource6 A.stack src) (hn : NextHop6 A.stack src dst a) (hk : Knows6 A a B.stack.mac) (hf : 48 + data.length ≤ A.stack.mtu)
    (hmtu : A.stack.mtu < 65536) (hB : Owns6 B.node dst) (hh : B.node.socks = (Spec.run hist).1)
    (hr : MostSpecific B.node.socks { lip := .v6 dst, lport := port, rip := .v6 src, rport := lport, data := data } r')
    (hs : Serves B r' (.v6 ip) port) (hq : unread B r' = [])
    (hl : LeavesFrom6 B.stack ip src src') (ho' : OwnSource6 B.stack src') (hn' : NextHop6 B.stack src' src a') (hk' : Knows6 B a' A.stack.mac)
    (hf' : ∀ x, EchoOf data x → 48 + x.length ≤ B.stack.mtu) (hmtu' : B.stack.mtu < 65536) (hh' : A.node.socks = (Spec.run hist').1)
    (hr' : ∀ x, EchoOf data x → MostSpecific A.node.socks { lip := .v6 src, lport := lport, rip := .v6 src', rport := port, data := x } r)
    (hq' : unread A r = []) (choice : Nat) :
    ∃ G q, Returns (A.sendto r data (some (.v6 dst)) port choice) data.length [G] ∧ Sends6 G A.stack.mac B.stack.mac src dst 64 17 q ∧
      NearlyValid (pseudoHdr6 src dst 17 q.length) q 6 ∧
      (Valid (pseudoHdr6 src dst 17 q.length ++ q) → ∀ t₀ t₁ t d choice', ∃ x G' q', EchoOf data x ∧
        Answers (Echo.round (B.receive t₀ t₁ t d G).1 r' choice').2 (.v6 src) lport x [G'] ∧
        Sends6 G' B.stack.mac A.stack.mac src' src 64 17 q' ∧ NearlyValid (pseudoHdr6 src' src 17 q'.length) q' 6 ∧
        (Valid (pseudoHdr6 src' src 17 q'.length ++ q') → ∀ t₀ t₁ t d,
          Puts ((A.sendto r data (some (.v6 dst)) port choice).1.receive t₀ t₁ t d G') [] ∧
          (((A.sendto r data (some (.v6 dst)) port choice).1.receive t₀ t₁ t d G').1.node.socks.recvfrom r).2 = .ok (x, .v6 src', port))) := by
  obtain ⟨G, q, g1, g0, g2, g3, g4⟩ := C88_sendto6 hb hp.2 ho hn hk hf hmtu choice
  refine ⟨G, q, g1, g2, g4, fun hv t₀ t₁ t d choice' => ?_⟩
  have hlp := hb.ports
  obtain ⟨e, -⟩ := arrives hh (.v6 (g2.brings (.inl rfl) (.inl hB)) hv) g3 ⟨by omega, by omega⟩ hr t₀ t₁ t d
  rw [e]
  obtain ⟨s, s1, s2, s3, s4⟩ := hs.bound.bound
  have hg : (B.withSocks (B.node.socks.deliver r' { lip := .v6 dst, lport := port, rip := .v6 src, rport := lport, data := data })).node.socks.socks[r']? =
      some { s with queue := s.queue ++ [{ lip := .v6 dst, lport := port, rip := .v6 src, rport := lport, data := data }] } := by
    rw [Socks.deliver, s1]; exact get_put _ s1
  have hs₁ := serves_of hs s1 hg rfl
  rw [unread_some s1] at hq
  obtain ⟨x, G', q', k1, k2, k3, k4, k5, -⟩ := C102_reply6 (rest := []) hs₁ (by rw [unread_some hg, hq]; rfl) rfl (by dsimp only; omega) hl ho' hn' hk'
    hf' hmtu' choice'
  refine ⟨x, G', q', k1, k2, k3, k5, fun hv' t₀ t₁ t d => ?_⟩
  obtain ⟨z, z1, -⟩ := hb.bound
  rw [unread_some z1] at hq'
  exact C88_datagram (s := z) (by rw [g0.node]; exact hh') (.v6 (k3.brings (.inl (by rw [Host.stack, g0.node]))
    (.inl (by rw [g0.node]; exact ho.own))) hv') k4 ⟨by omega, by dsimp only; omega⟩ (by rw [g0.node]; exact hr' x k1) (by rw [g0.node]; exact z1) hq' t₀ t₁ t d

/-! ### Cases, and what goes wrong -/

namespace Example.Echo
open Example.Host Example.Rx

/-- Sockets for the service at port 7 of 0.0.0.0 and of ::, on the host of the other examples. -/
def hist : List (Spec.Env × Spec.Op) :=
  let e : Spec.Env := ⟨B'.stack, ⟨fun _ _ => none, fun _ _ => none⟩⟩
  [(e, .socket .inet4 .dgram), (e, .bind 0 (some (.v4 .zero)) 7 0), (e, .socket .inet6 .dgram), (e, .bind 1 (some (.v6 .zero)) 7 0)]
def S : Host := B'.withSocks (Spec.run hist).1

theorem s_serves4 : Serves S 0 (.v4 .zero) 7 :=
  ⟨⟨⟨_, rfl, by decide +kernel, by decide +kernel, by decide +kernel⟩, by decide⟩, fun s hs => by cases hs; decide +kernel⟩
theorem s_serves6 : Serves S 1 (.v6 .zero) 7 :=
  ⟨⟨⟨_, rfl, by decide +kernel, by decide +kernel, by decide +kernel⟩, by decide⟩, fun s hs => by cases hs; decide +kernel⟩
theorem s_leaves4 : LeavesFrom4 S.stack .zero peer4 Example.host4.address :=
  .inr ⟨rfl, [Example.host4'], Example.host4, [], rfl, rfl, .inl ⟨by intro y hy; rw [List.mem_singleton.1 hy]; unfold cidr; decide +kernel, by unfold cidr; decide +kernel⟩⟩
theorem s_leaves6 : LeavesFrom6 S.stack .zero peer6 Example.host6.address :=
  .inr ⟨rfl, [], Example.host6, [], rfl, rfl, .inl ⟨by simp, by unfold cidr; decide +kernel⟩⟩
theorem hi_echo {x : Bytes} (h : EchoOf [104, 105] x) : x = [104, 105] := by
  rw [(C102_message _).2 x h]; decide +kernel

/-- The hypotheses of `C102_round_trip4_partial`, and of `C102_round_trip6_partial`. -/
example : ∃ G q, Returns (A'.sendto 0 [104, 105] (some (.v4 Example.host4.address)) 7 0) 2 [G] ∧
    Sends4 G A'.stack.mac S.stack.mac peer4 Example.host4.address 64 17 q := by
  obtain ⟨G, q, h1, h2, -⟩ := C102_round_trip4_partial (A := A') (B := S) (r := 0) (r' := 0) (data := [104, 105]) (hist := hist) (hist' := Example.EndToEnd.hist 1500)
    (a := Example.host4.address) (a' := peer4) (src' := Example.host4.address) ⟨a_bound4.bound, a_bound4.ports⟩ (by decide) a_own4 a_next4 rfl (by decide) (by decide)
    b_own4.own rfl ((match_spec (Socks.run_wf hist) _).1 0 (by decide +kernel)) s_serves4 (by decide +kernel) s_leaves4 b_own4 b_next4 rfl
    (fun x hx => by rw [hi_echo hx]; decide) (by decide) rfl
    (fun x hx => (match_spec (Socks.run_wf (Example.EndToEnd.hist 1500)) _).1 0 (by rw [hi_echo hx]; decide +kernel)) (by decide +kernel) 0
  exact ⟨G, q, h1, h2⟩
example : ∃ G q, Returns (A'.sendto 1 [104, 105] (some (.v6 Example.host6.address)) 7 0) 2 [G] ∧
    Sends6 G A'.stack.mac S.stack.mac peer6 Example.host6.address 64 17 q := by
  obtain ⟨G, q, h1, h2, -⟩ := C102_round_trip6_partial (A := A') (B := S) (r := 1) (r' := 1) (data := [104, 105]) (hist := hist) (hist' := Example.EndToEnd.hist 1500)
    (a := Example.host6.address) (a' := peer6) (src' := Example.host6.address) ⟨a_bound6.bound, a_bound6.ports⟩ (by decide) a_own6 a_next6 rfl (by decide) (by decide)
    b_own6.own rfl ((match_spec (Socks.run_wf hist) _).1 1 (by decide +kernel)) s_serves6 (by decide +kernel) s_leaves6 b_own6 b_next6 rfl
    (fun x hx => by rw [hi_echo hx]; decide) (by decide) rfl
    (fun x hx => (match_spec (Socks.run_wf (Example.EndToEnd.hist 1500)) _).1 1 (by rw [hi_echo hx]; decide +kernel)) (by decide +kernel) 0
  exact ⟨G, q, h1, h2⟩

/-- There and back, run; what comes back is what was sent, or the picture. -/
def frameOf (o : Py (Nat × List Outgoing)) : Bytes := (sentFrames o).2.headD []
def frameBack : Round → Bytes
  | .answered _ _ _ _ outs => (frames (.ok outs)).headD []
  | _ => []
def echo (c s : Host) (r r' : Nat) (data : Bytes) (dst : IpAddress) : Py (Bytes × IpAddress × Nat) :=
  ((c.receive 0 0 0 8 (frameBack (Echo.round (s.receive 0 0 0 8 (frameOf (c.sendto r data (some dst) 7 0).2)).1 r' 0).2)).1.node.socks.recvfrom r).2
example : (echo A' S 0 0 [104, 105] (.v4 Example.host4.address)).toOption = some ([104, 105], .v4 Example.host4.address, 7) ∧
    (echo A' S 1 1 [104, 105] (.v6 Example.host6.address)).toOption = some ([104, 105], .v6 Example.host6.address, 7) := by decide +kernel
example : (echo A' S 0 0 (ascii "is there a mAlPkA, too") (.v4 Example.host4.address)).toOption = some (malpka, .v4 Example.host4.address, 7) := by decide +kernel

/-- A service is started. -/
example : (Echo.start B' (.v4 .zero) 7 0).isSome = true ∧ (Echo.start B' (.v6 Example.host6.address) 7 0).isSome = true ∧
    (Echo.start B' (.v4 peer4) 7 0).isSome = false := by decide +kernel

/-- 172.16.0.9, behind a router that hands its packets to the service's host. -/
def far : Ip4Address := ⟨0xAC100009, by decide⟩
def farHist : List (Spec.Env × Spec.Op) :=
  let e : Spec.Env := ⟨{ Example.stack with ip4Host := [⟨far, Ip4Network.ofMask far Example.mask24, some ⟨0xAC100001, by decide⟩⟩] }, Example.EndToEnd.links⟩
  [(e, .socket .inet4 .dgram), (e, .bind 0 (some (.v4 far)) 5000 0)]
def C : Host :=
  ⟨{ A.node with stack := { A.stack with ip4Host := [⟨far, Ip4Network.ofMask far Example.mask24, some ⟨0xAC100001, by decide⟩⟩] }, socks := (Spec.run farHist).1 },
    [(⟨0xAC100001, by decide⟩, entry Example.stack.mac)], []⟩
/-- The service's host, without a gateway. -/
def T : Host := { S with node := { S.node with stack := { S.stack with ip4Host := [⟨Example.host4.address, Example.host4.network, none⟩] } } }
/-- A message from there, and one from the same network. -/
def farAsks : Bytes := frameOf (C.sendto 0 [104, 105] (some (.v4 Example.host4.address)) 7 0).2
def nearAsks : Bytes := frameOf (A'.sendto 0 [104, 105] (some (.v4 Example.host4.address)) 7 0).2

/-- The service's host, with a second address in the same network. -/
def other : Ip4Address := ⟨0x0A000106, by decide⟩
def U : Host := { S with node := { S.node with stack := { S.stack with ip4Host := [⟨other, Example.host4.network, none⟩, Example.host4] } } }
/-- A host with a socket connected to the service at 10.0.1.7. -/
def connHist : List (Spec.Env × Spec.Op) := Example.EndToEnd.hist 1500 ++ [(⟨Example.EndToEnd.sender 1500, Example.EndToEnd.links⟩, .connect 0 (some (.v4 Example.host4.address)) 7 0)]
def K : Host := A'.withSocks (Spec.run connHist).1

/-- It gets the answer of a host with this address alone in its network. -/
example : (echo K S 0 0 [104, 105] (.v4 Example.host4.address)).toOption = some ([104, 105], .v4 Example.host4.address, 7) := by decide +kernel

/-- The case of `C102_dies4`. -/
example : Serves (T.receive 0 0 0 8 farAsks).1 0 (.v4 .zero) 7 ∧
    unread (T.receive 0 0 0 8 farAsks).1 0 = [{ lip := .v4 Example.host4.address, lport := 7, rip := .v4 far, rport := 5000, data := [104, 105] }] ∧
    NoWay4 T.stack far := by
  refine ⟨?_, by decide +kernel, ?_⟩
  · obtain ⟨s', a1, -, a2⟩ := receive_queue (h := T) (r := 0) rfl 0 0 0 8 farAsks
    exact serves_of (h := T) ⟨⟨s_serves4.bound.bound, s_serves4.bound.ports⟩, s_serves4.udp⟩ rfl a1 a2
  · intro x hx
    rw [List.mem_singleton.1 hx]
    exact ⟨by unfold cidr; decide +kernel, rfl⟩

/-- The service's host, when it has cut up 65535 packets, with an MTU of 576; there waits a message that asks for a picture, which needs fragments. -/
def asks : UdpMd := { lip := .v4 Example.host4.address, lport := 7, rip := .v4 peer4, rport := 5000, data := ascii "malpa" }
def V : Host :=
  { S with node := { S.node with stack := { S.stack with ip4Id := 65535, mtu := 576 }, socks := S.node.socks.deliver 0 asks } }
theorem pic_echo {x : Bytes} (h : EchoOf (ascii "malpa") x) : x = malpa :=
  ((C102_message _).2 x h).trans (by decide +kernel)
theorem v_serves : Serves V 0 (.v4 .zero) 7 := by
  obtain ⟨s, hs⟩ : ∃ s, S.node.socks.socks[0]? = some s := ⟨_, rfl⟩
  exact serves_of (h := S) (h' := V) s_serves4 hs (s' := { s with queue := s.queue ++ [asks] }) (by cases hs; rfl) rfl

/-- The case of `C102_exhausted_witness`; -/
example : (Echo.round V 0 0).2 = .died .assertionError :=
  C102_exhausted_witness (ip := .zero) (src := Example.host4.address) (dst := peer4) (port := 7) (rest := []) (m := asks) v_serves
    (by decide +kernel) rfl (by decide) s_leaves4 ⟨b_own4.own, b_own4.multicast, b_own4.broadcast, b_own4.ordinary⟩ (by decide)
    (by decide) (fun x hx => by rw [pic_echo hx]; decide +kernel) (by decide) 0
/-- the answer before that, with the hypotheses of `C102_dies4`, has gone out. -/
def V' : Host := V.withStack { V.stack with ip4Id := 65534 }
example : ¬ ∃ e, (Echo.round V' 0 0).2 = .died e := by
  rw [C102_dies4 (h := V') (m := asks) (rest := []) (ip := .zero) (dst := peer4) (port := 7) ⟨⟨v_serves.bound.bound, v_serves.bound.ports⟩, v_serves.udp⟩ (by decide +kernel) rfl
    (by decide) (by decide +kernel) 0 (fun x hx => .inr ⟨by rw [pic_echo hx]; decide +kernel, by decide, by decide⟩)]
  rintro ⟨-, h, -⟩
  exact (h Example.host4 (by decide +kernel)).1 (by unfold cidr; decide +kernel)
/-- It is the case of `C102_cuts4`. -/
example : ∃ x Fs q fs, EchoOf asks.data x ∧ Answers (Echo.round V' 0 0).2 (.v4 peer4) 5000 x Fs ∧ IsUdp q 7 5000 x ∧ IsFragmentation q 556 fs ∧
    List.Forall₂ (Cut4 S.stack.mac A'.stack.mac 576 Example.host4.address peer4 64 17 65535) fs Fs := by
  obtain ⟨x, Fs, q, fs, h1, h2, h3, -, h4, h5, -⟩ := C102_cuts4 (h := V') (ip := .zero) (src := Example.host4.address) (dst := peer4) (a := peer4)
    (nb := A'.stack.mac) (port := 7) (rest := []) (m := asks) ⟨⟨v_serves.bound.bound, v_serves.bound.ports⟩, v_serves.udp⟩ (by decide +kernel) rfl (by decide)
    s_leaves4 ⟨b_own4.own, b_own4.multicast, b_own4.broadcast, b_own4.ordinary⟩
    ⟨b_next4.route, b_next4.unicast⟩ rfl (fun x hx => by rw [pic_echo hx]; decide +kernel) (by decide) (by decide) 0
  exact ⟨x, Fs, q, fs, h1, h2, h3, h4, h5⟩

/-- The same message to the service's IPv6 socket, and the case of `C102_cuts6`. -/
def asks6 : UdpMd := { lip := .v6 Example.host6.address, lport := 7, rip := .v6 peer6, rport := 5000, data := ascii "malpa" }
def V6 : Host := { S with node := { S.node with stack := { S.stack with mtu := 576 }, socks := S.node.socks.deliver 1 asks6 } }
theorem v6_serves : Serves V6 1 (.v6 .zero) 7 := by
  obtain ⟨s, hs⟩ : ∃ s, S.node.socks.socks[1]? = some s := ⟨_, rfl⟩
  exact serves_of (h := S) (h' := V6) s_serves6 hs (s' := { s with queue := s.queue ++ [asks6] }) (by cases hs; rfl) rfl
example : ∃ x Fs q fs, EchoOf asks6.data x ∧ Answers (Echo.round V6 1 0).2 (.v6 peer6) 5000 x Fs ∧ IsUdp q 7 5000 x ∧ IsFragmentation q 528 fs ∧
    List.Forall₂ (Cut6 S.stack.mac A'.stack.mac 576 Example.host6.address peer6 17 1) fs Fs := by
  obtain ⟨x, Fs, q, fs, h1, h2, h3, -, h4, h5, -⟩ := C102_cuts6 (h := V6) (ip := .zero) (src := Example.host6.address) (dst := peer6) (a := peer6)
    (nb := A'.stack.mac) (port := 7) (rest := []) (m := asks6) v6_serves (by decide +kernel) rfl (by decide)
    s_leaves6 ⟨b_own6.own, b_own6.multicast, b_own6.ordinary⟩
    ⟨b_next6.route, b_next6.unicast⟩ rfl (fun x hx => by rw [pic_echo hx]; decide +kernel) (by decide) (by decide) (by unfold Stack.PlainIp6; decide +kernel) 0
  exact ⟨x, Fs, q, fs, h1, h2, h3, h4, h5⟩

end Example.Echo

open Example.Echo in
/-- C102: one datagram from a sender to whom the host has no way ends the service: what others send is not answered any more, while without it it
is. -/
theorem C102_ends_witness : ∃ (h : Host) (F F' : Bytes), Serves h 0 (.v4 .zero) 7 ∧ unread h 0 = [] ∧
    replied (Echo.run 0 ⟨h, true, []⟩ [.frame 0 0 0 8 F', .round 0]) = [(.v4 Example.Rx.peer4, 5000, [104, 105])] ∧
    (Echo.run 0 ⟨h, true, []⟩ [.frame 0 0 0 8 F, .round 0]).alive = false ∧
    (requested (Echo.run 0 ⟨h, true, []⟩ [.frame 0 0 0 8 F, .round 0, .frame 0 0 0 8 F', .round 0])).length = 2 ∧
    replied (Echo.run 0 ⟨h, true, []⟩ [.frame 0 0 0 8 F, .round 0, .frame 0 0 0 8 F', .round 0]) = [] :=
  ⟨T, farAsks, nearAsks, ⟨⟨s_serves4.bound.bound, s_serves4.bound.ports⟩, s_serves4.udp⟩, by decide +kernel, by decide +kernel, by decide +kernel, by decide +kernel, by decide +kernel⟩

open Example.Echo in
/-- C102: a message to one address of a host is answered from another one in the same network, when the service has the address 0.0.0.0; a client
that has connected its socket to the address it asks never gets the answer. -/
theorem C102_source_witness : ∃ (c h : Host) (G : Bytes) (r r' : Nat), Serves h r' (.v4 .zero) 7 ∧
    frameOf (c.sendto r [104, 105] (some (.v4 Example.host4.address)) 7 0).2 = G ∧
    (unread (h.receive 0 0 0 8 G).1 r').map (·.lip) = [.v4 Example.host4.address] ∧
    ∃ G', frameBack (Echo.round (h.receive 0 0 0 8 G).1 r' 0).2 = G' ∧ (G'.drop 26).take 4 = [10, 0, 1, 6] ∧
      unread (c.receive 0 0 0 8 G').1 r = [] :=
  ⟨K, U, nearAsks, 0, 0, ⟨⟨s_serves4.bound.bound, s_serves4.bound.ports⟩, s_serves4.udp⟩, by decide +kernel, by decide +kernel, _, rfl, by decide +kernel, by decide +kernel⟩

end Verif
