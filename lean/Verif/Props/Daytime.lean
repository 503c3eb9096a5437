import Verif.Lemmas.Daytime
import Verif.Lemmas.Discard
import Verif.Props.Echo
/-! C112: the UDP daytime service and the UDP discard service, on a host. -/
namespace Verif
open Spec Echo Daytime

/-! ### The daytime service -/

/-- C112: what the daytime service sends is the time, and nobody can read another time from it. -/
theorem C112_text {now : Now} (h : OnClock now) : TimeText now (str now) ∧ ∀ n, TimeText n (str now) → n = now :=
  ⟨str_text h, fun _ hn => text_inj hn (str_text h)⟩

theorem text_length {n : Now} {x : Bytes} (h : TimeText n x) : x.length ≤ 26 := by
  obtain ⟨y, mo, d, hh, mi, s, u, f1, f2, f3, f4, f5, f6, f7, rfl⟩ := h
  have hu : u.length ≤ 7 := by
    rcases f7 with ⟨-, rfl⟩ | ⟨-, v, fv, rfl⟩
    · simp
    · rw [List.length_cons, fv.length]
  simp only [List.length_append, List.length_cons, f1.length, f2.length, f3.length, f4.length, f5.length, f6.length]
  omega

/-- C112: whatever frames come in between, and whenever the service gets to run: it answers the datagrams in the order in which they were handed to
its socket, each once, to where it came from, with the time when it answers; those it has not come to yet still wait.  When its thread has ended, the
datagram that it read last is not answered, and neither is any later one. -/
theorem C112_order {r : Nat} {s : Service} (hr : ∃ x, s.host.node.socks.socks[r]? = some x) (hu : unread s.host r = []) (ha : s.alive = true)
    (hl : s.log = []) (evs : List (Ev × Now)) (hc : ∀ n ∈ clockWhenRun evs, OnClock n) :
    (∃ k, (replied (Daytime.run r s evs)).map (fun x => (x.1, x.2.1)) = ((requested (Daytime.run r s evs)).take k).map (fun m => (m.rip, m.rport)) ∧
      ((Daytime.run r s evs).alive = true → k ≤ (requested (Daytime.run r s evs)).length ∧ unread (Daytime.run r s evs).host r = (requested (Daytime.run r s evs)).drop k) ∧
      ((Daytime.run r s evs).alive = false → k < (requested (Daytime.run r s evs)).length ∧ unread (Daytime.run r s evs).host r = (requested (Daytime.run r s evs)).drop (k + 1))) ∧
    ∃ ts, ts.Sublist (clockWhenRun evs) ∧ List.Forall₂ (fun n x => TimeText n x.2.2) ts (replied (Daytime.run r s evs)) := by
  have h0 : Daytime.Told r s [] := ⟨hr, ⟨0, by simp [replied, hl], by simp [requested, hl, ha], by simp [requested, hl, ha, hu]⟩, by simp [replied, hl]⟩
  obtain ⟨-, ⟨k, h1, h2, h3⟩, h4⟩ := h0.run evs
  refine ⟨⟨k, h1, fun h => ?_, fun h => ?_⟩, ?_⟩
  · rw [h] at h2 h3; exact ⟨h2, h3⟩
  · rw [h] at h2 h3; exact ⟨h2, h3⟩
  · rw [List.nil_append] at h4
    obtain ⟨ts, t1, t2⟩ := List.sublist_map_iff.1 h4
    refine ⟨ts, t1, ?_⟩
    have ht : ∀ n ∈ ts, OnClock n := fun n hn => hc n (t1.subset hn)
    clear h1 h2 h3 h4 t1
    generalize replied (Daytime.run r s evs) = l at t2
    induction l generalizing ts with
    | nil => cases ts with
      | nil => exact .nil
      | cons _ _ => cases t2
    | cons x l ih => cases ts with
      | nil => cases t2
      | cons n ts =>
        rw [List.map_cons, List.map_cons, List.cons.injEq] at t2
        refine .cons ?_ (ih ts (fun n hn => ht n (List.mem_cons_of_mem _ hn)) t2.2)
        rw [t2.1]
        exact str_text (ht n List.mem_cons_self)

theorem Spec.Serves.dayRound {h : Host} {r port : Nat} {ip dst : IpAddress} {m : UdpMd} {rest : List UdpMd} (hs : Serves h r ip port)
    (hq : unread h r = m :: rest) (hm : m.rip = dst) (hf : ip.family = dst.family) (hp : m.rport < 65536) (choice : Nat) (now : Now) :
    ∃ h₁, h₁.stack = h.stack ∧ h₁.arp = h.arp ∧ h₁.nd = h.nd ∧ Serves h₁ r ip port ∧ unread h₁ r = rest ∧
      (ip.isUnspecified = true ∧ (Socks.pickLocalIp h.stack dst).isUnspecified = true ∧ ¬ (port = 68 ∧ m.rport = 67) →
        Daytime.round h r choice now = (h₁, .died .gaiError)) ∧
      (¬ (ip.isUnspecified = true ∧ (Socks.pickLocalIp h.stack dst).isUnspecified = true ∧ ¬ (port = 68 ∧ m.rport = 67)) →
        ∀ lip, lip = (if ip.isUnspecified then Socks.pickLocalIp h.stack dst else ip) → ∀ h' st outs,
          h₁.udp lip dst port m.rport (str now) = (h', .ok (st, outs)) →
          Daytime.round h r choice now = (h', .answered dst m.rport (str now)
            (if st = .passedEtherToTxRing then (str now).length else 0) outs)) := by
  obtain ⟨⟨⟨s, s1, s2, s3, s4⟩, hl⟩, hu⟩ := hs
  have hu := hu s s1
  subst hm
  rw [unread_some s1] at hq
  have hr : h.node.socks.recvfrom r = (h.node.socks.put r { s with queue := rest }, .ok (m.data, m.rip, m.rport)) := by
    rw [Socks.recvfrom, s1]; dsimp only; rw [hq]
  have hg : (h.withSocks (h.node.socks.put r { s with queue := rest })).node.socks.socks[r]? = some { s with queue := rest } := get_put _ s1
  obtain ⟨u, e1, e2⟩ := Host.sendto_from _ hg (dst := m.rip) (port := m.rport) (by dsimp only; rw [s3]; exact hl) hp
    (s4.trans hf) hu (str now) choice
  dsimp only at e1 e2
  rw [s2, s3] at e1 e2
  refine ⟨(h.withSocks (h.node.socks.put r { s with queue := rest })).withSocks
      ((h.withSocks (h.node.socks.put r { s with queue := rest })).node.socks.put r { s with queue := rest, unreachable := u }), rfl, rfl, rfl, ?_, ?_, ?_, ?_⟩
  · refine ⟨⟨⟨_, get_put _ hg, s2, s3, s4⟩, hl⟩, fun s' h' => ?_⟩
    cases Option.some.inj ((get_put { s with queue := rest, unreachable := u } hg).symm.trans h')
    exact hu
  · exact unread_some (h := (h.withSocks _).withSocks _) (get_put { s with queue := rest, unreachable := u } hg)
  · intro hc
    rw [Daytime.round, hr]
    dsimp only
    rw [e1 hc]
  · intro hc lip hlip h' st outs hudp
    rw [Daytime.round, hr]
    dsimp only
    rw [e2 hc lip hlip, hudp]
    rfl

/-- C112: when the service runs, the first datagram that waits is answered with one frame: a UDP datagram with the time, to where the message came
from, from the service's port, and from its address, or if that is 0.0.0.0 from the host's address in the first network that the sender is in, or
else the first one with a gateway. -/
theorem C112_reply4 {h : Host} {r port : Nat} {ip src dst a : Ip4Address} {nb : MacAddress} {m : UdpMd} {rest : List UdpMd}
    (hs : Serves h r (.v4 ip) port) (hq : unread h r = m :: rest) (hm : m.rip = .v4 dst) (hp : m.rport < 65536) (hl : LeavesFrom4 h.stack ip dst src)
    (ho : OwnSource4 h.stack src) (hn : NextHop4 h.stack src dst a) (hk : Knows4 h a nb)
    (hf : 54 ≤ h.stack.mtu) (hmtu : h.stack.mtu < 65536) (choice : Nat) {now : Now} (ht : OnClock now) :
    ∃ x G q, TimeText now x ∧ Answers (Daytime.round h r choice now).2 (.v4 dst) m.rport x [G] ∧ Sends4 G h.stack.mac nb src dst 64 17 q ∧
      IsUdp q port m.rport x ∧ NearlyValid (pseudoHdr4 src dst 17 q.length) q 6 ∧
      unread (Daytime.round h r choice now).1 r = rest ∧ Serves (Daytime.round h r choice now).1 r (.v4 ip) port := by
  obtain ⟨h₁, x1, x2, x3, x4, x5, -, x6⟩ := hs.dayRound hq hm rfl hp choice now
  obtain ⟨l1, l2⟩ := leaves4 hl ho.ordinary.1
  have ex := str_text ht
  have el := text_length ex
  obtain ⟨h', o, G, q, g1, g2, g3, g4⟩ := h₁.udp_sends4 (sport := port) (dport := m.rport) (data := str now) hs.bound.ports.2 hp
    (by rw [x1]; exact ho) (by rw [x1]; exact hn) (m := nb) (by rw [Knows4, x2]; exact hk) (by rw [x1]; omega) (by rw [x1]; exact hmtu)
  rw [x6 (fun hc => l1 ⟨hc.1, hc.2.1⟩) _ l2 _ _ _ g1]
  rw [x1] at g4
  refine ⟨_, G, q, ex, ⟨[o], rfl, by simp [g3]⟩, g4.1, g4.2.1, g4.2.2, ?_, ?_⟩
  · rw [unread, g2.node]; exact x5
  · exact ⟨⟨by rw [g2.node]; exact x4.bound.bound, x4.bound.ports⟩, by rw [g2.node]; exact x4.udp⟩

/-- C112: the same over IPv6. -/
theorem C112_reply6 {h : Host} {r port : Nat} {ip src dst a : Ip6Address} {nb : MacAddress} {m : UdpMd} {rest : List UdpMd}
    (hs : Serves h r (.v6 ip) port) (hq : unread h r = m :: rest) (hm : m.rip = .v6 dst) (hp : m.rport < 65536) (hl : LeavesFrom6 h.stack ip dst src)
    (ho : OwnSource6 h.stack src) (hn : NextHop6 h.stack src dst a) (hk : Knows6 h a nb)
    (hf : 74 ≤ h.stack.mtu) (hmtu : h.stack.mtu < 65536) (choice : Nat) {now : Now} (ht : OnClock now) :
    ∃ x G q, TimeText now x ∧ Answers (Daytime.round h r choice now).2 (.v6 dst) m.rport x [G] ∧ Sends6 G h.stack.mac nb src dst 64 17 q ∧
      IsUdp q port m.rport x ∧ NearlyValid (pseudoHdr6 src dst 17 q.length) q 6 ∧
      unread (Daytime.round h r choice now).1 r = rest ∧ Serves (Daytime.round h r choice now).1 r (.v6 ip) port := by
  obtain ⟨h₁, x1, x2, x3, x4, x5, -, x6⟩ := hs.dayRound hq hm rfl hp choice now
  obtain ⟨l1, l2⟩ := leaves6 hl ho.ordinary.1
  have ex := str_text ht
  have el := text_length ex
  obtain ⟨h', o, G, q, g1, g2, g3, g4⟩ := h₁.udp_sends6 (sport := port) (dport := m.rport) (data := str now) hs.bound.ports.2 hp
    (by rw [x1]; exact ho) (by rw [x1]; exact hn) (m := nb) (by rw [Knows6, x3]; exact hk) (by rw [x1]; omega) (by rw [x1]; exact hmtu)
  rw [x6 (fun hc => l1 ⟨hc.1, hc.2.1⟩) _ l2 _ _ _ g1]
  rw [x1] at g4
  refine ⟨_, G, q, ex, ⟨[o], rfl, by simp [g3]⟩, g4.1, g4.2.1, g4.2.2, ?_, ?_⟩
  · rw [unread, g2.node]; exact x5
  · exact ⟨⟨by rw [g2.node]; exact x4.bound.bound, x4.bound.ports⟩, by rw [g2.node]; exact x4.udp⟩

/-- C112: a message ends the service exactly if the service has the address 0.0.0.0 and the host has no way to the sender (nor are the ports those of
a DHCP client and server). -/
theorem C112_dies4 {h : Host} {r port : Nat} {ip dst : Ip4Address} {m : UdpMd} {rest : List UdpMd}
    (hs : Serves h r (.v4 ip) port) (hq : unread h r = m :: rest) (hm : m.rip = .v4 dst) (hp : m.rport < 65536)
    (hz : ∀ x ∈ h.stack.ip4Host, 0 < x.address.int) (hf : 54 ≤ h.stack.mtu) (choice : Nat) {now : Now} (hn : OnClock now) :
    (∃ e, (Daytime.round h r choice now).2 = .died e) ↔ ip.int = 0 ∧ NoWay4 h.stack dst ∧ ¬ (port = 68 ∧ m.rport = 67) := by
  obtain ⟨h₁, x1, x2, x3, x4, x5, x6, x7⟩ := hs.dayRound hq hm rfl hp choice now
  rw [noWay4 hz] at x6 x7
  have hu : (IpAddress.v4 ip).isUnspecified = true ↔ ip.int = 0 := by
    rw [IpAddress.isUnspecified, Ip4Address.isUnspecified, beq_iff_eq]
  have hb : ∀ P : Prop, ((IpAddress.v4 ip).isUnspecified = true ∧ P) ↔ (ip.int = 0 ∧ P) := fun P => by rw [hu]
  rw [hb] at x6 x7
  by_cases hc : ip.int = 0 ∧ NoWay4 h.stack dst ∧ ¬ (port = 68 ∧ m.rport = 67)
  · exact ⟨fun _ => hc, fun _ => by rw [x6 hc]; exact ⟨_, rfl⟩⟩
  · refine ⟨?_, fun h => absurd h hc⟩
    rintro ⟨e, he⟩
    have : ∃ lip, (IpAddress.v4 lip) = (if (IpAddress.v4 ip).isUnspecified then Socks.pickLocalIp h.stack (.v4 dst) else .v4 ip) := by
      split <;> exact ⟨_, rfl⟩
    obtain ⟨lip, hlip⟩ := this
    obtain ⟨⟨st, outs⟩, hx⟩ := h₁.udp4_ok lip dst (sport := port) (dport := m.rport) (data := str now) hs.bound.ports.2 hp
      (by rw [x1]; have := text_length (str_text hn); omega)
    rw [x7 hc _ hlip _ st outs (Prod.ext rfl hx)] at he
    cases he

/-- C112: the same, over IPv6. -/
theorem C112_dies6 {h : Host} {r port : Nat} {ip dst : Ip6Address} {m : UdpMd} {rest : List UdpMd}
    (hs : Serves h r (.v6 ip) port) (hq : unread h r = m :: rest) (hm : m.rip = .v6 dst) (hp : m.rport < 65536)
    (hz : ∀ x ∈ h.stack.ip6Host, 0 < x.address.int) (hf : 74 ≤ h.stack.mtu) (hmtu : 72 ≤ h.stack.mtu)
    (choice : Nat) {now : Now} (hn : OnClock now) :
    (∃ e, (Daytime.round h r choice now).2 = .died e) ↔ ip.int = 0 ∧ NoWay6 h.stack dst ∧ ¬ (port = 68 ∧ m.rport = 67) := by
  obtain ⟨h₁, x1, x2, x3, x4, x5, x6, x7⟩ := hs.dayRound hq hm rfl hp choice now
  rw [noWay6 hz] at x6 x7
  have hu : (IpAddress.v6 ip).isUnspecified = true ↔ ip.int = 0 := by
    rw [IpAddress.isUnspecified, Ip6Address.isUnspecified, beq_iff_eq]
  have hb : ∀ P : Prop, ((IpAddress.v6 ip).isUnspecified = true ∧ P) ↔ (ip.int = 0 ∧ P) := fun P => by rw [hu]
  rw [hb] at x6 x7
  by_cases hc : ip.int = 0 ∧ NoWay6 h.stack dst ∧ ¬ (port = 68 ∧ m.rport = 67)
  · exact ⟨fun _ => hc, fun _ => by rw [x6 hc]; exact ⟨_, rfl⟩⟩
  · refine ⟨?_, fun h => absurd h hc⟩
    rintro ⟨e, he⟩
    have : ∃ lip, (IpAddress.v6 lip) = (if (IpAddress.v6 ip).isUnspecified then Socks.pickLocalIp h.stack (.v6 dst) else .v6 ip) := by
      split <;> exact ⟨_, rfl⟩
    obtain ⟨lip, hlip⟩ := this
    obtain ⟨⟨st, outs⟩, hx⟩ := h₁.udp6_ok lip dst (sport := port) (dport := m.rport) (data := str now) hs.bound.ports.2 hp
      (by rw [x1]; exact hmtu) (by rw [x1]; have := text_length (str_text hn); omega)
    rw [x7 hc _ hlip _ st outs (Prod.ext rfl hx)] at he
    cases he

theorem day_serves {r port : Nat} {ip : IpAddress} {s : Service} (hs : Serves s.host r ip port) (e : Ev × Now) : Serves (Daytime.step r s e).host r ip port := by
  obtain ⟨⟨⟨x, x1, x2, x3, x4⟩, hl⟩, hu⟩ := id hs
  obtain ⟨e, now⟩ := e
  cases e with
  | caches a n => exact ⟨⟨hs.bound.bound, hs.bound.ports⟩, hs.udp⟩
  | frame t₀ t₁ t d F =>
    obtain ⟨x', a1, -, a2⟩ := receive_queue x1 t₀ t₁ t d F
    exact serves_of hs x1 a1 a2
  | round choice =>
    have hd : Serves (Daytime.round s.host r choice now).1 r ip port := by
      cases hq : x.queue with
      | nil =>
        have : Daytime.round s.host r choice now = (s.host, .waits) := by rw [Daytime.round, Socks.recvfrom, x1]; dsimp only; rw [hq]
        rw [this]; exact hs
      | cons m q =>
        have hr : s.host.node.socks.recvfrom r = (s.host.node.socks.put r { x with queue := q }, .ok (m.data, m.rip, m.rport)) := by
          rw [Socks.recvfrom, x1]; dsimp only; rw [hq]
        have hg : (s.host.withSocks (s.host.node.socks.put r { x with queue := q })).node.socks.socks[r]? = some { x with queue := q } := get_put _ x1
        obtain ⟨s', a1, a2⟩ := sendto_id hg (by rw [← x3] at hl; exact hl) (str now) (some m.rip) m.rport choice
        have : (Daytime.round s.host r choice now).1 = ((s.host.withSocks (s.host.node.socks.put r { x with queue := q })).sendto r (str now) (some m.rip) m.rport choice).1 := by
          rw [Daytime.round, hr]
          dsimp only
          generalize (s.host.withSocks (s.host.node.socks.put r { x with queue := q })).sendto r (str now) (some m.rip) m.rport choice = y
          obtain ⟨h', y⟩ := y
          cases y <;> rfl
        rw [this]
        exact serves_of hs x1 a1 a2
    rw [Daytime.step]
    split
    · revert hd
      generalize Daytime.round s.host r choice now = y
      obtain ⟨h', y⟩ := y
      cases y
      · exact fun _ => hs
      · exact fun hd => hd
      · exact fun hd => hd
    · exact hs

/-- C112: a service that has been started (as the echo service is, C102_started) keeps its socket, whatever happens. -/
theorem C112_socket {r port : Nat} {ip : IpAddress} {s : Service} (hs : Serves s.host r ip port) (evs : List (Ev × Now)) :
    Serves (Daytime.run r s evs).host r ip port := by
  induction evs generalizing s with
  | nil => exact hs
  | cons e evs ih => exact ih (day_serves hs e)

/-! ### The discard service -/

theorem discard_round {h : Host} {r : Nat} {s : Sock} (hs : h.node.socks.socks[r]? = some s) :
    (s.queue = [] ∧ Discard.round h r = (h, .waits)) ∨
    ∃ m q, s.queue = m :: q ∧ Discard.round h r = (h.withSocks (h.node.socks.put r { s with queue := q }), .took m.data m.rip m.rport) := by
  cases hq : s.queue with
  | nil => exact .inl ⟨rfl, by rw [Discard.round, Socks.recvfrom, hs]; dsimp only; rw [hq]⟩
  | cons m q => exact .inr ⟨m, q, rfl, by rw [Discard.round, Socks.recvfrom, hs]; dsimp only; rw [hq]⟩

/-- What the record says about the queue. -/
structure DiscardTold (r : Nat) (s : Discard.Service) : Prop where
  sock : ∃ x, s.host.node.socks.socks[r]? = some x
  alive : s.alive = true
  told : s.came.map (fun m => (m.data, m.rip, m.rport)) = s.took ++ (unread s.host r).map (fun m => (m.data, m.rip, m.rport))
  queue : unread s.host r = s.came.drop s.took.length

theorem DiscardTold.step {r : Nat} {s : Discard.Service} (h : DiscardTold r s) (e : Ev) : DiscardTold r (Discard.step r s e) := by
  obtain ⟨⟨x, hx⟩, ha, h1, h2⟩ := h
  cases e with
  | caches a n => exact ⟨⟨x, hx⟩, ha, h1, h2⟩
  | frame t₀ t₁ t d F =>
    obtain ⟨x', a1, a2, -⟩ := receive_queue hx t₀ t₁ t d F
    have hu : unread (s.host.receive t₀ t₁ t d F).1 r = unread s.host r ++ broughtBy r s.host t₀ t₁ t d F := by
      rw [unread_some a1, a2, unread_some hx]
    have hl : s.took.length ≤ s.came.length := by
      have := congrArg List.length h1
      simp only [List.length_map, List.length_append] at this
      omega
    refine ⟨⟨x', a1⟩, ha, ?_, ?_⟩
    · show (s.came ++ _).map _ = s.took ++ (unread (s.host.receive t₀ t₁ t d F).1 r).map _
      rw [hu, List.map_append, h1, List.map_append, List.append_assoc]
    · show unread (s.host.receive t₀ t₁ t d F).1 r = (s.came ++ _).drop s.took.length
      rw [hu, h2, List.drop_append_of_le_length hl]
  | round c =>
    rw [Discard.step, if_pos ha]
    rcases discard_round hx with ⟨-, e⟩ | ⟨m, q, q1, e⟩
    · rw [e]; exact ⟨⟨x, hx⟩, ha, h1, h2⟩
    · rw [e]
      have hg : (s.host.withSocks (s.host.node.socks.put r { x with queue := q })).node.socks.socks[r]? = some { x with queue := q } := get_put _ hx
      have hu : unread (s.host.withSocks (s.host.node.socks.put r { x with queue := q })) r = q := unread_some hg
      rw [unread_some hx, q1] at h1 h2
      refine ⟨⟨_, hg⟩, ha, ?_, ?_⟩
      · dsimp only
        rw [hu, h1]
        simp
      · dsimp only
        rw [hu, List.length_append, List.length_singleton, List.drop_add_one_eq_tail_drop, ← h2]
        rfl

/-- C112: whatever comes, and whenever the discard service gets to run: it never ends; it reads the datagrams handed to its socket in their order, each
once; those it has not come to yet still wait. -/
theorem C112_discard {r : Nat} {s : Discard.Service} (hr : ∃ x, s.host.node.socks.socks[r]? = some x) (hu : unread s.host r = []) (ha : s.alive = true)
    (hc : s.came = []) (ht : s.took = []) (evs : List Ev) :
    (Discard.run r s evs).alive = true ∧
    ∃ k ≤ (Discard.run r s evs).came.length,
      (Discard.run r s evs).took = ((Discard.run r s evs).came.take k).map (fun m => (m.data, m.rip, m.rport)) ∧
      unread (Discard.run r s evs).host r = (Discard.run r s evs).came.drop k := by
  have h0 : DiscardTold r s := ⟨hr, ha, by rw [hc, ht, hu]; rfl, by rw [hc, ht, hu]; rfl⟩
  have : ∀ (evs : List Ev) (s : Discard.Service), DiscardTold r s → DiscardTold r (Discard.run r s evs) := by
    intro evs
    induction evs with
    | nil => exact fun _ h => h
    | cons e evs ih => exact fun s hs => ih _ (hs.step e)
  obtain ⟨-, h1, h2, h3⟩ := this evs s h0
  have hl : (Discard.run r s evs).took.length ≤ (Discard.run r s evs).came.length := by
    have := congrArg List.length h2
    simp only [List.length_map, List.length_append] at this
    omega
  refine ⟨h1, _, hl, ?_, h3⟩
  rw [h3] at h2
  have := congrArg (List.take (Discard.run r s evs).took.length) h2
  rw [List.take_left, ← List.map_take] at this
  exact this.symm

/-- C112: when it gets to run as often as there are datagrams, all of them are read. -/
theorem C112_discard_drains {r : Nat} {s : Discard.Service} (hr : ∃ x, s.host.node.socks.socks[r]? = some x) (ha : s.alive = true) (cs : List Nat)
    (hn : (unread s.host r).length ≤ cs.length) :
    unread (Discard.run r s (cs.map .round)).host r = [] ∧
    (Discard.run r s (cs.map .round)).took = s.took ++ (unread s.host r).map (fun m => (m.data, m.rip, m.rport)) := by
  induction cs generalizing s with
  | nil =>
    have : unread s.host r = [] := List.eq_nil_of_length_eq_zero (by simpa using hn)
    exact ⟨this, by rw [this]; simp [Discard.run]⟩
  | cons c cs ih =>
    obtain ⟨x, hx⟩ := hr
    have e : Discard.run r s ((c :: cs).map .round) = Discard.run r (Discard.step r s (.round c)) (cs.map .round) := rfl
    rw [e, Discard.step, if_pos ha]
    rcases discard_round hx with ⟨q0, e⟩ | ⟨m, q, q1, e⟩
    · rw [e]
      refine ih ⟨x, hx⟩ ha ?_
      rw [unread_some hx, q0]; simp
    · rw [e]
      have hg : (s.host.withSocks (s.host.node.socks.put r { x with queue := q })).node.socks.socks[r]? = some { x with queue := q } := get_put _ hx
      have hu : unread (s.host.withSocks (s.host.node.socks.put r { x with queue := q })) r = q := unread_some hg
      rw [unread_some hx, q1] at hn ⊢
      obtain ⟨i1, i2⟩ := ih (s := { s with host := s.host.withSocks (s.host.node.socks.put r { x with queue := q }), took := s.took ++ [(m.data, m.rip, m.rport)] })
        ⟨_, hg⟩ ha (by dsimp only; rw [hu]; simpa using hn)
      refine ⟨i1, i2.trans ?_⟩
      dsimp only
      rw [hu]
      simp

/-- C112: the discard service is silent, and disturbs nobody: whatever happens, the host sends the frames that it would send, other sockets have what they
would have, and the host's addresses, caches and reassembly are as they would be, if the service never ran. -/
theorem C112_discard_silent (r : Nat) (s : Discard.Service) (evs : List Ev) :
    (Discard.run r s evs).sent = (Discard.run r s (withoutRuns evs)).sent ∧
    (Discard.run r s evs).came = (Discard.run r s (withoutRuns evs)).came ∧
    (∃ ss, (Discard.run r s evs).host = (Discard.run r s (withoutRuns evs)).host.withSocks ss) ∧
    (Discard.run r s evs).host.node.socks.table = (Discard.run r s (withoutRuns evs)).host.node.socks.table ∧
    ∀ r', r' ≠ r → (Discard.run r s evs).host.node.socks.socks[r']? = (Discard.run r s (withoutRuns evs)).host.node.socks.socks[r']? := by
  have key : ∀ (evs : List Ev) (a b : Discard.Service), (∃ ss, a.host = b.host.withSocks ss ∧ Others r b.host.node.socks ss) → a.sent = b.sent → a.came = b.came →
      (∃ ss, (Discard.run r a evs).host = (Discard.run r b (withoutRuns evs)).host.withSocks ss ∧ Others r (Discard.run r b (withoutRuns evs)).host.node.socks ss) ∧
      (Discard.run r a evs).sent = (Discard.run r b (withoutRuns evs)).sent ∧ (Discard.run r a evs).came = (Discard.run r b (withoutRuns evs)).came := by
    intro evs
    induction evs with
    | nil => exact fun a b h h1 h2 => ⟨h, h1, h2⟩
    | cons e evs ih =>
      rintro a b ⟨ss, h0, ho⟩ h1 h2
      cases e with
      | caches x y => exact ih _ _ ⟨ss, by simp only [Discard.step]; rw [h0]; rfl, ho⟩ h1 h2
      | frame t₀ t₁ t d F =>
        obtain ⟨ss', o1, o2, o3⟩ := receive_others ho t₀ t₁ t d F
        rw [← h0] at o2 o3
        refine ih _ _ ⟨ss', ?_, o1⟩ ?_ ?_
        · simp only [Discard.step]; rw [o2]; rfl
        · simp only [Discard.step]; rw [o2, h1]; rfl
        · simp only [Discard.step]; rw [o3, h2]
      | round c =>
        refine ih (Discard.step r a (.round c)) b ?_ ?_ ?_
        · rw [Discard.step]
          split
          · cases hx : a.host.node.socks.socks[r]? with
            | none =>
              have : Discard.round a.host r = (a.host, .died .keyError) := by rw [Discard.round, Socks.recvfrom, hx]; rfl
              rw [this]; exact ⟨ss, h0, ho⟩
            | some x =>
              rcases discard_round hx with ⟨-, e⟩ | ⟨m, q, -, e⟩
              · rw [e]; exact ⟨ss, h0, ho⟩
              · rw [e]
                refine ⟨a.host.node.socks.put r { x with queue := q }, by dsimp only; rw [h0]; rfl, ?_⟩
                have : a.host.node.socks = ss := by rw [h0]; rfl
                rw [this]
                exact ⟨ho.table, fun r' hr => (put_others _ _ hr).trans (ho.socks r' hr)⟩
          · exact ⟨ss, h0, ho⟩
        · rw [← h1, Discard.step]
          split
          · split <;> rfl
          · rfl
        · rw [← h2, Discard.step]
          split
          · split <;> rfl
          · rfl
  obtain ⟨⟨ss, k1, k2⟩, k3, k4⟩ := key evs s s ⟨_, rfl, rfl, fun _ _ => rfl⟩ rfl rfl
  refine ⟨k3, k4, ⟨ss, k1⟩, ?_, fun r' hr => ?_⟩
  · rw [k1]; exact k2.table
  · rw [k1]; exact k2.socks r' hr

/-! ### What comes to the services -/

/-- C112: a datagram that the host gets for the service's socket is among those to be answered by the daytime service, after those before it, and among
those that the discard service is to read; then the host sends nothing for it. -/
theorem C112_request {hist : List (Spec.Env × Spec.Op)} {s : Service} {s' : Discard.Service} {F p data : Bytes} {src dst : IpAddress} {sport dport r : Nat}
    (hh : s.host.node.socks = (Spec.run hist).1) (he : s'.host = s.host) (H : Brings s.host.node F src dst 17 p) (hu : IsUdp p sport dport data) (hp : sport ≠ 0 ∧ dport ≠ 0)
    (hr : MostSpecific s.host.node.socks { lip := dst, lport := dport, rip := src, rport := sport, data := data } r) (t₀ t₁ t : Int) (d : Nat) (now : Now) :
    requested (Daytime.step r s (.frame t₀ t₁ t d F, now)) = requested s ++ [{ lip := dst, lport := dport, rip := src, rport := sport, data := data }] ∧
    (Discard.step r s' (.frame t₀ t₁ t d F)).came = s'.came ++ [{ lip := dst, lport := dport, rip := src, rport := sport, data := data }] ∧
    (Discard.step r s' (.frame t₀ t₁ t d F)).sent = s'.sent := by
  obtain ⟨a1, a2⟩ := arrives hh H hu hp hr t₀ t₁ t d
  refine ⟨?_, ?_, ?_⟩
  · rw [requested, Daytime.step]
    dsimp only
    rw [a2]
    simp [requested, requested.asRequest]
  · rw [Discard.step]
    dsimp only
    rw [he, a2]
  · rw [Discard.step]
    dsimp only
    rw [he, a1]
    simp

/-! ### Cases, and what goes wrong -/

namespace Example.Daytime
open Example.Echo Example.Host Example.Rx

/-- 2026-11-16 21:41:13.000007 and 0999-01-02 03:04:05 -/
def now : Now := ⟨2026, 11, 16, 21, 41, 13, 7⟩
def then' : Now := ⟨999, 1, 2, 3, 4, 5, 0⟩
theorem on_clock : OnClock now ∧ OnClock then' := by
  refine ⟨?_, ?_⟩ <;> constructor <;> decide
example : str now = ascii "2026-11-16 21:41:13.000007" ∧ str then' = ascii "0999-01-02 03:04:05" := by decide +kernel

/-- The case of `C112_order`: a request, an answer, a later request and its answer. -/
example : (replied (Daytime.run 0 ⟨S, true, []⟩ [(.frame 0 0 0 8 nearAsks, then'), (.round 0, then'), (.round 0, now), (.frame 0 0 0 8 nearAsks, now), (.round 0, now)])) =
    [(.v4 Example.Rx.peer4, 5000, ascii "0999-01-02 03:04:05"), (.v4 Example.Rx.peer4, 5000, ascii "2026-11-16 21:41:13.000007")] := by decide +kernel

/-- The case of `C112_reply4`, as an answer on the wire. -/
example : ∃ x G q, TimeText now x ∧ Answers (Daytime.round (S.receive 0 0 0 8 nearAsks).1 0 0 now).2 (.v4 Example.Rx.peer4) 5000 x [G] ∧
    Sends4 G S.stack.mac A'.stack.mac Example.host4.address Example.Rx.peer4 64 17 q := by
  have hs : Serves (S.receive 0 0 0 8 nearAsks).1 0 (.v4 .zero) 7 := by
    obtain ⟨s', a1, -, a2⟩ := receive_queue (h := S) (r := 0) rfl 0 0 0 8 nearAsks
    exact serves_of s_serves4 rfl a1 a2
  obtain ⟨x, G, q, h1, h2, h3, -⟩ := C112_reply4 (m := { lip := .v4 Example.host4.address, lport := 7, rip := .v4 Example.Rx.peer4, rport := 5000, data := [104, 105] })
    (rest := []) (nb := A'.stack.mac) (a := Example.Rx.peer4) hs (by decide +kernel) rfl (by decide) s_leaves4 b_own4 b_next4 rfl (by decide) (by decide) 0 on_clock.1
  exact ⟨x, G, q, h1, h2, h3⟩

/-- The case of `C112_discard`: two datagrams, one of them read. -/
example : (Discard.run 0 ⟨S, true, [], [], []⟩ [.frame 0 0 0 8 nearAsks, .frame 0 0 0 8 nearAsks, .round 0]).took = [([104, 105], .v4 Example.Rx.peer4, 5000)] ∧
    (unread (Discard.run 0 ⟨S, true, [], [], []⟩ [.frame 0 0 0 8 nearAsks, .frame 0 0 0 8 nearAsks, .round 0]).host 0).length = 1 := by decide +kernel

/-- The discard service outlives the datagram that ends the daytime service. -/
example : (Discard.run 0 ⟨T, true, [], [], []⟩ [.frame 0 0 0 8 farAsks, .round 0, .frame 0 0 0 8 nearAsks, .round 0]).took =
    [([104, 105], .v4 far, 5000), ([104, 105], .v4 Example.Rx.peer4, 5000)] := by decide +kernel

end Example.Daytime

open Example.Echo Example.Daytime in
/-- C112: one datagram from a sender to whom the host has no way ends the daytime service: what others send is not answered any more. -/
theorem C112_ends_witness : ∃ (h : Host) (F F' : Bytes), Serves h 0 (.v4 .zero) 7 ∧ unread h 0 = [] ∧
    (replied (Daytime.run 0 ⟨h, true, []⟩ [(.frame 0 0 0 8 F', now), (.round 0, now)])).length = 1 ∧
    (Daytime.run 0 ⟨h, true, []⟩ [(.frame 0 0 0 8 F, now), (.round 0, now)]).alive = false ∧
    replied (Daytime.run 0 ⟨h, true, []⟩ [(.frame 0 0 0 8 F, now), (.round 0, now), (.frame 0 0 0 8 F', now), (.round 0, now)]) = [] :=
  ⟨T, farAsks, nearAsks, ⟨⟨s_serves4.bound.bound, s_serves4.bound.ports⟩, s_serves4.udp⟩, by decide +kernel, by decide +kernel, by decide +kernel, by decide +kernel⟩

end Verif
