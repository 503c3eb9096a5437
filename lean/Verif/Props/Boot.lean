import Verif.Spec.Boot
import Verif.Lemmas.Boot
/-! Duplicate address detection between two hosts on a link (C104). -/
namespace Verif
open Spec

/-- What the message for `x` looks like when the source is `s`, and that it is sent. -/
theorem dad_sent {b : Boot} {h : Ip6Host} {s : Ip6Address} (hm : GoodMtu b.host) (hz : s.isMulticast = false)
    (hv : ∀ n, (Boot.trying b.host.node h.address).Later n → validateSrcIp6 n.stack .zero (solicitedNode h.address) (.icmp6 135 0) = .ok s) :
    ∃ G q, AsksWhether G b.host.stack.mac s h.address q ∧ (∀ φ, (b.claim φ h).2 = .ok () → Queued (b.claim φ h).1 G) ∧
      (groupFrame b.host.stack.mac s (solicitedNode h.address) 255 (.neighborSolicitation h.address [])).frame = .ok G := by
  have hg := Addrs.solicited_multicast h.address
  obtain ⟨G, q, g1, g2, ⟨g3, g4, g5⟩, g6⟩ := groupFrame_bytes (st := (Boot.trying b.host.node h.address).stack) (hop := 255)
    (x := .neighborSolicitation h.address []) (by omega) (hv _ (.refl _)) hg hz (show 40 + 24 ≤ _ by have := hm.1; exact Nat.le_trans (by omega) this)
    hm.2 (Icmp6.dad_bytes h.address)
  refine ⟨G, q, ⟨g2, g3, g4, g5, g6⟩, fun φ hok => ?_, g1⟩
  obtain ⟨-, h2⟩ := Boot.claim_steps φ b hm.1 h
  obtain ⟨b₁, b₂, b₃, r, ⟨k1, -⟩, k2, k3, k4, -, -⟩ := h2 (.inl hok)
  have hmt : b₁.host.stack.mtu = b.host.stack.mtu := k1.mtu
  have hm1 : 72 ≤ b₁.host.stack.mtu := by rw [hmt]; exact hm.1
  have e := b₁.host.icmp6_group (src := .zero) (a := s) (hop := 255) (x := .neighborSolicitation h.address []) (by omega) (hv _ k1) hg
    (show 40 + 24 ≤ _ by omega)
  rw [Boot.sendDad, Addrs.solicited_eq] at k2
  dsimp only at k2
  rw [Boot.send, e] at k2
  have hb : b₂ = _ := (congrArg Prod.fst k2).symm
  have hmac : b₁.host.stack.mac = b.host.stack.mac := by
    obtain ⟨_, _, _, _, _, e⟩ := k1
    show b₁.host.node.stack.mac = _
    rw [e]; rfl
  have hw := Boot.waitDad_later (φ 2) b₂ (by rw [hb]; exact hm1)
  rw [k3] at hw
  refine ⟨groupFrame b.host.stack.mac s (solicitedNode h.address) 255 (.neighborSolicitation h.address []), k4.subset (hw.out.subset ?_), g1⟩
  rw [hb, ← hmac]
  simp

/-- An advertisement for `x` that reaches the host while it waits keeps it from taking `x`. -/
theorem dad_heard {b : Boot} {h : Ip6Host} {G q : Bytes} {src dst : Ip6Address} (hm : GoodMtu b.host)
    (hb : ∀ n, (Boot.trying b.host.node h.address).Later n → Brings6 n G src dst 255 58 q) (hv : Valid (pseudoHdr6 src dst 58 q.length ++ q))
    {mac : MacAddress} (hn : NdFor 136 2 q h.address mac) (hgood : GoodNa src dst 255 q) (φ : Nat → List Boot.In) (hh : HeardInTime φ G)
    (ha : (b.claim φ h).1.alive = true) : (b.claim φ h).1.host.stack.ip6Host = b.host.stack.ip6Host := by
  obtain ⟨h1, h2⟩ := Boot.claim_steps φ b hm.1 h
  refine Classical.byContradiction fun hne => ?_
  obtain ⟨b₁, b₂, b₃, r, ⟨k1, -⟩, k2, k3, k4, k5, k6⟩ := h2 (.inr hne)
  have hm1 : 72 ≤ b₁.host.stack.mtu := by
    have hmt : b₁.host.stack.mtu = b.host.stack.mtu := k1.mtu
    rw [hmt]; exact hm.1
  have hl := Boot.sendDad_later b₁ hm1 h.address
  rw [k2] at hl
  obtain ⟨i, hi, rfl⟩ := hh
  have gp : GoodPrefixes [(2, bePack 6 mac.int)] := by
    intro w hw
    simp at hw
  have ht := Boot.waitDad_told (i := i) (φ 2) b₂ (hl.mtu hm1) hi (fun b' hb' ha' => by
    have hlt := (k1.trans hl.node).trans hb'.node
    obtain ⟨m, -, e⟩ := (C38_wire_advertisement (hb _ hlt) hv hn.message gp hn.hasTarget.symm i.t₀ i.t₁ i.depth).2 hgood
    have hc : b'.host.node.ip6Candidate = some h.address := by
      obtain ⟨_, _, _, _, _, e⟩ := hlt
      rw [e]; rfl
    rw [if_pos hc] at e
    rw [Boot.hear, if_pos ha', e]
    show b'.dadEvent + 1 ≠ 0
    omega) (by rw [k3]; exact k5 ha)
  rw [k3] at ht
  dsimp only at ht
  cases r with
  | true => cases ht
  | false => exact hne (by simpa using k6)

/-- What stays while the host tries an address. -/
theorem trying_keeps {b : Boot} {c : Ip6Address} {n : Node} (h : (Boot.trying b.host.node c).Later n) :
    n.stack.ip6Host = b.host.stack.ip6Host ∧ n.stack.mac = b.host.stack.mac ∧ n.stack.ip6Multicast = b.host.stack.ip6Multicast ++ [solicitedNode c] ∧
      n.macMulticast = b.host.node.macMulticast ++ [groupMac (solicitedNode c)] := by
  obtain ⟨_, _, _, _, _, rfl⟩ := h
  exact ⟨rfl, rfl, rfl, rfl⟩

/-- C104: host A has the address `h.address`; host B, which has no address with a gateway yet, starts with it as a candidate.  Whatever else B
hears meanwhile, it asks whether somebody has the address; what it asks makes A say so to all nodes; and if B hears that while it waits, it
does not take the address.  The checksums must be right, which they are not always (C02, `C104_checksum`). -/
theorem C104_detects_partial {A : Host} {b : Boot} {h : Ip6Host} (hA : Holds6 A h.address) (hmA : GoodMtu A) (hB : HearsAll b.host)
    (hmB : GoodMtu b.host) (hp : Plain6 b.host h.address) (hg : ∀ y ∈ b.host.stack.ip6Host, y.gateway = none) :
    ∃ G₁ q₁, AsksWhether G₁ b.host.stack.mac .zero h.address q₁ ∧ (∀ φ, (b.claim φ h).2 = .ok () → Queued (b.claim φ h).1 G₁) ∧
    (Valid (pseudoHdr6 .zero (solicitedNode h.address) 58 q₁.length ++ q₁) → ∀ t₀ t₁ t d, ∃ G₂ q₂, Puts (A.receive t₀ t₁ t d G₁) [G₂] ∧
      Unchanged A (A.receive t₀ t₁ t d G₁).1 ∧ Sends6 G₂ A.stack.mac (groupMac allNodes6) h.address allNodes6 255 58 q₂ ∧
      NdFor 136 2 q₂ h.address A.stack.mac ∧ NearlyValid (pseudoHdr6 h.address allNodes6 58 q₂.length) q₂ 2 ∧
    (Valid (pseudoHdr6 h.address allNodes6 58 q₂.length ++ q₂) → ∀ φ, HeardInTime φ G₂ → (b.claim φ h).1.alive = true →
      (b.claim φ h).1.host.stack.ip6Host = b.host.stack.ip6Host)) := by
  obtain ⟨G₁, q₁, g1, g2, -⟩ := dad_sent (h := h) (s := .zero) hmB (by decide) (fun n hn => by
    obtain ⟨e1, -, e3, -⟩ := trying_keeps hn
    refine dadSource_none (fun y hy => ?_) ?_
    · rw [e1] at hy
      exact ⟨hg y hy, hp.network y hy⟩
    · rw [e3]
      intro hm
      rcases List.mem_append.1 hm with hm | hm
      · exact hp.zero hm
      · have := group_nonzero (Addrs.solicited_multicast h.address)
        rw [← List.mem_singleton.1 hm] at this
        exact this rfl)
  refine ⟨G₁, q₁, g1, g2, fun hv t₀ t₁ t d => ?_⟩
  have hb1 : Brings6 A.node G₁ _ _ _ 58 q₁ := g1.sends.brings (.inr (.inl hA.mac)) (.inr hA.group)
  obtain ⟨-, -, -, e⟩ := (C38_wire_solicitation hb1 hv g1.message (fun _ hw => by cases hw) g1.hasTarget.symm t₀ t₁ d).2
    ⟨g1.code, rfl, .inl rfl, .inr rfl, hA.unicast, fun _ => rfl⟩ hA.source.own
  obtain ⟨G₂, q₂, k1, k2, k3, ⟨k4, -⟩, k5⟩ := A.icmp6_told (hop := 255)
    (x := .neighborAdvertisement (r := false) (s := false) (o := true) h.address [.tlla A.stack.mac]) (by omega) (hA.source.source _ _) (by decide) hA.source.unicast
    hmA.1 hmA.2 (Icmp6.na_bytes false true h.address A.stack.mac) (e rfl) t
  refine ⟨G₂, q₂, k1, k2, k3, k4, k5, fun hv₂ φ hh ha => ?_⟩
  refine dad_heard hmB (fun n hn => ?_) hv₂ k4 ⟨k4.code, rfl, hA.unicast, .inr rfl⟩ φ hh ha
  obtain ⟨-, -, e3, e4⟩ := trying_keeps hn
  exact k3.brings (.inr (.inl (by rw [e4]; exact List.mem_append_left _ hB.2))) (.inr (by rw [e3]; exact List.mem_append_left _ hB.1))

/-- C104: if host B has an address with a gateway, then its question comes from the first such address, and says no link-layer address; so A
answers to that address alone.  Only if A knows the link-layer address of its next hop, and this is B, the answer reaches B; then B does not
take the address. -/
theorem C104_gateway_partial {A : Host} {b : Boot} {h : Ip6Host} {s a : Ip6Address} (hA : Holds6 A h.address) (hmA : GoodMtu A)
    (hmB : GoodMtu b.host) (hp : Plain6 b.host h.address) (hg : FirstWithGateway b.host s) (hs : OwnSource6 b.host.stack s) (hu : Unicast6 s)
    (hn : NextHop6 A.stack h.address s a) :
    ∃ G₁ q₁, AsksWhether G₁ b.host.stack.mac s h.address q₁ ∧ (∀ φ, (b.claim φ h).2 = .ok () → Queued (b.claim φ h).1 G₁) ∧
    (Valid (pseudoHdr6 s (solicitedNode h.address) 58 q₁.length ++ q₁) → ∀ t₀ t₁ t d,
      (Knows6 A a b.host.stack.mac → ∃ G₂ q₂, Puts (A.receive t₀ t₁ t d G₁) [G₂] ∧
        Unchanged A (A.receive t₀ t₁ t d G₁).1 ∧ Sends6 G₂ A.stack.mac b.host.stack.mac h.address s 255 58 q₂ ∧
        NdFor 136 2 q₂ h.address A.stack.mac ∧ NearlyValid (pseudoHdr6 h.address s 58 q₂.length) q₂ 2 ∧
        (Valid (pseudoHdr6 h.address s 58 q₂.length ++ q₂) → ∀ φ, HeardInTime φ G₂ → (b.claim φ h).1.alive = true →
          (b.claim φ h).1.host.stack.ip6Host = b.host.stack.ip6Host)) ∧
      ((∀ m, ¬ Knows6 A a m) → (∃ y ∈ A.stack.ip6Host, cidr 128 y.network.address.int y.network.mask.len a.int) →
        (∀ y ∈ A.stack.ip6Host, OwnSource6 A.stack y.address) →
        ∃ G₂, Puts (A.receive t₀ t₁ t d G₁) [G₂] ∧ Unchanged A (A.receive t₀ t₁ t d G₁).1 ∧ AsksFor6 G₂ A.stack a)) := by
  obtain ⟨pre, y, post, hy1, hy2, rfl, hy4⟩ := hg
  obtain ⟨G₁, q₁, g1, g2, -⟩ := dad_sent (h := h) (s := y.address) hmB hs.unicast (fun n hn => by
    obtain ⟨e1, -, e3, -⟩ := trying_keeps hn
    refine dadSource_gateway (e1.trans hy1) hy2 hy4 (fun z hz => ?_) ?_ _
    · rw [e1] at hz
      exact hp.network z hz
    · rw [e3]
      intro hm
      rcases List.mem_append.1 hm with hm | hm
      · exact hp.zero hm
      · have := group_nonzero (Addrs.solicited_multicast h.address)
        rw [← List.mem_singleton.1 hm] at this
        exact this rfl)
  have hns : y.address.int ≠ 0 := by have := hs.ordinary; omega
  refine ⟨G₁, q₁, g1, g2, fun hv t₀ t₁ t d => ?_⟩
  have hb1 : Brings6 A.node G₁ _ _ _ 58 q₁ := g1.sends.brings (.inr (.inl hA.mac)) (.inr hA.group)
  obtain ⟨m, m1, e, -⟩ := (C38_wire_solicitation hb1 hv g1.message (fun _ hw => by cases hw) g1.hasTarget.symm t₀ t₁ d).2
    ⟨g1.code, rfl, .inr hu, .inr rfl, hA.unicast, fun _ => rfl⟩ hA.source.own
  have hm : m = none := by
    cases m with
    | none => rfl
    | some m => cases m1
  subst hm
  refine ⟨fun hk => ?_, fun hk hl ho => ?_⟩
  · obtain ⟨G₂, q₂, k1, k2, k3, ⟨k4, -, k6, -⟩, k5⟩ := A.icmp6_sends (hop := 255)
      (x := .neighborAdvertisement (r := false) (s := true) (o := false) h.address [.tlla A.stack.mac]) (by omega) hA.source hn hk
      hmA.1 hmA.2 (Icmp6.na_bytes true false h.address A.stack.mac) (e hns) t
    refine ⟨G₂, q₂, k1, k2, k3, k4, k5, fun hv₂ φ hh ha => ?_⟩
    refine dad_heard hmB (fun n hn => ?_) hv₂ k4 ⟨k4.code, rfl, hA.unicast, .inl ⟨k6, hu⟩⟩ φ hh ha
    obtain ⟨e1, e2, -⟩ := trying_keeps hn
    refine k3.brings (.inl e2.symm) (.inl ⟨y, ?_, rfl⟩)
    rw [e1, hy1]
    simp
  · exact A.icmp6_asks (hop := 255) (x := .neighborAdvertisement (r := false) (s := true) (o := false) h.address [.tlla A.stack.mac]) (by omega)
      hA.source hn hk hmA.1 hmA hl ho (e hns) t

/-- The event is raised by advertisements of the candidate only. -/
theorem hear_event {b : Boot} {i : Boot.In} (h : ∀ x, b.host.node.ip6Candidate = some x → ¬ MayClaim i x) : (b.hear i).dadEvent = b.dadEvent := by
  rw [Boot.hear]
  split
  · cases hr : Rx.ether b.host.node i.t₀ i.t₁ i.depth i.frame with
    | mk n' r =>
      cases r with
      | error e => rfl
      | ok effs =>
        have hz : effs.countP Boot.isDad = 0 := by
          rw [List.countP_eq_zero]
          intro e he hd
          cases e with
          | dadAnswer m =>
            obtain ⟨g, p, src, dst, target, hop, opts, k1, k2, k3, -, -, k4, hc⟩ := C38_wire_only hr he (.inr (.inl ⟨_, rfl⟩))
            rcases hc with ⟨-, -, -, ⟨_, -, hc⟩ | ⟨_, _, _, _, hc⟩⟩ | ⟨c1, c2, ⟨_, -, hc⟩ | ⟨hc, -⟩⟩
            · cases hc
            · cases hc
            · cases hc
            · exact h target hc ⟨k1, _, g, src, dst, hop, p, opts, k2, k3, c1, c2, k4.symm⟩
          | _ => cases hd
        dsimp only
        generalize Host.applyAll i.t { b.host with node := n' } effs = r
        obtain ⟨h', y⟩ := r
        cases y with
        | error _ => show b.dadEvent + _ = _; rw [hz]; rfl
        | ok _ => show b.dadEvent + _ = _; rw [hz]; rfl
  · rfl

theorem hearAll_event {c : Option Ip6Address} : ∀ (l : List Boot.In) (b : Boot), 72 ≤ b.host.stack.mtu → b.host.node.ip6Candidate = c →
    (∀ i ∈ l, ∀ x, c = some x → ¬ MayClaim i x) → (b.hearAll l).dadEvent = b.dadEvent
  | [], _, _, _, _ => rfl
  | i :: l, b, hm, hc, h => by
    have h1 := Boot.hear_later b hm i
    have hc' : (b.hear i).host.node.ip6Candidate = c := by
      obtain ⟨_, _, _, _, _, e⟩ := h1.node
      rw [e]; exact hc
    have := hearAll_event l (b.hear i) (h1.mtu hm) hc' (fun j hj => h j (List.mem_cons_of_mem _ hj))
    rw [hear_event (fun x hx => h i List.mem_cons_self x (hc.symm.trans hx))] at this
    exact this

theorem waitDad_silent {x : Ip6Address} : ∀ (l : List Boot.In) (b : Boot), 72 ≤ b.host.stack.mtu → b.host.node.ip6Candidate = some x →
    b.dadEvent = 0 → (∀ i ∈ l, ¬ MayClaim i x) → (Boot.waitDad l b).2 = false
  | l, b, hm, hc, hz, h => by
    rw [Boot.waitDad.eq_def]
    dsimp only
    rw [if_neg (not_not.2 hz)]
    cases l with
    | nil => rfl
    | cons i l =>
      have h1 := Boot.hear_later b hm i
      have hc' : (b.hear i).host.node.ip6Candidate = some x := by
        obtain ⟨_, _, _, _, _, e⟩ := h1.node
        rw [e]; exact hc
      refine waitDad_silent l (b.hear i) (h1.mtu hm) hc' ?_ (fun j hj => h j (List.mem_cons_of_mem _ hj))
      rw [hear_event, hz]
      intro y hy
      cases Option.some.inj (hc.symm.trans hy)
      exact h i List.mem_cons_self

/-- C104: an address that nobody claims is taken.  Host B, to which nobody has claimed anything before, hears no advertisement of its
candidate between the start of detection and the end of the wait, whatever else it hears; then it has the address afterwards. -/
theorem C104_free {b : Boot} {h : Ip6Host} (hm : GoodMtu b.host) (hz : b.dadEvent = 0) (hc : b.host.node.ip6Candidate = none)
    (φ : Nat → List Boot.In) (hq : ∀ i ∈ φ 1 ++ φ 2, ¬ MayClaim i h.address) (hok : (b.claim φ h).2 = .ok ()) :
    (b.claim φ h).1.host.stack.ip6Host = b.host.stack.ip6Host ++ [h] := by
  obtain ⟨-, h2⟩ := Boot.claim_steps φ b hm.1 h
  obtain ⟨b₁, b₂, b₃, r, ⟨k1, k0⟩, k2, k3, -, -, k6⟩ := h2 (.inl hok)
  have j1 := Boot.joinGroup_later b hm.1 (Addrs.solicited_multicast h.address)
  have j2 := Boot.joinGroup_event b (solicitedNode h.address)
  have hm0 : 72 ≤ (b.joinGroup (solicitedNode h.address)).1.host.stack.mtu := j1.mtu hm.1
  have hc0 : (b.joinGroup (solicitedNode h.address)).1.host.node.ip6Candidate = none := by
    obtain ⟨_, _, _, _, _, e⟩ := j1.node
    rw [e]; exact hc
  have e1 := hearAll_event (φ 0) _ hm0 hc0 (fun _ _ _ hx => by cases hx)
  have hm1 : 72 ≤ (((b.joinGroup (solicitedNode h.address)).1.hearAll (φ 0)).withCandidate (some h.address)).host.stack.mtu :=
    (Boot.hearAll_later (φ 0) _ hm0).mtu hm0
  have e2 := hearAll_event (c := some h.address) (φ 1) (((b.joinGroup (solicitedNode h.address)).1.hearAll (φ 0)).withCandidate (some h.address))
    hm1 rfl (fun i hi x hx => by cases hx; exact hq i (List.mem_append_left _ hi))
  rw [← k0, show (((b.joinGroup (solicitedNode h.address)).1.hearAll (φ 0)).withCandidate (some h.address)).dadEvent = _ from e1, j2, hz] at e2
  have hm2 : 72 ≤ b₁.host.stack.mtu := by
    have hmt : b₁.host.stack.mtu = b.host.stack.mtu := k1.mtu
    rw [hmt]; exact hm.1
  have e3 := Boot.sendDad_event b₁ h.address
  have l3 := Boot.sendDad_later b₁ hm2 h.address
  rw [k2] at e3 l3
  have hc2 : b₂.host.node.ip6Candidate = some h.address := by
    obtain ⟨_, _, _, _, _, e⟩ := k1.trans l3.node
    rw [show b₂.host.node = _ from e]; rfl
  have e4 := waitDad_silent (φ 2) b₂ (l3.mtu hm2) hc2 (e3.trans e2) (fun i hi => hq i (List.mem_append_right _ hi))
  rw [k3] at e4
  cases r with
  | true => exact k6
  | false => cases e4

/-- C104 for IPv4: host A has the address `x`; host B asks for it before it takes it.  What it asks makes A answer, and B notes the conflict.
B takes the address all the same (`C65_ip4_partial`, `C65_ip4_conflict`); and A has learnt that 0.0.0.0 is B. -/
theorem C104_ip4_partial {A B : Host} {x : Ip4Address} (hA : Owns4 A.node x) (hz : ¬ Owns4 A.node .zero) (hc : x ∈ B.node.ip4Candidates)
    (hm : B.stack.mac.int ≠ 0) :
    ∃ o G₁, Boot.arpProbe B x = .ok (.passedEtherToTxRing, [o]) ∧ o.frame = .ok G₁ ∧
      SendsArp G₁ B.stack.mac .broadcast 1 B.stack.mac .zero .zero x ∧
    ∀ t₀ t₁ t d, ∃ G₂, Puts (A.receive t₀ t₁ t d G₁) [G₂] ∧ SendsArp G₂ A.stack.mac B.stack.mac 2 A.stack.mac x B.stack.mac .zero ∧
      Learnt4 A (A.receive t₀ t₁ t d G₁).1 .zero B.stack.mac ∧
    ∀ u₀ u₁ d', Rx.ether B.node u₀ u₁ d' G₂ = (B.node, .ok [.arpConflict x]) := by
  obtain ⟨G₁, f1, f2⟩ := Outgoing.arp_bytes B.stack.mac .broadcast B.stack.mac .zero .zero x (.inl rfl)
  refine ⟨_, G₁, Host.phtxEther_given _ _ _ _ _ (by decide), f1, f2, fun t₀ t₁ t d => ?_⟩
  obtain ⟨G₂, g1, g2, g3⟩ := C88_arp_request (f2.brings (.inr (.inr rfl))) hA hz hm t₀ t₁ t d
  refine ⟨G₂, g1, g2, g3, fun u₀ u₁ d' => ?_⟩
  obtain ⟨f, h1, h2, h3⟩ := (g2.brings (n := B.node) (.inl rfl)).holds (.inr rfl) u₀ u₁ d'
  rw [h3]
  simp only [Rx.arp, h1, h2, py_ok_bind, py_pure]
  rw [if_neg (by decide), if_pos trivial, if_pos ⟨rfl, hc, rfl, rfl⟩]

/-- C104 for IPv4: having taken the address `x`, host B announces it, whatever else it has.  No host of this kind does anything about the
announcement: one that has `x` too does not defend it, and one that knows another link-layer address for `x` goes on using that. -/
theorem C104_announce (B : Host) (x : Ip4Address) :
    ∃ o G, Boot.arpAnnounce B x = .ok (.passedEtherToTxRing, [o]) ∧ o.frame = .ok G ∧
      SendsArp G B.stack.mac .broadcast 1 B.stack.mac x .zero x ∧
    ∀ (A : Host) t₀ t₁ t d, A.receive t₀ t₁ t d G = (A, .ok []) := by
  obtain ⟨G, f1, f2⟩ := Outgoing.arp_bytes B.stack.mac .broadcast B.stack.mac .zero x x (.inl rfl)
  refine ⟨_, G, Host.phtxEther_given _ _ _ _ _ (by decide), f1, f2, fun A t₀ t₁ t d => ?_⟩
  obtain ⟨f, h1, h2, h3⟩ := (f2.brings (n := A.node) (.inr (.inr rfl))).holds (.inl rfl) t₀ t₁ d
  unfold Host.receive
  rw [h3]
  simp only [Rx.arp, h1, h2, py_ok_bind, py_pure, if_true]
  by_cases hx : x ∈ A.node.stack.ip4Unicast
  · rw [if_pos hx]; rfl
  · rw [if_neg hx, if_neg hx]; rfl

namespace Example.Boot

/-- 2001:db8::/64 -/
def net : Ip6Network := Example.host6.network
def mac1 : MacAddress := ⟨0x020000000001, by decide⟩
def mac2 : MacAddress := ⟨0x020000000002, by decide⟩
/-- 2001:db8::`k` -/
def addr (k : Nat) (h : k < 65536) : Ip6Address := ⟨0x20010db8000000000000000000000000 + k, by omega⟩
def router : Ip6Address := ⟨0xfe800000000000000000000000000001, by decide⟩
/-- A host with these addresses. -/
def boot (mac : MacAddress) (l : List Ip6Host) : Boot :=
  ⟨⟨{ Example.Rx.node with
      stack := { Example.stack with mac := mac, ip4Host := [], ip6Host := l, ip6Multicast := allNodes6 :: l.map (solicitedNode ·.address) }
      macMulticast := groupMac allNodes6 :: l.map (groupMac <| solicitedNode ·.address), socks := { socks := [], table := [] } }, [], []⟩, 0, true, []⟩
def cand (k : Nat) (h : k < 65536) : Ip6Host := ⟨addr k h, net, none⟩
/-- What the receive thread is given. -/
def hears (l : List Outgoing) : List Boot.In := l.filterMap fun o => match o.frame with
  | .ok G => some ⟨0, 0, 0, 5, G⟩
  | .error _ => none

def x : Ip6Host := cand 7 (by decide)
def owner : Boot := boot mac1 [x]
def asker : Boot := boot mac2 []
def y : Ip6Host := cand 0x2678 (by decide)
/-- The same, when the host has 2001:db8::9 from a router. -/
def g : Ip6Host := { cand 9 (by decide) with gateway := some router }
def asker' : Boot := boot mac2 [g]
def silence : Nat → List Boot.In := fun _ => []
/-- What A says about what B asks arrives while B waits. -/
def answered (a b : Boot) (h : Ip6Host) : Nat → List Boot.In
  | 2 => hears (a.hearAll (hears (b.claim silence h).1.out)).out
  | _ => []

/-- B's question for 2001:db8::7. -/
def question (mac : MacAddress) : Bytes :=
  match (groupFrame mac .zero (solicitedNode x.address) 255 (.neighborSolicitation x.address [])).frame with
  | .ok G => G
  | .error _ => []
/-- The question of another arrives while the host waits. -/
def meets (mac : MacAddress) : Nat → List Boot.In
  | 2 => [⟨0, 0, 0, 5, question mac⟩]
  | _ => []

theorem mtu (mac : MacAddress) (l : List Ip6Host) : GoodMtu (boot mac l).host := ⟨by show 72 ≤ 1500; omega, by show 1500 < 65536; omega⟩
theorem holds : Holds6 owner.host x.address :=
  ⟨⟨⟨x, List.mem_cons_self, rfl⟩, by decide +kernel, by decide +kernel⟩, by unfold Unicast6 cidr; decide +kernel, by decide +kernel, by decide +kernel⟩
theorem holds_y : Holds6 (boot mac1 [y]).host y.address :=
  ⟨⟨⟨y, List.mem_cons_self, rfl⟩, by decide +kernel, by decide +kernel⟩, by unfold Unicast6 cidr; decide +kernel, by decide +kernel, by decide +kernel⟩
theorem hearsAll (mac : MacAddress) (l : List Ip6Host) : HearsAll (boot mac l).host := ⟨List.mem_cons_self, List.mem_cons_self⟩
theorem plain (k : Ip6Address) : Plain6 asker.host k := ⟨fun _ hy => (by cases hy), by decide +kernel⟩
theorem plain' : Plain6 asker'.host x.address :=
  ⟨fun z hz => (by
    have : z = g := by simpa [asker', boot, Host.stack] using hz
    subst this
    unfold cidr; decide +kernel), by decide +kernel⟩
theorem first : FirstWithGateway asker'.host g.address := ⟨[], g, [], rfl, (by decide), rfl, fun _ hz => (by cases hz)⟩

end Example.Boot

/-- **C104** is false in general, because the checksum of a question can be wrong (C02): host A has 2001:db8::2678; B asks for it; A hears
everything B sends, and says nothing; B takes it. -/
theorem C104_checksum : ∃ (a b : Boot) (h : Ip6Host) (l : List Boot.In), Holds6 a.host h.address ∧ GoodMtu a.host ∧ a.alive = true ∧
    HearsAll b.host ∧ GoodMtu b.host ∧ Plain6 b.host h.address ∧ b.host.stack.ip6Host = [] ∧
    l.map (fun i => Except.ok i.frame) = (b.claim (fun _ => []) h).1.out.map (·.frame) ∧ (a.hearAll l).out = [] ∧ (a.hearAll l).alive = true ∧
    h ∈ (b.claim (fun _ => []) h).1.host.stack.ip6Host := by
  refine ⟨Example.Boot.boot Example.Boot.mac1 [Example.Boot.y], Example.Boot.asker, Example.Boot.y,
    Example.Boot.hears (Example.Boot.asker.claim Example.Boot.silence Example.Boot.y).1.out, Example.Boot.holds_y, Example.Boot.mtu _ _, rfl,
    Example.Boot.hearsAll _ _, Example.Boot.mtu _ _, Example.Boot.plain _, rfl, ?_, ?_, ?_, ?_⟩
  · decide +kernel
  · exact List.eq_nil_of_length_eq_zero (by decide +kernel)
  · decide +kernel
  · decide +kernel

/-- **C104** is false when B already has an address with a gateway, and A does not know B: all that A says to B's question is a question of
its own, for B; B answers it, and takes A's address.  Everything that one says the other hears in time. -/
theorem C104_unknown_asker : ∃ (a b : Boot) (h : Ip6Host) (l : List Boot.In) (φ : Nat → List Boot.In), Holds6 a.host h.address ∧ GoodMtu a.host ∧
    a.alive = true ∧ HearsAll b.host ∧ GoodMtu b.host ∧ Plain6 b.host h.address ∧ h ∉ b.host.stack.ip6Host ∧
    l.map (fun i => Except.ok i.frame) = (b.claim φ h).1.out.map (·.frame) ∧
    (φ 2).map (fun i => Except.ok i.frame) = (a.hearAll l).out.map (·.frame) ∧ (a.hearAll l).alive = true ∧ (b.claim φ h).1.alive = true ∧
    h ∈ (b.claim φ h).1.host.stack.ip6Host := by
  refine ⟨Example.Boot.owner, Example.Boot.asker', Example.Boot.x,
    Example.Boot.hears (Example.Boot.asker'.claim (Example.Boot.answered Example.Boot.owner Example.Boot.asker' Example.Boot.x) Example.Boot.x).1.out,
    Example.Boot.answered Example.Boot.owner Example.Boot.asker' Example.Boot.x, Example.Boot.holds, Example.Boot.mtu _ _, rfl,
    Example.Boot.hearsAll _ _, Example.Boot.mtu _ _, Example.Boot.plain', ?_, ?_, ?_, ?_, ?_, ?_⟩
  all_goals decide +kernel

/-- **C104** is false when both start at the same time: each hears the question of the other while it waits, and both take the address. -/
theorem C104_simultaneous : ∃ (a b : Boot) (h : Ip6Host) (φ ψ : Nat → List Boot.In) (F G : Bytes), Queued (a.claim φ h).1 F ∧ HeardInTime ψ F ∧
    Queued (b.claim ψ h).1 G ∧ HeardInTime φ G ∧ (∃ p, AsksWhether F a.host.stack.mac .zero h.address p) ∧
    (∃ p, AsksWhether G b.host.stack.mac .zero h.address p) ∧ HearsAll a.host ∧ HearsAll b.host ∧
    (a.claim φ h).1.alive = true ∧ (b.claim ψ h).1.alive = true ∧
    h ∈ (a.claim φ h).1.host.stack.ip6Host ∧ h ∈ (b.claim ψ h).1.host.stack.ip6Host := by
  have key : ∀ mac, ∃ p, AsksWhether (Example.Boot.question mac) mac .zero Example.Boot.x.address p := by
    intro mac
    obtain ⟨G, q, g1, -, g3⟩ := dad_sent (b := Example.Boot.boot mac []) (h := Example.Boot.x) (s := .zero) (Example.Boot.mtu _ _) (by decide) (fun n hn => by
      obtain ⟨e1, -, e3, -⟩ := trying_keeps hn
      refine dadSource_none (fun y hy => ?_) ?_
      · rw [e1] at hy
        cases hy
      · rw [e3]
        show Ip6Address.zero ∉ [allNodes6, solicitedNode Example.Boot.x.address]
        decide +kernel)
    refine ⟨q, ?_⟩
    have : Example.Boot.question mac = G := by
      unfold Example.Boot.question
      revert g3
      rw [show (Example.Boot.boot mac []).host.stack.mac = mac from rfl]
      generalize (groupFrame mac .zero (solicitedNode Example.Boot.x.address) 255 (.neighborSolicitation Example.Boot.x.address [])).frame = r
      rintro rfl
      rfl
    rw [this]
    exact g1
  have q1 : ∀ (b : Boot) (G : Bytes), G ∈ b.out.filterMap (fun o => match o.frame with | .ok G => some G | .error _ => none) → Queued b G := by
    intro b G hG
    obtain ⟨o, ho, e⟩ := List.mem_filterMap.1 hG
    refine ⟨o, ho, ?_⟩
    cases h : o.frame with
    | error e' => rw [h] at e; cases e
    | ok G' => rw [h] at e; cases e; rfl
  refine ⟨Example.Boot.boot Example.Boot.mac1 [], Example.Boot.asker, Example.Boot.x, Example.Boot.meets Example.Boot.mac2,
    Example.Boot.meets Example.Boot.mac1, Example.Boot.question Example.Boot.mac1, Example.Boot.question Example.Boot.mac2, ?_,
    ⟨_, List.mem_cons_self, rfl⟩, ?_, ⟨_, List.mem_cons_self, rfl⟩, key _, key _, Example.Boot.hearsAll _ _, Example.Boot.hearsAll _ _, ?_, ?_, ?_, ?_⟩
  · exact q1 _ _ (by decide +kernel)
  · exact q1 _ _ (by decide +kernel)
  all_goals decide +kernel

namespace Example.Boot

/-- What B asks is put right: the checksums of this exchange are right, A answers, and B, which hears the answer in time, does not take the
address. -/
example : Holds6 owner.host x.address ∧ GoodMtu owner.host ∧ HearsAll asker.host ∧ GoodMtu asker.host ∧ Plain6 asker.host x.address ∧
    (∀ y ∈ asker.host.stack.ip6Host, y.gateway = none) ∧ (asker.claim (answered owner asker x) x).2 = .ok () ∧
    (asker.claim (answered owner asker x) x).1.alive = true ∧ (answered owner asker x 2).length = 1 ∧
    (asker.claim (answered owner asker x) x).1.host.stack.ip6Host = [] :=
  ⟨holds, mtu _ _, hearsAll _ _, mtu _ _, plain _, fun _ h => (by cases h), by decide +kernel, by decide +kernel, by decide +kernel, by decide +kernel⟩

/-- With silence it is taken. -/
example : (asker.claim silence x).1.host.stack.ip6Host = [x] := by decide +kernel

/-- A knows B. -/
def knower : Boot := { owner with host := { owner.host with nd := [(g.address, ⟨mac2, false, 0, 0⟩)] } }

example : Plain6 asker'.host x.address ∧ FirstWithGateway asker'.host g.address ∧ OwnSource6 asker'.host.stack g.address ∧ Unicast6 g.address ∧
    NextHop6 knower.host.stack x.address g.address g.address ∧ Knows6 knower.host g.address asker'.host.stack.mac ∧
    (∀ m, ¬ Knows6 owner.host g.address m) ∧ (answered knower asker' x 2).length = 1 ∧
    (asker'.claim (answered knower asker' x) x).1.alive = true ∧ (asker'.claim (answered knower asker' x) x).1.host.stack.ip6Host = [g] :=
  ⟨plain', first, ⟨⟨g, List.mem_cons_self, rfl⟩, by decide +kernel, by decide +kernel⟩, by unfold Unicast6 cidr; decide +kernel,
    ⟨⟨x, List.mem_cons_self, rfl, by decide +kernel, fun _ => rfl, fun hn => absurd (by unfold cidr; decide +kernel) hn⟩, by decide +kernel⟩,
    by unfold Knows6; decide +kernel, fun m hm => (by cases hm), by decide +kernel, by decide +kernel, by decide +kernel⟩

/-- IPv4: 10.0.1.7 is A's, and B tries it. -/
example : Owns4 Example.Host.B.node Example.host4.address ∧ ¬ Owns4 Example.Host.B.node .zero ∧
    Example.host4.address ∈ ({ Example.Host.A.node with ip4Candidates := [Example.host4.address] } : Node).ip4Candidates ∧
    Example.Host.A.stack.mac.int ≠ 0 :=
  ⟨⟨Example.host4, by decide +kernel, rfl⟩, by unfold Owns4; decide +kernel, List.mem_cons_self, by decide +kernel⟩

end Example.Boot
end Verif
