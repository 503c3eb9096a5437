import Verif.Lemmas.WireNd
import Verif.Props.Wire
import Verif.Props.Addrs
/-! Neighbour discovery (C38) and automatic configuration (C76), stated on the bytes of received frames. -/
namespace Verif
open Spec

/-- An ICMPv6 message the parser refuses does nothing. -/
theorem icmp6_refused {n : Node} {F : Bytes} {h : Ip6.Hdr} {s : String} (H : HoldsIp6 n F h) (hx : h.next = 58)
    (hp : Icmp6.parse h.rest h.dlen h.pshdrSum h.src h.dst h.hop = .ok (some s)) (t₀ t₁ : Int) (d : Nat) :
    Rx.ether n t₀ t₁ d F = (n, .ok []) := by
  rw [ip6_holds H (by omega), if_pos hx]
  simp only [Rx.icmp6, hp, py_ok_bind, py_pure]

/-! ### C38 -/

/-- C38 on the bytes of the frame: a frame brings the stack a neighbour solicitation with a right checksum.  If it must be believed and asks
for an address of the stack, the stack answers with one advertisement of this address and its MAC: to the sender with the S flag; or, if the
sender has no address yet, to all nodes without it.  The cache learns the sender's link-layer address, if it is given.  Every other
solicitation does nothing. -/
theorem C38_wire_solicitation {n : Node} {F p : Bytes} {src dst target : Ip6Address} {hop : Nat} {opts : List (Nat × Bytes)}
    (H : Brings6 n F src dst hop 58 p) (hv : Valid (pseudoHdr6 src dst 58 p.length ++ p)) (hm : IsNd 135 24 p opts) (hg : GoodPrefixes opts)
    (ht : target.int = be p 8 16) (t₀ t₁ : Int) (d : Nat) :
    (¬ (GoodNs src dst hop p target opts ∧ Owns6 n target) → Rx.ether n t₀ t₁ d F = (n, .ok [])) ∧
    (GoodNs src dst hop p target opts → Owns6 n target → ∃ m : Option MacAddress, m.map (·.int) = firstMac 1 opts ∧
      (src.int ≠ 0 → Rx.ether n t₀ t₁ d F = (n, .ok ((m.map (Eff.ndLearn src)).toList ++ [.txIcmp6 target src 255
        (.neighborAdvertisement (r := false) (s := true) (o := false) target [.tlla n.stack.mac])]))) ∧
      (src.int = 0 → Rx.ether n t₀ t₁ d F = (n, .ok [.txIcmp6 target allNodes6 255
        (.neighborAdvertisement (r := false) (s := false) (o := true) target [.tlla n.stack.mac])]))) := by
  obtain ⟨h, a1, rfl, rfl, a4, rfl, a6, rfl, a8, a9, a10, a11⟩ := H.holds
  have hck : inetCksum h.rest h.pshdrSum = 0 := (pseudoHdr6_iff _ _ a9 a10 a11).1.mpr hv
  obtain ⟨w1, w2, w3⟩ := Icmp6.walk hm.options h.rest h.rest.length 24 rfl (by omega)
  obtain ⟨xs, x1, -⟩ := w3 hg
  have x2 := w2 xs x1
  obtain ⟨k1, k2⟩ := Icmp6.parse_ns (src := h.src) (dst := h.dst) (hop := h.hop) hm x1 hck ht
  by_cases hgd : GoodNs h.src h.dst h.hop h.rest target opts
  · obtain ⟨k3, k4⟩ := k1 hgd
    rw [← a6] at k3 k4
    have e := icmp6_holds a1 a4 k3 k4 t₀ t₁ d
    dsimp only at e
    rw [Rx.neighborSolicitation] at e
    constructor
    · intro hno
      rw [if_pos (by rw [mem_ip6Unicast]; exact fun ho => hno ⟨hgd, ho⟩)] at e
      exact e
    · intro _ ho
      rw [if_neg (by rw [mem_ip6Unicast]; exact not_not.2 ho)] at e
      refine ⟨Icmp6.sllaOf xs, x2.slla, ?_, ?_⟩
      · intro h0
        have hu : h.src.isUnspecified = false := by rw [Bool.eq_false_iff, ne_eq, unspecified6_iff]; exact h0
        have hm : h.src.isMulticast = false := by
          rw [Bool.eq_false_iff, ne_eq, (C09_ip6_classes h.src).2.2.2.2.2.1]
          intro hm
          rcases hgd.2.2.1 with h1 | h1
          · exact h0 h1
          · revert hm h1
            simp only [Unicast6, cidr, hextet]
            have := h.src.lt
            omega
        rw [e, Rx.naDst]
        simp only [hu, hm]
        cases Icmp6.sllaOf xs <;> rfl
      · intro h0
        have hu : h.src.isUnspecified = true := (unspecified6_iff _).mpr h0
        have hn : Icmp6.sllaOf xs = none := by
          have := x2.slla
          rw [hgd.2.2.2.2.2 h0] at this
          simpa using this
        rw [e, Rx.naDst]
        simp only [hu, hn]
        rfl
  · obtain ⟨s, k3⟩ := k2 hgd
    rw [← a6] at k3
    exact ⟨fun _ => icmp6_refused a1 a4 k3 t₀ t₁ d, fun h => (hgd h).elim⟩

/-- C38: a frame brings the stack a neighbour advertisement with a right checksum.  If it must be believed, then it ends the duplicate address
detection for its target, if there is one; if not, the cache learns the target's link-layer address, if it is given.  Every other
advertisement does nothing. -/
theorem C38_wire_advertisement {n : Node} {F p : Bytes} {src dst target : Ip6Address} {hop : Nat} {opts : List (Nat × Bytes)}
    (H : Brings6 n F src dst hop 58 p) (hv : Valid (pseudoHdr6 src dst 58 p.length ++ p)) (hm : IsNd 136 24 p opts) (hg : GoodPrefixes opts)
    (ht : target.int = be p 8 16) (t₀ t₁ : Int) (d : Nat) :
    (¬ GoodNa src dst hop p → Rx.ether n t₀ t₁ d F = (n, .ok [])) ∧
    (GoodNa src dst hop p → ∃ m : Option MacAddress, m.map (·.int) = firstMac 2 opts ∧
      Rx.ether n t₀ t₁ d F = (n, .ok (if n.ip6Candidate = some target then [.dadAnswer m] else (m.map (Eff.ndLearn target)).toList))) := by
  obtain ⟨h, a1, rfl, rfl, a4, rfl, a6, rfl, a8, a9, a10, a11⟩ := H.holds
  have hck : inetCksum h.rest h.pshdrSum = 0 := (pseudoHdr6_iff _ _ a9 a10 a11).1.mpr hv
  obtain ⟨w1, w2, w3⟩ := Icmp6.walk hm.options h.rest h.rest.length 24 rfl (by omega)
  obtain ⟨xs, x1, -⟩ := w3 hg
  have x2 := w2 xs x1
  obtain ⟨k1, k2⟩ := Icmp6.parse_na (src := h.src) (dst := h.dst) (hop := h.hop) hm x1 hck ht
  constructor
  · intro hgd
    obtain ⟨s, k3⟩ := k2 hgd
    rw [← a6] at k3
    exact icmp6_refused a1 a4 k3 t₀ t₁ d
  · intro hgd
    obtain ⟨k3, a, b, c, k4⟩ := k1 hgd
    rw [← a6] at k3 k4
    have e := icmp6_holds a1 a4 k3 k4 t₀ t₁ d
    dsimp only at e
    refine ⟨Icmp6.tllaOf xs, x2.tlla, ?_⟩
    rw [e, Rx.neighborAdvertisement]
    by_cases hc : n.ip6Candidate = some target
    · rw [if_pos hc, if_pos hc.symm]
    · rw [if_neg hc, if_neg (fun h => hc h.symm)]
      cases Icmp6.tllaOf xs <;> rfl

/-- C38, the other way round, on the bytes: whatever frame arrives, when the neighbour cache learns because of it, a duplicate address is
reported or an advertisement sent, then the IPv6 packet it gave the stack (itself, or the datagram it completes) has a right checksum and is
a solicitation that must be believed, for an address of the stack: the entry is its sender with the address in its first source
link-layer option, or the advertisement is of that target, with the stack's MAC; or it is an advertisement that must be believed: the entry
is its target, with the address in its first target link-layer option, or the target is the address being checked. -/
theorem C38_wire_only {n n' : Node} {t₀ t₁ : Int} {d : Nat} {F : Bytes} {l : List Eff} {x : Eff}
    (H : Rx.ether n t₀ t₁ d F = (n', .ok l)) (hx : x ∈ l)
    (hk : (∃ a m, x = .ndLearn a m) ∨ (∃ t, x = .dadAnswer t) ∨ (∃ a b k r s o t opts, x = .txIcmp6 a b k (.neighborAdvertisement r s o t opts))) :
    ∃ g p src dst target hop opts, be F 12 2 = 0x86DD ∧ Gives6 t₀ t₁ n (F.drop 14) g ∧ Ip6Packet g src dst hop 58 p ∧ Listens6 n dst ∧
      Valid (pseudoHdr6 src dst 58 p.length ++ p) ∧ target.int = be p 8 16 ∧
      ((IsNd 135 24 p opts ∧ GoodNs src dst hop p target opts ∧ Owns6 n target ∧
          ((∃ m, firstMac 1 opts = some m.int ∧ x = .ndLearn src m) ∨
            ∃ b r s o, x = .txIcmp6 target b 255 (.neighborAdvertisement r s o target [.tlla n.stack.mac]))) ∨
        (IsNd 136 24 p opts ∧ GoodNa src dst hop p ∧
          ((∃ m, firstMac 2 opts = some m.int ∧ x = .ndLearn target m) ∨ (n.ip6Candidate = some target ∧ ∃ m, x = .dadAnswer m)))) := by
  obtain ⟨h, ⟨e, g, b1, b2, b3, b4, b5⟩, hls, hpr, hp, hc⟩ := C38_only H hx hk
  obtain ⟨f1, f2, f3⟩ := ether_fields b1.1 b1.2.1
  obtain ⟨c1, c2, c3, c4⟩ := Ip6.sound b4 b5
  rw [hpr] at c1 c4
  rw [c2] at hp hc
  rcases hc with ⟨t, o, hr, ho, hc⟩ | ⟨a, b, c, t, o, hr, hc⟩
  · obtain ⟨r1, r2, r3⟩ := Icmp6.read_inv hr
    obtain ⟨v1, opts, v2⟩ := Icmp6.nd_sound hp r1 (.inr (.inl ⟨rfl, rfl⟩))
    have hl := v2.length
    obtain ⟨t', t1, t2⟩ := ip6_be (f := h.rest) (i := 8) (by omega)
    have : t' = t := Except.ok.inj (t1.symm.trans r2)
    subst this
    obtain ⟨w1, w2, w3⟩ := Icmp6.walk v2.options h.rest h.rest.length 24 rfl (by omega)
    have x2 := w2 o r3
    have hgd : GoodNs h.src h.dst h.hop h.rest t' opts := by
      refine Classical.byContradiction fun hn => ?_
      obtain ⟨s, k⟩ := (Icmp6.parse_ns v2 r3 v1 t2).2 hn
      rw [hp] at k
      cases k
    refine ⟨g, h.rest, h.src, h.dst, t', h.hop, opts, by omega, by rw [← f3]; exact b3, c1, hls,
      (pseudoHdr6_iff _ _ (by omega) (by omega) c4).1.mp v1, t2, .inl ⟨v2, hgd, ho, ?_⟩⟩
    rcases hc with ⟨m, hf, rfl⟩ | hc
    · left
      have := x2.slla
      rw [sllaOf_some.mpr hf] at this
      exact ⟨m, this.symm, rfl⟩
    · exact .inr hc
  · obtain ⟨r1, r2, r3⟩ := Icmp6.read_inv hr
    obtain ⟨v1, opts, v2⟩ := Icmp6.nd_sound hp r1 (.inr (.inr (.inl ⟨rfl, rfl⟩)))
    have hl := v2.length
    obtain ⟨t', t1, t2⟩ := ip6_be (f := h.rest) (i := 8) (by omega)
    have : t' = t := Except.ok.inj (t1.symm.trans r2)
    subst this
    obtain ⟨w1, w2, w3⟩ := Icmp6.walk v2.options h.rest h.rest.length 24 rfl (by omega)
    have x2 := w2 o r3
    have hgd : GoodNa h.src h.dst h.hop h.rest := by
      refine Classical.byContradiction fun hn => ?_
      obtain ⟨s, k⟩ := (Icmp6.parse_na v2 r3 v1 t2).2 hn
      rw [hp] at k
      cases k
    refine ⟨g, h.rest, h.src, h.dst, t', h.hop, opts, by omega, by rw [← f3]; exact b3, c1, hls,
      (pseudoHdr6_iff _ _ (by omega) (by omega) c4).1.mp v1, t2, .inr ⟨v2, hgd, ?_⟩⟩
    rcases hc with ⟨m, hf, rfl⟩ | hc
    · left
      have := x2.tlla
      rw [tllaOf_some.mpr hf] at this
      exact ⟨m, this.symm, rfl⟩
    · exact .inr hc

/-! ### C76 -/

/-- C76, on the bytes: a frame brings the stack a router advertisement with a right checksum.  If it must be believed, the one effect is that
the prefixes of 64 bits in it that are for address configuration, in their order, are kept for start-up, each with the router's address.
If not, nothing happens. -/
theorem C76_wire {n : Node} {F p : Bytes} {src dst : Ip6Address} {hop : Nat} {opts : List (Nat × Bytes)}
    (H : Brings6 n F src dst hop 58 p) (hv : Valid (pseudoHdr6 src dst 58 p.length ++ p)) (hm : IsNd 134 16 p opts) (hg : GoodPrefixes opts)
    (t₀ t₁ : Int) (d : Nat) :
    (¬ GoodRa src dst hop p → Rx.ether n t₀ t₁ d F = (n, .ok [])) ∧
    (GoodRa src dst hop p → ∃ nets : List Ip6Network, Rx.ether n t₀ t₁ d F = (n, .ok [.routerPrefixes (nets.map (·, src))]) ∧
      nets.map (fun x => (x.address.int, x.mask.len)) = (autoPrefixes opts).map (fun x => (x * 2 ^ 64, 64))) := by
  obtain ⟨h, a1, rfl, rfl, a4, rfl, a6, rfl, a8, a9, a10, a11⟩ := H.holds
  have hck : inetCksum h.rest h.pshdrSum = 0 := (pseudoHdr6_iff _ _ a9 a10 a11).1.mpr hv
  obtain ⟨w1, w2, w3⟩ := Icmp6.walk hm.options h.rest h.rest.length 16 rfl (by omega)
  obtain ⟨xs, x1, x2⟩ := w3 hg
  obtain ⟨k1, k2⟩ := Icmp6.parse_ra (src := h.src) (dst := h.dst) (hop := h.hop) hm x1 hck
  constructor
  · intro hgd
    obtain ⟨s, k3⟩ := k2 hgd
    rw [← a6] at k3
    exact icmp6_refused a1 a4 k3 t₀ t₁ d
  · intro hgd
    obtain ⟨k3, a, b, c, d', e', f', k4⟩ := k1 hgd
    rw [← a6] at k3 k4
    have e := icmp6_holds a1 a4 k3 k4 t₀ t₁ d
    exact ⟨Icmp6.piOf xs, e, x2⟩

theorem piOf_len {xs : List Icmp6.RxOpt} {x : Ip6Network} (h : x ∈ Icmp6.piOf xs) : x.mask.len = 64 := by
  rw [Icmp6.piOf, List.mem_filterMap] at h
  obtain ⟨o, -, ho⟩ := h
  split at ho
  · split at ho
    · rename_i hc
      rw [Bool.and_eq_true, beq_iff_eq] at hc
      cases ho
      exact hc.2
    · cases ho
  · cases ho

/-- C76, the other way round: whatever frame arrives, when prefixes are kept because of it, this is the only effect; the IPv6 packet it
gave the stack is a router advertisement with a right checksum that must be believed; all prefixes have 64 bits; and the gateway is the
advertisement's source. -/
theorem C76_wire_only {n n' : Node} {t₀ t₁ : Int} {d : Nat} {F : Bytes} {l : List Eff} {q : List (Ip6Network × Ip6Address)}
    (H : Rx.ether n t₀ t₁ d F = (n', .ok l)) (hx : .routerPrefixes q ∈ l) :
    l = [.routerPrefixes q] ∧ ∃ g p src dst hop opts, be F 12 2 = 0x86DD ∧ Gives6 t₀ t₁ n (F.drop 14) g ∧ Ip6Packet g src dst hop 58 p ∧
      Listens6 n dst ∧ Valid (pseudoHdr6 src dst 58 p.length ++ p) ∧ IsNd 134 16 p opts ∧ GoodRa src dst hop p ∧
      (∀ x ∈ q, x.1.mask.len = 64 ∧ x.2 = src) ∧
      (GoodPrefixes opts → q.map (fun x => (x.1.address.int, x.1.mask.len)) = (autoPrefixes opts).map (fun x => (x * 2 ^ 64, 64))) := by
  have hudp : ∀ m ip f, Rx.udp m ip f = .ok l → False := by
    intro m ip f h
    rcases udp_effs h with rfl | ⟨r, md, rfl⟩ | rfl
    · simp at hx
    · simp at hx
    · rw [Rx.portUnreachable.eq_def] at hx
      split at hx <;> simp at hx
  have htcp : ∀ m ip f, Rx.tcp m ip f = .ok l → False := by
    intro m ip f h
    rcases tcp_effs h with rfl | ⟨r, md, rfl⟩ | ⟨s, rfl⟩ <;> simp at hx
  rcases ether_inv H with rfl | ⟨e, he, ht, ha⟩ | ⟨m, h, f, -, -, -, hdl, hd⟩ | ⟨m, h, hst, -, hca, hdl, hl, hd⟩
  · simp at hx
  · obtain ⟨r, hr, hr'⟩ := C22_arp_total e.data
    cases r with
    | some s => simp [Rx.arp, hr] at ha; subst ha; simp at hx
    | none =>
      obtain ⟨h, hh⟩ := hr' rfl
      obtain ⟨l', h1, -, h3⟩ := C37_arp he ht hr hh t₀ t₁ d
      rw [ether_holds he, if_pos ht] at h1
      have := (Prod.mk.inj h1).2
      rw [ha] at this
      cases this
      rcases (h3 _).mp hx with ⟨-, -, -, h | h⟩ | ⟨-, -, h⟩ | ⟨-, -, -, h⟩ <;> cases h
  · rcases ip4Dispatch_effs hd with rfl | ⟨-, h1⟩ | ⟨-, h1⟩ | ⟨-, h1⟩
    · simp at hx
    · rcases icmp4_effs h1 with rfl | ⟨r, rfl⟩ | ⟨_, _, _, _, -, -, rfl⟩ <;> simp at hx
    · exact (hudp _ _ _ h1).elim
    · exact (htcp _ _ _ h1).elim
  · rcases hd with ⟨hnx, h1⟩ | ⟨-, h1⟩ | ⟨-, h1⟩
    · rcases icmp6_effs h1 with rfl | ⟨hp, ⟨r, rfl⟩ | ⟨_, _, _, _, _, _, o, hr, rfl⟩ | ⟨t, o, hr, rfl⟩ | ⟨a, b, c, t, o, hr, rfl⟩ | ⟨_, _, _, -, rfl⟩⟩
      · simp at hx
      · simp at hx
      · simp at hx
        subst hx
        refine ⟨rfl, ?_⟩
        obtain ⟨e, g, b1, b2, b3, b4, b5⟩ := hdl
        obtain ⟨f1, f2, f3⟩ := ether_fields b1.1 b1.2.1
        obtain ⟨c1, c2, c3, c4⟩ := Ip6.sound b4 b5
        rw [hnx] at c1 c4
        rw [c2] at hp hr
        obtain ⟨r1, r3⟩ := Icmp6.read_inv hr
        obtain ⟨v1, opts, v2⟩ := Icmp6.nd_sound hp r1 (.inl ⟨rfl, rfl⟩)
        obtain ⟨w1, w2, w3⟩ := Icmp6.walk v2.options h.rest h.rest.length 16 rfl (by omega)
        have hgd : GoodRa h.src h.dst h.hop h.rest := by
          refine Classical.byContradiction fun hn => ?_
          obtain ⟨s, k⟩ := (Icmp6.parse_ra v2 r3 v1).2 hn
          rw [hp] at k
          cases k
        refine ⟨g, h.rest, h.src, h.dst, h.hop, opts, by omega, by rw [← f3]; exact b3, c1, hl,
          (pseudoHdr6_iff _ _ (by omega) (by omega) c4).1.mp v1, v2, hgd, ?_, ?_⟩
        · intro x hx
          obtain ⟨y, hy, rfl⟩ := List.mem_map.1 hx
          exact ⟨piOf_len hy, rfl⟩
        · intro hg
          obtain ⟨xs, y1, y2⟩ := w3 hg
          have := Except.ok.inj (y1.symm.trans r3)
          subst this
          rw [List.map_map]
          exact y2
      · rw [Rx.neighborSolicitation] at hx
        split at hx
        · simp at hx
        · rw [List.mem_append] at hx
          rcases hx with hx | hx
          · split at hx
            · split at hx <;> simp at hx
            · simp at hx
          · simp at hx
      · rw [Rx.neighborAdvertisement] at hx
        split at hx
        · simp at hx
        · split at hx <;> simp at hx
      · simp at hx
    · exact (hudp _ _ _ h1).elim
    · exact (htcp _ _ _ h1).elim

/-- What start-up can use. -/
def Usable (l : List (Ip6Network × Ip6Address)) : Prop := ∀ p ∈ l, p.1.mask.len = 64 ∧ p.2.isLinkLocal = true

theorem usable_of_frames {σ : Nat → List Heard} (h : FromFrames σ) {k : Nat} {q : List (Ip6Network × Ip6Address)} (hq : .router q ∈ σ k) :
    Usable q := by
  obtain ⟨n, t₀, t₁, d, F, n', l, e, hx⟩ := h k q hq
  obtain ⟨-, g, p, src, dst, hop, opts, -, -, -, -, -, -, hgd, h1, -⟩ := C76_wire_only e hx
  intro x hx
  obtain ⟨h2, h3⟩ := h1 x hx
  exact ⟨h2, by rw [h3, linkLocal6_iff]; exact hgd.2.2.1⟩

theorem usable_routerPrefixes {p : List (Ip6Network × Ip6Address)} {l : List Heard} (hp : Usable p) (hl : ∀ q, .router q ∈ l → Usable q) :
    Usable (routerPrefixes p l) := by
  induction l generalizing p with
  | nil => exact hp
  | cons x l ih =>
    rw [Addrs.pf_cons]
    refine ih ?_ fun q hq => hl q (List.mem_cons_of_mem _ hq)
    cases x with
    | router q => exact hl q List.mem_cons_self
    | advert t => exact hp
    | inUse t => exact hp

theorem usable_claimAll {σ : Nat → List Heard} (h : FromFrames σ) (l : List Ip6Host) {a : Addrs} (ha : Usable a.prefixes) :
    Usable (Addrs.claimAll σ l a).1.prefixes := by
  induction l generalizing a with
  | nil => exact ha
  | cons x l ih =>
    unfold Addrs.claimAll
    have := Addrs.claim_pf σ { a with ip6Pending := a.ip6Pending.eraseP (Addrs.sameHost x) } x
    generalize Addrs.claim σ { a with ip6Pending := a.ip6Pending.eraseP (Addrs.sameHost x) } x = w at *
    obtain ⟨b, r⟩ := w
    have hb : Usable b.prefixes := by
      dsimp only at this
      rw [this]
      refine usable_routerPrefixes ha fun q hq => ?_
      simp only [List.mem_append] at hq
      rcases hq with ((hq | hq) | hq) | hq <;> exact usable_of_frames h hq
    cases r with
    | error e => exact hb
    | ok _ => exact ih hb

theorem claimPrefixes_ok {σ : Nat → List Heard} {gs : List Ip6Address} {l : List (Ip6Network × Ip6Address)} (hl : Usable l) {a : Addrs}
    (h : Addrs.Good σ gs a) : (Addrs.claimPrefixes σ l a).2 = .ok () := by
  induction l generalizing a with
  | nil => rfl
  | cons x l ih =>
    obtain ⟨q1, q2⟩ := hl x List.mem_cons_self
    obtain ⟨y, e, -⟩ := Addrs.prefix_host a.mac x q1 q2
    obtain ⟨b, e', hb⟩ := h.claim y
    obtain ⟨p, g⟩ := x
    unfold Addrs.claimPrefixes
    dsimp only at e
    rw [e]
    dsimp only
    rw [e']
    exact ih (fun q hq => hl q (List.mem_cons_of_mem _ hq)) hb

theorem createIp6_ok {σ : Nat → List Heard} (hσ : FromFrames σ) {gs : List Ip6Address} {a : Addrs} (hgd : Addrs.Good σ gs a)
    (hus : Usable a.prefixes) (lla gua : Bool) : (a.createIp6 σ lla gua).2 = .ok () := by
  unfold Addrs.createIp6
  have u1 := usable_claimAll hσ (a.ip6Pending.filter (·.address.isLinkLocal)) hus
  obtain ⟨b, e, hb⟩ := hgd.claimAll (a.ip6Pending.filter (·.address.isLinkLocal))
  rw [e] at u1 ⊢
  dsimp only at u1 ⊢
  obtain ⟨c, e2, hc, u2⟩ : ∃ c, (if lla then b.claimLinkLocal σ else (b, .ok ())) = (c, .ok ()) ∧ Addrs.Good σ gs c ∧
      Usable c.prefixes := by
    split
    · obtain ⟨n, e1, n64, -⟩ := Addrs.linkLocal64_ok
      obtain ⟨y, e2, -⟩ := C13_eui64 n b.mac n64
      unfold Addrs.claimLinkLocal
      rw [e1]
      have : (do (← n.eui64 b.mac).setGateway none : Py Ip6Host) = .ok { y with gateway := none } := by rw [e2]; rfl
      rw [show (do (← (← (.ok n : Py Ip6Network)).eui64 b.mac).setGateway none : Py Ip6Host) = .ok { y with gateway := none } from this]
      obtain ⟨c, e3, hc⟩ := hb.claim { y with gateway := none }
      refine ⟨c, e3, hc, ?_⟩
      have := Addrs.claim_pf σ b { y with gateway := none }
      rw [e3] at this
      dsimp only at this
      rw [this]
      refine usable_routerPrefixes u1 fun q hq => ?_
      simp only [List.mem_append] at hq
      rcases hq with ((hq | hq) | hq) | hq <;> exact usable_of_frames hσ hq
    · exact ⟨b, rfl, hb, u1⟩
  rw [e2]
  dsimp only
  split
  · rfl
  · have u3 := usable_claimAll hσ c.ip6Pending u2
    obtain ⟨d, e3, hd⟩ := hc.claimAll c.ip6Pending
    rw [e3] at u3 ⊢
    dsimp only at u3 ⊢
    split
    · refine claimPrefixes_ok (gs := gs) ?_ ?_
      · rw [(Addrs.waitRouter_pf _ _).1]
        refine usable_routerPrefixes ?_ fun q hq => usable_of_frames hσ hq
        have := Addrs.tick_pf σ d
        show Usable (d.tick σ).prefixes
        rw [this]
        exact usable_routerPrefixes u3 fun q hq => usable_of_frames hσ hq
      · refine Addrs.Good.kept ?_ (Addrs.waitRouter_kept _ _)
        have k := (Addrs.tick_kept σ d).1
        have h3 := hd.kept k
        refine ⟨h3.inv.same rfl rfl rfl, h3.cand, ?_⟩
        intro y hy
        obtain ⟨n, h4, h5⟩ := h3.asked y hy
        exact ⟨n, List.mem_append_left _ h4, h5⟩
    · rfl

/-- **C76**: whatever frames arrive during start-up, and whatever is configured, start-up of IPv6 ends without an exception. -/
theorem C76_no_exception (mac : MacAddress) (pending : List Ip6Host) {σ : Nat → List Heard} (hσ : FromFrames σ) (lla gua : Bool) :
    (Addrs.acquireIp6 σ lla gua { Addrs.start mac with ip6Pending := pending }).2 = .ok () := by
  have h : Addrs.Good σ [] { Addrs.start mac with ip6Pending := pending } :=
    ⟨⟨by simp [Addrs.start], by simp [Addrs.start], by simp⟩, rfl, by intro x hx; simp [Addrs.start] at hx⟩
  unfold Addrs.acquireIp6
  rw [if_pos (show ({ Addrs.start mac with ip6Pending := pending } : Addrs).ip6Support = true from rfl)]
  have hm : Icmp6.allNodes.isMulticast = true := by decide
  obtain ⟨o, e, ho⟩ := Addrs.join_eq hm { Addrs.start mac with ip6Pending := pending }
  have hj := h.inv.join hm
  rw [e] at hj ⊢
  exact createIp6_ok hσ ⟨hj, rfl, by intro x hx; simp [Addrs.start] at hx⟩ (by intro x hx; simp [Addrs.start] at hx) lla gua

/-- **C76**: start-up with automatic configuration of addresses, whatever frames arrive meanwhile.  There is a link-local host `h₀` with
the modified EUI-64 identifier of the MAC address, and a host for each prefix of the last router advertisement heard until the wait for it
ends.  If nobody answers twice, or late, then: if somebody has the link-local address, IPv6 is disabled; if not, exactly the hosts for
which nobody answers are assigned.  What is missing: a host nobody answers for may be refused, if somebody answered twice, or late, for
another (`C76_spurious`). -/
theorem C76_autoconfiguration_partial (mac : MacAddress) {σ : Nat → List Heard} (hσ : FromFrames σ) :
    let l := routerPrefixes [] (σ 0 ++ σ 1 ++ σ 2 ++ σ 3 ++ σ 4 ++ σ 5)
    ∃ (h₀ : Ip6Host) (hs : List Ip6Host),
      h₀.address.toBytes = [0xFE, 0x80, 0, 0, 0, 0, 0, 0] ++ modifiedEui64 mac.toBytes ∧ h₀.network.mask.len = 64 ∧ h₀.gateway = none ∧
      hs.length = l.length ∧ (∀ (k : Nat) p h, l[k]? = some p → hs[k]? = some h → HostOf mac p h) ∧
      (Orderly σ 0 [h₀] → Orderly σ 6 hs →
        ∃ a, Addrs.acquireIp6 σ true true (Addrs.start mac) = (a, .ok ()) ∧
          if Heard.advert h₀.address ∈ σ 1 ++ σ 2 then a.ip6Host = [] ∧ a.ip6Support = false
          else a.ip6Host = h₀ :: winners σ 6 hs) := by
  refine autoconfiguration_of_64 mac [] σ (usable_routerPrefixes (by intro x hx; cases hx) fun q hq => ?_)
  simp only [List.mem_append] at hq
  rcases hq with ((((hq | hq) | hq) | hq) | hq) | hq <;> exact usable_of_frames hσ hq

namespace Example.WireNd
open Example.Rx Example.Wire

/-- C38: 2001:db8::9 asks for 2001:db8::7, and answers for itself. -/
def ns : Bytes := [135, 0, 236, 88,  0, 0, 0, 0,  32, 1, 13, 184, 0, 0, 0, 0, 0, 0, 0, 0, 0, 0, 0, 7,  1, 1, 2, 0, 0, 0, 0, 9]
def na : Bytes := [136, 0, 170, 86,  64, 0, 0, 0,  32, 1, 13, 184, 0, 0, 0, 0, 0, 0, 0, 0, 0, 0, 0, 9,  2, 1, 2, 0, 0, 0, 0, 9]

example : Brings6 node (frame6 32 58 ns) peer6 Example.host6.address 255 58 ns ∧ Valid (pseudoHdr6 peer6 Example.host6.address 58 ns.length ++ ns) ∧
    IsNd 135 24 ns [(1, [2, 0, 0, 0, 0, 9])] ∧ GoodPrefixes [(1, [2, 0, 0, 0, 0, 9])] ∧ Example.host6.address.int = be ns 8 16 ∧
    GoodNs peer6 Example.host6.address 255 ns Example.host6.address [(1, [2, 0, 0, 0, 0, 9])] ∧ Owns6 node Example.host6.address ∧
    firstMac 1 [(1, [2, 0, 0, 0, 0, 9])] = some peerMac.int :=
  ⟨brings6 rfl, by unfold Valid; decide +kernel, ⟨by decide, by decide +kernel, .opt 1 1 [2, 0, 0, 0, 0, 9] (by decide) rfl .nil⟩,
    by intro v hv; simp at hv, by decide +kernel,
    ⟨by decide +kernel, rfl, .inr (.inr (.inl (by unfold cidr; decide +kernel))), .inl rfl, .inr (.inl (by unfold cidr; decide +kernel)), by decide +kernel⟩,
    ⟨Example.host6, by decide +kernel, rfl⟩, by decide +kernel⟩
example : Brings6 node (frame6 32 58 na) peer6 Example.host6.address 255 58 na ∧ Valid (pseudoHdr6 peer6 Example.host6.address 58 na.length ++ na) ∧
    IsNd 136 24 na [(2, [2, 0, 0, 0, 0, 9])] ∧ GoodNa peer6 Example.host6.address 255 na ∧ peer6.int = be na 8 16 :=
  ⟨brings6 rfl, by unfold Valid; decide +kernel, ⟨by decide, by decide +kernel, .opt 2 1 [2, 0, 0, 0, 0, 9] (by decide) rfl .nil⟩,
    ⟨by decide +kernel, rfl, .inr (.inl (by unfold cidr; decide +kernel)), .inl ⟨by decide +kernel, .inr (.inl (by unfold cidr; decide +kernel))⟩⟩,
    by decide +kernel⟩

/-- C76: fe80::1 advertises a prefix of 48 bits and 2001:db8:0:5::/64. -/
def pi48 : Bytes := [48, 192,  0, 0, 0, 60,  0, 0, 0, 60,  0, 0, 0, 0,  32, 1, 13, 184, 0, 0, 0, 0, 0, 0, 0, 0, 0, 0, 0, 0]
def pi64 : Bytes := [64, 192,  0, 0, 0, 60,  0, 0, 0, 60,  0, 0, 0, 0,  32, 1, 13, 184, 0, 0, 0, 5, 0, 0, 0, 0, 0, 0, 0, 0]
def ra : Bytes := [134, 0, 50, 59,  64, 0, 7, 8,  0, 0, 0, 0,  0, 0, 0, 0] ++ [3, 4] ++ pi48 ++ [3, 4] ++ pi64
def router1 : Ip6Address := ⟨0xFE800000000000000000000000000001, by decide⟩
def raFrame : Bytes :=
  [2, 0, 0, 0, 0, 7,  2, 0, 0, 0, 0, 9,  0x86, 0xDD,  0x60, 0, 0, 0,  0, 80, 58, 255,
   0xFE, 0x80, 0, 0, 0, 0, 0, 0, 0, 0, 0, 0, 0, 0, 0, 1,  0x20, 0x01, 0x0d, 0xb8, 0, 0, 0, 0, 0, 0, 0, 0, 0, 0, 0, 7] ++ ra

theorem brings_ra : Brings6 node raFrame router1 Example.host6.address 255 58 ra := by
  refine ⟨by decide +kernel, ⟨node.stack.mac, rfl, .inl rfl⟩, rfl, ⟨by decide +kernel, by decide +kernel, by decide +kernel, by decide +kernel, by decide, by decide +kernel, by decide +kernel, by decide +kernel, by decide +kernel⟩,
    .inl ⟨Example.host6, by decide +kernel, rfl⟩⟩

example : Valid (pseudoHdr6 router1 Example.host6.address 58 ra.length ++ ra) ∧ IsNd 134 16 ra [(3, pi48), (3, pi64)] ∧
    GoodPrefixes [(3, pi48), (3, pi64)] ∧ GoodRa router1 Example.host6.address 255 ra ∧ autoPrefixes [(3, pi48), (3, pi64)] = [0x20010db800000005] :=
  ⟨by unfold Valid; decide +kernel, ⟨by decide, by decide +kernel, .opt 3 4 pi48 (by decide) rfl (.opt 3 4 pi64 (by decide) rfl .nil)⟩,
    by intro v hv; simp at hv; rcases hv with rfl | rfl <;> decide +kernel,
    ⟨by decide +kernel, rfl, by unfold cidr; decide +kernel, .inl (.inr (.inl (by unfold cidr; decide +kernel)))⟩, by decide +kernel⟩

/-- What start-up hears if the frame arrives while it waits, and an advertisement for its link-local address late. -/
def prefix5 : Ip6Network := Ip6Network.ofMask ⟨0x20010db8000000050000000000000000, by decide⟩ (Addrs.maskOf 64 (by decide))
def lateAnswer (late : List Heard) : Nat → List Heard
  | 3 => late
  | 5 => [.router [(prefix5, router1)]]
  | _ => []
def lla : Ip6Address := ⟨hextet 0xFE80 + 0x000000FFFE000007, by decide⟩
def gua : Ip6Address := ⟨0x20010db8000000050000000000000000 + 0x000000FFFE000007, by decide⟩

theorem of_snd {α β : Type} {x : α × β} {y : β} (h : x.2 = y) : x = (x.1, y) := by rw [← h]

theorem only_prefixes {r : Py (List Eff)} {q : List (Ip6Network × Ip6Address)}
    (h : (match r with | .ok [.routerPrefixes q'] => decide (q' = q) | _ => false) = true) : r = .ok [.routerPrefixes q] := by
  split at h
  · rw [of_decide_eq_true h]
  · cases h

theorem lateAnswer_frames {late : List Heard} (h : ∀ q, .router q ∉ late) : FromFrames (lateAnswer late) := by
  intro k q hq
  unfold lateAnswer at hq
  split at hq
  · exact (h q hq).elim
  · simp at hq
    subst hq
    exact ⟨node, 0, 0, 0, raFrame, (Rx.ether node 0 0 0 raFrame).1, [.routerPrefixes [(prefix5, router1)]],
      of_snd (only_prefixes (by decide +kernel)), by simp⟩
  · cases hq

example : FromFrames (lateAnswer []) ∧
    (Addrs.acquireIp6 (lateAnswer []) true true (Addrs.start Addrs.mac)).1.ip6Host.map (·.address) = [lla, gua] :=
  ⟨lateAnswer_frames (by simp), by decide +kernel⟩

end Example.WireNd

open Example.WireNd in
/-- **C76** is false without the condition: a second, late, answer for the link-local address (nobody answers in time, so it is assigned), and
the address for the router's prefix is refused although nobody ever answers for it. -/
theorem C76_spurious :
    ∃ σ : Nat → List Heard, FromFrames σ ∧ (∀ k, Heard.advert gua ∉ σ k) ∧
      (Addrs.acquireIp6 (lateAnswer []) true true (Addrs.start Example.Addrs.mac)).1.ip6Host.map (·.address) = [lla, gua] ∧
      (Addrs.acquireIp6 σ true true (Addrs.start Example.Addrs.mac)).1.ip6Host.map (·.address) = [lla] := by
  refine ⟨lateAnswer [.advert lla], lateAnswer_frames (by simp), ?_, by decide +kernel, by decide +kernel⟩
  intro k
  unfold lateAnswer
  split
  · decide +kernel
  · simp
  · simp

end Verif
