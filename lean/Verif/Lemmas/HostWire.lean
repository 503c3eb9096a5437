import Verif.Spec.Host
import Verif.Lemmas.Host
import Verif.Lemmas.Nearly
import Verif.Props.WireTx
/-! What a host puts on the wire (`Spec/Host.lean`). -/
namespace Verif
open Spec

theorem Host.Touched.unchanged {h h' : Host} (t : Touched h h') : Unchanged h h' := by
  have e := t.links
  rw [Host.links, Host.links, Socks.Links.mk.injEq] at e
  refine ⟨t.node, fun a m => ?_, fun a m => ?_⟩
  · rw [Knows4, Knows4, congrFun (congrFun e.1 0) a]
  · rw [Knows6, Knows6, congrFun (congrFun e.2 0) a]

theorem Spec.NextHop4.asks {st : Stack} {src dst a : Ip4Address} (h : NextHop4 st src dst a) : Host.ask4 st src dst = some a := by
  obtain ⟨⟨x, hx, rfl, hu, h1, h2, h3, h4⟩, h5, h6⟩ := h
  have hm : dst.isMulticast = false := by
    rw [Bool.eq_false_iff, ne_eq, (C08_ip4_classes_partial dst).2.2.2.2.1]
    simp only [cidr, dot]
    omega
  have hl : dst.isLimitedBroadcast = false := by
    rw [Ip4Address.isLimitedBroadcast, beq_eq_false_iff_ne]; omega
  have hb : (st.ip4Host.any fun h => decide (h.address = x.address) && (decide (dst = h.network.address) || decide (dst = h.network.bcast))) =
      false := by
    rw [List.any_eq_false]
    intro y hy
    simp only [Bool.and_eq_true, Bool.or_eq_true, decide_eq_true_eq]
    rintro ⟨e, e'⟩
    cases hu y hy e
    rcases e' with e' | e'
    · exact h1 e'
    · exact h2 e'
  rw [Host.ask4, hm, hl, hb]
  simp only [Bool.false_eq_true, if_false]
  by_cases hc : x.network.contains dst = true
  · have : st.ip4Host.find? (fun h => decide (h.address = x.address) && !h.network.contains dst) = none := by
      rw [List.find?_eq_none]
      intro y hy
      simp only [Bool.and_eq_true, decide_eq_true_eq, Bool.not_eq_true']
      rintro ⟨e, e'⟩
      cases hu y hy e
      rw [hc] at e'
      cases e'
    rw [this, h3 ((Ip4Host.contains_iff x dst).1 hc)]
  · have : st.ip4Host.find? (fun h => decide (h.address = x.address) && !h.network.contains dst) = some x := by
      cases hf : st.ip4Host.find? (fun h => decide (h.address = x.address) && !h.network.contains dst) with
      | none =>
        rw [List.find?_eq_none] at hf
        have := hf x hx
        simp [hc] at this
      | some y =>
        have m := List.mem_of_find?_eq_some hf
        have p := List.find?_some hf
        simp only [Bool.and_eq_true, decide_eq_true_eq] at p
        rw [hu y m p.1]
    rw [this]
    exact h4 (fun e => hc ((Ip4Host.contains_iff x dst).2 e))

theorem Spec.NextHop6.asks {st : Stack} {src dst a : Ip6Address} (h : NextHop6 st src dst a) : Host.ask6 st src dst = some a := by
  obtain ⟨⟨x, hx, rfl, hu, h3, h4⟩, h5, h6⟩ := h
  have hm : dst.isMulticast = false := by
    have h2 : dst.int &&& 0xFF000000000000000000000000000000 ≤ dst.int := Nat.and_le_left
    rw [Ip6Address.isMulticast, beq_eq_false_iff_ne]
    omega
  rw [Host.ask6, hm]
  simp only [Bool.false_eq_true, if_false]
  by_cases hc : x.network.contains dst = true
  · have : st.ip6Host.find? (fun h => decide (h.address = x.address) && !h.network.contains dst) = none := by
      rw [List.find?_eq_none]
      intro y hy
      simp only [Bool.and_eq_true, decide_eq_true_eq, Bool.not_eq_true']
      rintro ⟨e, e'⟩
      cases hu y hy e
      rw [hc] at e'
      cases e'
    rw [this, h3 ((Ip6Host.contains_iff x dst).1 hc)]
  · have : st.ip6Host.find? (fun h => decide (h.address = x.address) && !h.network.contains dst) = some x := by
      cases hf : st.ip6Host.find? (fun h => decide (h.address = x.address) && !h.network.contains dst) with
      | none =>
        rw [List.find?_eq_none] at hf
        have := hf x hx
        simp [hc] at this
      | some y =>
        have m := List.mem_of_find?_eq_some hf
        have p := List.find?_some hf
        simp only [Bool.and_eq_true, decide_eq_true_eq] at p
        rw [hu y m p.1]
    rw [this]
    exact h4 (fun e => hc ((Ip6Host.contains_iff x dst).2 e))

/-- A packet that fits the MTU, with a known next hop, goes out in one frame. -/
theorem Host.sends4 (h : Host) {src dst a : Ip4Address} {m : MacAddress} {ttl : Nat} {c : L4} (ht : 0 < ttl ∧ ttl < 256)
    (ho : OwnSource4 h.stack src) (hn : NextHop4 h.stack src dst a) (hk : Knows4 h a m)
    (hp : c.proto = 1 ∨ c.proto = 17 ∨ c.proto = 6 ∨ c.proto = 255) (hf : 20 + c.len ≤ h.stack.mtu) (hmtu : h.stack.mtu < 65536) :
    ∃ h' o ps, h.ip4 src dst ttl c = (h', .ok (.passedEtherToTxRing, [o])) ∧ Touched h h' ∧ Ip4.pshdrSum src dst c.proto c.len = .ok ps ∧
      ∀ p, c.assemble ps = .ok p → p.length = c.len → ∃ F, o.frame = .ok F ∧ Sends4 F h.stack.mac m src dst ttl c.proto p := by
  have hs := ho.source dst c.kind
  have hd : dst.int ≠ 0 := by have := hn.unicast; omega
  have hmiss : ∀ b, ¬ Missing4 h src dst b := by
    rintro b ⟨e1, e2⟩
    rw [hn.asks] at e1
    cases e1
    cases (show some m = none from hk.symm.trans e2)
  have hp4 := phtxIp4_fits h.stack h.links.arp ht hs hd hp hf
  obtain ⟨h', e1, t1⟩ := link4 h (.ip4 (packetTx src dst ttl c.proto) c.toCarried) _ rfl hmiss 0 (fun _ => none)
  have hE : phtxEther h.stack (h.links.arp 0) (fun _ => none) .zero .zero (.ip4 (packetTx src dst ttl c.proto) c.toCarried) =
      .ok (.passedEtherToTxRing, [⟨h.stack.mac, m, .ip4 (packetTx src dst ttl c.proto) c.toCarried⟩]) := by
    rw [phtxEther_ip4 _ _ _ _ (packetTx src dst ttl c.proto) rfl]
    rcases etherDst_ask4 h.stack (h.links.arp 0) src dst with ⟨x1, x2⟩ | ⟨b, e, x1, x2, x3⟩
    · rw [hn.asks] at x1; cases x1
    · rw [hn.asks] at x1
      cases x1
      have : h.links.arp 0 a = some m := hk
      simp only [packetTx, x3, this]
  rw [hE] at hp4 e1
  obtain ⟨-, a', o, ps, g1, g2, g3, g4, g5, g6⟩ := whole4 hp hf hmtu hp4
  rw [hs] at g1
  cases g1
  refine ⟨h', o, ps, ?_, t1, g5, ?_⟩
  · rw [ip4_fits h ht hs hd hp hf, e1, g2]
  · intro p p1 p2
    obtain ⟨b, b1, b2, b3, b4, b5, b6, b7⟩ := g6 p p1 p2
    obtain ⟨F, F1, F2⟩ := Outgoing.frame_bytes b1
    rw [g3, g4] at F2
    have : o.dst = m := by
      have := (List.cons.inj g2).1
      rw [← this]
    rw [this] at F2
    refine ⟨F, F1, b, F2, ⟨b2, ⟨[], ?_⟩, by rw [b4], ho.ordinary.2⟩, b5, b6⟩
    rw [b3, List.drop_of_length_le (by simp; omega)]
    exact .nil

theorem Host.sends6 (h : Host) {src dst a : Ip6Address} {m : MacAddress} {hop : Nat} {c : L4} (ht : 0 < hop ∧ hop < 256)
    (ho : OwnSource6 h.stack src) (hn : NextHop6 h.stack src dst a) (hk : Knows6 h a m)
    (hp : c.proto = 58 ∨ c.proto = 17 ∨ c.proto = 6 ∨ c.proto = 44 ∨ c.proto = 255) (hf : 40 + c.len ≤ h.stack.mtu) (hmtu : h.stack.mtu < 65536) :
    ∃ h' o ps, h.ip6 src dst hop c = (h', .ok (.passedEtherToTxRing, [o])) ∧ Touched h h' ∧ Ip6.pshdrSum src dst c.len c.proto = .ok ps ∧
      ∀ p, c.assemble ps = .ok p → p.length = c.len → ∃ F, o.frame = .ok F ∧ Sends6 F h.stack.mac m src dst hop c.proto p := by
  have hs := ho.source dst c.kind
  have hd : dst.int ≠ 0 := by have := hn.unicast; omega
  have hmiss : ∀ b, ¬ Missing6 h src dst b := by
    rintro b ⟨e1, e2⟩
    rw [hn.asks] at e1
    cases e1
    cases (show some m = none from hk.symm.trans e2)
  have hp4 := phtxIp6_fits h.stack h.links.nd ht hs hd hp hf
  obtain ⟨h', e1, t1⟩ := link6 h (.ip6 (packetTx6 src dst hop) c.toCarried) _ rfl hmiss 0 (fun _ => none)
  have hE : phtxEther h.stack (fun _ => none) (h.links.nd 0) .zero .zero (.ip6 (packetTx6 src dst hop) c.toCarried) =
      .ok (.passedEtherToTxRing, [⟨h.stack.mac, m, .ip6 (packetTx6 src dst hop) c.toCarried⟩]) := by
    rw [phtxEther_ip6 _ _ _ _ (packetTx6 src dst hop) rfl]
    rcases etherDst_ask6 h.stack (h.links.nd 0) src dst with ⟨x1, x2⟩ | ⟨b, e, x1, x2, x3⟩
    · rw [hn.asks] at x1; cases x1
    · rw [hn.asks] at x1
      cases x1
      have : h.links.nd 0 a = some m := hk
      simp only [packetTx6, x3, this]
  rw [hE] at hp4 e1
  obtain ⟨-, a', o, ps, g1, g2, g3, g4, g5, g6⟩ := whole6 hp hf hmtu hp4
  rw [hs] at g1
  cases g1
  refine ⟨h', o, ps, ?_, t1, g5, ?_⟩
  · rw [ip6_fits h ht hs hd hp hf, e1, g2]
  · intro p p1 p2
    obtain ⟨b, b1, b2⟩ := g6 p p1 p2 ho.unicast
    obtain ⟨F, F1, F2⟩ := Outgoing.frame_bytes b1
    rw [g3, g4] at F2
    have : o.dst = m := by
      have := (List.cons.inj g2).1
      rw [← this]
    rw [this] at F2
    exact ⟨F, F1, b, F2, b2⟩

/-! ### One effect -/

theorem Host.receive_one {h : Host} {t₀ t₁ t : Int} {d : Nat} {F : Bytes} {e : Eff} (he : Rx.ether h.node t₀ t₁ d F = (h.node, .ok [e]))
    {h' : Host} {outs : List Outgoing} (ha : h.apply t e = (h', .ok outs)) : h.receive t₀ t₁ t d F = (h', .ok outs) := by
  rw [receive, he]
  simp only [applyAll]
  rw [show ({ h with node := h.node } : Host) = h from rfl, ha]
  simp

/-- The bytes of an ARP packet. -/
theorem Arp.bytes (sha tha : MacAddress) (spa tpa : Ip4Address) {oper : Nat} (ho : oper = 1 ∨ oper = 2) :
    ∃ b, Arp.assemble sha spa tha tpa oper = .ok b ∧ IsArp b oper sha spa tha tpa ∧ b.length = 28 := by
  have h1 : oper < 65536 := by omega
  have l1 := sha.lt
  have l2 := spa.lt
  have l3 := tha.lt
  have l4 := tpa.lt
  refine ⟨bePack 2 1 ++ (bePack 2 0x0800 ++ (bePack 1 6 ++ (bePack 1 4 ++ (bePack 2 oper ++ (bePack 6 sha.int ++ (bePack 4 spa.int ++
    (bePack 6 tha.int ++ bePack 4 tpa.int))))))), ?_, ⟨by simp, ⟨?_, ?_⟩, ⟨?_, ?_⟩, ?_, ?_, ?_, ?_, ?_⟩, by simp⟩
  · have : (oper == 1 || oper == 2) = true := by simp; omega
    simp [Arp.assemble, this, packH_ok, h1, packB_ok, MacAddress.toBytes_eq, Ip4Address.toBytes_eq]
  · exact be_pack_front _ (by omega)
  · rw [be_pack_skip _ (by omega), be_pack_skip _ (by omega)]; exact be_pack_front _ (by omega)
  · rw [be_pack_skip _ (by omega)]; exact be_pack_front _ (by omega)
  · repeat rw [be_pack_skip _ (by omega)]
    exact be_pack_front _ (by omega)
  · repeat rw [be_pack_skip _ (by omega)]
    exact be_pack_front _ (by omega)
  · repeat rw [be_pack_skip _ (by omega)]
    exact be_pack_front _ (by omega)
  · repeat rw [be_pack_skip _ (by omega)]
    exact be_pack_front _ (by omega)
  · repeat rw [be_pack_skip _ (by omega)]
    exact be_pack_front _ (by omega)
  · repeat rw [be_pack_skip _ (by omega)]
    exact be_pack_last (by omega)

theorem Outgoing.arp_bytes (mac nb sha tha : MacAddress) (spa tpa : Ip4Address) {oper : Nat} (ho : oper = 1 ∨ oper = 2) :
    ∃ F, Outgoing.frame ⟨mac, nb, .arp oper sha spa tha tpa⟩ = .ok F ∧ SendsArp F mac nb oper sha spa tha tpa := by
  obtain ⟨b, b1, b2, b3⟩ := Arp.bytes sha tha spa tpa ho
  obtain ⟨F, F1, F2⟩ := Outgoing.frame_bytes (o := ⟨mac, nb, .arp oper sha spa tha tpa⟩) b1
  exact ⟨F, F1, b, F2, b2, b3⟩

/-- The ARP request for an unknown next hop, as bytes. -/
theorem Host.arpFrame_bytes {s : Stack} {a : Ip4Address} (h : ∃ x, x ∈ s.ip4Host) : ∃ F, (arpFrame s a).frame = .ok F ∧ AsksFor4 F s a := by
  obtain ⟨x, hx⟩ := h
  cases hl : s.ip4Host with
  | nil => rw [hl] at hx; cases hx
  | cons y l =>
    have e : arpFrame s a = ⟨s.mac, .broadcast, .arp 1 s.mac y.address .zero a⟩ := by
      rw [arpFrame]
      rw [Stack.ip4Unicast, hl]; rfl
    obtain ⟨F, F1, F2⟩ := Outgoing.arp_bytes s.mac .broadcast s.mac .zero y.address a (.inl rfl)
    exact ⟨F, by rw [e]; exact F1, y, by rw [hl]; exact List.mem_cons_self, F2⟩

/-- A packet for an unknown next hop is lost; an ARP request goes out. -/
theorem Host.asks4 (h : Host) {src dst a : Ip4Address} {ttl : Nat} {c : L4} (ht : 0 < ttl ∧ ttl < 256)
    (ho : OwnSource4 h.stack src) (hn : NextHop4 h.stack src dst a) (hk : ∀ m, ¬ Knows4 h a m)
    (hp : c.proto = 1 ∨ c.proto = 17 ∨ c.proto = 6 ∨ c.proto = 255) (hf : 20 + c.len ≤ h.stack.mtu) :
    ∃ s, s ≠ .passedEtherToTxRing ∧ h.ip4 src dst ttl c = (h, .ok (s, [arpFrame h.stack a])) := by
  have hs := ho.source dst c.kind
  have hd : dst.int ≠ 0 := by have := hn.unicast; omega
  have hm : Missing4 h src dst a := by
    refine ⟨hn.asks, ?_⟩
    cases hg : h.links.arp 0 a with
    | none => rfl
    | some m => exact absurd hg (hk m)
  obtain ⟨s, s1, s2, -⟩ := link4_missing h (.ip4 (packetTx src dst ttl c.proto) c.toCarried) _ rfl hm 0 (fun _ => none)
  exact ⟨s, s1, by rw [ip4_fits h ht hs hd hp hf, s2]⟩

/-- What the stack sends as an ICMPv4 message with a known next hop. -/
theorem Host.icmp4_sends (h : Host) {src dst a : Ip4Address} {m : MacAddress} {x : Icmp4.Msg} {q : Bytes} (ho : OwnSource4 h.stack src)
    (hn : NextHop4 h.stack src dst a) (hk : Knows4 h a m) (hx : Icmp4.assemble x = .ok q) (hl : q.length = Icmp4.len x)
    (hf : 20 + q.length ≤ h.stack.mtu) (hmtu : h.stack.mtu < 65536) {F : Bytes} {t₀ t₁ : Int} {d : Nat}
    (he : Rx.ether h.node t₀ t₁ d F = (h.node, .ok [.txIcmp4 src dst x])) (t : Int) :
    ∃ G, Puts (h.receive t₀ t₁ t d F) [G] ∧ Unchanged h (h.receive t₀ t₁ t d F).1 ∧ Sends4 G h.stack.mac m src dst 64 1 q ∧
      NearlyValid [] q 2 := by
  let c : L4 := { Icmp4.carried x with kind := .other }
  obtain ⟨h', o, ps, g1, g2, g3, g4⟩ := h.sends4 (c := c) (ttl := 64) (by omega) ho hn hk
    (.inl rfl) (by rw [show c.len = Icmp4.len x from rfl, ← hl]; exact hf) hmtu
  obtain ⟨G, G1, G2⟩ := g4 q hx hl
  have hr := Host.receive_one (t := t) he (h' := h') (outs := [o]) (by rw [Host.apply, Host.icmp4, g1]; rfl)
  exact ⟨G, ⟨[o], by rw [hr], by simp [G1]⟩, by rw [hr]; exact g2.unchanged, G2, Icmp4.nearly hx (by omega)⟩

theorem Host.icmp4_asks (h : Host) {src dst a : Ip4Address} {x : Icmp4.Msg} {q : Bytes} (ho : OwnSource4 h.stack src)
    (hn : NextHop4 h.stack src dst a) (hk : ∀ m, ¬ Knows4 h a m) (hl : q.length = Icmp4.len x)
    (hf : 20 + q.length ≤ h.stack.mtu) {F : Bytes} {t₀ t₁ : Int} {d : Nat}
    (he : Rx.ether h.node t₀ t₁ d F = (h.node, .ok [.txIcmp4 src dst x])) (t : Int) :
    ∃ G, Puts (h.receive t₀ t₁ t d F) [G] ∧ Unchanged h (h.receive t₀ t₁ t d F).1 ∧ AsksFor4 G h.stack a := by
  let c : L4 := { Icmp4.carried x with kind := .other }
  obtain ⟨s, -, g⟩ := h.asks4 (c := c) (ttl := 64) (by omega) ho hn hk (.inl rfl) (by rw [show c.len = Icmp4.len x from rfl, ← hl]; exact hf)
  obtain ⟨y, hy, -⟩ := ho.own
  obtain ⟨G, G1, G2⟩ := Host.arpFrame_bytes (s := h.stack) (a := a) ⟨y, hy⟩
  have hr := Host.receive_one (t := t) he (h' := h) (outs := [arpFrame h.stack a]) (by rw [Host.apply, Host.icmp4, g]; rfl)
  exact ⟨G, ⟨_, by rw [hr], by simp [G1]⟩, by rw [hr]; exact (Touched.refl h).unchanged, G2⟩

theorem icmp4_reply_of {id seq : Nat} {data q : Bytes} {x : Icmp4.Msg} (h : Icmp4.assemble x = .ok q) (he : IsEcho 0 q id seq data) :
    q.length = Icmp4.len x := by
  obtain ⟨i, s, dt, rfl⟩ := icmp4_type_zero h he.2.1
  rw [Icmp4.assemble, Icmp4.assembleEcho] at h
  obtain ⟨-, -, h⟩ := py_bind_ok h
  obtain ⟨-, -, h⟩ := py_bind_ok h
  obtain ⟨b1, h1, h⟩ := py_bind_ok h
  obtain ⟨b2, h2, h⟩ := py_bind_ok h
  obtain ⟨b3, h3, h⟩ := py_bind_ok h
  obtain ⟨b4, h4, h⟩ := py_bind_ok h
  obtain ⟨b5, h5, h⟩ := py_bind_ok h
  rw [packInto_length h]
  simp [packB_length h1, packB_length h2, packH_length h3, packH_length h4, packH_length h5, Icmp4.len]
  omega

theorem Spec.IsEcho.same_length {t t' id id' seq seq' : Nat} {p q data : Bytes} (h : IsEcho t p id seq data) (h' : IsEcho t' q id' seq' data) :
    q.length = p.length := by
  have h1 := congrArg List.length (h.2.2.2.2.2.symm.trans h'.2.2.2.2.2)
  have h2 := h.1
  have h3 := h'.1
  simp at h1
  omega


end Verif
