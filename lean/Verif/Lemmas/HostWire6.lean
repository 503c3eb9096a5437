import Verif.Lemmas.HostWire
/-! What a host puts on the wire (`Spec/Host.lean`), IPv6. -/
namespace Verif
open Spec

/-! ### Messages -/

theorem nd_option {k : Nat} (hk : k < 256) (mac : MacAddress) : NdOptions (bePack 1 k ++ (bePack 1 1 ++ bePack 6 mac.int)) [(k, bePack 6 mac.int)] := by
  have := NdOptions.opt (t := []) (l := []) (UInt8.ofNat k) 1 (bePack 6 mac.int) (by decide) (by simp) .nil
  rw [List.append_nil] at this
  have e : (UInt8.ofNat k).toNat = k := by simp; omega
  rw [e] at this
  simpa [bePack] using this

theorem Icmp6.ns_bytes (a : Ip6Address) (mac : MacAddress) (ps : Nat) :
    ∃ q, Icmp6.assemble (.neighborSolicitation a [.slla mac]) ps = .ok q ∧ q.length = 32 ∧ NdFor 135 1 q a mac := by
  have la := a.lt
  obtain ⟨ck, hck, h⟩ := Icmp6.assemble_ok (m := .neighborSolicitation a [.slla mac])
    (b := bePack 4 0 ++ (bePack 16 a.int ++ (bePack 1 1 ++ (bePack 1 1 ++ bePack 6 mac.int)))) ps
    (by simp [Icmp6.body, Icmp6.rawNdOptions, Icmp6.TxOpt.bytes, packL_ok, packB_ok, MacAddress.toBytes_eq, Ip6Address.toBytes_eq])
  refine ⟨_, h, by simp, ⟨by simp, ?_, ?_⟩, ?_, ?_⟩
  · exact be_pack_front (v := 135) _ (by decide)
  · repeat rw [drop_pack _ (by omega)]
    exact nd_option (by omega) mac
  · rw [be_pack_skip _ (by omega)]; exact be_pack_front (v := 0) _ (by decide)
  · repeat rw [be_pack_skip _ (by omega)]
    exact be_pack_front _ (by omega)

theorem Icmp6.na_bytes (s o : Bool) (a : Ip6Address) (mac : MacAddress) (ps : Nat) :
    ∃ q, Icmp6.assemble (.neighborAdvertisement false s o a [.tlla mac]) ps = .ok q ∧ q.length = 32 ∧ NdFor 136 2 q a mac ∧
      bit q 4 7 = false ∧ bit q 4 6 = s ∧ bit q 4 5 = o := by
  have la := a.lt
  have hfl : ((false.toNat <<< 31) ||| (s.toNat <<< 30) ||| (o.toNat <<< 29) ||| 0) < 256 ^ 4 := by cases s <;> cases o <;> decide
  obtain ⟨ck, hck, h⟩ := Icmp6.assemble_ok (m := .neighborAdvertisement false s o a [.tlla mac])
    (b := bePack 4 ((false.toNat <<< 31) ||| (s.toNat <<< 30) ||| (o.toNat <<< 29) ||| 0) ++ (bePack 16 a.int ++ (bePack 1 2 ++ (bePack 1 1 ++ bePack 6 mac.int)))) ps
    (by simp only [Icmp6.body, Icmp6.rawNdOptions, Icmp6.TxOpt.bytes, packL_ok hfl, packB_ok (show 2 < 256 by omega), packB_ok (show 1 < 256 by omega), MacAddress.toBytes_eq, Ip6Address.toBytes_eq, codec, List.append_assoc]; simp [packB_ok])
  refine ⟨_, h, by simp, ⟨⟨by simp, ?_, ?_⟩, ?_, ?_⟩, ?_⟩
  · exact be_pack_front (v := 136) _ (by decide)
  · repeat rw [drop_pack _ (by omega)]
    exact nd_option (by omega) mac
  · rw [be_pack_skip _ (by omega)]; exact be_pack_front (v := 0) _ (by decide)
  · repeat rw [be_pack_skip _ (by omega)]
    exact be_pack_front _ (by omega)
  · simp only [bit]
    repeat rw [be_pack_skip _ (by omega)]
    cases s <;> cases o <;> simp [bePack, be, beNat]

theorem Icmp6.unreachable_bytes (data : Bytes) (ps : Nat) :
    ∃ q, Icmp6.assemble (.portUnreachable data) ps = .ok q ∧ q.length = 8 + (data.take 520).length ∧ IsUnreachable 1 4 q (data.take 520) := by
  obtain ⟨ck, hck, h⟩ := Icmp6.assemble_ok (m := .portUnreachable data) (b := bePack 4 0 ++ data.take 520) ps
    (by simp [Icmp6.body, packL_ok])
  refine ⟨_, h, by simp; omega, by simp; omega, ?_, ?_, ?_, ?_⟩
  · exact be_pack_front (v := 1) _ (by decide)
  · rw [be_pack_skip _ (by omega)]; exact be_pack_front (v := 4) _ (by decide)
  · repeat rw [be_pack_skip _ (by omega)]
    exact be_pack_front _ (by omega)
  · repeat rw [drop_pack _ (by omega)]
    rfl

theorem Icmp4.unreachable_bytes (data : Bytes) :
    ∃ q, Icmp4.assemble (.portUnreachable data) = .ok q ∧ q.length = 8 + (data.take 520).length ∧ IsUnreachable 3 3 q (data.take 520) := by
  obtain ⟨c, hc, hcl⟩ : ∃ c, inetCksum (bePack 1 3 ++ bePack 1 3 ++ bePack 2 0 ++ bePack 4 0 ++ data.take 520) = c ∧ c < 65536 :=
    ⟨_, rfl, inetCksum_lt _ _⟩
  refine ⟨bePack 1 3 ++ (bePack 1 3 ++ (bePack 2 c ++ (bePack 4 0 ++ data.take 520))), ?_, by simp; omega, by simp; omega, ?_, ?_, ?_, ?_⟩
  · simp only [Icmp4.assemble, packB_ok (show 3 < 256 by omega), packL_ok (show 0 < 4294967296 by omega),
        packH_ok (show 0 < 65536 by omega), codec] at hc ⊢
    rw [hc, packIntoH_ok hcl (by simp; omega)]
    simp [codec]
  · exact be_pack_front _ (by decide)
  · rw [be_pack_skip _ (by omega)]; exact be_pack_front _ (by decide)
  · repeat rw [be_pack_skip _ (by omega)]
    exact be_pack_front _ (by omega)
  · repeat rw [drop_pack _ (by omega)]
    rfl

/-! ### Looking for a neighbour -/

theorem ndSource_in {s : Stack} {a : Ip6Address} (h : ∃ x ∈ s.ip6Host, cidr 128 x.network.address.int x.network.mask.len a.int) :
    ∃ x ∈ s.ip6Host, cidr 128 x.network.address.int x.network.mask.len a.int ∧ s.ndSource a = x.address := by
  have key : ∀ (l : List Ip6Host) (z : Ip6Address),
      (∃ x ∈ l, cidr 128 x.network.address.int x.network.mask.len a.int ∧
        l.foldl (fun src h => if h.network.contains a then h.address else src) z = x.address) ∨
      ((∀ x ∈ l, ¬ cidr 128 x.network.address.int x.network.mask.len a.int) ∧
        l.foldl (fun src h => if h.network.contains a then h.address else src) z = z) := by
    intro l
    induction l with
    | nil => intro z; exact .inr ⟨by simp, rfl⟩
    | cons y l ih =>
      intro z
      rw [List.foldl_cons]
      rcases ih (if y.network.contains a then y.address else z) with ⟨x, x1, x2, x3⟩ | ⟨x1, x2⟩
      · exact .inl ⟨x, List.mem_cons_of_mem _ x1, x2, x3⟩
      · rw [x2]
        by_cases hc : y.network.contains a = true
        · exact .inl ⟨y, List.mem_cons_self, (Ip6Host.contains_iff y a).1 hc, if_pos hc⟩
        · refine .inr ⟨?_, if_neg hc⟩
          intro x hx
          rcases List.mem_cons.1 hx with rfl | hx
          · exact fun hcc => hc ((Ip6Host.contains_iff x a).2 hcc)
          · exact x1 x hx
  rcases key s.ip6Host .zero with h1 | ⟨h1, -⟩
  · exact h1
  · obtain ⟨x, hx, hc⟩ := h
    exact absurd hc (h1 x hx)

theorem Host.ndRequest_bytes {s : Stack} {a : Ip6Address} (hmtu : 72 ≤ s.mtu ∧ s.mtu < 65536)
    (h : ∃ x ∈ s.ip6Host, cidr 128 x.network.address.int x.network.mask.len a.int) (hs : ∀ x ∈ s.ip6Host, OwnSource6 s x.address) :
    ∃ o F, ndRequest s a = .ok [o] ∧ o.frame = .ok F ∧ AsksFor6 F s a := by
  obtain ⟨x, x1, x2, x3⟩ := ndSource_in h
  have ho := hs x x1
  have hv : validateSrcIp6 s (s.ndSource a) (solicitedNode a) (.icmp6 135 1) = .ok x.address := by rw [x3]; exact ho.source _ _
  refine ⟨ndFrame s a x.address, ?_⟩
  obtain ⟨e1, -⟩ := Ip6.pshdrSum_eq x.address (solicitedNode a) (show 58 < 256 by omega) (show 32 < 65536 by omega)
  obtain ⟨q, q1, q2, q3⟩ := Icmp6.ns_bytes a s.mac (wordSum 8 5 (pseudoHdr6 x.address (solicitedNode a) 58 32))
  have hb : ∃ b, (ndFrame s a x.address).pkt.assemble = .ok b ∧ Ip6Packet b x.address (solicitedNode a) 255 58 q := by
    have hun : (solicitedNode a).int ≠ 0 := by
      show ¬ 0xFF0200000000000000000001FF000000 + a.int % 2 ^ 24 = 0
      omega
    have e := phtxIp6_fits s (fun _ _ => none) (hop := 255)
      (c := { Icmp6.carried (.neighborSolicitation a [.slla s.mac]) with kind := .icmp6 135 1 }) (by decide) hv hun (.inl rfl)
      (show 40 + 32 ≤ _ from hmtu.1)
    have : etherDstIp6 s (fun _ => none) x.address (solicitedNode a) = .ok (.ok (groupMac (solicitedNode a))) := by
      rw [etherDstIp6, if_pos (Addrs.solicited_multicast a), Addrs.mac_eq (Addrs.solicited_multicast a)]; rfl
    have e2 : phtxEther s (fun _ => none) (fun _ => none) .zero .zero (.ip6 (packetTx6 x.address (solicitedNode a) 255)
        (Icmp6.carried (.neighborSolicitation a [.slla s.mac]))) = .ok (.passedEtherToTxRing, [ndFrame s a x.address]) := by
      rw [phtxEther_ip6 _ _ _ _ (packetTx6 x.address (solicitedNode a) 255) rfl]
      simp only [packetTx6, this]
      rfl
    rw [e2] at e
    obtain ⟨-, a', o, ps, g1, g2, -, -, g5, g6⟩ := whole6 (.inl rfl) (show 40 + 32 ≤ _ from hmtu.1) hmtu.2 e
    rw [hv] at g1
    cases g1
    cases (List.cons.inj g2).1
    have hps := Except.ok.inj (e1.symm.trans g5)
    subst hps
    exact g6 q q1 q2 ho.unicast
  obtain ⟨b, b1, b2⟩ := hb
  obtain ⟨F, F1, F2⟩ := Outgoing.frame_bytes b1
  refine ⟨F, ndRequest_eq s a x.address hmtu.1 hv, F1, x, x1, x2, q, ⟨b, F2, b2⟩, q3, ?_⟩
  rw [q2]
  exact Icmp6.nearly q1 (under6 (by omega) (by omega) e1) (by omega)

/-- A packet for an unknown next hop is lost; a neighbour solicitation goes out. -/
theorem Host.asks6 (h : Host) {src dst a : Ip6Address} {hop : Nat} {c : L4} (ht : 0 < hop ∧ hop < 256)
    (ho : OwnSource6 h.stack src) (hn : NextHop6 h.stack src dst a) (hk : ∀ m, ¬ Knows6 h a m)
    (hp : c.proto = 58 ∨ c.proto = 17 ∨ c.proto = 6 ∨ c.proto = 44 ∨ c.proto = 255) (hf : 40 + c.len ≤ h.stack.mtu)
    (hmtu : 72 ≤ h.stack.mtu ∧ h.stack.mtu < 65536)
    (hl : ∃ x ∈ h.stack.ip6Host, cidr 128 x.network.address.int x.network.mask.len a.int) (hs : ∀ x ∈ h.stack.ip6Host, OwnSource6 h.stack x.address) :
    ∃ s o F, s ≠ .passedEtherToTxRing ∧ h.ip6 src dst hop c = (h, .ok (s, [o])) ∧ o.frame = .ok F ∧ AsksFor6 F h.stack a := by
  have hv := ho.source dst c.kind
  have hd : dst.int ≠ 0 := by have := hn.unicast; omega
  have hm : Missing6 h src dst a := by
    refine ⟨hn.asks, ?_⟩
    cases hg : h.links.nd 0 a with
    | none => rfl
    | some m => exact absurd hg (hk m)
  obtain ⟨s, s1, s2, -⟩ := link6_missing h (.ip6 (packetTx6 src dst hop) c.toCarried) _ rfl hm 0 (fun _ => none)
  obtain ⟨o, F, o1, o2, o3⟩ := Host.ndRequest_bytes hmtu hl hs
  refine ⟨s, o, F, s1, ?_, o2, o3⟩
  rw [ip6_fits h ht hv hd hp hf, s2, o1]
  rfl

/-! ### ICMPv6 -/

/-- What the stack sends as an ICMPv6 message with a known next hop. -/
theorem Host.icmp6_known (h : Host) {src dst a : Ip6Address} {m : MacAddress} {hop : Nat} {x : Icmp6.Msg} (hh : 0 < hop ∧ hop < 256)
    (ho : OwnSource6 h.stack src) (hn : NextHop6 h.stack src dst a) (hk : Knows6 h a m)
    (hf : 40 + Icmp6.len x ≤ h.stack.mtu) (hmtu : h.stack.mtu < 65536) {P : Bytes → Prop}
    (hx : ∀ ps, ∃ q, Icmp6.assemble x ps = .ok q ∧ q.length = Icmp6.len x ∧ P q) :
    ∃ h' o G q, h.icmp6 src dst hop x = (h', .ok (.passedEtherToTxRing, [o])) ∧ Touched h h' ∧ o.frame = .ok G ∧
      Sends6 G h.stack.mac m src dst hop 58 q ∧ P q ∧ NearlyValid (pseudoHdr6 src dst 58 q.length) q 2 := by
  let c : L4 := { Icmp6.carried x with kind := x.kind }
  obtain ⟨h', o, ps, g1, g2, g3, g4⟩ := h.sends6 (c := c) (hop := hop) hh ho hn hk
    (.inl rfl) hf hmtu
  obtain ⟨q, q1, q2, q3⟩ := hx ps
  obtain ⟨G, G1, G2⟩ := g4 q q1 q2
  refine ⟨h', o, G, q, g1, g2, G1, G2, q3, ?_⟩
  rw [q2]
  exact Icmp6.nearly q1 (under6 (by omega) (by omega) g3) (by omega)

theorem Host.icmp6_sends (h : Host) {src dst a : Ip6Address} {m : MacAddress} {hop : Nat} {x : Icmp6.Msg} (hh : 0 < hop ∧ hop < 256)
    (ho : OwnSource6 h.stack src) (hn : NextHop6 h.stack src dst a) (hk : Knows6 h a m)
    (hf : 40 + Icmp6.len x ≤ h.stack.mtu) (hmtu : h.stack.mtu < 65536) {P : Bytes → Prop}
    (hx : ∀ ps, ∃ q, Icmp6.assemble x ps = .ok q ∧ q.length = Icmp6.len x ∧ P q) {F : Bytes} {t₀ t₁ : Int} {d : Nat}
    (he : Rx.ether h.node t₀ t₁ d F = (h.node, .ok [.txIcmp6 src dst hop x])) (t : Int) :
    ∃ G q, Puts (h.receive t₀ t₁ t d F) [G] ∧ Unchanged h (h.receive t₀ t₁ t d F).1 ∧ Sends6 G h.stack.mac m src dst hop 58 q ∧
      P q ∧ NearlyValid (pseudoHdr6 src dst 58 q.length) q 2 := by
  obtain ⟨h', o, G, q, g1, g2, g3, g4, g5, g6⟩ := h.icmp6_known hh ho hn hk hf hmtu hx
  have hr := Host.receive_one (t := t) he (h' := h') (outs := [o]) (by rw [Host.apply, g1]; rfl)
  exact ⟨G, q, ⟨[o], by rw [hr], by simp [g3]⟩, by rw [hr]; exact g2.unchanged, g4, g5, g6⟩

theorem Host.icmp6_asks (h : Host) {src dst a : Ip6Address} {hop : Nat} {x : Icmp6.Msg} (hh : 0 < hop ∧ hop < 256)
    (ho : OwnSource6 h.stack src) (hn : NextHop6 h.stack src dst a) (hk : ∀ m, ¬ Knows6 h a m)
    (hf : 40 + Icmp6.len x ≤ h.stack.mtu) (hmtu : 72 ≤ h.stack.mtu ∧ h.stack.mtu < 65536)
    (hl : ∃ x ∈ h.stack.ip6Host, cidr 128 x.network.address.int x.network.mask.len a.int) (hs : ∀ x ∈ h.stack.ip6Host, OwnSource6 h.stack x.address)
    {F : Bytes} {t₀ t₁ : Int} {d : Nat} (he : Rx.ether h.node t₀ t₁ d F = (h.node, .ok [.txIcmp6 src dst hop x])) (t : Int) :
    ∃ G, Puts (h.receive t₀ t₁ t d F) [G] ∧ Unchanged h (h.receive t₀ t₁ t d F).1 ∧ AsksFor6 G h.stack a := by
  let c : L4 := { Icmp6.carried x with kind := x.kind }
  obtain ⟨s, o, G, -, g1, g2, g3⟩ := h.asks6 (c := c) (hop := hop) hh ho hn hk (.inl rfl) hf hmtu hl hs
  have hr := Host.receive_one (t := t) he (h' := h) (outs := [o]) (by rw [Host.apply, Host.icmp6, g1]; rfl)
  exact ⟨G, ⟨[o], by rw [hr], by simp [g2]⟩, by rw [hr]; exact (Touched.refl h).unchanged, g3⟩

/-! ### Learning -/

theorem Host.learnt4 (h : Host) (a : Ip4Address) (m : MacAddress) (t : Int) : Learnt4 h { h with arp := h.arp.add a m t } a m := by
  refine ⟨rfl, ?_, ?_, fun _ _ => Iff.rfl⟩
  · simp only [Knows4, Cache.add, Dict.get?_set, if_true, Option.map_some]
  · intro b hb m'
    simp only [Knows4, Cache.add, Dict.get?_set, if_neg hb]

theorem Host.learnt6 (h : Host) (a : Ip6Address) (m : MacAddress) (t : Int) : Learnt6 h { h with nd := h.nd.add a m t } a m := by
  refine ⟨rfl, ?_, ?_, fun _ _ => Iff.rfl⟩
  · simp only [Knows6, Cache.add, Dict.get?_set, if_true, Option.map_some]
  · intro b hb m'
    simp only [Knows6, Cache.add, Dict.get?_set, if_neg hb]

theorem Spec.Learnt6.then {h h' h'' : Host} {a : Ip6Address} {m : MacAddress} (l : Learnt6 h h' a m) (u : Unchanged h' h'') : Learnt6 h h'' a m :=
  ⟨u.node.trans l.node, (u.nd a m).2 l.learnt, fun b hb m' => (u.nd b m').trans (l.others b hb m'), fun b m' => (u.arp b m').trans (l.arp b m')⟩

/-! ### ARP -/

theorem Spec.BringsArp.holds {n : Node} {F : Bytes} {nb sha tha : MacAddress} {spa tpa : Ip4Address} {oper : Nat}
    (B : BringsArp n F nb oper sha spa tha tpa) (ho : oper = 1 ∨ oper = 2) (t₀ t₁ : Int) (d : Nat) :
    ∃ f, Arp.parse f = .ok none ∧ Arp.read f = .ok ⟨oper, sha, spa, tha, tpa⟩ ∧ Rx.ether n t₀ t₁ d F = (n, Rx.arp n nb f) := by
  obtain ⟨b1, b2, b3, b4, b5⟩ := B
  obtain ⟨e, e1, e2, e3⟩ := ether_accept b1 ⟨nb, b2, b3⟩ (by omega)
  have hd : e.dst = nb := by
    obtain ⟨x, hx, hx'⟩ := mac_be (f := F) (i := 0) (by omega)
    obtain ⟨s, hs, -⟩ := mac_be (f := F) (i := 6) (by omega)
    have h12 := u16_be (f := F) (i := 12) (by omega)
    have hr := e1.2.1
    simp only [Nat.zero_add, Nat.reduceAdd] at hx hs
    simp only [Ether.read, Ether.dst, hx, Ether.src, hs, Ether.type, h12, py_ok_bind, py_pure] at hr
    have hr := Except.ok.inj hr
    rw [← hr]
    cases x; cases nb; simp_all
  obtain ⟨l, ⟨c1, c2⟩, ⟨c3, c4⟩, c5, c6, c7, c8, c9⟩ := b5
  refine ⟨F.drop 14, ?_, ?_, ?_⟩
  · generalize F.drop 14 = f at *
    have hp := Arp.cut f l
    obtain ⟨ht, pt, hn, pn, op, sh, sp, th, tp, h1, h2, h3, h4, h5, -⟩ := hp
    rw [Arp.hrtype, u16_be (by omega)] at h1
    rw [Arp.prtype, u16_be (by omega)] at h2
    rw [Arp.hrlen, idx_be (by omega)] at h3
    rw [Arp.prlen, idx_be (by omega)] at h4
    rw [Arp.oper, u16_be (by omega)] at h5
    simp only [Arp.parse, Arp.hrtype, Arp.prtype, Arp.hrlen, Arp.prlen, Arp.oper, u16_be (show 0 + 2 ≤ f.length by omega),
      u16_be (show 2 + 2 ≤ f.length by omega), idx_be (show 4 < f.length by omega), idx_be (show 5 < f.length by omega),
      u16_be (show 6 + 2 ≤ f.length by omega), c1, c2, c3, c4, c5, py_ok_bind, py_pure]
    rw [if_neg (by omega), if_neg (by omega), if_neg (by omega), if_neg (by omega), if_neg (by omega), if_neg (not_not.2 ho)]
  · generalize F.drop 14 = f at *
    obtain ⟨x1, y1, z1⟩ := mac_be (f := f) (i := 8) (by omega)
    obtain ⟨x2, y2, z2⟩ := ip4_be (f := f) (i := 14) (by omega)
    obtain ⟨x3, y3, z3⟩ := mac_be (f := f) (i := 18) (by omega)
    obtain ⟨x4, y4, z4⟩ := ip4_be (f := f) (i := 24) (by omega)
    have w1 : x1 = sha := by cases x1; cases sha; simp_all
    have w2 : x2 = spa := by cases x2; cases spa; simp_all
    have w3 : x3 = tha := by cases x3; cases tha; simp_all
    have w4 : x4 = tpa := by cases x4; cases tpa; simp_all
    subst w1 w2 w3 w4
    simp only [Nat.reduceAdd] at y1 y2 y3 y4
    simp only [Arp.read, Arp.oper, Arp.sha, Arp.spa, Arp.tha, Arp.tpa, y1, y2, y3, y4, u16_be (show 6 + 2 ≤ f.length by omega), c5, py_ok_bind, py_pure]
  · rw [ether_holds e1, if_pos (by omega), hd, e3]

/-- A frame on the wire brings an ARP packet to a host that takes frames for its destination. -/
theorem Spec.SendsArp.brings {n : Node} {F : Bytes} {mac nb sha tha : MacAddress} {spa tpa : Ip4Address} {oper : Nat}
    (h : SendsArp F mac nb oper sha spa tha tpa) (hm : MacForUs n nb) : BringsArp n F nb oper sha spa tha tpa := by
  obtain ⟨b, ⟨f1, f2, f3, f4, f5⟩, b1, b2⟩ := h
  exact ⟨f1, f2.symm, hm, f4, by rw [f5]; exact b1⟩

/-! ### TCP -/

/-- What `C78_wire` says the stack sends. -/
def resetTx (sport dport ack : Nat) : Tcp.Tx :=
  { sport := sport, dport := dport, seq := 0, ack := ack, flags := { rst := true, ack := true }, win := 0, urp := 0, options := [], data := [] }

/-- The bytes of a reset. -/
theorem reset_bytes {sport dport ack : Nat} (hs : sport < 65536) (hd : dport < 65536) (ha : ack < 4294967296) (ps : Nat) :
    ∃ p, Tcp.assemble (resetTx sport dport ack) ps = .ok p ∧ p.length = 20 ∧ IsTcp p [] ∧
      ∀ src dst, segment src dst p [] =
        { lip := dst, lport := dport, rip := src, rport := sport, syn := false, ack := true, fin := false,
          rst := true, seq := 0, ackn := ack, win := 0, wscale := none, mss := 536, data := [] } := by
  generalize hx : resetTx sport dport ack = x
  have hok : x.Ok := by subst hx; simp [Tcp.Tx.Ok, resetTx, hs, hd, ha]
  have hh : x.hlen = 20 := by subst hx; rfl
  obtain ⟨p, hp⟩ : ∃ p, Tcp.frameWith x (inetCksum (Tcp.frameWith x 0) ps) = p := ⟨_, rfl⟩
  have hl := Tcp.frameWith_length x (inetCksum (Tcp.frameWith x 0) ps)
  obtain ⟨f1, f2, f3, f4, f5, f6, f7, f8, f9, f10, f11, f12, f13, f14⟩ := Tcp.frame_bytes _ _ hok p hp
  have ha := Tcp.assemble_ok _ ps hok
  rw [hp] at ha
  rw [hp, hh] at hl
  rw [hh] at f5 f13 f14
  subst hx
  refine ⟨p, ha, hl, ⟨by omega, by omega, ?_, by simp⟩, ?_⟩
  · rw [f5, f13]; exact .nil
  · intro src dst
    rw [segment, f1, f2, f3, f4, f5, f6, f7, f8, f9, f11, f14]
    rfl

end Verif
