import Verif.Spec.Cuts
import Verif.Lemmas.Origin
import Verif.Props.Resolve
import Verif.Lemmas.Big
/-! The frames of a datagram that does not fit the MTU. -/
namespace Verif
open Spec

theorem Spec.IsFragmentation.several {d : Bytes} {room : Nat} {fs : List Piece} (h : IsFragmentation d room fs) (hl : room < d.length) {f : Piece} (hf : f ∈ fs) :
    f.offset ≠ 0 ∨ f.mf = true := by
  by_contra hc
  simp only [not_or, not_not] at hc
  obtain ⟨i, hi⟩ := List.mem_iff_getElem?.1 hf
  have h1 := h.offset i f hi
  have h2 := h.mf i f hi
  have h3 := h.fits f hf
  have h4 := congrArg List.length h.concat
  have hil : i < fs.length := (List.getElem?_eq_some_iff.1 hi).1
  have hlast : fs.length = i + 1 := by
    by_contra hne
    exact hc.2 (h2.2 (by omega))
  have hsp : fs = fs.take i ++ [f] := by
    have e : fs[i] = f := (List.getElem?_eq_some_iff.1 hi).2
    rw [← e, List.take_append_getElem hil, List.take_of_length_le (by omega)]
  rw [hsp, List.map_append, List.flatten_append, List.length_append, ← h1, hc.1] at h4
  simp at h4
  omega

theorem flatMap_one {α β : Type} {l : List α} {f : α → List β} {g : α → β} (h : ∀ x ∈ l, f x = [g x]) : l.flatMap f = l.map g := by
  induction l with
  | nil => rfl
  | cons x l ih =>
    rw [List.flatMap_cons, h x (by simp), ih fun y hy => h y (by simp [hy])]
    rfl

theorem frames_of {α : Type} {P : α → Bytes → Prop} {g : α → Outgoing} : ∀ {l : List α}, (∀ x ∈ l, ∃ F, (g x).frame = .ok F ∧ P x F) →
    ∃ Fs : List Bytes, (l.map g).map Outgoing.frame = Fs.map .ok ∧ List.Forall₂ P l Fs
  | [], _ => ⟨[], rfl, .nil⟩
  | x :: l, h => by
    obtain ⟨F, h1, h2⟩ := h x (by simp)
    obtain ⟨Fs, h3, h4⟩ := frames_of (l := l) fun y hy => h y (by simp [hy])
    exact ⟨F :: Fs, by simp only [List.map_cons, h1, h3], .cons h2 h4⟩

/-- A datagram that does not fit the MTU, with a known next hop, goes out in as many frames as it takes. -/
theorem Host.udp_cuts4 (h : Host) {src dst a : Ip4Address} {m : MacAddress} {sport dport : Nat} {data : Bytes} (hs : sport < 65536) (hd : dport < 65536)
    (ho : OwnSource4 h.stack src) (hn : NextHop4 h.stack src dst a) (hk : Knows4 h a m) (hf : h.stack.mtu < 28 + data.length ∧ data.length < 65528)
    (hmtu : 28 ≤ h.stack.mtu ∧ h.stack.mtu < 65536) (hid : h.stack.ip4Id < 65535) :
    ∃ h' outs Fs q fs, h.udp (.v4 src) (.v4 dst) sport dport data = (h', .ok (.passedEtherToTxRing, outs)) ∧ h'.node.socks = h.node.socks ∧ outs.map Outgoing.frame = Fs.map .ok ∧
      IsUdp q sport dport data ∧ NearlyValid (pseudoHdr4 src dst 17 q.length) q 6 ∧ IsFragmentation q (h.stack.mtu - 20) fs ∧
      List.Forall₂ (Cut4 h.stack.mac m h.stack.mtu src dst 64 17 (h.stack.ip4Id + 1)) fs Fs := by
  let c : L4 := { Udp.carried sport dport data with kind := .udp sport dport }
  have hc : c.len = 8 + data.length := rfl
  have hv := ho.source dst c.kind
  have hd0 : dst.int ≠ 0 := by have := hn.unicast; omega
  have hz : dst ≠ .zero := by rintro rfl; exact hd0 rfl
  have hmiss : ∀ b, ¬ Host.Missing4 h src dst b := by
    rintro b ⟨e1, e2⟩
    rw [hn.asks] at e1
    cases e1
    cases (show some m = none from hk.symm.trans e2)
  obtain ⟨ps, hps⟩ : ∃ ps, Ip4.pshdrSum src dst c.proto c.len = .ok ps := ⟨_, Ip4.pshdr_ok src dst 17 _ (by omega) (by omega)⟩
  obtain ⟨q, q1, q2, q3⟩ := Udp.bytes hs hd (data := data) (by omega) ps
  obtain ⟨fs, hF, hok, -⟩ := phtxIp4_frag h.links.arp (ttl := 64) (c := c) hmtu.1 hmtu.2 (by omega) (by omega) (by omega) (.inr (.inl rfl)) hv hz hps q1
    (by rintro rfl; simp at q2; omega)
  have hsame := Host.ip4_known h src dst 64 c fun s e b => by rw [hv] at e; cases e; exact hmiss b
  have hop : ∀ o p hd, p.ip4Hdr = some hd → hd.src = src → hd.dst = dst →
      ∃ m', SentTo h.stack p (phtxEther h.stack (h.links.arp o) (fun _ => none) .zero .zero p) m' ∧ m' = m := by
    intro o p x e1 e2 e3
    refine ⟨m, ?_, rfl⟩
    rw [SentTo, phtxEther_ip4 _ _ _ _ _ e1, e2, e3]
    rcases etherDst_ask4 h.stack (h.links.arp o) src dst with ⟨x1, x2⟩ | ⟨b, e, x1, x2, x3⟩
    · rw [hn.asks] at x1; cases x1
    · rw [hn.asks] at x1
      cases x1
      have : h.links.arp o a = some m := hk
      simp only [x3, this]
  have hE : ∀ f ∈ fs, (okOf (phtxEther h.stack (h.links.arp f.offset) (fun _ => none) .zero .zero (fragPkt src dst 64 (h.stack.ip4Id + 1) c.proto f))).2 =
      [⟨h.stack.mac, m, fragPkt src dst 64 (h.stack.ip4Id + 1) c.proto f⟩] := by
    intro f _
    obtain ⟨m', e, rfl⟩ := hop f.offset (fragPkt src dst 64 (h.stack.ip4Id + 1) c.proto f) _ rfl rfl rfl
    rw [SentTo] at e
    simp only [e, okOf]
  have hok := hok hid
  rw [flatMap_one hE] at hok
  obtain ⟨outs, hpass⟩ := C27_ip4_fragmentation_succeeds h.links.arp (ttl := 64) (c := c) hmtu.1 hmtu.2 (by omega) (by omega) (.inr (.inl rfl))
    (fun ps => by obtain ⟨d, d1, d2, -⟩ := Udp.bytes hs hd (data := data) (by omega) ps; exact ⟨d, d1, d2⟩) (by omega) (by omega) hid hz hv
    (fun o p x e1 e2 e3 => by obtain ⟨m', e, -⟩ := hop o p x e1 e2 e3; exact ⟨m', e⟩)
  have hst := hpass.symm.trans hok
  simp only [Prod.mk.injEq, Except.ok.injEq] at hst
  rw [← hst.2.1] at hok
  obtain ⟨Fs, F1, F2⟩ := frames_of (P := Cut4 h.stack.mac m h.stack.mtu src dst 64 17 (h.stack.ip4Id + 1)) (l := fs)
    (g := fun f => (⟨h.stack.mac, m, fragPkt src dst 64 (h.stack.ip4Id + 1) c.proto f⟩ : Outgoing)) (by
      intro f hf'
      have h1 := hF.offset_le hf'
      have h2 := hF.fits f hf'
      have h3 := hF.aligned f hf'
      have hOk : (fragTx src dst 64 (h.stack.ip4Id + 1) 17 f.offset f.mf).Ok f.data.length := by
        refine ⟨by simp [fragTx], by simp [fragTx], by simp [fragTx], by simp [fragTx]; omega, .inr (.inl rfl), by simp [fragTx],
          by simp [fragTx], by simp [fragTx]; omega, h3, by simp [fragTx]; omega⟩
      obtain ⟨ps', hps'⟩ : ∃ ps', Ip4.pshdrSum src dst 17 f.data.length = .ok ps' := ⟨_, Ip4.pshdr_ok src dst 17 f.data.length (by omega) (by omega)⟩
      have hu := ho.ordinary
      have hS : (fragTx src dst 64 (h.stack.ip4Id + 1) 17 f.offset f.mf).Sane := by
        refine ⟨?_, ?_, ?_, by simp [fragTx]⟩
        · show src.isMulticast = false
          rw [Bool.eq_false_iff, ne_eq, (C08_ip4_classes_partial src).2.2.2.2.1]
          simp only [cidr, dot, Nat.reduceSub, Nat.reducePow, Nat.reduceDiv, Nat.reduceMul, Nat.reduceAdd]
          omega
        · show src.isReserved = false
          rw [Bool.eq_false_iff, ne_eq, C08_reserved_partial src]
          simp only [cidr, dot, Nat.reduceSub, Nat.reducePow, Nat.reduceDiv, Nat.reduceMul, Nat.reduceAdd]
          omega
        · show src.isLimitedBroadcast = false
          simp only [Ip4Address.isLimitedBroadcast, beq_eq_false_iff_ne]
          omega
      obtain ⟨b, e1, e2, e3, e4⟩ := C16_ip4_frag_roundtrip _ f.data [] ps' hOk hS hps'
      obtain ⟨p1, p2⟩ := e4 (e3 rfl)
      rw [List.append_nil] at p1 p2
      have hb := e1
      rw [Ip4.assembleFrag_ok _ _ hOk] at hb
      injection hb with hb
      have hbl : b.length = 20 + f.data.length := by
        rw [← hb, List.length_append, Ip4.headerWith_length, Ip4.Tx.hlen_eq]
        rfl
      have b8 : be b 8 1 = 64 := by
        rw [← hb]
        simp only [Ip4.headerWith, Ip4Address.toBytes, List.append_assoc]
        repeat rw [be_pack_skip _ (by omega)]
        exact be_pack_front _ (by simp [fragTx])
      obtain ⟨F, G1, G2⟩ := Outgoing.frame_bytes (o := ⟨h.stack.mac, m, fragPkt src dst 64 (h.stack.ip4Id + 1) c.proto f⟩) (b := b) e1
      exact ⟨F, G1, b, G2, by omega, Ip4.frag4 p1 p2 (hF.several (by omega) hf'), b8⟩)
  obtain ⟨s1, s2⟩ := hsame
  rw [hok] at s1 s2
  have hu : h.udp (.v4 src) (.v4 dst) sport dport data = h.ip4 src dst 64 c := by
    rw [Host.udp, if_neg (not_not.2 ⟨by omega, by omega⟩)]
  rw [← hu] at s1 s2
  refine ⟨_, _, Fs, q, fs, Prod.ext rfl s1, by rw [s2.node]; rfl, F1, q3, ?_, hF, F2⟩
  · rw [hc, ← q2] at hps
    exact Udp.nearly q1 (under4 (by decide) (by omega) hps) (by omega)

theorem Host.udp_cuts6 (h : Host) {src dst a : Ip6Address} {m : MacAddress} {sport dport : Nat} {data : Bytes} (hs : sport < 65536) (hd : dport < 65536)
    (ho : OwnSource6 h.stack src) (hn : NextHop6 h.stack src dst a) (hk : Knows6 h a m) (hf : h.stack.mtu < 48 + data.length ∧ data.length < 65528)
    (hmtu : 56 ≤ h.stack.mtu ∧ h.stack.mtu < 65536) (hid : h.stack.ip6Id + 1 < 2 ^ 32) (hpl : h.stack.PlainIp6) :
    ∃ h' outs Fs q fs, h.udp (.v6 src) (.v6 dst) sport dport data = (h', .ok (.passedEtherToTxRing, outs)) ∧ h'.node.socks = h.node.socks ∧
      outs.map Outgoing.frame = Fs.map .ok ∧
      IsUdp q sport dport data ∧ NearlyValid (pseudoHdr6 src dst 17 q.length) q 6 ∧ IsFragmentation q (h.stack.mtu - 48) fs ∧
      List.Forall₂ (Cut6 h.stack.mac m h.stack.mtu src dst 17 (h.stack.ip6Id + 1)) fs Fs := by
  let c : L4 := { Udp.carried sport dport data with kind := .udp sport dport }
  have hc : c.len = 8 + data.length := rfl
  have hv := ho.source dst c.kind
  have hd0 : dst.int ≠ 0 := by have := hn.unicast; omega
  have hz : dst ≠ .zero := by rintro rfl; exact hd0 rfl
  have hsz : src ≠ .zero := by rintro rfl; exact absurd ho.ordinary.1 (by decide)
  have hmiss : ∀ b, ¬ Host.Missing6 h src dst b := by
    rintro b ⟨e1, e2⟩
    rw [hn.asks] at e1
    cases e1
    cases (show some m = none from hk.symm.trans e2)
  obtain ⟨ps, hps⟩ : ∃ ps, Ip6.pshdrSum src dst c.len c.proto = .ok ps := ⟨_, Ip6.pshdr_ok src dst _ 17 (by omega) (by omega)⟩
  obtain ⟨q, q1, q2, q3⟩ := Udp.bytes hs hd (data := data) (by omega) ps
  have hws : c.WellSized := by
    intro ps' d' e
    obtain ⟨d, d1, d2, -⟩ := Udp.bytes hs hd (data := data) (by omega) ps'
    have : d' = d := by
      have e' : (Except.ok d : Py Bytes) = .ok d' := d1.symm.trans e
      injection e' with e'
      exact e'.symm
    rw [this, d2, hc]
  have hv' := ho.source dst .other
  have hsame := Host.ip6_known h src dst 64 c fun s e => by
    rw [hv] at e; cases e
    refine ⟨hmiss, fun s' e' b => ?_⟩
    rw [hv'] at e'; cases e'; exact hmiss b
  have hop : ∀ o p hd, p.ip6Hdr = some hd → hd.src = src → hd.dst = dst →
      ∃ m', SentTo h.stack p (phtxEther h.stack (fun _ => none) (h.links.nd o) .zero .zero p) m' ∧ m' = m := by
    intro o p x e1 e2 e3
    refine ⟨m, ?_, rfl⟩
    rw [SentTo, phtxEther_ip6 _ _ _ _ _ e1, e2, e3]
    rcases etherDst_ask6 h.stack (h.links.nd o) src dst with ⟨x1, x2⟩ | ⟨b, e, x1, x2, x3⟩
    · rw [hn.asks] at x1; cases x1
    · rw [hn.asks] at x1
      cases x1
      have : h.links.nd o a = some m := hk
      simp only [x3, this]
  obtain ⟨fs, hF, hok, -⟩ := phtxIp6_frag h.links.nd (hop := 64) (c := c) hpl hmtu.1 hmtu.2 (by omega) (by omega) (by omega) (.inr (.inl rfl)) hv hz hps q1
    (by rintro rfl; simp at q2; omega)
  have hE : ∀ f ∈ fs, (okOf (phtxEther h.stack (fun _ => none) (h.links.nd f.offset) .zero .zero (frag6Pkt src dst (h.stack.ip6Id + 1) c.proto f))).2 =
      [⟨h.stack.mac, m, frag6Pkt src dst (h.stack.ip6Id + 1) c.proto f⟩] := by
    intro f _
    obtain ⟨m', e, rfl⟩ := hop f.offset (frag6Pkt src dst (h.stack.ip6Id + 1) c.proto f) _ rfl rfl rfl
    rw [SentTo] at e
    simp only [e, okOf]
  have hok := hok hsz
  rw [flatMap_one hE] at hok
  obtain ⟨outs, hpass⟩ := C28_ip6_fragmentation_succeeds h.links.nd (hop := 64) (c := c) hpl hmtu.1 hmtu.2 (by omega) (by omega) (.inr (.inl rfl))
    (fun ps => by obtain ⟨d, d1, d2, -⟩ := Udp.bytes hs hd (data := data) (by omega) ps; exact ⟨d, d1, d2⟩) (by omega) (by omega) hz hv hsz
    (fun o p x e1 e2 e3 => by obtain ⟨m', e, -⟩ := hop o p x e1 e2 e3; exact ⟨m', e⟩)
  have hst := hpass.symm.trans hok
  simp only [Prod.mk.injEq, Except.ok.injEq] at hst
  rw [← hst.2.1] at hok
  obtain ⟨Fs, F1, F2⟩ := frames_of (P := Cut6 h.stack.mac m h.stack.mtu src dst 17 (h.stack.ip6Id + 1)) (l := fs)
    (g := fun f => (⟨h.stack.mac, m, frag6Pkt src dst (h.stack.ip6Id + 1) c.proto f⟩ : Outgoing)) (by
      intro f hf'
      have h1 := hF.offset_le hf'
      have h2 := hF.fits f hf'
      have h3 := hF.aligned f hf'
      obtain ⟨b0, g1, g2, g3, g4⟩ := C17_ip6_frag_roundtrip 17 f.offset f.mf (h.stack.ip6Id + 1) f.data (.inr (.inl rfl)) (by omega) h3 hid
      obtain ⟨ps', hps'⟩ : ∃ ps', Ip6.pshdrSum src dst (8 + f.data.length) 44 = .ok ps' :=
        ⟨_, Ip6.pshdr_ok src dst (8 + f.data.length) 44 (by omega) (by omega)⟩
      obtain ⟨b, e1, e2, e3⟩ := C17_ip6_roundtrip_dscp0_partial
        { src := src, dst := dst, hop := 64, dscp := 0, ecn := 0, flow := 0 } (Ip6Frag.carried 17 f.offset f.mf (h.stack.ip6Id + 1) f.data) b0 ps'
        (by refine ⟨?_, ?_, ?_, ?_, ?_, ?_⟩ <;> simp [Ip6Frag.carried] <;> omega) hps' g1 (by rw [g2]; rfl) (show 0 < 64 by decide) ho.unicast rfl
        (show 0 < 2 ^ 20 by decide)
      have hbl : b.length ≤ h.stack.mtu := by
        obtain ⟨r, k1, k2, k3, -⟩ := C26_ip6_accepted b e2
        rw [e3] at k1
        injection k1 with k1
        rw [← k1] at k3
        simp only [Ip6Frag.carried] at k3
        omega
      obtain ⟨F, G1, G2⟩ := Outgoing.frame_bytes (o := ⟨h.stack.mac, m, frag6Pkt src dst (h.stack.ip6Id + 1) c.proto f⟩) (b := b) e1
      have hx := Ip6.frag6 e2 e3 rfl g3 (by
        rw [show (Ip6Frag.carried 17 f.offset f.mf (h.stack.ip6Id + 1) f.data).len = b0.length by rw [g2]; rfl]
        exact g4)
      exact ⟨F, G1, b, G2, hbl, hx.1, (Ip6.sound e2 e3).1.hasHop⟩)
  obtain ⟨s1, s2⟩ := hsame
  rw [hok] at s1 s2
  have hu : h.udp (.v6 src) (.v6 dst) sport dport data = h.ip6 src dst 64 c := by
    rw [Host.udp, if_neg (not_not.2 ⟨by omega, by omega⟩)]
  rw [← hu] at s1 s2
  refine ⟨_, _, Fs, q, fs, Prod.ext rfl s1, by rw [s2.node]; rfl, F1, q3, ?_, hF, F2⟩
  · rw [hc, ← q2] at hps
    exact Udp.nearly q1 (under6 (by decide) (by omega) hps) (by omega)

end Verif
