import Verif.Lemmas.Host
import Verif.Lemmas.Origin
import Verif.Lemmas.WireTx
import Verif.Lemmas.Nearly
import Verif.Model.Machine
/-! The packets a host queues, and the bytes of them. -/
namespace Verif
open Spec

theorem packB_inv {n : Nat} {b : Bytes} (h : packB n = .ok b) : n < 256 ∧ b = bePack 1 n := by
  rw [packB] at h
  split at h
  · cases h; exact ⟨by assumption, rfl⟩
  · cases h

theorem packH_inv {n : Nat} {b : Bytes} (h : packH n = .ok b) : n < 65536 ∧ b = bePack 2 n := by
  rw [packH] at h
  split at h
  · cases h; exact ⟨by assumption, rfl⟩
  · cases h

theorem packL_inv {n : Nat} {b : Bytes} (h : packL n = .ok b) : n < 4294967296 ∧ b = bePack 4 n := by
  rw [packL] at h
  split at h
  · cases h; exact ⟨by assumption, rfl⟩
  · cases h

/-- The bytes of an IPv4 header without options. -/
structure Hdr4 (b : Bytes) (h : Ip4.Tx) (plen : Nat) (payload : Bytes) : Prop where
  b0 : be b 0 1 = 0x45
  b2 : be b 2 2 = plen
  b4 : be b 4 2 = h.id
  b6 : be b 6 2 = (h.df.toNat <<< 14 ||| h.mf.toNat <<< 13 ||| h.offset >>> 3)
  b9 : be b 9 1 = h.proto
  b12 : be b 12 4 = h.src.int
  b16 : be b 16 4 = h.dst.int
  rest : b.drop 20 = payload
  length : b.length = 20 + payload.length

theorem Hdr4.of {h : Ip4.Tx} {plen : Nat} {hdr hdr' payload : Bytes} (ho : h.options = []) (h0 : Ip4.header0 h plen = .ok hdr)
    (h1 : packIntoH hdr 10 (inetCksum hdr) = .ok hdr') : Hdr4 (hdr' ++ payload) h plen payload := by
  have hh : h.hlen = 20 := by rw [Ip4.Tx.hlen_eq, ho]; rfl
  rw [Ip4.header0] at h0
  obtain ⟨x0, e0, h0⟩ := py_bind_ok h0
  obtain ⟨x1, e1, h0⟩ := py_bind_ok h0
  obtain ⟨x2, e2, h0⟩ := py_bind_ok h0
  obtain ⟨x3, e3, h0⟩ := py_bind_ok h0
  obtain ⟨x4, e4, h0⟩ := py_bind_ok h0
  obtain ⟨x5, e5, h0⟩ := py_bind_ok h0
  obtain ⟨x6, e6, h0⟩ := py_bind_ok h0
  obtain ⟨x7, e7, h0⟩ := py_bind_ok h0
  obtain ⟨l0, rfl⟩ := packB_inv e0
  obtain ⟨l1, rfl⟩ := packB_inv e1
  obtain ⟨l2, rfl⟩ := packH_inv e2
  obtain ⟨l3, rfl⟩ := packH_inv e3
  obtain ⟨l4, rfl⟩ := packH_inv e4
  obtain ⟨l5, rfl⟩ := packB_inv e5
  obtain ⟨l6, rfl⟩ := packB_inv e6
  obtain ⟨l7, rfl⟩ := packH_inv e7
  have h0 := Except.ok.inj h0
  simp only [ho, Ip4.rawOptions, List.map_nil, List.flatten_nil, List.append_nil] at h0
  obtain ⟨ck, hck⟩ : ∃ ck, inetCksum hdr = ck := ⟨_, rfl⟩
  have hc : ck < 65536 := by rw [← hck]; exact inetCksum_lt _ _
  rw [hck, packIntoH_ok hc (by rw [← h0]; simp [codec])] at h1
  have h1 := Except.ok.inj h1
  have e : hdr' = bePack 1 (4 <<< 4 ||| h.hlen >>> 2) ++ (bePack 1 (h.dscp <<< 2 ||| h.ecn) ++ (bePack 2 plen ++ (bePack 2 h.id ++
      (bePack 2 (h.df.toNat <<< 14 ||| h.mf.toNat <<< 13 ||| h.offset >>> 3) ++ (bePack 1 h.ttl ++ (bePack 1 h.proto ++ (bePack 2 ck ++
      (bePack 4 h.src.int ++ bePack 4 h.dst.int)))))))) := by
    rw [← h1, ← h0]
    simp [codec, Ip4Address.toBytes_eq]
  have hl : hdr'.length = 20 := by rw [e]; simp
  have hs := h.src.lt
  have hd := h.dst.lt
  refine ⟨?_, ?_, ?_, ?_, ?_, ?_, ?_, by rw [← hl]; exact List.drop_left, by rw [List.length_append, hl]⟩
  all_goals simp only [e, List.append_assoc]
  · rw [be_pack_front _ (by omega), hh]; rfl
  all_goals repeat rw [be_pack_skip _ (by omega)]
  all_goals rw [be_pack_front _ (by omega)]

theorem Ip4.assemble_bytes {h : Ip4.Tx} {c : Carried} {b : Bytes} (ho : h.options = []) (H : Ip4.assemble h c = .ok b) :
    ∃ ps q, c.assemble ps = .ok q ∧ Hdr4 b h (20 + c.len) q := by
  rw [Ip4.assemble] at H
  have hh : h.hlen = 20 := by rw [Ip4.Tx.hlen_eq, ho]; rfl
  obtain ⟨-, -, H⟩ := py_bind_ok H
  obtain ⟨hdr, h0, H⟩ := py_bind_ok H
  obtain ⟨hdr', h1, H⟩ := py_bind_ok H
  obtain ⟨ps, -, H⟩ := py_bind_ok H
  obtain ⟨q, hq, H⟩ := py_bind_ok H
  have H := Except.ok.inj H
  subst H
  rw [hh] at h0
  exact ⟨ps, q, hq, .of ho h0 h1⟩

theorem Ip4.assembleFrag_bytes {h : Ip4.Tx} {d b : Bytes} (ho : h.options = []) (H : Ip4.assembleFrag h d = .ok b) :
    Hdr4 b h (20 + d.length) d ∧ h.id < 65536 := by
  rw [Ip4.assembleFrag] at H
  have hh : h.hlen = 20 := by rw [Ip4.Tx.hlen_eq, ho]; rfl
  obtain ⟨-, ha, H⟩ := py_bind_ok H
  obtain ⟨hdr, h0, H⟩ := py_bind_ok H
  obtain ⟨hdr', h1, H⟩ := py_bind_ok H
  have H := Except.ok.inj H
  subst H
  rw [hh] at h0
  have X := Hdr4.of (payload := d) ho h0 h1
  exact ⟨X, by rw [← X.b4]; exact be_lt _ 4 2⟩

/-- The bytes of an IPv6 header. -/
structure Hdr6 (b : Bytes) (h : Ip6.Tx) (next : Nat) (payload : Bytes) : Prop where
  b6 : be b 6 1 = next
  b8 : be b 8 16 = h.src.int
  b24 : be b 24 16 = h.dst.int
  rest : b.drop 40 = payload

theorem Ip6.assemble_bytes {h : Ip6.Tx} {c : Carried} {b : Bytes} (H : Ip6.assemble h c = .ok b) :
    ∃ ps q, c.assemble ps = .ok q ∧ Hdr6 b h c.proto q := by
  rw [Ip6.assemble] at H
  obtain ⟨-, -, H⟩ := py_bind_ok H
  obtain ⟨-, -, H⟩ := py_bind_ok H
  obtain ⟨-, -, H⟩ := py_bind_ok H
  obtain ⟨-, -, H⟩ := py_bind_ok H
  obtain ⟨-, -, H⟩ := py_bind_ok H
  obtain ⟨hdr, h0, H⟩ := py_bind_ok H
  obtain ⟨ps, -, H⟩ := py_bind_ok H
  obtain ⟨q, hq, H⟩ := py_bind_ok H
  have H := Except.ok.inj H
  subst H
  refine ⟨ps, q, hq, ?_⟩
  rw [Ip6.header] at h0
  obtain ⟨x0, e0, h0⟩ := py_bind_ok h0
  obtain ⟨x1, e1, h0⟩ := py_bind_ok h0
  obtain ⟨x2, e2, h0⟩ := py_bind_ok h0
  obtain ⟨x3, e3, h0⟩ := py_bind_ok h0
  obtain ⟨x4, e4, h0⟩ := py_bind_ok h0
  obtain ⟨x5, e5, h0⟩ := py_bind_ok h0
  obtain ⟨x6, e6, h0⟩ := py_bind_ok h0
  obtain ⟨l0, rfl⟩ := packB_inv e0
  obtain ⟨l1, rfl⟩ := packB_inv e1
  obtain ⟨l2, rfl⟩ := packB_inv e2
  obtain ⟨l3, rfl⟩ := packB_inv e3
  obtain ⟨l4, rfl⟩ := packH_inv e4
  obtain ⟨l5, rfl⟩ := packB_inv e5
  obtain ⟨l6, rfl⟩ := packB_inv e6
  have h0 := Except.ok.inj h0
  simp only [Ip6Address.toBytes_eq, List.append_assoc] at h0
  have hl : hdr.length = 40 := by rw [← h0]; simp
  have hs := h.src.lt
  have hd := h.dst.lt
  refine ⟨?_, ?_, ?_, by rw [← hl]; exact List.drop_left⟩
  all_goals simp only [← h0, List.append_assoc]
  all_goals repeat rw [be_pack_skip _ (by omega)]
  all_goals rw [be_pack_front _ (by omega)]

/-! ### The packets -/

/-- An ARP packet, or an ICMPv6 message in an IPv6 packet. -/
def Pkt.Req : Pkt → Prop
  | .arp .. => True
  | .ip6 _ c => c.proto = 58
  | _ => False

namespace Host

theorem requests_req {A : Type} {f : A → Py (List Outgoing)} (hf : ∀ a outs, f a = .ok outs → ∀ o ∈ outs, o.pkt.Req) :
    ∀ {l : List A} {outs : List Outgoing}, requests f l = .ok outs → ∀ o ∈ outs, o.pkt.Req
  | [], outs, h => by cases h; simp
  | a :: l, outs, h => by
    rw [requests] at h
    obtain ⟨x, hx, h⟩ := py_bind_ok h
    obtain ⟨xs, hxs, h⟩ := py_bind_ok h
    cases h
    intro o ho
    rcases List.mem_append.1 ho with ho | ho
    · exact hf a x hx o ho
    · exact requests_req hf hxs o ho

theorem ndRequest_req {s : Stack} (hm : 72 ≤ s.mtu) (a : Ip6Address) (outs : List Outgoing) (h : ndRequest s a = .ok outs) :
    ∀ o ∈ outs, o.pkt.Req := by
  cases hs : validateSrcIp6 s (s.ndSource a) (solicitedNode a) (.icmp6 135 1) with
  | ok src =>
    rw [ndRequest_eq s a src hm hs] at h
    cases h
    intro o ho
    cases List.mem_singleton.1 ho
    rfl
  | error e =>
    rw [ndRequest, Addrs.solicited_eq] at h
    dsimp only at h
    have e3 : phtxIcmp6 s ⟨fun _ _ => none, fun _ _ => none⟩ (s.ndSource a) (solicitedNode a) 255 (.neighborSolicitation a [.slla s.mac]) =
        (s, .ok (e, [])) := by
      rw [phtxIcmp6, phtxIp6, phtxIp6Small]
      have : (Icmp6.Msg.neighborSolicitation a [.slla s.mac]).kind = .icmp6 135 1 := rfl
      simp only [this, hs]
      rfl
    rw [e3] at h
    cases h
    simp

theorem finish_out {s : Stack} {asked : Py (List Outgoing)} {m : Option MacAddress} {p : Pkt} {st : TxStatus} {outs : List Outgoing}
    (ha : ∀ reqs, asked = .ok reqs → ∀ o ∈ reqs, o.pkt.Req) (h : finish s asked m p = .ok (st, outs)) :
    ∀ o ∈ outs, o.pkt = p ∨ o.pkt.Req := by
  rw [finish] at h
  obtain ⟨reqs, hr, h⟩ := py_bind_ok h
  obtain ⟨⟨st', outs'⟩, ho, h⟩ := py_bind_ok h
  cases h
  intro o hm
  rcases List.mem_append.1 hm with hm | hm
  · exact .inr (ha reqs hr o hm)
  · rcases phtxEther_pkt ho with ⟨_, m, rfl⟩ | ⟨_, rfl⟩
    · cases List.mem_singleton.1 hm
      exact .inl rfl
    · cases hm

theorem link_out (h : Host) (p : Pkt) (hm : 72 ≤ h.stack.mtu) : (h.link p).1.node = h.node ∧
    ∀ st outs, (h.link p).2 = .ok (st, outs) → ∀ o ∈ outs, o.pkt = p ∨ o.pkt.Req := by
  have hn : ∀ reqs, (Except.ok [] : Py (List Outgoing)) = .ok reqs → ∀ o ∈ reqs, o.pkt.Req := by intro reqs e; cases e; simp
  have ha : ∀ l reqs, requests (arpRequest h.stack) l = .ok reqs → ∀ o ∈ reqs, o.pkt.Req := by
    intro l reqs e
    refine requests_req (fun a outs e => ?_) e
    rw [arpRequest_eq] at e
    cases e
    intro o ho
    cases List.mem_singleton.1 ho
    trivial
  have hd : ∀ l reqs, requests (ndRequest h.stack) l = .ok reqs → ∀ o ∈ reqs, o.pkt.Req := fun l reqs e => requests_req (ndRequest_req hm) e
  have h4 : ∀ x, p.ip4Hdr = some x → (h.link p).1.node = h.node ∧
      ∀ st outs, (h.link p).2 = .ok (st, outs) → ∀ o ∈ outs, o.pkt = p ∨ o.pkt.Req := by
    intro x hx
    rw [link_eq4 h p x hx]
    split
    · exact ⟨rfl, fun _ _ => finish_out hn⟩
    · exact ⟨rfl, fun _ _ => finish_out (ha _)⟩
  cases p with
  | ip4 => exact h4 _ rfl
  | ip4Frag => exact h4 _ rfl
  | ip6 x c =>
    rw [link_eq6 h (.ip6 x c) x rfl]
    split
    · exact ⟨rfl, fun _ _ => finish_out hn⟩
    · exact ⟨rfl, fun _ _ => finish_out (hd _)⟩
  | arp => exact ⟨rfl, fun _ _ => finish_out hn⟩
  | raw => exact ⟨rfl, fun _ _ => finish_out hn⟩

/-- A loop over fragments. -/
theorem frags_out {send : Host → Nat → Bool → Bytes → Res} {N : Node} {P : Piece → Pkt → Prop}
    (hs : ∀ h : Host, h.node = N → ∀ off mf d, (send h off mf d).1.node = N ∧
      ∀ st outs, (send h off mf d).2 = .ok (st, outs) → ∀ o ∈ outs, P ⟨off, mf, d⟩ o.pkt ∨ o.pkt.Req) :
    ∀ {ds : List Bytes} {off : Nat} {h : Host}, h.node = N → (frags send h off ds).1.node = N ∧
      ∀ sts outs, (frags send h off ds).2 = .ok (sts, outs) → ∀ o ∈ outs, (∃ f ∈ piecesOf off ds, P f o.pkt) ∨ o.pkt.Req
  | [], off, h, hN => ⟨hN, by intro sts outs e; cases e; simp⟩
  | d :: ds, off, h, hN => by
    obtain ⟨h1, h2⟩ := hs h hN off (!ds.isEmpty) d
    rw [frags]
    revert h1 h2
    generalize send h off (!ds.isEmpty) d = G
    obtain ⟨h', r⟩ := G
    intro h1 h2
    cases r with
    | error e => exact ⟨h1, by intro _ _ e; cases e⟩
    | ok r =>
      obtain ⟨st, out⟩ := r
      obtain ⟨i1, i2⟩ := frags_out hs (ds := ds) (off := off + d.length) (h := h') h1
      dsimp only
      revert i1 i2
      generalize frags send h' (off + d.length) ds = G
      obtain ⟨h'', r⟩ := G
      intro i1 i2
      cases r with
      | error e => exact ⟨i1, by intro _ _ e; cases e⟩
      | ok r =>
        obtain ⟨sts, outs⟩ := r
        refine ⟨i1, ?_⟩
        intro _ _ e
        cases e
        intro o ho
        rcases List.mem_append.1 ho with ho | ho
        · rcases h2 _ _ rfl o ho with x | x
          · exact .inl ⟨_, by simp [piecesOf], x⟩
          · exact .inr x
        · rcases i2 _ _ rfl o ho with ⟨f, hf, x⟩ | x
          · exact .inl ⟨f, by simp [piecesOf, hf], x⟩
          · exact .inr x

/-- What a call of the IPv4 layer may queue: the packet, and nothing changes; or its fragments, and the identification is used up. -/
theorem ip4_out (h : Host) (src dst : Ip4Address) (ttl : Nat) (c : L4) (hm : 72 ≤ h.stack.mtu) :
    ((h.ip4 src dst ttl c).1.node = h.node ∧ ∀ st outs, (h.ip4 src dst ttl c).2 = .ok (st, outs) → ∀ o ∈ outs,
      (∃ a, o.pkt = .ip4 (packetTx a dst ttl c.proto) c.toCarried) ∨ o.pkt.Req) ∨
    ((h.ip4 src dst ttl c).1.node = { h.node with stack := { h.node.stack with ip4Id := h.node.stack.ip4Id + 1 } } ∧
      ∃ a ps data ds, c.assemble ps = .ok data ∧ dataFrags data ((h.stack.mtu - 20) &&& 0b1111111111111000) = .ok ds ∧
        ∀ st outs, (h.ip4 src dst ttl c).2 = .ok (st, outs) → ∀ o ∈ outs,
          (∃ f ∈ piecesOf 0 ds, o.pkt = .ip4Frag (fragTx a dst ttl (h.node.stack.ip4Id + 1) c.proto f.offset f.mf) f.data) ∨ o.pkt.Req) := by
  rw [ip4]
  split
  · exact .inl ⟨rfl, by intro _ _ e; cases e⟩
  cases hv : validateSrcIp4 h.stack src dst c.kind with
  | error e => exact .inl ⟨rfl, by intro _ _ e; cases e; simp⟩
  | ok a =>
    dsimp only
    cases hd : validateDstIp4 dst with
    | error e => exact .inl ⟨rfl, by intro _ _ e; cases e; simp⟩
    | ok d =>
      cases validateDstIp4_ok hd
      dsimp only
      cases (packetTx a dst ttl c.proto).asserts with
      | error e => exact .inl ⟨rfl, by intro _ _ e; cases e⟩
      | ok u =>
        dsimp only
        split
        · obtain ⟨h1, h2⟩ := link_out h (.ip4 (packetTx a dst ttl c.proto) c.toCarried) hm
          exact .inl ⟨h1, fun st outs e o ho => (h2 st outs e o ho).imp (fun x => ⟨a, x⟩) id⟩
        · have hh : (packetTx a dst ttl c.proto).hlen = 20 := by rw [Ip4.Tx.hlen_eq]; rfl
          rw [hh]
          cases hG : (do
            let ps ← Ip4.pshdrSum a dst c.proto c.len
            let data ← c.assemble ps
            dataFrags data ((h.stack.mtu - 20) &&& 0b1111111111111000) : Py (List Bytes)) with
          | error e => exact .inl ⟨rfl, by intro _ _ e; cases e⟩
          | ok ds =>
            obtain ⟨ps, -, hG⟩ := py_bind_ok hG
            obtain ⟨data, h1, h2⟩ := py_bind_ok hG
            right
            have hf := frags_out (N := { h.node with stack := { h.node.stack with ip4Id := h.node.stack.ip4Id + 1 } })
              (send := frag4 a dst ttl c.proto (h.node.stack.ip4Id + 1))
              (P := fun f p => p = .ip4Frag (fragTx a dst ttl (h.node.stack.ip4Id + 1) c.proto f.offset f.mf) f.data)
              (by
                intro g hg off mf d
                rw [frag4]
                dsimp only
                cases (fragTx a dst ttl (h.node.stack.ip4Id + 1) c.proto off mf).asserts with
                | error e => exact ⟨hg, by intro _ _ e; cases e⟩
                | ok u =>
                  obtain ⟨h1, h2⟩ := link_out g (.ip4Frag (fragTx a dst ttl (h.node.stack.ip4Id + 1) c.proto off mf) d)
                    (by rw [Host.stack, hg]; exact hm)
                  exact ⟨h1.trans hg, h2⟩)
              (ds := ds) (off := 0) (h := h.withStack { h.stack with ip4Id := h.stack.ip4Id + 1 }) rfl
            dsimp only
            obtain ⟨G, hG3⟩ : ∃ G, frags (frag4 a dst ttl c.proto (h.node.stack.ip4Id + 1)) (h.withStack { h.stack with ip4Id := h.stack.ip4Id + 1 }) 0 ds = G := ⟨_, rfl⟩
            rw [hG3] at hf
            erw [hG3]
            obtain ⟨h', r⟩ := G
            cases r with
            | error e => exact ⟨hf.1, a, ps, data, ds, h1, h2, by intro _ _ e; cases e⟩
            | ok r =>
              refine ⟨hf.1, a, ps, data, ds, h1, h2, ?_⟩
              intro _ _ e
              cases e
              exact hf.2 _ _ rfl

/-- One packet of the IPv6 layer. -/
theorem small_out (h : Host) (src dst : Ip6Address) (hop : Nat) (c : L4) (hm : 72 ≤ h.stack.mtu) :
    (h.ip6Small src dst hop c).1.node = h.node ∧
    ∀ st outs, (h.ip6Small src dst hop c).2 = .ok (.inl (st, outs)) → ∀ o ∈ outs,
      (∃ a, validateSrcIp6 h.stack src dst c.kind = .ok a ∧ o.pkt = .ip6 (packetTx6 a dst hop) c.toCarried) ∨ o.pkt.Req := by
  rw [ip6Small]
  split
  · exact ⟨rfl, by intro _ _ e; cases e⟩
  cases hv : validateSrcIp6 h.stack src dst c.kind with
  | error e => exact ⟨rfl, by intro _ _ e; cases e; simp⟩
  | ok a =>
    dsimp only
    cases hd : validateDstIp6 dst with
    | error e => exact ⟨rfl, by intro _ _ e; cases e; simp⟩
    | ok d =>
      cases validateDstIp6_ok hd
      dsimp only
      cases ip6Asserts (packetTx6 a dst hop) c.proto with
      | error e => exact ⟨rfl, by intro _ _ e; cases e⟩
      | ok u =>
        dsimp only
        split
        · have hl := link_out h (.ip6 (packetTx6 a dst hop) c.toCarried) hm
          revert hl
          generalize h.link (.ip6 (packetTx6 a dst hop) c.toCarried) = G
          obtain ⟨h', r⟩ := G
          intro hl
          cases r with
          | error e => exact ⟨hl.1, by intro _ _ e; cases e⟩
          | ok r =>
            refine ⟨hl.1, ?_⟩
            intro _ _ e
            cases e
            exact fun o ho => (hl.2 _ _ rfl o ho).imp (fun x => ⟨a, rfl, x⟩) id
        · exact ⟨rfl, by intro _ _ e; cases e⟩

/-- The same for IPv6. -/
theorem ip6_out (h : Host) (src dst : Ip6Address) (hop : Nat) (c : L4) (hm : 72 ≤ h.stack.mtu) :
    ((h.ip6 src dst hop c).1.node = h.node ∧ ∀ st outs, (h.ip6 src dst hop c).2 = .ok (st, outs) → ∀ o ∈ outs,
      (∃ a, o.pkt = .ip6 (packetTx6 a dst hop) c.toCarried) ∨ o.pkt.Req) ∨
    ((h.ip6 src dst hop c).1.node = { h.node with stack := { h.node.stack with ip6Id := h.node.stack.ip6Id + 1 } } ∧
      ∃ a ps data ds, c.assemble ps = .ok data ∧ dataFrags data ((h.stack.mtu - 40 - 8) &&& 0b1111111111111000) = .ok ds ∧
        ∀ st outs, (h.ip6 src dst hop c).2 = .ok (st, outs) → ∀ o ∈ outs,
          (∃ f ∈ piecesOf 0 ds, (c.proto = 58 ∨ c.proto = 17 ∨ c.proto = 6 ∨ c.proto = 255) ∧
            o.pkt = .ip6 (packetTx6 a dst 64) (Ip6Frag.carried c.proto f.offset f.mf (h.node.stack.ip6Id + 1) f.data)) ∨ o.pkt.Req) := by
  rw [ip6]
  have hs := small_out h src dst hop c hm
  revert hs
  cases hG : h.ip6Small src dst hop c with
  | mk h' r =>
    intro hs
    cases r with
    | error e => exact .inl ⟨hs.1, by intro _ _ e; cases e⟩
    | ok r =>
      cases r with
      | inl r =>
        left
        refine ⟨hs.1, ?_⟩
        intro st outs e
        cases e
        exact fun o ho => (hs.2 _ _ rfl o ho).imp (fun ⟨a, _, x⟩ => ⟨a, x⟩) id
      | inr r =>
        obtain ⟨s, d⟩ := r
        obtain ⟨rfl, hv, rfl⟩ := small_inr hG
        dsimp only
        cases hG : (do
            let ps ← Ip6.pshdrSum s d c.len c.proto
            let data ← c.assemble ps
            dataFrags data ((h'.stack.mtu - 40 - 8) &&& 0b1111111111111000) : Py (List Bytes)) with
        | error e => exact .inl ⟨rfl, by intro _ _ e; cases e⟩
        | ok ds =>
          obtain ⟨ps, -, hG⟩ := py_bind_ok hG
          obtain ⟨data, h1, h2⟩ := py_bind_ok hG
          right
          have hex : ∃ a, ∀ a', validateSrcIp6 h'.stack s d .other = .ok a' → a' = a := by
            cases hq : validateSrcIp6 h'.stack s d .other with
            | error e => exact ⟨s, by intro _ e; cases e⟩
            | ok a => exact ⟨a, by intro _ e; cases e; rfl⟩
          obtain ⟨a, hex⟩ := hex
          have hf := frags_out (N := { h'.node with stack := { h'.node.stack with ip6Id := h'.node.stack.ip6Id + 1 } })
            (send := frag6 s d c.proto (h'.node.stack.ip6Id + 1))
            (P := fun f p => (c.proto = 58 ∨ c.proto = 17 ∨ c.proto = 6 ∨ c.proto = 255) ∧
              p = .ip6 (packetTx6 a d 64) (Ip6Frag.carried c.proto f.offset f.mf (h'.node.stack.ip6Id + 1) f.data))
            (by
              intro g hg off mf x
              rw [frag6]
              split
              · exact ⟨hg, by intro _ _ e; cases e⟩
              · rename_i hp
                have := small_out g s d 64 { Ip6Frag.carried c.proto off mf (h'.node.stack.ip6Id + 1) x with kind := .other }
                    (by rw [Host.stack, hg]; exact hm)
                revert this
                generalize g.ip6Small s d 64 { Ip6Frag.carried c.proto off mf (h'.node.stack.ip6Id + 1) x with kind := .other } = G
                obtain ⟨g', r⟩ := G
                intro hl
                cases r with
                | error e => exact ⟨hl.1.trans hg, by intro _ _ e; cases e⟩
                | ok r =>
                  cases r with
                  | inl r =>
                    refine ⟨hl.1.trans hg, ?_⟩
                    intro _ _ e
                    cases e
                    intro o ho
                    refine (hl.2 _ _ rfl o ho).imp (fun ⟨a', ha, x⟩ => ⟨by omega, ?_⟩) id
                    rw [Host.stack, hg] at ha
                    have := hex a' ha
                    rw [this] at x
                    exact x
                  | inr r => exact ⟨hl.1.trans hg, by intro _ _ e; cases e⟩)
            (ds := ds) (off := 0) (h := h'.withStack { h'.stack with ip6Id := h'.stack.ip6Id + 1 }) rfl
          dsimp only
          obtain ⟨G, hG3⟩ : ∃ G, frags (frag6 s d c.proto (h'.node.stack.ip6Id + 1)) (h'.withStack { h'.stack with ip6Id := h'.stack.ip6Id + 1 }) 0 ds = G := ⟨_, rfl⟩
          rw [hG3] at hf
          erw [hG3]
          obtain ⟨h'', r⟩ := G
          cases r with
          | error e => exact ⟨hf.1, a, ps, data, ds, h1, h2, by intro _ _ e; cases e⟩
          | ok r =>
            refine ⟨hf.1, a, ps, data, ds, h1, h2, ?_⟩
            intro _ _ e
            cases e
            exact hf.2 _ _ rfl

end Host
end Verif
