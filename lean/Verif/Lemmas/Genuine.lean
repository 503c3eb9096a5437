import Verif.Lemmas.Emit
import Verif.Props.Rx
import Verif.Spec.Machine
/-!
What the frames of a machine can be taken for: the packets in them say what the machine meant to say, and what is put together from their
fragments is one of the datagrams it cut up.
-/
namespace Verif
open Spec

/-- The protocols looked at: TCP and UDP. -/
def Real (p : Nat) : Prop := p = 6 ∨ p = 17

/-- What a machine says: a payload of a protocol, from an address to an address. -/
abbrev Claim := IpAddress → IpAddress → Nat → Bytes → Prop

/-- A datagram that is sent in fragments. -/
structure Dg (A : Type) where
  src : A
  dst : A
  proto : Nat
  payload : Bytes
  ps : List Piece

/-- An IPv4 packet in the frame says something the machine says, or is a fragment of the datagram `d` has for its identification. -/
def Good4 (S : Claim) (n : Nat) (d : Nat → Dg Ip4Address) (F : Bytes) : Prop :=
  be F 12 2 = 0x0800 → ∀ src dst proto,
    (∀ p, Whole4 (F.drop 14) src dst proto p → Real proto → S (.v4 src) (.v4 dst) proto p) ∧
    ∀ id off more x, Frag4 (F.drop 14) src dst proto id off more x → id ≤ n ∧ (d id).proto = proto ∧
      (Real proto → (d id).src = src ∧ (d id).dst = dst ∧ ⟨off, more, x⟩ ∈ (d id).ps ∧ (∃ room, IsFragmentation (d id).payload room (d id).ps) ∧
        S (.v4 src) (.v4 dst) proto (d id).payload)

/-- The same for IPv6. -/
def Good6 (S : Claim) (n : Nat) (d : Nat → Dg Ip6Address) (F : Bytes) : Prop :=
  be F 12 2 = 0x86DD → ∀ src dst,
    (∀ hop next p, Ip6Packet (F.drop 14) src dst hop next p → Real next → S (.v6 src) (.v6 dst) next p) ∧
    ∀ next id off more x, Frag6 (F.drop 14) src dst next id off more x → id ≤ n ∧ (d id).proto = next ∧ next ≠ 44 ∧
      (Real next → (d id).src = src ∧ (d id).dst = dst ∧ ⟨off, more, x⟩ ∈ (d id).ps ∧ (∃ room, IsFragmentation (d id).payload room (d id).ps) ∧
        S (.v6 src) (.v6 dst) next (d id).payload)

theorem Good4.mono {S S' : Claim} {n n' : Nat} {d d' : Nat → Dg Ip4Address} {F : Bytes} (h : Good4 S n d F)
    (hS : ∀ a b p q, S a b p q → S' a b p q) (hn : n ≤ n') (hd : ∀ i, i ≤ n → d' i = d i) : Good4 S' n' d' F := by
  intro ht src dst proto
  obtain ⟨h1, h2⟩ := h ht src dst proto
  refine ⟨fun p hp hr => hS _ _ _ _ (h1 p hp hr), fun id off more x hf => ?_⟩
  obtain ⟨k1, k2, k3⟩ := h2 id off more x hf
  rw [hd id k1]
  refine ⟨by omega, k2, fun hr => ?_⟩
  obtain ⟨a1, a2, a3, a4, a5⟩ := k3 hr
  exact ⟨a1, a2, a3, a4, hS _ _ _ _ a5⟩

theorem Good6.mono {S S' : Claim} {n n' : Nat} {d d' : Nat → Dg Ip6Address} {F : Bytes} (h : Good6 S n d F)
    (hS : ∀ a b p q, S a b p q → S' a b p q) (hn : n ≤ n') (hd : ∀ i, i ≤ n → d' i = d i) : Good6 S' n' d' F := by
  intro ht src dst
  obtain ⟨h1, h2⟩ := h ht src dst
  refine ⟨fun hop next p hp hr => hS _ _ _ _ (h1 hop next p hp hr), fun next id off more x hf => ?_⟩
  obtain ⟨k1, k2, k2', k3⟩ := h2 next id off more x hf
  rw [hd id k1]
  refine ⟨by omega, k2, k2', fun hr => ?_⟩
  obtain ⟨a1, a2, a3, a4, a5⟩ := k3 hr
  exact ⟨a1, a2, a3, a4, hS _ _ _ _ a5⟩

theorem frame_inv {o : Outgoing} {F : Bytes} (h : o.frame = .ok F) :
    ∃ b, o.pkt.assemble = .ok b ∧ IsFrame F o.src o.dst o.pkt.etherType b := by
  obtain ⟨b, hb, -⟩ := py_bind_ok (show (o.pkt.assemble >>= fun payload => Ether.assemble o.src o.dst o.pkt.etherType payload) = .ok F from h)
  obtain ⟨F', h1, h2⟩ := Outgoing.frame_bytes hb
  cases h1.symm.trans h
  exact ⟨b, hb, h2⟩

/-- What the bytes of a packet with this header are read as. -/
theorem Hdr4.read {b : Bytes} {h : Ip4.Tx} {plen : Nat} {q : Bytes} (H : Hdr4 b h plen q) {src dst : Ip4Address} {proto : Nat} {p : Bytes}
    (hf : Ip4Fields b src dst proto p) : proto = h.proto ∧ src = h.src ∧ dst = h.dst ∧ (plen = 20 + q.length → p = q) := by
  refine ⟨by rw [← H.b9, hf.hasProto], ?_, ?_, fun hl => ?_⟩
  · have := hf.hasSrc; rw [H.b12] at this; exact Ip4Address.ext' this
  · have := hf.hasDst; rw [H.b16] at this; exact Ip4Address.ext' this
  · rw [hf.hasPayload, H.b0, H.b2, List.take_of_length_le (by rw [H.length]; omega)]
    exact H.rest

theorem bit_6_5 {b : Bytes} (h : 8 ≤ b.length) : bit b 6 5 = decide (be b 6 2 / 8192 % 2 = 1) := by
  rw [bit, be_two (by omega)]
  have := be_lt b 7 1
  have e : be b 6 1 / 2 ^ 5 % 2 = (be b 6 1 * 256 + be b 7 1) / 8192 % 2 := by
    have : (2 : Nat) ^ 5 = 32 := rfl
    rw [this]
    have : be b 7 1 < 256 := be_lt b 7 1
    omega
  rw [e]

theorem flags_field (mf : Bool) {off : Nat} (h : off < 65536) :
    (false.toNat <<< 14 ||| mf.toNat <<< 13 ||| off >>> 3) = mf.toNat * 8192 + off / 8 := by
  have e : (false.toNat <<< 14 ||| mf.toNat <<< 13) = mf.toNat <<< 13 := by cases mf <;> rfl
  rw [e, ← Nat.shiftLeft_add_eq_or_of_lt (by rw [Nat.shiftRight_eq_div_pow]; omega), Nat.shiftLeft_eq, Nat.shiftRight_eq_div_pow]

theorem good_whole4 {S : Claim} {n : Nat} {d : Nat → Dg Ip4Address} {o : Outgoing} {F : Bytes} {a dst : Ip4Address} {ttl : Nat} {c : Carried}
    (ho : o.pkt = .ip4 (packetTx a dst ttl c.proto) c) (hF : o.frame = .ok F)
    (hc : Real c.proto → ∀ a ps q, c.assemble ps = .ok q → q.length = c.len ∧ S (.v4 a) (.v4 dst) c.proto q) : Good4 S n d F ∧ be F 12 2 = 0x0800 := by
  obtain ⟨b, hb, hf⟩ := frame_inv hF
  rw [ho] at hb hf
  obtain ⟨ps, q, hq, H⟩ := Ip4.assemble_bytes (h := packetTx a dst ttl c.proto) (c := c) rfl hb
  have h8 : 8 ≤ b.length := by rw [H.length]; omega
  have h6 : be b 6 2 = 0 := H.b6.trans (by simp [packetTx])
  refine ⟨?_, hf.hasType⟩
  intro _ src dst' proto
  rw [hf.hasPayload]
  refine ⟨fun p hp hr => ?_, fun id off more x hx => ?_⟩
  · obtain ⟨e1, e2, e3, e4⟩ := H.read hp.1
    subst e1
    obtain ⟨hl, hs⟩ := hc hr a ps q hq
    rw [e2, e3, e4 (by rw [hl])]
    exact hs
  · obtain ⟨-, -, h3, h4, h5⟩ := hx
    rw [bit_6_5 h8, h6] at h4
    rw [h6] at h3
    subst h3 h4
    rcases h5 with h | h
    · exact absurd rfl h
    · simp at h

theorem good_frag4 {S : Claim} {n room : Nat} {d : Nat → Dg Ip4Address} {o : Outgoing} {F : Bytes} {a dst : Ip4Address} {ttl id proto : Nat}
    {f : Piece} {fs : List Piece} {data : Bytes}
    (ho : o.pkt = .ip4Frag (fragTx a dst ttl id proto f.offset f.mf) f.data) (hF : o.frame = .ok F) (hn : id ≤ n) (hd : d id = ⟨a, dst, proto, data, fs⟩)
    (hf : f ∈ fs) (hfr : IsFragmentation data room fs) (hc : Real proto → data.length < 65536 ∧ S (.v4 a) (.v4 dst) proto data) :
    Good4 S n d F ∧ be F 12 2 = 0x0800 := by
  obtain ⟨b, hb, hF⟩ := frame_inv hF
  rw [ho] at hb hF
  obtain ⟨H, hid⟩ := Ip4.assembleFrag_bytes (h := fragTx a dst ttl id proto f.offset f.mf) rfl hb
  have h8 : 8 ≤ b.length := by rw [H.length]; omega
  refine ⟨?_, hF.hasType⟩
  have hr : Real proto → be b 6 2 = f.mf.toNat * 8192 + f.offset / 8 ∧ f.offset + f.data.length ≤ data.length ∧ f.offset < 65536 := by
    intro hr
    obtain ⟨i, hi⟩ := List.mem_iff_getElem?.mp hf
    have h1 := hfr.offset i f hi
    have h2 : f.offset + f.data.length ≤ data.length := by
      rw [← hfr.concat, h1]
      obtain ⟨hlt, he⟩ := List.getElem?_eq_some_iff.mp hi
      have h3 : ((fs.take (i + 1)).map (·.data)).flatten.length ≤ (fs.map (·.data)).flatten.length := by
        conv => rhs; rw [← List.take_append_drop (i + 1) fs]
        rw [List.map_append, List.flatten_append, List.length_append]
        omega
      rw [List.take_add_one, hi] at h3
      simp only [Option.toList_some, List.map_append, List.map_cons, List.map_nil, List.flatten_append, List.flatten_cons, List.flatten_nil,
        List.append_nil, List.length_append] at h3
      exact h3
    have h3 : f.offset < 65536 := by have := (hc hr).1; omega
    exact ⟨by rw [H.b6]; exact flags_field f.mf h3, h2, h3⟩
  intro _ src dst' pr
  rw [hF.hasPayload]
  have hal := hfr.aligned f hf
  refine ⟨fun p hp hre => ?_, fun id' off more x hx => ?_⟩
  · obtain ⟨e1, e2, e3, e4⟩ := H.read hp.1
    change pr = proto at e1
    change src = a at e2
    change dst' = dst at e3
    subst e1 e2 e3
    obtain ⟨r1, r2, r3⟩ := hr hre
    have hw := hp.2
    rw [bit_6_5 h8, r1] at hw
    have hmf : f.mf = false := by
      cases hm : f.mf with
      | false => rfl
      | true => rw [hm] at hw; have := hw.2; simp at this; omega
    rw [hmf] at hw
    have hoff : f.offset = 0 := by have := hw.1; simp at this; omega
    rw [e4 rfl]
    -- a last fragment at the start is the whole of it
    obtain ⟨i, hi⟩ := List.mem_iff_getElem?.mp hf
    have hlast : ¬ (i + 1 < fs.length) := by rw [← hfr.mf i f hi, hmf]; simp
    have hilt := (List.getElem?_eq_some_iff.mp hi).1
    have hi0 : i = 0 := by
      refine Classical.byContradiction fun hne => ?_
      have h0 : 0 < fs.length := by omega
      have h1 := hfr.offset i f hi
      have h2 := hfr.nonempty fs[0] (List.getElem_mem h0)
      have : fs.take i = fs[0] :: (fs.take i).tail := by
        cases fs with
        | nil => simp at h0
        | cons y ys => cases i with
          | zero => exact absurd rfl hne
          | succ i => rfl
      rw [this] at h1
      simp only [List.map_cons, List.flatten_cons, List.length_append] at h1
      have := List.length_pos_iff.2 h2
      omega
    subst hi0
    have : fs = [f] := by
      cases fs with
      | nil => simp at hilt
      | cons y ys =>
        simp only [List.getElem?_cons_zero, Option.some.injEq] at hi
        subst hi
        have : ys = [] := by
          rw [← List.length_eq_zero_iff]
          simp only [List.length_cons] at hlast
          omega
        rw [this]
    have hdat : data = f.data := by rw [← hfr.concat, this]; simp
    rw [← hdat]
    exact (hc hre).2
  · obtain ⟨hx1, hx2, hx3, hx4, -⟩ := hx
    obtain ⟨e1, e2, e3, e4⟩ := H.read hx1
    change pr = proto at e1
    change src = a at e2
    change dst' = dst at e3
    have : id' = id := by rw [← hx2, H.b4]; rfl
    subst e1 e2 e3 this
    rw [hd]
    refine ⟨hn, rfl, fun hre => ⟨rfl, rfl, ?_, ⟨room, hfr⟩, (hc hre).2⟩⟩
    obtain ⟨r1, r2, r3⟩ := hr hre
    rw [r1] at hx3
    rw [bit_6_5 h8, r1] at hx4
    have hoff : off = f.offset := by
      rw [hx3]
      cases f.mf <;> simp <;> omega
    have hmf : more = f.mf := by
      rw [hx4]
      cases f.mf <;> simp <;> omega
    rw [hoff, hmf, e4 rfl]
    exact hf

theorem Hdr6.read {b : Bytes} {h : Ip6.Tx} {nx : Nat} {q : Bytes} (H : Hdr6 b h nx q) {src dst : Ip6Address} {hop next : Nat} {p : Bytes}
    (hf : Ip6Packet b src dst hop next p) : next = nx ∧ src = h.src ∧ dst = h.dst ∧ p = q := by
  refine ⟨by rw [← H.b6, hf.hasNext], ?_, ?_, by rw [hf.hasPayload, H.rest]⟩
  · have := hf.hasSrc; rw [H.b8] at this; exact Ip6Address.ext' this
  · have := hf.hasDst; rw [H.b24] at this; exact Ip6Address.ext' this

theorem good_whole6 {S : Claim} {n : Nat} {d : Nat → Dg Ip6Address} {o : Outgoing} {F : Bytes} {a dst : Ip6Address} {hop : Nat} {c : Carried}
    (ho : o.pkt = .ip6 (packetTx6 a dst hop) c) (hF : o.frame = .ok F) (h44 : c.proto ≠ 44)
    (hc : Real c.proto → ∀ a ps q, c.assemble ps = .ok q → S (.v6 a) (.v6 dst) c.proto q) : Good6 S n d F ∧ be F 12 2 = 0x86DD := by
  obtain ⟨b, hb, hf⟩ := frame_inv hF
  rw [ho] at hb hf
  obtain ⟨ps, q, hq, H⟩ := Ip6.assemble_bytes (h := packetTx6 a dst hop) (c := c) hb
  refine ⟨?_, hf.hasType⟩
  intro _ src dst'
  rw [hf.hasPayload]
  refine ⟨fun hop next p hp hr => ?_, fun next id off more x ⟨hop, p, hp, _⟩ => ?_⟩
  · obtain ⟨e1, e2, e3, e4⟩ := H.read hp
    subst e1
    rw [e2, e3, e4]
    exact hc hr a ps q hq
  · exact absurd (H.read hp).1.symm h44

theorem Ip6Frag.bytes {next offset id : Nat} {mf : Bool} {data b : Bytes} (h : Ip6Frag.assemble next offset mf id data = .ok b) :
    be b 0 1 = next ∧ be b 2 2 = (offset ||| mf.toNat) ∧ (offset ||| mf.toNat) < 65536 ∧ be b 4 4 = id ∧ b.drop 8 = data ∧ 8 ≤ b.length := by
  rw [Ip6Frag.assemble] at h
  obtain ⟨-, -, h⟩ := py_bind_ok h
  obtain ⟨x0, e0, h⟩ := py_bind_ok h
  obtain ⟨x1, e1, h⟩ := py_bind_ok h
  obtain ⟨x2, e2, h⟩ := py_bind_ok h
  obtain ⟨x3, e3, h⟩ := py_bind_ok h
  obtain ⟨l0, rfl⟩ := packB_inv e0
  obtain ⟨l1, rfl⟩ := packB_inv e1
  obtain ⟨l2, rfl⟩ := packH_inv e2
  obtain ⟨l3, rfl⟩ := packL_inv e3
  have h := Except.ok.inj h
  simp only [List.append_assoc] at h
  subst h
  refine ⟨?_, ?_, l2, ?_, ?_, by simp; omega⟩
  · rw [be_pack_front _ (by omega)]
  · repeat rw [be_pack_skip _ (by omega)]
    rw [be_pack_front _ (by omega)]
  · repeat rw [be_pack_skip _ (by omega)]
    rw [be_pack_front _ (by omega)]
  · repeat rw [drop_pack _ (by omega)]
    rfl

theorem good_frag6 {S : Claim} {n room : Nat} {d : Nat → Dg Ip6Address} {o : Outgoing} {F : Bytes} {a dst : Ip6Address} {hop id proto : Nat}
    {f : Piece} {fs : List Piece} {data : Bytes}
    (ho : o.pkt = .ip6 (packetTx6 a dst hop) (Ip6Frag.carried proto f.offset f.mf id f.data)) (hF : o.frame = .ok F) (h44 : proto ≠ 44) (hn : id ≤ n)
    (hd : d id = ⟨a, dst, proto, data, fs⟩)
    (hf : f ∈ fs) (hfr : IsFragmentation data room fs) (hc : Real proto → S (.v6 a) (.v6 dst) proto data) :
    Good6 S n d F ∧ be F 12 2 = 0x86DD := by
  obtain ⟨b, hb, hF⟩ := frame_inv hF
  rw [ho] at hb hF
  obtain ⟨ps, q, hq, H⟩ := Ip6.assemble_bytes (h := packetTx6 a dst hop) (c := Ip6Frag.carried proto f.offset f.mf id f.data) hb
  obtain ⟨b0, b2, blt, b4, b8, bl⟩ := Ip6Frag.bytes hq
  refine ⟨?_, hF.hasType⟩
  have hal := hfr.aligned f hf
  have e : (f.offset ||| f.mf.toNat) = f.offset + f.mf.toNat := by
    obtain ⟨k, hk⟩ : ∃ k, f.offset = k <<< 3 := ⟨f.offset / 8, by rw [Nat.shiftLeft_eq]; omega⟩
    rw [hk, ← Nat.shiftLeft_add_eq_or_of_lt (by cases f.mf <;> simp)]
  rw [e] at b2 blt
  intro _ src dst'
  rw [hF.hasPayload]
  refine ⟨fun hop next p hp hr => ?_, fun next id' off more x ⟨hop, p, hp, h8, n1, n2, n3, n4, n5⟩ => ?_⟩
  · obtain ⟨e1, -⟩ := H.read hp
    change next = 44 at e1
    subst e1
    rcases hr with h | h <;> exact absurd h (by decide)
  · obtain ⟨-, e2, e3, e4⟩ := H.read hp
    subst e4
    change src = a at e2
    change dst' = dst at e3
    have hi : id' = id := by rw [← n2, b4]
    have hp : next = proto := by rw [← n1, b0]
    subst e2 e3 hi hp
    rw [hd]
    refine ⟨hn, rfl, h44, fun hre => ⟨rfl, rfl, ?_, ⟨room, hfr⟩, hc hre⟩⟩
    have hoff : off = f.offset := by rw [n3, b2]; cases f.mf <;> simp <;> omega
    have hmf : more = f.mf := by
      rw [n4, bit]
      have h3 : be p 2 2 = be p 2 1 * 256 + be p 3 1 := be_two (by omega)
      cases hm : f.mf <;> simp [hm] at b2 ⊢ <;> omega
    have hx : x = f.data := by rw [n5, b8]
    rw [hoff, hmf, hx]
    exact hf

theorem good_req {S : Claim} {n4 n6 : Nat} {d4 : Nat → Dg Ip4Address} {d6 : Nat → Dg Ip6Address} {o : Outgoing} {F : Bytes}
    (ho : o.pkt.Req) (hF : o.frame = .ok F) : Good4 S n4 d4 F ∧ Good6 S n6 d6 F := by
  obtain ⟨b, hb, hf⟩ := frame_inv hF
  cases hp : o.pkt with
  | ip4 => rw [hp] at ho; cases ho
  | ip4Frag => rw [hp] at ho; cases ho
  | raw => rw [hp] at ho; cases ho
  | arp =>
    rw [hp] at hf
    have ht : be F 12 2 = 0x0806 := hf.hasType
    exact ⟨fun h => (by rw [ht] at h; cases h), fun h => (by rw [ht] at h; cases h)⟩
  | ip6 hd c =>
    rw [hp] at hf ho hb
    have hc : c.proto = 58 := ho
    have ht : be F 12 2 = 0x86DD := hf.hasType
    refine ⟨fun h => (by rw [ht] at h; cases h), ?_⟩
    obtain ⟨ps, q, hq, H⟩ := Ip6.assemble_bytes (h := hd) (c := c) hb
    intro _ src dst'
    rw [hf.hasPayload]
    refine ⟨fun hop next p hp hr => ?_, fun next id off more x ⟨hop, p, hp, _⟩ => ?_⟩
    · have := (H.read hp).1
      rw [hc] at this
      subst this
      rcases hr with h | h <;> exact absurd h (by decide)
    · have := (H.read hp).1
      rw [hc] at this
      exact absurd this (by decide)

/-! ### Transmit calls -/

/-- The frames written so far say what the machine says. -/
def WireOk (S : Claim) (h : Host) (wire : List Bytes) : Prop :=
  ∃ d4 d6, ∀ F ∈ wire, Good4 S h.node.stack.ip4Id d4 F ∧ Good6 S h.node.stack.ip6Id d6 F

/-- What is handed to the IP layer for `dst` is something the machine says. -/
def Says (S : Claim) (dst : IpAddress) (c : L4) : Prop :=
  c.proto ≠ 44 ∧ (Real c.proto → ∀ a ps q, c.assemble ps = .ok q → q.length = c.len ∧ q.length < 65536 ∧ S a dst c.proto q)

/-- Only the identifications change. -/
def Host.Kept (h h' : Host) : Prop :=
  ∃ i4 i6, h'.node = { h.node with stack := { h.node.stack with ip4Id := i4, ip6Id := i6 } }

theorem Host.Kept.refl (h : Host) : h.Kept h := ⟨_, _, rfl⟩

theorem Host.Kept.trans {a b c : Host} (h₁ : a.Kept b) (h₂ : b.Kept c) : a.Kept c := by
  obtain ⟨i, j, e₁⟩ := h₁
  obtain ⟨k, l, e₂⟩ := h₂
  exact ⟨k, l, by rw [e₂, e₁]⟩

theorem WireOk.mono {S S' : Claim} {h : Host} {w : List Bytes} (H : WireOk S h w) (hS : ∀ a b p q, S a b p q → S' a b p q) : WireOk S' h w := by
  obtain ⟨d4, d6, H⟩ := H
  exact ⟨d4, d6, fun F hF => ⟨(H F hF).1.mono hS (Nat.le_refl _) (fun _ _ => rfl), (H F hF).2.mono hS (Nat.le_refl _) (fun _ _ => rfl)⟩⟩

/-- The frames of the packets queued are written. -/
def frames (outs : List Outgoing) : List Bytes := outs.filterMap fun o => o.frame.toOption

theorem mem_frames {outs : List Outgoing} {F : Bytes} (h : F ∈ frames outs) : ∃ o ∈ outs, o.frame = .ok F := by
  obtain ⟨o, ho, e⟩ := List.mem_filterMap.1 h
  refine ⟨o, ho, ?_⟩
  cases hf : o.frame with
  | error x => rw [hf] at e; cases e
  | ok y => rw [hf] at e; cases e; rfl

/-- The result of a transmit call, with what it writes. -/
def TxOk (S : Claim) (h : Host) (w : List Bytes) (r : Host × Py (List Outgoing)) : Prop :=
  h.Kept r.1 ∧ WireOk S r.1 w ∧ ∀ outs, r.2 = .ok outs → WireOk S r.1 (w ++ frames outs)

theorem TxOk.of {S : Claim} {h : Host} {w : List Bytes} {r : Host.Res} (hk : h.Kept r.1) (hr : WireOk S r.1 w)
    (H : ∀ st outs, r.2 = .ok (st, outs) → WireOk S r.1 (w ++ frames outs)) : TxOk S h w (Host.queued r) := by
  obtain ⟨h', r⟩ := r
  cases r with
  | error e => exact ⟨hk, hr, by intro _ e; cases e⟩
  | ok r => exact ⟨hk, hr, by intro _ e; cases e; exact H _ _ rfl⟩

theorem WireOk.append {S : Claim} {h : Host} {w : List Bytes} {outs : List Outgoing} {d4 : Nat → Dg Ip4Address} {d6 : Nat → Dg Ip6Address}
    (H : ∀ F ∈ w, Good4 S h.node.stack.ip4Id d4 F ∧ Good6 S h.node.stack.ip6Id d6 F)
    (ho : ∀ o ∈ outs, ∀ F, o.frame = .ok F → Good4 S h.node.stack.ip4Id d4 F ∧ Good6 S h.node.stack.ip6Id d6 F) : WireOk S h (w ++ frames outs) := by
  refine ⟨d4, d6, fun F hF => ?_⟩
  rcases List.mem_append.1 hF with hF | hF
  · exact H F hF
  · obtain ⟨o, hm, he⟩ := mem_frames hF
    exact ho o hm F he

theorem Good6.other {S : Claim} {n : Nat} {d : Nat → Dg Ip6Address} {F : Bytes} (h : be F 12 2 = 0x0800) : Good6 S n d F :=
  fun h' => (by rw [h] at h'; cases h')
theorem Good4.other {S : Claim} {n : Nat} {d : Nat → Dg Ip4Address} {F : Bytes} (h : be F 12 2 = 0x86DD) : Good4 S n d F :=
  fun h' => (by rw [h] at h'; cases h')

theorem and_low (x : Nat) : (x &&& 0b1111111111111000) % 8 = 0 ∧ (x &&& 0b1111111111111000) ≤ x := by
  refine ⟨?_, Nat.and_le_left⟩
  rw [show (8 : Nat) = 2 ^ 3 from rfl, ← Nat.and_two_pow_sub_one_eq_mod, Nat.and_assoc]
  simp

theorem tx_ip4 {S : Claim} {h : Host} {w : List Bytes} {src dst : Ip4Address} {ttl : Nat} {c : L4} (hm : 72 ≤ h.stack.mtu)
    (H : WireOk S h w) (hs : Says S (.v4 dst) c) : TxOk S h w (Host.queued (h.ip4 src dst ttl c)) := by
  obtain ⟨d4, d6, H⟩ := H
  rcases Host.ip4_out h src dst ttl c hm with ⟨h1, h2⟩ | ⟨h1, a, ps, data, ds, h2, h3, h4⟩
  · have hn : ∀ F ∈ w, Good4 S (h.ip4 src dst ttl c).1.node.stack.ip4Id d4 F ∧ Good6 S (h.ip4 src dst ttl c).1.node.stack.ip6Id d6 F := by
      rw [h1]; exact H
    refine .of ⟨_, _, h1⟩ ⟨d4, d6, hn⟩ fun st outs e => .append hn fun o ho F hF => ?_
    rcases h2 st outs e o ho with ⟨a, x⟩ | x
    · have := good_whole4 (S := S) (n := (h.ip4 src dst ttl c).1.node.stack.ip4Id) (d := d4) x hF
        (fun hr a ps q hq => ⟨(hs.2 hr (.v4 a) ps q hq).1, (hs.2 hr (.v4 a) ps q hq).2.2⟩)
      exact ⟨this.1, .other this.2⟩
    · exact good_req x hF
  · obtain ⟨h', hh⟩ : ∃ h', (h.ip4 src dst ttl c).1 = h' := ⟨_, rfl⟩
    have e4 : (h.ip4 src dst ttl c).1.node.stack.ip4Id = h.node.stack.ip4Id + 1 := by rw [h1]
    have e6 : (h.ip4 src dst ttl c).1.node.stack.ip6Id = h.node.stack.ip6Id := by rw [h1]
    have hfr := isFragmentation data _ _ ds (and_low _).1 (and_low (h.stack.mtu - 20)).2 h3
    have hn : ∀ F ∈ w, Good4 S (h.ip4 src dst ttl c).1.node.stack.ip4Id
        (fun i => if i = h.node.stack.ip4Id + 1 then ⟨a, dst, c.proto, data, piecesOf 0 ds⟩ else d4 i) F ∧
        Good6 S (h.ip4 src dst ttl c).1.node.stack.ip6Id d6 F := by
      intro F hF
      rw [e4, e6]
      exact ⟨(H F hF).1.mono (fun _ _ _ _ => id) (by omega) (fun i hi => if_neg (by omega)), (H F hF).2⟩
    refine .of ⟨_, _, h1⟩ ⟨_, d6, hn⟩ fun st outs e => .append hn fun o ho F hF => ?_
    rcases h4 st outs e o ho with ⟨f, hf, x⟩ | x
    · have := good_frag4 (S := S) (n := (h.ip4 src dst ttl c).1.node.stack.ip4Id)
        (d := fun i => if i = h.node.stack.ip4Id + 1 then ⟨a, dst, c.proto, data, piecesOf 0 ds⟩ else d4 i) x hF (by rw [e4]) (if_pos rfl) hf hfr
        (fun hr => ⟨(hs.2 hr (.v4 a) ps data h2).2.1, (hs.2 hr (.v4 a) ps data h2).2.2⟩)
      exact ⟨this.1, .other this.2⟩
    · exact good_req x hF

theorem tx_ip6 {S : Claim} {h : Host} {w : List Bytes} {src dst : Ip6Address} {hop : Nat} {c : L4} (hm : 72 ≤ h.stack.mtu)
    (H : WireOk S h w) (hs : Says S (.v6 dst) c) : TxOk S h w (Host.queued (h.ip6 src dst hop c)) := by
  obtain ⟨d4, d6, H⟩ := H
  rcases Host.ip6_out h src dst hop c hm with ⟨h1, h2⟩ | ⟨h1, a, ps, data, ds, h2, h3, h4⟩
  · have hn : ∀ F ∈ w, Good4 S (h.ip6 src dst hop c).1.node.stack.ip4Id d4 F ∧ Good6 S (h.ip6 src dst hop c).1.node.stack.ip6Id d6 F := by
      rw [h1]; exact H
    refine .of ⟨_, _, h1⟩ ⟨d4, d6, hn⟩ fun st outs e => .append hn fun o ho F hF => ?_
    rcases h2 st outs e o ho with ⟨a, x⟩ | x
    · have := good_whole6 (S := S) (n := (h.ip6 src dst hop c).1.node.stack.ip6Id) (d := d6) x hF hs.1
        (fun hr a ps q hq => (hs.2 hr (.v6 a) ps q hq).2.2)
      exact ⟨.other this.2, this.1⟩
    · exact good_req x hF
  · have e4 : (h.ip6 src dst hop c).1.node.stack.ip4Id = h.node.stack.ip4Id := by rw [h1]
    have e6 : (h.ip6 src dst hop c).1.node.stack.ip6Id = h.node.stack.ip6Id + 1 := by rw [h1]
    have hfr := isFragmentation data _ _ ds (and_low _).1 (and_low (h.stack.mtu - 40 - 8)).2 h3
    have hn : ∀ F ∈ w, Good4 S (h.ip6 src dst hop c).1.node.stack.ip4Id d4 F ∧ Good6 S (h.ip6 src dst hop c).1.node.stack.ip6Id
        (fun i => if i = h.node.stack.ip6Id + 1 then ⟨a, dst, c.proto, data, piecesOf 0 ds⟩ else d6 i) F := by
      intro F hF
      rw [e4, e6]
      exact ⟨(H F hF).1, (H F hF).2.mono (fun _ _ _ _ => id) (by omega) (fun i hi => if_neg (by omega))⟩
    refine .of ⟨_, _, h1⟩ ⟨d4, _, hn⟩ fun st outs e => .append hn fun o ho F hF => ?_
    rcases h4 st outs e o ho with ⟨f, hf, -, x⟩ | x
    · have := good_frag6 (S := S) (n := (h.ip6 src dst hop c).1.node.stack.ip6Id)
        (d := fun i => if i = h.node.stack.ip6Id + 1 then ⟨a, dst, c.proto, data, piecesOf 0 ds⟩ else d6 i) x hF hs.1 (by rw [e6]) (if_pos rfl) hf hfr
        (fun hr => (hs.2 hr (.v6 a) ps data h2).2.2)
      exact ⟨.other this.2, this.1⟩
    · exact good_req x hF

theorem tx_nothing {S : Claim} {h : Host} {w : List Bytes} {st : TxStatus} (H : WireOk S h w) :
    TxOk S h w (Host.queued (h, .ok (st, []))) :=
  ⟨.refl h, H, by intro _ e; cases e; show WireOk S h (w ++ []); rw [List.append_nil]; exact H⟩

theorem tx_error {S : Claim} {h : Host} {w : List Bytes} {x : PyErr} (H : WireOk S h w) : TxOk S h w (Host.queued (h, .error x)) :=
  ⟨.refl h, H, by intro _ e; cases e⟩

theorem tx_tcp {S : Claim} {h : Host} {w : List Bytes} {src dst : IpAddress} {x : Tcp.Tx} (hm : 72 ≤ h.stack.mtu) (H : WireOk S h w)
    (hs : ∀ a ps q, Tcp.assemble x ps = .ok q → q.length = x.hlen + x.data.length ∧ q.length < 65536 ∧ S a dst 6 q) :
    TxOk S h w (Host.queued (h.tcp src dst x)) := by
  rw [Host.tcp]
  split
  · exact tx_error H
  have : Says S dst { Tcp.carried x with kind := .other } := ⟨by show (6 : Nat) ≠ 44; decide, fun _ => hs⟩
  cases src <;> cases dst
  · exact tx_ip4 hm H this
  · exact tx_nothing H
  · exact tx_nothing H
  · exact tx_ip6 hm H this

theorem tx_udp {S : Claim} {h : Host} {w : List Bytes} {src dst : IpAddress} {sport dport : Nat} {data : Bytes} (hm : 72 ≤ h.stack.mtu) (H : WireOk S h w)
    (hs : ∀ a ps q, Udp.assemble sport dport data ps = .ok q → q.length = 8 + data.length ∧ q.length < 65536 ∧ S a dst 17 q) :
    TxOk S h w (Host.queued (h.udp src dst sport dport data)) := by
  rw [Host.udp]
  split
  · exact tx_error H
  have : Says S dst { Udp.carried sport dport data with kind := .udp sport dport } := ⟨by show (17 : Nat) ≠ 44; decide, fun _ => hs⟩
  cases src <;> cases dst
  · exact tx_ip4 hm H this
  · exact tx_nothing H
  · exact tx_nothing H
  · exact tx_ip6 hm H this

theorem tx_icmp4 {S : Claim} {h : Host} {w : List Bytes} {src dst : Ip4Address} {x : Icmp4.Msg} (hm : 72 ≤ h.stack.mtu) (H : WireOk S h w) :
    TxOk S h w (Host.queued (h.icmp4 src dst x)) :=
  tx_ip4 hm H ⟨by show (1 : Nat) ≠ 44; decide, fun hr => absurd hr (show ¬ Real 1 by rintro (h | h) <;> cases h)⟩

theorem tx_icmp6 {S : Claim} {h : Host} {w : List Bytes} {src dst : Ip6Address} {hop : Nat} {x : Icmp6.Msg} (hm : 72 ≤ h.stack.mtu) (H : WireOk S h w) :
    TxOk S h w (Host.queued (h.icmp6 src dst hop x)) :=
  tx_ip6 hm H ⟨by show (58 : Nat) ≠ 44; decide, fun hr => absurd hr (show ¬ Real 58 by rintro (h | h) <;> cases h)⟩

/-! ### Reassembly -/

theorem Spec.IsFragmentation.byte {data : Bytes} {room : Nat} {fs : List Piece} (h : IsFragmentation data room fs) {f : Piece} (hf : f ∈ fs)
    {j : Nat} {b : UInt8} (hb : f.data[j]? = some b) : data[f.offset + j]? = some b := by
  obtain ⟨i, hi⟩ := List.mem_iff_getElem?.mp hf
  obtain ⟨hlt, he⟩ := List.getElem?_eq_some_iff.mp hi
  have e : fs = fs.take i ++ f :: fs.drop (i + 1) := by
    conv => lhs; rw [← List.take_append_drop i fs]
    rw [List.drop_eq_getElem_cons hlt, he]
  rw [← h.concat, e]
  simp only [List.map_append, List.map_cons, List.flatten_append, List.flatten_cons]
  rw [h.offset i f hi, List.getElem?_append_right (by omega), Nat.add_sub_cancel_left, List.getElem?_append_left]
  · exact hb
  · exact (List.getElem?_eq_some_iff.mp hb).1

theorem Spec.IsFragmentation.last {data : Bytes} {room : Nat} {fs : List Piece} (h : IsFragmentation data room fs) {f : Piece} (hf : f ∈ fs)
    (hm : f.mf = false) : f.offset + f.data.length = data.length ∧ ∀ g ∈ fs, g.offset ≤ f.offset ∧ (g.offset = f.offset → g = f) := by
  obtain ⟨i, hi⟩ := List.mem_iff_getElem?.mp hf
  obtain ⟨hlt, he⟩ := List.getElem?_eq_some_iff.mp hi
  have hlast : ¬ (i + 1 < fs.length) := by rw [← h.mf i f hi, hm]; simp
  have e : fs = fs.take i ++ [f] := by
    conv => lhs; rw [← List.take_append_drop i fs]
    rw [List.drop_eq_getElem_cons hlt, he, List.drop_eq_nil_of_le (by omega)]
  constructor
  · rw [h.offset i f hi, ← h.concat]
    conv => rhs; rw [e]
    simp
  · intro g hg
    obtain ⟨k, hk⟩ := List.mem_iff_getElem?.mp hg
    obtain ⟨hklt, hke⟩ := List.getElem?_eq_some_iff.mp hk
    by_cases hki : k = i
    · subst hki
      rw [hi] at hk
      cases hk
      exact ⟨Nat.le_refl _, fun _ => rfl⟩
    · have hlt' : k < i := by omega
      have h1 := h.offset i f hi
      have h2 := h.offset k g hk
      have e2 : fs.take i = fs.take k ++ (fs.take i).drop k := by
        conv => lhs; rw [← List.take_append_drop k (fs.take i), List.take_take, Nat.min_eq_left (by omega)]
      rw [e2, List.drop_eq_getElem_cons (by rw [List.length_take]; omega)] at h1
      rw [List.getElem_take, hke] at h1
      simp only [List.map_append, List.map_cons, List.flatten_append, List.flatten_cons, List.length_append] at h1
      have := List.length_pos_iff.2 (h.nonempty g hg)
      constructor
      · omega
      · intro; omega

/-- What is put together from the pieces of one datagram, with its last one, is that datagram. -/
theorem Spec.IsFragmentation.assembled {data payload : Bytes} {room : Nat} {fs : List Piece} {ps : List (Nat × Bytes)} (h : IsFragmentation data room fs)
    (hp : ∀ q ∈ ps, ∃ more, (⟨q.1, more, q.2⟩ : Piece) ∈ fs) (hl : ∃ q ∈ ps, ∃ x, (⟨q.1, false, x⟩ : Piece) ∈ fs) (ha : Assembled ps payload) :
    payload = data := by
  obtain ⟨⟨q, hq, hmax, hlen⟩, hb⟩ := ha
  obtain ⟨e, he, x, hx⟩ := hl
  obtain ⟨more, hqm⟩ := hp q hq
  obtain ⟨l1, l2⟩ := h.last hx rfl
  have h1 : q.1 = e.1 := Nat.le_antisymm (l2 _ hqm).1 (hmax e he)
  have h2 := (l2 _ hqm).2 h1
  simp only [Piece.mk.injEq] at h2
  have hlen' : payload.length = data.length := by rw [hlen, ← l1, h2.2.2, h1]
  apply List.ext_getElem hlen'
  intro i h1 h2
  obtain ⟨q', hq', hle, hq2⟩ := hb i payload[i] (List.getElem?_eq_getElem h1)
  obtain ⟨more', hm'⟩ := hp q' hq'
  have := h.byte hm' hq2
  dsimp only at this
  rw [Nat.add_sub_cancel' hle, List.getElem?_eq_getElem h2] at this
  exact (Option.some.inj this).symm

/-- What the IPv4 packets of one machine are taken for, it has said. -/
theorem made4_genuine {S : Claim} {n : Nat} {d : Nat → Dg Ip4Address} {past wire : List Bytes} {src dst : Ip4Address} {proto : Nat} {payload : Bytes}
    (hp : ∀ F ∈ past, be F 12 2 = 0x0800 → be F 26 4 = src.int → F ∈ wire) (hw : ∀ F ∈ wire, Good4 S n d F)
    (h : Made4 past src dst proto payload) (hr : Real proto) : S (.v4 src) (.v4 dst) proto payload := by
  have hsrc : ∀ F dst proto p, Ip4Fields (F.drop 14) src dst proto p → be F 26 4 = src.int := by
    intro F dst proto p hf
    rw [hf.hasSrc, be_drop]
  rcases h with ⟨F, hF, ht, hq⟩ | ⟨id, ps, ⟨F, hF, ht, off, more, x, hf⟩, ⟨q, hq, F', hF', ht', pr', x', hf'⟩, hall, ha⟩
  · exact (hw F (hp F hF ht (hsrc _ _ _ _ hq.1)) ht src dst proto).1 payload hq hr
  · obtain ⟨-, k2, k3⟩ := (hw F (hp F hF ht (hsrc _ _ _ _ hf.1)) ht src dst proto).2 _ _ _ _ hf
    obtain ⟨-, -, -, ⟨room, k4⟩, k5⟩ := k3 hr
    have key : ∀ F ∈ past, be F 12 2 = 0x0800 → ∀ pr off more x, Frag4 (F.drop 14) src dst pr id off more x → (⟨off, more, x⟩ : Piece) ∈ (d id).ps := by
      intro F hF ht pr off more x hf
      obtain ⟨-, j2, j3⟩ := (hw F (hp F hF ht (hsrc _ _ _ _ hf.1)) ht src dst pr).2 _ _ _ _ hf
      rw [k2] at j2
      subst j2
      exact (j3 hr).2.2.1
    have := k4.assembled (fun q hq => by obtain ⟨F, hF, ht, pr, more, hf⟩ := hall q hq; exact ⟨more, key F hF ht _ _ _ _ hf⟩)
      ⟨q, hq, x', key F' hF' ht' _ _ _ _ hf'⟩ ha
    rw [this]
    exact k5

theorem Spec.Ip6Packet.same {g : Bytes} {s d s' d' : Ip6Address} {hop next hop' next' : Nat} {p p' : Bytes} (h : Ip6Packet g s d hop next p)
    (h' : Ip6Packet g s' d' hop' next' p') : s' = s ∧ d' = d ∧ next' = next ∧ p' = p :=
  ⟨Ip6Address.ext' (by rw [h.hasSrc, h'.hasSrc]), Ip6Address.ext' (by rw [h.hasDst, h'.hasDst]), by rw [← h.hasNext, ← h'.hasNext],
    by rw [h.hasPayload, h'.hasPayload]⟩

theorem made6_genuine {S : Claim} {n : Nat} {d : Nat → Dg Ip6Address} {past wire : List Bytes} {src : Ip6Address}
    (hp : ∀ F ∈ past, be F 12 2 = 0x86DD → be F 22 16 = src.int → F ∈ wire) (hw : ∀ F ∈ wire, Good6 S n d F) {g : Bytes} (h : Made6 past g) :
    ∀ dst hop next p, Ip6Packet g src dst hop next p → (Real next → S (.v6 src) (.v6 dst) next p) ∧
      (next = 44 → ∃ F ∈ wire, be F 12 2 = 0x86DD ∧ g = F.drop 14) := by
  induction h with
  | frame F hF ht =>
    intro dst hop next p hpk
    have hw' := hp F hF ht (by rw [hpk.hasSrc, be_drop])
    exact ⟨fun hr => (hw F hw' ht src dst).1 hop next p hpk hr, fun _ => ⟨F, hw', ht, rfl⟩⟩
  | @whole g p q q' src' dst' hop' next id off off' next' more x x' ps hpk hq hqf hq' hqf' hend hall hfr ha ih1 ih2 ih3 =>
    intro dst hop nx pp hpk'
    obtain ⟨rfl, rfl, rfl, rfl⟩ := hpk.same hpk'
    have key : ∀ y : Bytes, (∀ dst hop next p, Ip6Packet y src dst hop next p → (Real next → S (.v6 src) (.v6 dst) next p) ∧
        (next = 44 → ∃ F ∈ wire, be F 12 2 = 0x86DD ∧ y = F.drop 14)) → ∀ nx off more x, Frag6 y src dst nx id off more x →
        (d id).proto = nx ∧ nx ≠ 44 ∧ (Real nx → (⟨off, more, x⟩ : Piece) ∈ (d id).ps ∧ (∃ room, IsFragmentation (d id).payload room (d id).ps) ∧
          S (.v6 src) (.v6 dst) nx (d id).payload) := by
      intro y hy nx off more x hf
      obtain ⟨hop, pp, hpk, -⟩ := (show Frag6 y src dst nx id off more x from hf)
      obtain ⟨F, hF, ht, rfl⟩ := (hy _ _ _ _ hpk).2 rfl
      obtain ⟨-, j2, j3, j4⟩ := (hw F hF ht src dst).2 _ _ _ _ _ hf
      exact ⟨j2, j3, fun hr => ⟨(j4 hr).2.2.1, (j4 hr).2.2.2.1, (j4 hr).2.2.2.2⟩⟩
    obtain ⟨k1, k2, k3⟩ := key q ih1 _ _ _ _ hqf
    refine ⟨fun hr => ?_, fun h => absurd h k2⟩
    obtain ⟨-, ⟨room, k4⟩, k5⟩ := k3 hr
    have := k4.assembled (ps := ps.map (·.2)) (payload := pp) (by
        intro z hz
        obtain ⟨y, hy, rfl⟩ := List.mem_map.1 hz
        obtain ⟨nx', more', hf⟩ := hfr y hy
        obtain ⟨j1, -, j3⟩ := key y.1 (ih3 y hy) _ _ _ _ hf
        rw [k1] at j1
        subst j1
        exact ⟨more', (j3 hr).1⟩)
      (by
        obtain ⟨y, hy, he⟩ := hend
        obtain ⟨j1, -, j3⟩ := key q' ih2 _ _ _ _ hqf'
        rw [k1] at j1
        subst j1
        exact ⟨y.2, List.mem_map.2 ⟨y, hy, rfl⟩, x', by rw [he]; exact (j3 hr).1⟩) ha
    rw [this]
    exact k5

/-- What the frames of a machine bring, it has said. -/
theorem brought_genuine {S : Claim} {h : Host} {past wire : List Bytes} {src dst : IpAddress} {proto : Nat} {payload : Bytes}
    (hp : ∀ F ∈ past, SaysFrom F src → F ∈ wire) (hw : WireOk S h wire) (hb : Brought past src dst proto payload) (hr : Real proto) :
    S src dst proto payload := by
  obtain ⟨d4, d6, hw⟩ := hw
  cases hb with
  | v4 hm _ => exact made4_genuine (fun F hF ht ha => hp F hF ⟨ht, ha⟩) (fun F hF => (hw F hF).1) hm hr
  | v6 hm hpk _ => exact (made6_genuine (fun F hF ht ha => hp F hF ⟨ht, ha⟩) (fun F hF => (hw F hF).2) hm _ _ _ _ hpk).1 hr

end Verif
