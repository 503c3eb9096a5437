import Verif.Lemmas.WireTcp
/-! The properties about received frames (C38, C39, C47, C76), and the delivery of TCP segments (C78), stated on the bytes of the
frame: `Spec/Wire.lean` says what the bytes mean. -/
namespace Verif
open Spec

theorem be_front (a b : Bytes) : be (a ++ b) 0 a.length = beNat a := by
  rw [be, List.drop_zero, List.take_left]

theorem be_skip (a b : Bytes) (i k : Nat) : be (a ++ b) (a.length + i) k = be b i k := by
  rw [be, be, ← List.drop_drop, List.drop_left]

/-! ### C39 -/

/-- The bytes of an echo message. -/
theorem echo_bytes {t id seq ck : Nat} {data : Bytes} (ht : t < 256) (hi : id < 65536) (hs : seq < 65536) :
    IsEcho t (bePack 1 t ++ bePack 1 0 ++ bePack 2 ck ++ bePack 2 id ++ bePack 2 seq ++ data) id seq data := by
  refine ⟨by simp; omega, ?_, ?_, ?_, ?_, ?_⟩
  · have := be_front (bePack 1 t) (bePack 1 0 ++ bePack 2 ck ++ bePack 2 id ++ bePack 2 seq ++ data)
    simp only [List.append_assoc, bePack_length] at this ⊢
    rw [this, beNat_bePack_of_lt ht]
  · have := be_skip (bePack 1 t) (bePack 1 0 ++ (bePack 2 ck ++ bePack 2 id ++ bePack 2 seq ++ data)) 0 1
    have h2 := be_front (bePack 1 0) (bePack 2 ck ++ bePack 2 id ++ bePack 2 seq ++ data)
    simp only [List.append_assoc, bePack_length, Nat.add_zero] at this h2 ⊢
    rw [this, h2]; rfl
  · have := be_skip (bePack 1 t ++ bePack 1 0 ++ bePack 2 ck) (bePack 2 id ++ (bePack 2 seq ++ data)) 0 2
    have h2 := be_front (bePack 2 id) (bePack 2 seq ++ data)
    simp only [List.append_assoc, bePack_length, List.length_append, Nat.reduceAdd, Nat.add_zero] at this h2 ⊢
    rw [this, h2, beNat_bePack_of_lt hi]
  · have := be_skip (bePack 1 t ++ bePack 1 0 ++ bePack 2 ck ++ bePack 2 id) (bePack 2 seq ++ data) 0 2
    have h2 := be_front (bePack 2 seq) data
    simp only [List.append_assoc, bePack_length, List.length_append, Nat.reduceAdd, Nat.add_zero] at this h2 ⊢
    rw [this, h2, beNat_bePack_of_lt hs]
  · exact (List.drop_left' (by simp)).symm

theorem icmp4_echo_reply {id seq : Nat} (data : Bytes) (hi : id < 65536) (hs : seq < 65536) :
    ∃ q, Icmp4.assemble (.echoReply id seq data) = .ok q ∧ IsEcho 0 q id seq data := by
  obtain ⟨c, hc, hcl⟩ : ∃ c, inetCksum (bePack 1 0 ++ bePack 1 0 ++ bePack 2 0 ++ bePack 2 id ++ bePack 2 seq ++
      data) = c ∧ c < 65536 := ⟨_, rfl, inetCksum_lt _ _⟩
  refine ⟨_, ?_, echo_bytes (t := 0) (ck := c) (by omega) hi hs⟩
  simp only [Icmp4.assemble, Icmp4.assembleEcho, packB_ok (show 0 < 256 by omega), packH_ok hi,
    packH_ok hs, packH_ok (show 0 < 65536 by omega), codec, show decide (id ≤ 65535) = true by simp; omega,
    show decide (seq ≤ 65535) = true by simp; omega]
  simp only [codec] at hc
  rw [hc, packIntoH_ok hcl (by simp; omega)]
  simp [codec]

theorem icmp6_echo_reply {id seq : Nat} (data : Bytes) (ps : Nat) (hi : id < 65536) (hs : seq < 65536) :
    ∃ q, Icmp6.assemble (.echoReply id seq data) ps = .ok q ∧ IsEcho 129 q id seq data := by
  obtain ⟨ck, -, h⟩ := Icmp6.assemble_ok (m := .echoReply id seq data) (b := bePack 2 id ++ bePack 2 seq ++ data) ps
    (by simp [Icmp6.body, packH_ok hi, packH_ok hs, show id ≤ 65535 by omega, show seq ≤ 65535 by omega])
  refine ⟨_, h, ?_⟩
  have := echo_bytes (t := 129) (ck := ck) (data := data) (by omega) hi hs
  simpa [Icmp6.Msg.type, Icmp6.Msg.code] using this

/-- C39, on the bytes: when a frame brings the stack an ICMP echo request, the one effect is that the stack sends back to its source,
from the address it was sent to, an echo reply with the same identifier, sequence number and data. -/
theorem C39_wire4 {n : Node} {F p : Bytes} {src dst : Ip4Address} {id seq : Nat} {data : Bytes} (H : Brings4 n F src dst 1 p)
    (hv : Valid p) (he : IsEcho 8 p id seq data) (t₀ t₁ : Int) (d : Nat) :
    ∃ m q, Rx.ether n t₀ t₁ d F = (n, .ok [.txIcmp4 dst src m]) ∧ Icmp4.assemble m = .ok q ∧ IsEcho 0 q id seq data := by
  obtain ⟨h, a1, rfl, rfl, a4, a5, a6, a7, a8, a9, a10, a11⟩ := H.holds
  obtain ⟨e1, e2, e3, e4, e5, e6⟩ := he
  have hi := be_lt p 4 2
  have hs := be_lt p 6 2
  obtain ⟨q, q1, q2⟩ := icmp4_echo_reply (id := id) (seq := seq) data (by omega) (by omega)
  have b0 : idx h.rest 0 = .ok 8 := by rw [idx_be (by omega), be_of_take a6 (by omega), e2]
  have b1 : idx h.rest 1 = .ok 0 := by rw [idx_be (by omega), be_of_take a6 (by omega), e3]
  have b4 : u16 h.rest 4 = .ok id := by rw [u16_be (by omega), be_of_take a6 (by omega), e4]
  have b6 : u16 h.rest 6 = .ok seq := by rw [u16_be (by omega), be_of_take a6 (by omega), e5]
  refine ⟨_, q, C39_echo4 (c := 0) (id := id) (seq := seq) (data := data) a1 a4 ?_ ?_ t₀ t₁ d, q1, q2⟩
  · have hck : inetCksum (h.rest.take p.length) = 0 := by rw [a6]; exact (valid_iff (by omega)).mpr hv
    simp [Icmp4.parse, hck, Icmp4.type, Icmp4.code, b0, b1, a5, a7, e1, show 4 ≤ p.length by omega]
  · simp [Icmp4.read, Icmp4.type, Icmp4.code, Icmp4.ecId, Icmp4.ecSeq, Icmp4.ecData, b0, b1, b4, b6, a5, slice_of_take a6, e6]

/-- C39 for ICMPv6. -/
theorem C39_wire6 {n : Node} {F p : Bytes} {src dst : Ip6Address} {hop id seq : Nat} {data : Bytes} (H : Brings6 n F src dst hop 58 p)
    (hv : Valid (pseudoHdr6 src dst 58 p.length ++ p)) (he : IsEcho 128 p id seq data) (t₀ t₁ : Int) (d : Nat) :
    ∃ m, Rx.ether n t₀ t₁ d F = (n, .ok [.txIcmp6 dst src 255 m]) ∧
      ∀ ps, ∃ q, Icmp6.assemble m ps = .ok q ∧ IsEcho 129 q id seq data := by
  obtain ⟨h, a1, rfl, rfl, a4, a5, a6, rfl, a8, a9, a10, a11⟩ := H.holds
  obtain ⟨e1, e2, e3, e4, e5, e6⟩ := he
  have hi := be_lt h.rest 4 2
  have hs := be_lt h.rest 6 2
  have b0 : idx h.rest 0 = .ok 128 := by rw [idx_be (by omega), e2]
  have b1 : idx h.rest 1 = .ok 0 := by rw [idx_be (by omega), e3]
  have b4 : u16 h.rest 4 = .ok id := by rw [u16_be (by omega), e4]
  have b6 : u16 h.rest 6 = .ok seq := by rw [u16_be (by omega), e5]
  refine ⟨_, C39_echo6 (id := id) (seq := seq) (data := data) a1 a4 ?_ ?_ t₀ t₁ d,
    fun ps => icmp6_echo_reply data ps (by omega) (by omega)⟩
  · have hck : inetCksum h.rest h.pshdrSum = 0 := (pseudoHdr6_iff _ _ a9 a10 a11).1.mpr hv
    simp [Icmp6.parse, Icmp6.integrity, hck, Icmp6.integrityOf, Icmp6.sanity, Icmp6.type, Icmp6.code, b0, b1, a6, e1,
      show 4 ≤ h.rest.length by omega]
  · simp [Icmp6.read, Icmp6.type, Icmp6.code, Icmp6.ecId, Icmp6.ecSeq, Icmp6.ecData, b0, b1, b4, b6, a6, slice_of_take (List.take_length), e6]

theorem icmp4_type_zero {m : Icmp4.Msg} {q : Bytes} (h : Icmp4.assemble m = .ok q) (h0 : be q 0 1 = 0) :
    ∃ id seq data, m = .echoReply id seq data := by
  have first : ∀ (t : Nat) (r : Bytes), t < 256 → be (bePack 1 t ++ r) 0 1 = t := by
    intro t r ht
    have := be_front (bePack 1 t) r
    rw [bePack_length] at this
    rw [this, beNat_bePack_of_lt ht]
  cases m with
  | echoReply id seq data => exact ⟨_, _, _, rfl⟩
  | portUnreachable data =>
    exfalso
    simp only [Icmp4.assemble, packB_ok (show 3 < 256 by omega), packL_ok (show 0 < 4294967296 by omega),
        packH_ok (show 0 < 65536 by omega), codec] at h
    rw [packIntoH_ok (inetCksum_lt _ _) (by simp; omega)] at h
    simp [codec] at h
    subst h
    rw [first 3 _ (by omega)] at h0
    omega
  | echoRequest id seq data =>
    exfalso
    simp only [Icmp4.assemble, Icmp4.assembleEcho, codec] at h
    by_cases hi : id < 65536
    · by_cases hs : seq < 65536
      · simp only [packB_ok (show 8 < 256 by omega), packB_ok (show 0 < 256 by omega), packH_ok hi, packH_ok hs,
          packH_ok (show 0 < 65536 by omega), codec, show decide (id ≤ 65535) = true by simp; omega,
          show decide (seq ≤ 65535) = true by simp; omega] at h
        rw [packIntoH_ok (inetCksum_lt _ _) (by simp; omega)] at h
        simp [codec] at h
        subst h
        rw [first 8 _ (by omega)] at h0
        omega
      · simp [show ¬ seq ≤ 65535 by omega, show id ≤ 65535 by omega, pyAssert] at h
    · simp [show ¬ id ≤ 65535 by omega, pyAssert] at h

theorem Icmp4.read_echo_type {f : Bytes} {plen t c id seq : Nat} {data : Bytes}
    (hr : Icmp4.read f plen = .ok (.echo t c id seq data)) : idx f 0 = .ok t := by
  rw [Icmp4.read] at hr
  cases h0 : Icmp4.type f with
  | error e => simp [h0] at hr
  | ok t' =>
  cases h1 : Icmp4.code f with
  | error e => simp [h0, h1] at hr
  | ok c' =>
  simp only [h0, h1, py_ok_bind] at hr
  split at hr
  · cases h2 : Icmp4.ecId f with
    | error e => simp [h2] at hr
    | ok i =>
    cases h3 : Icmp4.ecSeq f with
    | error e => simp [h2, h3] at hr
    | ok s =>
    cases h4 : Icmp4.ecData f plen with
    | error e => simp [h2, h3, h4] at hr
    | ok d =>
    simp [h2, h3, h4] at hr
    rw [← hr.1]; exact h0
  · split at hr
    · cases h4 : Icmp4.unData f plen with
      | error e => simp [h4] at hr
      | ok d => simp [h4] at hr
    · cases hr

theorem Icmp6.read_echo_type {f : Bytes} {plen t id seq : Nat} {data : Bytes}
    (hr : Icmp6.read f plen = .ok (.echo t id seq data)) : idx f 0 = .ok t ∧ (t = 128 ∨ t = 129) := by
  rw [Icmp6.read] at hr
  cases h0 : Icmp6.type f with
  | error e => simp [h0] at hr
  | ok t' =>
  cases h1 : Icmp6.code f with
  | error e => simp [h0, h1] at hr
  | ok c' =>
  simp only [h0, h1, py_ok_bind] at hr
  split at hr
  · cases h4 : Icmp6.unData f plen with
    | error e => simp [h4] at hr
    | ok d => simp [h4] at hr
  split at hr
  · rename_i ht
    cases h2 : Icmp6.ecId f with
    | error e => simp [h2] at hr
    | ok i =>
    cases h3 : Icmp6.ecSeq f with
    | error e => simp [h2, h3] at hr
    | ok s =>
    cases h4 : Icmp6.ecData f plen with
    | error e => simp [h2, h3, h4] at hr
    | ok d =>
    simp [h2, h3, h4] at hr
    obtain ⟨rfl, -⟩ := hr
    exact ⟨h0, ht⟩
  split at hr
  · cases h4 : Icmp6.ndOptions f with
    | error e => simp [h4] at hr
    | ok d => simp [h4] at hr
  split at hr
  · rw [Icmp6.readRa] at hr
    cases h2 : idx f 4 with
    | error e => simp [h2] at hr
    | ok a2 =>
    cases h3 : idx f 5 with
    | error e => simp [h2, h3] at hr
    | ok a3 =>
    cases h4 : u16 f 6 with
    | error e => simp [h2, h3, h4] at hr
    | ok a4 =>
    cases h5 : u32 f 8 with
    | error e => simp [h2, h3, h4, h5] at hr
    | ok a5 =>
    cases h6 : u32 f 12 with
    | error e => simp [h2, h3, h4, h5, h6] at hr
    | ok a6 =>
    cases h7 : Icmp6.ndOptions f with
    | error e => simp [h2, h3, h4, h5, h6, h7] at hr
    | ok a7 => simp [h2, h3, h4, h5, h6, h7] at hr
  split at hr
  · cases h2 : Icmp6.nsTarget f with
    | error e => simp [h2] at hr
    | ok a2 =>
    cases h7 : Icmp6.ndOptions f with
    | error e => simp [h2, h7] at hr
    | ok a7 => simp [h2, h7] at hr
  split at hr
  · rw [Icmp6.readNa] at hr
    cases h2 : idx f 4 with
    | error e => simp [h2] at hr
    | ok a2 =>
    cases h3 : Icmp6.naTarget f with
    | error e => simp [h2, h3] at hr
    | ok a3 =>
    cases h7 : Icmp6.ndOptions f with
    | error e => simp [h2, h3, h7] at hr
    | ok a7 => simp [h2, h3, h7] at hr
  · cases hr

theorem Icmp6.echo_sound {f : Bytes} {ps hop id seq : Nat} {src dst : Ip6Address} {data : Bytes}
    (hp : Icmp6.parse f f.length ps src dst hop = .ok none) (hr : Icmp6.read f f.length = .ok (.echo 128 id seq data)) :
    inetCksum f ps = 0 ∧ IsEcho 128 f id seq data := by
  obtain ⟨ht, -⟩ := Icmp6.read_echo_type hr
  rw [Icmp6.parse, Icmp6.integrity, List.take_length] at hp
  by_cases h1 : inetCksum f ps ≠ 0
  · simp [h1] at hp
  by_cases h2 : 4 ≤ f.length
  · have b1 := idx_be (f := f) (i := 1) (by omega)
    by_cases h4 : 8 ≤ f.length
    · have b4 := u16_be (f := f) (i := 4) (by omega)
      have b6 := u16_be (f := f) (i := 6) (by omega)
      by_cases h5 : be f 1 1 = 0
      · simp only [Icmp6.read, Icmp6.type, Icmp6.code, Icmp6.ecId, Icmp6.ecSeq, Icmp6.ecData, ht, b1, b4, b6, py_ok_bind, codec] at hr
        simp at hr
        obtain ⟨rfl, rfl, rfl⟩ := hr
        refine ⟨by simpa using h1, h4, ?_, h5, rfl, rfl, ?_⟩
        · rw [idx_be (by omega)] at ht; exact Except.ok.inj ht
        · rw [slice, List.take_length]
      · exfalso
        simp [h1, h2, ht, h4, Icmp6.integrityOf, Icmp6.sanity, Icmp6.type, Icmp6.code, b1, h5] at hp
    · exfalso
      simp [h1, h2, ht, h4, Icmp6.integrityOf, Icmp6.badLength] at hp
  · simp [h1, h2] at hp

theorem Icmp4.echo_sound {f : Bytes} {plen c id seq : Nat} {data : Bytes} (hp : Icmp4.parse f plen = .ok none)
    (hr : Icmp4.read f plen = .ok (.echo 8 c id seq data)) (hl : plen < 65536) :
    Valid (f.take plen) ∧ IsEcho 8 (f.take plen) id seq data := by
  rw [Icmp4.parse] at hp
  by_cases h1 : inetCksum (f.take plen) ≠ 0
  · simp [h1] at hp
  by_cases h2 : 4 ≤ plen ∧ plen ≤ f.length
  · have b0 := idx_be (f := f) (i := 0) (by omega)
    have b1 := idx_be (f := f) (i := 1) (by omega)
    by_cases h3 : be f 0 1 = 8
    · by_cases h4 : 8 ≤ plen
      · have b4 := u16_be (f := f) (i := 4) (by omega)
        have b6 := u16_be (f := f) (i := 6) (by omega)
        by_cases h5 : be f 1 1 = 0
        · simp only [Icmp4.read, Icmp4.type, Icmp4.code, Icmp4.ecId, Icmp4.ecSeq, Icmp4.ecData, b0, b1, h3, b4, b6, py_ok_bind, codec] at hr
          simp at hr
          obtain ⟨-, rfl, rfl, rfl⟩ := hr
          refine ⟨(valid_iff (by simp; omega)).mp (by simpa using h1), by simp; omega, ?_, ?_, ?_, ?_, rfl⟩
          · rw [be_take _ _ _ _ (by omega), h3]
          · rw [be_take _ _ _ _ (by omega), h5]
          · rw [be_take _ _ _ _ (by omega)]
          · rw [be_take _ _ _ _ (by omega)]
        · exfalso
          simp [h1, h2, b0, h3, h4, Icmp4.type, Icmp4.code, b1, h5] at hp
      · exfalso
        simp [h1, h2, b0, h3, h4] at hp
    · have := Icmp4.read_echo_type hr
      rw [b0] at this
      exact absurd (Except.ok.inj this) h3
  · simp [h1, h2] at hp

/-- C39, the other way round: whatever frame arrives, when the stack sends an ICMP message of type 0 (echo reply) because of it, this is
the only effect, the message is a well-formed reply, and the packet the frame gave the stack (itself, or the datagram it completes) is
an echo request with a valid checksum, from the reply's destination to its source, with the same identifier, sequence number and
data. -/
theorem C39_wire4_only {n n' : Node} {t₀ t₁ : Int} {d : Nat} {F q : Bytes} {l : List Eff} {a b : Ip4Address} {m : Icmp4.Msg}
    (H : Rx.ether n t₀ t₁ d F = (n', .ok l)) (hx : .txIcmp4 a b m ∈ l) (hq : Icmp4.assemble m = .ok q) (h0 : be q 0 1 = 0) :
    l = [.txIcmp4 a b m] ∧ ∃ g p id seq data, be F 12 2 = 0x0800 ∧ Gives4 n t₀ t₁ (F.drop 14) g ∧ Ip4Fields g b a 1 p ∧ Valid p ∧
      IsEcho 8 p id seq data ∧ IsEcho 0 q id seq data := by
  obtain ⟨i, s, dt, rfl⟩ := icmp4_type_zero hq h0
  obtain ⟨hl, h | h⟩ := C39_only H hx trivial
  · obtain ⟨h, c, id, seq, data, ⟨e, g, b1, b2, b3, b4, b5⟩, hpr, hp, hr, hxx⟩ := h
    obtain ⟨f1, f2, f3⟩ := ether_fields b1.1 b1.2.1
    obtain ⟨c1, c2, c3⟩ := Ip4.sound b4 b5
    injection hxx with x1 x2 x3
    injection x3 with x3 x4 x5
    subst x1 x2 x3 x4 x5
    refine ⟨hl, g, h.rest.take h.dlen, i, s, dt, by omega, by rw [← f3]; exact b3, by rw [← hpr]; exact c1, ?_⟩
    obtain ⟨v1, v2⟩ := Icmp4.echo_sound hp hr c3
    obtain ⟨v3, v4, v5, v6, v7, v8⟩ := v2
    have hi := be_lt (h.rest.take h.dlen) 4 2
    have hs := be_lt (h.rest.take h.dlen) 6 2
    obtain ⟨q', q1, q2⟩ := icmp4_echo_reply (id := i) (seq := s) dt (by omega) (by omega)
    have := Except.ok.inj (q1.symm.trans hq)
    subst this
    exact ⟨v1, ⟨v3, v4, v5, v6, v7, v8⟩, q2⟩
  · obtain ⟨h, id, seq, data, -, -, -, -, -, hxx⟩ := h
    cases hxx

theorem icmp6_type_reply {m : Icmp6.Msg} {ps : Nat} {q : Bytes} (h : Icmp6.assemble m ps = .ok q) (h0 : be q 0 1 = 129) :
    ∃ id seq data, m = .echoReply id seq data := by
  cases hb : Icmp6.body m with
  | error e => simp [Icmp6.assemble, hb] at h
  | ok b =>
    obtain ⟨ck, -, ha⟩ := Icmp6.assemble_ok ps hb
    have := Except.ok.inj (ha.symm.trans h)
    subst this
    have h1 := be_front (bePack 1 m.type) (bePack 1 m.code ++ (bePack 2 ck ++ b))
    rw [bePack_length, h0, beNat_bePack_of_lt (by cases m <;> simp [Icmp6.Msg.type])] at h1
    cases m <;> simp [Icmp6.Msg.type] at h1
    exact ⟨_, _, _, rfl⟩

/-- C39, the other way round for ICMPv6 (type 129). -/
theorem C39_wire6_only {n n' : Node} {t₀ t₁ : Int} {d hop ps : Nat} {F q : Bytes} {l : List Eff} {a b : Ip6Address} {m : Icmp6.Msg}
    (H : Rx.ether n t₀ t₁ d F = (n', .ok l)) (hx : .txIcmp6 a b hop m ∈ l) (hq : Icmp6.assemble m ps = .ok q) (h0 : be q 0 1 = 129) :
    l = [.txIcmp6 a b hop m] ∧ ∃ g p k id seq data, be F 12 2 = 0x86DD ∧ Gives6 t₀ t₁ n (F.drop 14) g ∧ Ip6Packet g b a k 58 p ∧
      Listens6 n a ∧ Valid (pseudoHdr6 b a 58 p.length ++ p) ∧ IsEcho 128 p id seq data ∧ IsEcho 129 q id seq data := by
  obtain ⟨i, s, dt, rfl⟩ := icmp6_type_reply hq h0
  obtain ⟨hl, h | h⟩ := C39_only H hx trivial
  · obtain ⟨h, c, id, seq, data, -, -, -, -, hxx⟩ := h
    cases hxx
  · obtain ⟨h, id, seq, data, ⟨e, g, b1, b2, b3, b4, b5⟩, hls, hpr, hp, hr, hxx⟩ := h
    obtain ⟨f1, f2, f3⟩ := ether_fields b1.1 b1.2.1
    obtain ⟨c1, c2, c3, c4⟩ := Ip6.sound b4 b5
    injection hxx with x1 x2 x3 x4
    injection x4 with x4 x5 x6
    subst x1 x2 x3 x4 x5 x6
    rw [c2] at hp hr
    obtain ⟨v1, v2⟩ := Icmp6.echo_sound hp hr
    obtain ⟨v3, v4, v5, v6, v7, v8⟩ := v2
    have hi := be_lt h.rest 4 2
    have hs := be_lt h.rest 6 2
    obtain ⟨q', q1, q2⟩ := icmp6_echo_reply (id := i) (seq := s) dt ps (by omega) (by omega)
    have := Except.ok.inj (q1.symm.trans hq)
    subst this
    rw [hpr] at c1 c4
    exact ⟨hl, g, h.rest, h.hop, i, s, dt, by omega, by rw [← f3]; exact b3, c1, hls,
      (pseudoHdr6_iff _ _ (by omega) (by omega) c4).1.mp v1, ⟨v3, v4, v5, v6, v7, v8⟩, q2⟩

/-! ### C47 -/

/-- C47 on the bytes of the frame: after any history of socket calls, a frame that brings the stack a UDP datagram with non-zero ports and a
right checksum has one effect.  The datagram (addresses, ports and data) goes to the most specific socket; or, if none matches,
ICMP port unreachable, quoting the IP packet, goes to its source, unless that is unspecified. -/
theorem C47_wire {hist : List (Spec.Env × Spec.Op)} {n : Node} {F p data : Bytes} {src dst : IpAddress} {sport dport : Nat}
    (hn : n.socks = (Spec.run hist).1) (H : Brings n F src dst 17 p) (hu : IsUdp p sport dport data) (hs : sport ≠ 0) (hd : dport ≠ 0)
    (t₀ t₁ : Int) (d : Nat) :
    let m : UdpMd := { lip := dst, lport := dport, rip := src, rport := sport, data := data }
    (∃ r, MostSpecific n.socks m r ∧ Rx.ether n t₀ t₁ d F = (n, .ok [.udpDeliver r m])) ∨
    (NoSocket n.socks m ∧
      ((src.isUnspecified = true ∧ Rx.ether n t₀ t₁ d F = (n, .ok [])) ∨
       (src.isUnspecified = false ∧
        ((∃ s d', src = .v4 s ∧ dst = .v4 d' ∧ Rx.ether n t₀ t₁ d F = (n, .ok [.txIcmp4 d' s (.portUnreachable (ipPacket F))])) ∨
         (∃ s d', src = .v6 s ∧ dst = .v6 d' ∧
            Rx.ether n t₀ t₁ d F = (n, .ok [.txIcmp6 d' s 64 (.portUnreachable (ipPacket F))])))))) := by
  obtain ⟨ip, f, h1, rfl, rfl, h4, h5, h6, h7, h8, h9⟩ := H.holds
  obtain ⟨a1, a2⟩ := Udp.accept h5 h6 h9 hu hs hd
  have := C47_delivery hn h1 (by rw [h4]; exact a1) a2 t₀ t₁ d
  rw [h7] at this
  exact this

/-! ### C78 -/

theorem tcpMatch_none_only {ss : Socks} {m : TcpMd} (hm : Rx.tcpMatch ss m = none) :
    ∀ r s, Registered ss r s → ¬ TakesSegment s.id m := by
  intro r s hr ⟨t1, t2, t3, t4⟩
  rw [Rx.tcpMatch] at hm
  cases hg : ss.table.get? m.active with
  | some r => simp [hg] at hm
  | none =>
    simp only [hg] at hm
    rcases t4 with ⟨t4, t5, t6⟩ | ⟨⟨u1, u2, u3, u4⟩, t4, t5, t6⟩
    · have : s.id = m.active := by
        cases hi : s.id
        simp [hi] at t1 t2 t3 t4 t5 t6
        simp [TcpMd.active, t1, t2, t3, t4, t5, t6]
      rw [← this, hr.2] at hg
      cases hg
    · rw [if_pos (by simp [u1, u2, u3, u4]), List.findSome?_eq_none_iff] at hm
      refine absurd (hm s.id ?_) (by rw [hr.2]; simp)
      simp only [TcpMd.listening, IpAddress.unspecified_eq, List.mem_cons, List.not_mem_nil, or_false]
      rcases t4 with t4 | t4
      · left
        cases hi : s.id
        simp [hi] at t1 t2 t3 t4 t5 t6
        simp [t1, t2, t3, t4, t5, t6]
      · right
        cases hi : s.id
        simp [hi] at t1 t2 t3 t4 t5 t6
        simp [t1, t2, t3, t4, t5, t6]

theorem tcpMatch_some {ss : Socks} (w : ss.Wf) {m : TcpMd} {r : Nat} (h : Rx.tcpMatch ss m = some r) : Belongs ss m r := by
  have hreg : ∀ r' s', Registered ss r' s' → s'.id.lip = m.lip → s'.id.rip = m.rip → s'.id.rport = m.rport → s'.id.lport = m.lport →
      s'.id.type = .stream → s'.id.family = m.lip.family → ss.table.get? m.active = some r' := by
    intro r' s' hr a1 a2 a3 a4 a5 a6
    have : s'.id = m.active := by
      cases hi : s'.id
      simp [hi] at a1 a2 a3 a4 a5 a6
      simp [TcpMd.active, a1, a2, a3, a4, a5, a6]
    rw [← this]; exact hr.2
  rw [Rx.tcpMatch] at h
  cases hg : ss.table.get? m.active with
  | some r' =>
    rw [hg] at h
    cases h
    obtain ⟨s, hs, hid⟩ := w.holds _ _ hg
    refine ⟨s, ⟨hs, by rw [hid]; exact hg⟩, by rw [hid]; exact ⟨rfl, rfl, rfl, .inl ⟨rfl, rfl, rfl⟩⟩, ?_⟩
    intro _ _ _ _
    exact .inr (.inl (by rw [hid]; exact ⟨rfl, rfl, rfl⟩))
  | none =>
    rw [hg] at h
    dsimp only at h
    split at h
    · rename_i hsyn
      have hsyn' : m.syn = true ∧ m.ack = false ∧ m.fin = false ∧ m.rst = false := by
        simp at hsyn; tauto
      simp only [TcpMd.listening, IpAddress.unspecified_eq] at h
      have other : ∀ r' s', Registered ss r' s' → TakesSegment s'.id m →
          ss.table.get? ⟨m.lip.family, .stream, m.lip, m.lport, m.lip.family.any, 0⟩ = some r' ∨
            (s'.id.lip ≠ m.lip ∧ ss.table.get? ⟨m.lip.family, .stream, m.lip.family.any, m.lport, m.lip.family.any, 0⟩ = some r') := by
        intro r' s' hr ⟨t1, t2, t3, t4⟩
        rcases t4 with ⟨t4, t5, t6⟩ | ⟨-, t4, t5, t6⟩
        · rw [hreg r' s' hr t4 t5 t6 t3 t1 t2] at hg; cases hg
        · by_cases he : s'.id.lip = m.lip
          · left
            rw [← hr.2]
            congr 1
            cases hi : s'.id
            simp [hi] at t1 t2 t3 t5 t6 he
            simp [t1, t2, t3, t5, t6, he]
          · right
            refine ⟨he, ?_⟩
            rw [← hr.2]
            congr 1
            have t4 := t4.resolve_left he
            cases hi : s'.id
            simp [hi] at t1 t2 t3 t5 t6 t4
            simp [t1, t2, t3, t5, t6, t4]
      rw [List.findSome?_cons] at h
      cases h1 : ss.table.get? ⟨m.lip.family, .stream, m.lip, m.lport, m.lip.family.any, 0⟩ with
      | some r1 =>
        rw [h1] at h
        cases h
        obtain ⟨s, hs, hid⟩ := w.holds _ _ h1
        refine ⟨s, ⟨hs, by rw [hid]; exact h1⟩, by rw [hid]; exact ⟨rfl, rfl, rfl, .inr ⟨hsyn', .inl rfl, rfl, rfl⟩⟩, ?_⟩
        intro r' s' hr ht
        rcases other r' s' hr ht with h2 | ⟨h2, -⟩
        · left; rw [h1] at h2; exact (Option.some.inj h2).symm
        · exact .inr (.inr ⟨by rw [hid], h2⟩)
      | none =>
        rw [h1, List.findSome?_cons] at h
        cases h3 : ss.table.get? ⟨m.lip.family, .stream, m.lip.family.any, m.lport, m.lip.family.any, 0⟩ with
        | none => rw [h3] at h; cases h
        | some r1 =>
          rw [h3] at h
          cases h
          obtain ⟨s, hs, hid⟩ := w.holds _ _ h3
          refine ⟨s, ⟨hs, by rw [hid]; exact h3⟩, by rw [hid]; exact ⟨rfl, rfl, rfl, .inr ⟨hsyn', .inr rfl, rfl, rfl⟩⟩, ?_⟩
          intro r' s' hr ht
          rcases other r' s' hr ht with h2 | ⟨-, h2⟩
          · rw [h1] at h2; cases h2
          · left; rw [h3] at h2; exact (Option.some.inj h2).symm
    · cases h

/-- C78: after any history of socket calls, a frame that brings the stack a TCP segment with a right checksum, and that is not one no TCP
sends, has one effect: the segment, as RFC 9293 reads its bytes, is handed to the socket it belongs to; or, if no socket takes it,
a segment with RST and ACK goes back. -/
theorem C78_wire {hist : List (Spec.Env × Spec.Op)} {n : Node} {F p : Bytes} {src dst : IpAddress} {opts : List (Nat × Bytes)}
    (hn : n.socks = (Spec.run hist).1) (H : Brings n F src dst 6 p) (ht : IsTcp p opts) (ho : ¬ OddTcp p) (t₀ t₁ : Int) (d : Nat) :
    (∃ r, Belongs n.socks (segment src dst p opts) r ∧ Rx.ether n t₀ t₁ d F = (n, .ok [.tcpDeliver r (segment src dst p opts)])) ∨
    ((∀ r s, Registered n.socks r s → ¬ TakesSegment s.id (segment src dst p opts)) ∧
      Rx.ether n t₀ t₁ d F = (n, .ok [.txTcp dst src
        { sport := be p 2 2, dport := be p 0 2, seq := 0,
          ack := be p 4 4 + (if bit p 13 1 then 1 else 0) + (if bit p 13 0 then 1 else 0) + (p.length - be p 12 1 / 16 * 4),
          flags := { rst := true, ack := true }, win := 0, urp := 0, options := [], data := [] }])) := by
  obtain ⟨ip, f, h1, rfl, rfl, h4, h5, h6, h7, h8, h9⟩ := H.holds
  obtain ⟨a1, h, a2, a3⟩ := Tcp.accept h5 h6 h9 ht ho
  have w : n.socks.Wf := by rw [hn]; exact Socks.run_wf hist
  have a3 := a3 ip
  rw [← h4] at a1 a2
  cases hm : Rx.tcpMatch n.socks (Rx.tcpMd ip h) with
  | some r =>
    refine .inl ⟨r, by rw [← a3]; exact tcpMatch_some w hm, ?_⟩
    rw [tcp_holds h1, Rx.tcp, ← a3]
    simp only [a1, a2, py_ok_bind, py_pure, hm]
  | none =>
    right
    have hno := tcpMatch_none_only hm
    refine ⟨by rw [← a3]; exact hno, ?_⟩
    rw [C63_reset_partial hn h1 a1 a2 hno]
    have e1 : h.dport = be p 2 2 := congrArg TcpMd.lport a3
    have e2 : h.sport = be p 0 2 := congrArg TcpMd.rport a3
    have e3 : h.seq = be p 4 4 := congrArg TcpMd.seq a3
    have e4 : h.flags.syn = bit p 13 1 := congrArg TcpMd.syn a3
    have e5 : h.flags.fin = bit p 13 0 := congrArg TcpMd.fin a3
    have e6 : h.data = p.drop (be p 12 1 / 16 * 4) := congrArg TcpMd.data a3
    rw [e1, e2, e3, e4, e5, e6, List.length_drop]

namespace Example.Wire
open Example.Rx

/-- A frame from 10.0.1.9 to the stack at 10.0.1.7, and one from 2001:db8::9 to 2001:db8::7, but for the length, the protocol and the
header checksum, as bytes. -/
def frame4 (len proto ck₁ ck₂ : UInt8) (p : Bytes) : Bytes :=
  [2, 0, 0, 0, 0, 7,  2, 0, 0, 0, 0, 9,  8, 0,  0x45, 0, 0, len,  0, 5, 0, 0,  64, proto, ck₁, ck₂,  10, 0, 1, 9,  10, 0, 1, 7] ++ p
def frame6 (len next : UInt8) (p : Bytes) : Bytes :=
  [2, 0, 0, 0, 0, 7,  2, 0, 0, 0, 0, 9,  0x86, 0xDD,  0x60, 0, 0, 0,  0, len, next, 255,
   0x20, 0x01, 0x0d, 0xb8, 0, 0, 0, 0, 0, 0, 0, 0, 0, 0, 0, 9,  0x20, 0x01, 0x0d, 0xb8, 0, 0, 0, 0, 0, 0, 0, 0, 0, 0, 0, 7] ++ p

theorem brings4 {len proto a b : UInt8} {p : Bytes} (h1 : len.toNat = 20 + p.length)
    (h2 : Valid [0x45, 0, 0, len, 0, 5, 0, 0, 64, proto, a, b, 10, 0, 1, 9, 10, 0, 1, 7]) :
    Brings4 node (frame4 len proto a b p) peer4 Example.host4.address proto.toNat p := by
  have e0 : be (List.drop 14 (frame4 len proto a b p)) 0 1 = 69 := rfl
  have e2 : be (List.drop 14 (frame4 len proto a b p)) 2 2 = len.toNat := by simp [frame4, be, beNat]
  refine ⟨by simp [frame4], ⟨node.stack.mac, rfl, .inl rfl⟩, rfl,
    ⟨⟨by rw [e0], by rw [e0, e2]; omega, by rw [e2]; simp [frame4]; omega, by rw [e0]; simpa [frame4] using h2, ?_, by simp [frame4, be, beNat, peer4], by simp [frame4, be, beNat, Example.host4], ?_⟩, ⟨[], by rw [e0, List.drop_eq_nil_of_le (by rw [List.length_take]; omega)]; exact .nil⟩, by simp [frame4, be, beNat], by decide⟩,
    .inl ⟨Example.host4, by decide +kernel, rfl⟩⟩
  · simp [frame4, be, beNat]
  · rw [e0, e2, h1, Nat.add_comm]; simp [frame4, List.take_succ_cons]

theorem brings6 {len next : UInt8} {p : Bytes} (h1 : len.toNat = p.length) :
    Brings6 node (frame6 len next p) peer6 Example.host6.address 255 next.toNat p := by
  have e4 : be (List.drop 14 (frame6 len next p)) 4 2 = len.toNat := by simp [frame6, be, beNat]
  refine ⟨by simp [frame6], ⟨node.stack.mac, rfl, .inl rfl⟩, rfl,
    ⟨by simp [frame6, be, beNat], ⟨by simp [frame6], by rw [e4, h1]; simp [frame6]⟩, ?_, by simp [frame6, be, beNat], by decide,
      by simp [frame6, be, beNat, peer6], by simp [frame6, be, beNat, Example.host6], by simp [frame6, be, beNat], by simp [frame6]⟩,
    .inl ⟨Example.host6, by decide +kernel, rfl⟩⟩
  simp [frame6, be, beNat]

/-- C39: pings with identifier 7, sequence number 1 and data 1, 2, 3. -/
def ping4 : Bytes := [8, 0, 243, 245,  0, 7,  0, 1,  1, 2, 3]
example : Brings4 node (frame4 31 1 100 202 ping4) peer4 Example.host4.address 1 ping4 ∧ Valid ping4 ∧ IsEcho 8 ping4 7 1 [1, 2, 3] :=
  ⟨brings4 rfl (by unfold Valid; decide +kernel), by unfold Valid; decide +kernel, by unfold IsEcho; decide +kernel⟩
def ping6 : Bytes := [128, 0, 32, 46,  0, 7,  0, 1,  1, 2, 3]
example : Brings node (frame6 11 58 ping6) (.v6 peer6) (.v6 Example.host6.address) 58 ping6 ∧ IsEcho 128 ping6 7 1 [1, 2, 3] :=
  ⟨.v6 (brings6 rfl) (by unfold Valid; decide +kernel), by unfold IsEcho; decide +kernel⟩

/-- C47: a datagram from port 5353 to port 53 with data 9, 9. -/
def dgram : Bytes := [20, 233,  0, 53,  0, 10,  203, 163,  9, 9]
example : Brings node (frame4 30 17 100 187 dgram) (.v4 peer4) (.v4 Example.host4.address) 17 dgram ∧ IsUdp dgram 5353 53 [9, 9] :=
  ⟨.v4 (brings4 rfl (by unfold Valid; decide +kernel)) (by unfold Valid; decide +kernel), by unfold IsUdp; decide +kernel⟩

/-- C78: a SYN from port 5000 to port 80 with MSS 1460 and window scale 7; what the socket there would be told. -/
def syn : Bytes := [19, 136,  0, 80,  0, 0, 0, 77,  0, 0, 0, 0,  112, 2, 3, 232,  85, 252, 0, 0,  2, 4, 5, 180,  1, 3, 3, 7]
example : Brings node (frame4 48 6 100 180 syn) (.v4 peer4) (.v4 Example.host4.address) 6 syn :=
  .v4 (brings4 rfl (by unfold Valid; decide +kernel)) (by unfold Valid; decide +kernel)
example : IsTcp syn [(2, [5, 180]), (3, [7])] ∧ ¬ OddTcp syn :=
  ⟨⟨by decide, by decide, .opt 2 4 [5, 180] (by decide) rfl (.nop (.opt 3 3 [7] (by decide) rfl .nil)),
    by intro k v h; simp at h; rcases h with ⟨rfl, rfl⟩ | ⟨rfl, rfl⟩ <;> simp⟩, by unfold OddTcp; decide +kernel⟩
example : segment (.v4 peer4) (.v4 Example.host4.address) syn [(2, [5, 180]), (3, [7])] =
    { lip := .v4 Example.host4.address, lport := 80, rip := .v4 peer4, rport := 5000, syn := true, ack := false, fin := false, rst := false,
      seq := 77, ackn := 0, win := 1000, wscale := some 128, mss := 1460, data := [] } := by decide +kernel
/-- After `bind` to port 80 and `listen` the segment belongs to the socket. -/
example : let e : Spec.Env := ⟨Example.stack, ⟨fun _ _ => none, fun _ _ => none⟩⟩
    ∃ r, Belongs (Spec.run [(e, .socket .inet4 .stream), (e, .bind 0 (some (.v4 .zero)) 80 0)]).1
      (segment (.v4 peer4) (.v4 Example.host4.address) syn [(2, [5, 180]), (3, [7])]) r :=
  ⟨0, tcpMatch_some (Socks.run_wf _) (by decide +kernel)⟩

end Example.Wire

end Verif
