import Verif.Spec.WireTx
import Verif.Props.Wire
import Verif.Props.CodecTcp
import Verif.Lemmas.EndToEndTx
import Verif.Lemmas.EndToEnd6
/-! The bytes of the frames the transmit side makes. -/
namespace Verif
open Spec

theorem be_pack_front {k v : Nat} (t : Bytes) (h : v < 256 ^ k) : be (bePack k v ++ t) 0 k = v := by
  have := be_front (bePack k v) t
  rw [bePack_length, beNat_bePack_of_lt h] at this
  exact this

theorem be_pack_skip {k v i j : Nat} (t : Bytes) (h : k ≤ i) : be (bePack k v ++ t) i j = be t (i - k) j := by
  have := be_skip (bePack k v) t (i - k) j
  rw [bePack_length, show k + (i - k) = i by omega] at this
  exact this

theorem drop_pack {k v i : Nat} (t : Bytes) (h : k ≤ i) : (bePack k v ++ t).drop i = t.drop (i - k) := by
  have : (bePack k v ++ t).drop ((bePack k v).length + (i - k)) = t.drop (i - k) := by rw [← List.drop_drop, List.drop_left]
  rw [bePack_length, show k + (i - k) = i by omega] at this
  exact this

theorem be_pack_last {k v : Nat} (h : v < 256 ^ k) : be (bePack k v) 0 k = v := by
  have := be_pack_front [] h
  rwa [List.append_nil] at this

/-- The frame in which a queued packet goes out. -/
theorem Outgoing.frame_bytes {o : Outgoing} {b : Bytes} (h : o.pkt.assemble = .ok b) :
    ∃ F, o.frame = .ok F ∧ IsFrame F o.src o.dst o.pkt.etherType b := by
  have ht : o.pkt.etherType < 65536 := by cases o.pkt <;> simp [Pkt.etherType, Ether.typeArp, Ether.typeIp4, Ether.typeIp6, Ether.typeRaw]
  have ha : (o.pkt.etherType == Ether.typeArp || o.pkt.etherType == Ether.typeIp4 || o.pkt.etherType == Ether.typeIp6 ||
      o.pkt.etherType == Ether.typeRaw) = true := by cases o.pkt <;> simp [Pkt.etherType]
  refine ⟨bePack 6 o.dst.int ++ (bePack 6 o.src.int ++ (bePack 2 o.pkt.etherType ++ b)), ?_, ?_⟩
  · simp only [Outgoing.frame, h, Ether.assemble, ha, packH_ok ht, MacAddress.toBytes_eq, codec, List.append_assoc]
  · have hd := o.dst.lt
    have hs := o.src.lt
    refine ⟨by simp; omega, ?_, ?_, ?_, ?_⟩
    · rw [be_pack_front _ (by omega)]
    · rw [be_pack_skip _ (by omega), be_pack_front _ (by omega)]
    · rw [be_pack_skip _ (by omega), be_pack_skip _ (by omega), be_pack_front _ (by omega)]
    · rw [drop_pack _ (by omega), drop_pack _ (by omega), drop_pack _ (by omega)]; rfl

/-- A packet that fits the MTU goes out whole, with an IPv4 header of 20 bytes. -/
theorem whole4 {st st' : Stack} {arp : Nat → ArpLookup} {src dst : Ip4Address} {ttl : Nat} {c : L4} {outs : List Outgoing}
    (hp : c.proto = 1 ∨ c.proto = 17 ∨ c.proto = 6 ∨ c.proto = 255) (hfit : 20 + c.len ≤ st.mtu) (hmtu : st.mtu < 65536)
    (h : phtxIp4 st arp src dst ttl c = (st', .ok (.passedEtherToTxRing, outs))) :
    st' = st ∧ ∃ a o ps, validateSrcIp4 st src dst c.kind = .ok a ∧ outs = [o] ∧ o.src = st.mac ∧ o.pkt.etherType = 0x0800 ∧
      Ip4.pshdrSum a dst c.proto c.len = .ok ps ∧
      ∀ payload, c.assemble ps = .ok payload → payload.length = c.len →
        ∃ b, o.pkt.assemble = .ok b ∧ Ip4Fields b a dst c.proto payload ∧ be b 0 1 = 0x45 ∧ be b 6 2 = 0 ∧ be b 8 1 = ttl ∧
          b.length = 20 + payload.length ∧ b.drop 20 = payload := by
  rw [phtxIp4] at h
  split at h
  · simp at h
  rename_i ht
  simp only [Decidable.not_not] at ht
  cases ha : validateSrcIp4 st src dst c.kind with
  | error e =>
    rw [ha] at h
    simp only [Prod.mk.injEq, Except.ok.injEq] at h
    have := (validateSrcIp4_error ha).1
    rw [h.2.1] at this
    simp at this
  | ok a =>
    rw [ha] at h
    simp only [validateDstIp4] at h
    by_cases hz : dst.isUnspecified = true
    · simp [hz] at h
    have hh : (packetTx a dst ttl c.proto).hlen = 20 := by rw [Ip4.Tx.hlen_eq]; rfl
    simp only [if_neg hz, packetTx_asserts a dst ttl c.proto ht.2 hp, hh, if_pos hfit, Prod.mk.injEq] at h
    obtain ⟨ps, hps⟩ : ∃ ps, Ip4.pshdrSum a dst c.proto c.len = .ok ps := ⟨_, Ip4.pshdr_ok a dst c.proto c.len (by omega) (by omega)⟩
    obtain ⟨m, hm⟩ : ∃ m, outs = [⟨st.mac, m, .ip4 (packetTx a dst ttl c.proto) c.toCarried⟩] := by
      rcases phtxEther_pkt h.2 with ⟨-, m, hm⟩ | ⟨h1, -⟩
      · exact ⟨m, by rw [hm]; rfl⟩
      · simp at h1
    refine ⟨h.1.symm, a, _, ps, rfl, hm, rfl, rfl, hps, ?_⟩
    intro payload hc hlen
    have hok : (packetTx a dst ttl c.proto).Ok payload.length :=
      ⟨by simp [packetTx]; omega, by simp [packetTx], by simp [packetTx], by simp [packetTx], by simpa [packetTx] using hp,
        by simp [packetTx], by simp [packetTx], by simp [packetTx]; omega, by simp [packetTx], by simp [packetTx]⟩
    obtain ⟨ck, hck⟩ : ∃ ck, inetCksum (Ip4.headerWith (packetTx a dst ttl c.proto) (20 + payload.length) 0) = ck := ⟨_, rfl⟩
    have hst := Ip4.stored _ payload.length hok
    have hh0 := Ip4.header0_ok _ _ hok
    rw [hh] at hst hh0
    rw [hck] at hst
    have hv := Ip4.header_verifies (packetTx a dst ttl c.proto) (20 + payload.length) rfl
    rw [hck] at hv
    have hl : (Ip4.headerWith (packetTx a dst ttl c.proto) (20 + payload.length) ck).length = 20 := by
      rw [Ip4.headerWith_length, hh]
    have hv' : Valid (Ip4.headerWith (packetTx a dst ttl c.proto) (20 + payload.length) ck) := by
      rw [← valid_iff (by rw [hl]; decide), verifies_iff (by rw [hl]; decide) (by decide)]
      exact hv
    refine ⟨Ip4.headerWith (packetTx a dst ttl c.proto) (20 + payload.length) ck ++ payload, ?_, ?_⟩
    · have hps' : Ip4.pshdrSum (packetTx a dst ttl c.proto).src (packetTx a dst ttl c.proto).dst (packetTx a dst ttl c.proto).proto
          payload.length = .ok ps := by rw [hlen]; exact hps
      simp only [Pkt.assemble, Ip4.assemble, Ip4.asserts_ok _ _ hok, hh, ← hlen, hh0, hck, hst, hps', hc, codec]
    · obtain ⟨b, hb⟩ : ∃ b, Ip4.headerWith (packetTx a dst ttl c.proto) (20 + payload.length) ck ++ payload = b := ⟨_, rfl⟩
      have hd20 : b.drop 20 = payload := by rw [← hb, ← hl]; exact List.drop_left
      have ht20 : b.take 20 = Ip4.headerWith (packetTx a dst ttl c.proto) (20 + payload.length) ck := by
        rw [← hb, ← hl]; exact List.take_left
      have hbl : b.length = 20 + payload.length := by rw [← hb, List.length_append, hl]
      rw [hb]
      simp only [Ip4.headerWith, Ip4Address.toBytes, List.append_assoc] at hb
      have b0 : be b 0 1 = 0x45 := by
        rw [← hb, be_pack_front _ (by rw [hh]; decide), hh]
      have b2 : be b 2 2 = 20 + payload.length := by
        rw [← hb]; repeat rw [be_pack_skip _ (by omega)]
        exact be_pack_front _ (by omega)
      have b6 : be b 6 2 = 0 := by
        rw [← hb]; repeat rw [be_pack_skip _ (by omega)]
        rw [be_pack_front _ (by simp [packetTx])]; simp [packetTx]
      have b8 : be b 8 1 = ttl := by
        rw [← hb]; repeat rw [be_pack_skip _ (by omega)]
        exact be_pack_front _ (show ttl < _ from ht.2)
      have b9 : be b 9 1 = c.proto := by
        rw [← hb]; repeat rw [be_pack_skip _ (by omega)]
        exact be_pack_front _ (show c.proto < _ by omega)
      have b12 : be b 12 4 = a.int := by
        rw [← hb]; repeat rw [be_pack_skip _ (by omega)]
        exact be_pack_front _ a.lt
      have b16 : be b 16 4 = dst.int := by
        rw [← hb]; repeat rw [be_pack_skip _ (by omega)]
        exact be_pack_front _ dst.lt
      refine ⟨⟨by rw [b0], by rw [b0, b2]; omega, by rw [b2, hbl], ?_, b9, b12.symm, b16.symm, ?_⟩, b0, b6, b8, hbl, hd20⟩
      · rw [b0, ht20]; exact hv'
      · rw [b0, b2, ← hbl, List.take_length]; exact hd20.symm

/-- The same for IPv6. -/
theorem whole6 {st st' : Stack} {nd : Nat → NdLookup} {src dst : Ip6Address} {hop : Nat} {c : L4} {outs : List Outgoing}
    (hp : c.proto = 58 ∨ c.proto = 17 ∨ c.proto = 6 ∨ c.proto = 44 ∨ c.proto = 255) (hfit : 40 + c.len ≤ st.mtu) (hmtu : st.mtu < 65536)
    (h : phtxIp6 st nd src dst hop c = (st', .ok (.passedEtherToTxRing, outs))) :
    st' = st ∧ ∃ a o ps, validateSrcIp6 st src dst c.kind = .ok a ∧ outs = [o] ∧ o.src = st.mac ∧ o.pkt.etherType = 0x86DD ∧
      Ip6.pshdrSum a dst c.len c.proto = .ok ps ∧
      ∀ payload, c.assemble ps = .ok payload → payload.length = c.len → a.isMulticast = false →
        ∃ b, o.pkt.assemble = .ok b ∧ Ip6Packet b a dst hop c.proto payload := by
  rw [phtxIp6] at h
  split at h
  · simp at h
  · rename_i r hr
    simp only [Prod.mk.injEq, Except.ok.injEq] at h
    obtain ⟨rfl, rfl⟩ := h
    rw [phtxIp6Small] at hr
    by_cases hh : 0 < hop ∧ hop < 256
    · simp only [hh.1, hh.2, decide_true, Bool.and_self, pyAssert_true, py_ok_bind] at hr
      cases ha : validateSrcIp6 st src dst c.kind with
      | error e =>
        simp [ha] at hr
        have := validateSrcIp6_error ha
        rw [hr.1] at this
        simp at this
      | ok a =>
        by_cases hz : dst.isUnspecified = true
        · simp [ha, validateDstIp6, hz] at hr
        simp only [ha, validateDstIp6, if_neg hz, packetTx6_asserts a dst hop c.proto (by omega) (by omega), if_pos hfit, py_ok_bind] at hr
        cases hE : phtxEther st (fun _ => none) (nd 0) .zero .zero (.ip6 (packetTx6 a dst hop) c.toCarried) with
        | error e => rw [hE] at hr; simp at hr
        | ok q =>
          rw [hE] at hr
          simp only [py_ok_bind, py_pure, Except.ok.injEq, Sum.inl.injEq] at hr
          subst hr
          obtain ⟨m, hm⟩ : ∃ m, outs = [⟨st.mac, m, .ip6 (packetTx6 a dst hop) c.toCarried⟩] := by
            rcases phtxEther_pkt hE with ⟨-, m, hm⟩ | ⟨h1, -⟩
            · exact ⟨m, by rw [hm]; rfl⟩
            · simp at h1
          obtain ⟨ps, hps⟩ : ∃ ps, Ip6.pshdrSum a dst c.len c.proto = .ok ps := ⟨_, Ip6.pshdr_ok a dst c.len c.proto (by omega) (by omega)⟩
          refine ⟨rfl, a, _, ps, rfl, hm, rfl, rfl, hps, ?_⟩
          intro payload hc hlen hmu
          obtain ⟨f, f1, f2, f3⟩ := C17_ip6_roundtrip_dscp0_partial (packetTx6 a dst hop) c.toCarried payload ps
            ⟨by simp [packetTx6]; omega, by simp [packetTx6], by simp [packetTx6], by simp [packetTx6], by omega, by simpa using hp⟩
            hps hc hlen (by simp [packetTx6]; omega) hmu rfl (by simp [packetTx6])
          exact ⟨f, f1, (Ip6.sound f2 f3).1⟩
    · have : (decide (0 < hop) && decide (hop < 256)) = false := by simp; omega
      rw [this] at hr
      simp [pyAssert] at hr
  · rename_i a d hr
    have := (phtxIp6Small_inr hr).2.2.2
    omega

theorem flag_bit (f : Tcp.Flags) :
    (decide (f.byte / 2 ^ 0 % 2 = 1)) = f.fin ∧ (decide (f.byte / 2 ^ 1 % 2 = 1)) = f.syn ∧ (decide (f.byte / 2 ^ 2 % 2 = 1)) = f.rst ∧
      (decide (f.byte / 2 ^ 4 % 2 = 1)) = f.ack ∧ (decide (f.byte / 2 ^ 5 % 2 = 1)) = f.urg := by
  obtain ⟨a, b, c, d, e, g, h, i, j⟩ := f
  revert a b c d e g h i j; decide

/-- The fields of an assembled TCP segment, by their place in it. -/
theorem Tcp.frame_bytes (h : Tcp.Tx) (c : Nat) (hok : h.Ok) (p : Bytes) (hp : Tcp.frameWith h c = p) :
    be p 0 2 = h.sport ∧ be p 2 2 = h.dport ∧ be p 4 4 = h.seq ∧ be p 8 4 = h.ack ∧ be p 12 1 / 16 * 4 = h.hlen ∧
      bit p 13 0 = h.flags.fin ∧ bit p 13 1 = h.flags.syn ∧ bit p 13 2 = h.flags.rst ∧ bit p 13 4 = h.flags.ack ∧
      bit p 13 5 = h.flags.urg ∧ be p 14 2 = h.win ∧ be p 18 2 = h.urp ∧
      (p.take h.hlen).drop 20 = Tcp.rawAll h.options ∧ p.drop h.hlen = h.data := by
  have hpl := Tcp.frameWith_length h c
  obtain ⟨k1, k2, k3, k4, k5, k6, k7, k8, k9, k10⟩ := hok
  have kh : h.hlen = 20 + (h.options.map Tcp.Opt.len).sum := rfl
  have kn : h.flags.ns.toNat ≤ 1 := by cases h.flags.ns <;> decide
  rw [hp] at hpl
  rw [Tcp.frameWith] at hp
  simp only [List.append_assoc] at hp
  have d20 : p.drop 20 = Tcp.rawAll h.options ++ h.data := by
    rw [← hp]; repeat rw [drop_pack _ (by omega)]
    rfl
  have b12 : be p 12 1 = h.hlen * 4 + h.flags.ns.toNat := by
    rw [← hp]; repeat rw [be_pack_skip _ (by omega)]
    exact be_pack_front _ (by omega)
  have b13 : be p 13 1 = h.flags.byte := by
    rw [← hp]; repeat rw [be_pack_skip _ (by omega)]
    exact be_pack_front _ h.flags.byte_lt
  have rl := Tcp.rawAll_length h.options
  obtain ⟨f1, f2, f3, f4, f5⟩ := flag_bit h.flags
  simp only [bit, b13, f1, f2, f3, f4, f5]
  refine ⟨?_, ?_, ?_, ?_, by rw [b12]; omega, trivial, trivial, trivial, trivial, trivial, ?_, ?_, ?_, ?_⟩
  · rw [← hp]; exact be_pack_front _ k1
  · rw [← hp]; repeat rw [be_pack_skip _ (by omega)]
    exact be_pack_front _ k2
  · rw [← hp]; repeat rw [be_pack_skip _ (by omega)]
    exact be_pack_front _ k3
  · rw [← hp]; repeat rw [be_pack_skip _ (by omega)]
    exact be_pack_front _ k4
  · rw [← hp]; repeat rw [be_pack_skip _ (by omega)]
    exact be_pack_front _ k5
  · rw [← hp]; repeat rw [be_pack_skip _ (by omega)]
    exact be_pack_front _ k6
  · rw [List.drop_take, d20]
    exact List.take_left' (by omega)
  · rw [kh, ← List.drop_drop, d20]
    exact List.drop_left' (by omega)

end Verif
