import Verif.Props.Tx
import Verif.Props.CodecIp4
import Verif.Props.CodecIp6
/-! C27, C28 (fragmentation), C69 (status of a fragmented send), C71 (identification counter). -/
namespace Verif
open Spec (Piece IsFragmentation)

/-- The packet is one whose assembler fills exactly `len` bytes. -/
def L4.WellSized (c : L4) : Prop := ∀ ps d, c.assemble ps = .ok d → d.length = c.len

theorem fragTx_asserts (src dst : Ip4Address) (ttl id proto o : Nat) (mf : Bool) (ht : ttl < 256)
    (hp : proto = 1 ∨ proto = 17 ∨ proto = 6 ∨ proto = 255) :
    (fragTx src dst ttl id proto o mf).asserts = if id ≤ 65535 then .ok () else .error .assertionError := by
  have : (proto == 1 || proto == 17 || proto == 6 || proto == 255) = true := by simp; omega
  by_cases hi : id ≤ 65535
  · simp [fragTx, Ip4.Tx.asserts, this, hi, show ttl ≤ 255 by omega]
  · simp [fragTx, Ip4.Tx.asserts, hi, show ttl ≤ 255 by omega, show decide (id ≤ 65535) = false by simp [hi]]

/-- The value of a call that does not raise. -/
def okOf (r : Py (TxStatus × List Outgoing)) : TxStatus × List Outgoing :=
  match r with
  | .ok x => x
  | .error _ => (.dropEtherResolutionFail, [])

theorem phtxEther_okOf (s : Stack) (arp : ArpLookup) (nd : NdLookup) (es ed : MacAddress) (p : Pkt) :
    phtxEther s arp nd es ed p = .ok (okOf (phtxEther s arp nd es ed p)) := by
  obtain ⟨st, outs, h, -⟩ := (C35_ether s arp nd es ed p).2.2
  rw [h]; rfl

/-- What was queued tells whether the status is success. -/
theorem link_okOf (s : Stack) (arp : ArpLookup) (nd : NdLookup) (es ed : MacAddress) (p : Pkt) :
    ((∃ o, (okOf (phtxEther s arp nd es ed p)).2 = [o] ∧ o.pkt = p) ∨ (okOf (phtxEther s arp nd es ed p)).2 = []) ∧
    ((okOf (phtxEther s arp nd es ed p)).1 = .passedEtherToTxRing ↔ (okOf (phtxEther s arp nd es ed p)).2 ≠ []) := by
  have h := phtxEther_okOf s arp nd es ed p
  generalize okOf (phtxEther s arp nd es ed p) = r at *
  obtain ⟨st, outs⟩ := r
  rcases phtxEther_pkt h with ⟨h1, m, hm⟩ | ⟨h1, hm⟩
  · subst h1; subst hm; simp
  · subst hm; simp [h1]

theorem Spec.IsFragmentation.ne_nil {data : Bytes} {room : Nat} {fs : List Piece} (h : IsFragmentation data room fs)
    (hd : data ≠ []) : fs ≠ [] := by
  rintro rfl
  exact hd (by rw [← h.concat]; rfl)

theorem Spec.IsFragmentation.offset_le {data : Bytes} {room : Nat} {fs : List Piece} (h : IsFragmentation data room fs)
    {f : Piece} (hf : f ∈ fs) : f.offset + f.data.length ≤ data.length := by
  obtain ⟨i, hi⟩ := List.mem_iff_getElem?.mp hf
  have h1 := h.offset i f hi
  have h2 := h.concat
  obtain ⟨hl, he⟩ := List.getElem?_eq_some_iff.mp hi
  have : fs = fs.take i ++ f :: fs.drop (i + 1) := by
    rw [← he, List.getElem_cons_drop, List.take_append_drop]
  rw [this] at h2
  have := congrArg List.length h2
  simp at this h1
  rw [h1]
  omega

/-- The packet of one fragment. -/
def fragPkt (a dst : Ip4Address) (ttl id proto : Nat) (f : Piece) : Pkt :=
  .ip4Frag { src := a, dst := dst, ttl := ttl, dscp := 0, ecn := 0, id := id, df := false, mf := f.mf, offset := f.offset,
             options := [], proto := proto } f.data

/-- What a send of an oversized packet does, in terms of the link layer's answers. -/
theorem phtxIp4_frag {s : Stack} (arp : Nat → ArpLookup) {src dst : Ip4Address} {ttl : Nat} {c : L4} {a : Ip4Address}
    {ps : Nat} {data : Bytes} (hmtu : 28 ≤ s.mtu) (hmtu' : s.mtu < 65536) (hbig : s.mtu < 20 + c.len)
    (ht0 : 0 < ttl) (ht : ttl < 256) (hp : c.proto = 1 ∨ c.proto = 17 ∨ c.proto = 6 ∨ c.proto = 255)
    (ha : validateSrcIp4 s src dst c.kind = .ok a) (hdst : dst ≠ .zero)
    (hps : Ip4.pshdrSum a dst c.proto c.len = .ok ps) (hd : c.assemble ps = .ok data) (hne : data ≠ []) :
    ∃ fs, IsFragmentation data (s.mtu - 20) fs ∧
      (s.ip4Id < 65535 → phtxIp4 s arp src dst ttl c = ({ s with ip4Id := s.ip4Id + 1 }, .ok
        (mostSevere severityIp4 .dropIp4Unknown (fs.map (fun f => (okOf (phtxEther s (arp f.offset) (fun _ => none)
            .zero .zero (fragPkt a dst ttl (s.ip4Id + 1) c.proto f))).1)),
         fs.flatMap (fun f => (okOf (phtxEther s (arp f.offset) (fun _ => none)
            .zero .zero (fragPkt a dst ttl (s.ip4Id + 1) c.proto f))).2)))) ∧
      (65535 ≤ s.ip4Id → phtxIp4 s arp src dst ttl c = ({ s with ip4Id := s.ip4Id + 1 }, .error .assertionError)) := by
  have hh : (packetTx a dst ttl c.proto).hlen = 20 := by rw [Ip4.Tx.hlen_eq]; rfl
  have hroom : (s.mtu - 20) &&& 0b1111111111111000 = (s.mtu - 20) / 8 * 8 := mtu_room (by omega)
  obtain ⟨frags, hfr⟩ : ∃ frags, dataFrags data ((s.mtu - 20) / 8 * 8) = .ok frags := by
    rw [dataFrags, if_neg (by omega)]; exact ⟨_, rfl⟩
  have hF := isFragmentation data _ (s.mtu - 20) frags (by omega) (by omega) hfr
  have hz : ¬ dst.isUnspecified = true := fun e => hdst ((Ip4Address.isUnspecified_iff _).mp e)
  have hmain : phtxIp4 s arp src dst ttl c = ({ s with ip4Id := s.ip4Id + 1 }, do
      let (sts, outs) ← sendFrags (sendFragIp4 { s with ip4Id := s.ip4Id + 1 } arp a dst ttl c.proto (s.ip4Id + 1)) 0 frags
      return (mostSevere severityIp4 .dropIp4Unknown sts, outs)) := by
    rw [phtxIp4, if_neg (by omega), ha]
    simp only [validateDstIp4, if_neg hz, packetTx_asserts a dst ttl c.proto ht hp, hh,
      if_neg (show ¬ 20 + c.len ≤ s.mtu by omega), hps, hd, py_ok_bind, hroom, hfr]
  refine ⟨_, hF, ?_, ?_⟩
  · intro hid
    rw [hmain, sendFrags_ok _ (fun f => okOf (phtxEther s (arp f.offset) (fun _ => none) .zero .zero
      (fragPkt a dst ttl (s.ip4Id + 1) c.proto f)))]
    · simp
    · intro f hf
      rw [sendFragIp4, fragTx_asserts a dst ttl _ c.proto f.offset f.mf ht hp, if_pos (by omega), py_ok_bind]
      exact phtxEther_okOf s _ _ _ _ _
  · intro hid
    rw [hmain]
    cases hfs : frags with
    | nil => rw [hfs] at hF; exact absurd rfl (hF.ne_nil hne)
    | cons d ds =>
      rw [sendFrags, sendFragIp4, fragTx_asserts a dst ttl _ c.proto 0 _ ht hp, if_neg (by omega)]
      simp

/-- What a call that returned tells about its arguments: refused before fragmentation, or everything was fine. -/
theorem phtxIp4_returns {s s' : Stack} {arp : Nat → ArpLookup} {src dst : Ip4Address} {ttl : Nat} {c : L4} {st : TxStatus}
    {outs : List Outgoing} (hbig : s.mtu < 20 + c.len)
    (h : phtxIp4 s arp src dst ttl c = (s', .ok (st, outs))) :
    (outs = [] ∧ (st = .dropIp4SrcNotOwned ∨ st = .dropIp4SrcMulticast ∨ st = .dropIp4SrcLimitedBroadcast ∨
        st = .dropIp4SrcUnspecified ∨ st = .dropIp4DstUnspecified)) ∨
      (0 < ttl ∧ ttl < 256 ∧ (c.proto = 1 ∨ c.proto = 17 ∨ c.proto = 6 ∨ c.proto = 255) ∧ dst ≠ .zero ∧
        ∃ a ps data, validateSrcIp4 s src dst c.kind = .ok a ∧ Ip4.pshdrSum a dst c.proto c.len = .ok ps ∧
          c.assemble ps = .ok data) := by
  rw [phtxIp4] at h
  split at h
  · simp at h
  rename_i ht
  split at h
  · rename_i e he
    simp only [Prod.mk.injEq, Except.ok.injEq] at h
    refine Or.inl ⟨h.2.2.symm, ?_⟩
    rw [← h.2.1]
    rcases (validateSrcIp4_error he).1 with h | h | h | h <;> simp [h]
  rename_i a ha
  rw [validateDstIp4] at h
  by_cases hz : dst.isUnspecified = true
  · simp only [hz, if_true, Prod.mk.injEq, Except.ok.injEq] at h
    exact Or.inl ⟨h.2.2.symm, by rw [← h.2.1]; simp⟩
  have hz' : dst ≠ .zero := fun e => hz ((Ip4Address.isUnspecified_iff _).mpr e)
  rw [if_neg hz] at h
  simp only [] at h
  split at h
  · simp at h
  rename_i hA
  have hp : c.proto = 1 ∨ c.proto = 17 ∨ c.proto = 6 ∨ c.proto = 255 := by
    by_cases hp : (c.proto == 1 || c.proto == 17 || c.proto == 6 || c.proto == 255) = true
    · simpa [or_assoc] using hp
    · rw [Bool.not_eq_true] at hp
      simp [packetTx, Ip4.Tx.asserts, hp, show ttl ≤ 255 by omega] at hA
  have hh : (packetTx a dst ttl c.proto).hlen = 20 := by rw [Ip4.Tx.hlen_eq]; rfl
  rw [hh, if_neg (by omega)] at h
  cases hps : Ip4.pshdrSum a dst c.proto c.len with
  | error e => rw [hps] at h; simp at h
  | ok ps =>
    cases hd : c.assemble ps with
    | error e => simp [hps, hd] at h
    | ok data => exact Or.inr ⟨by omega, by omega, hp, hz', a, ps, data, ha, hps, hd⟩

theorem pshdr_len {a d : Ip4Address} {p n ps : Nat} (h : Ip4.pshdrSum a d p n = .ok ps) : n < 65536 := by
  rw [Ip4.pshdrSum] at h
  by_cases hn : n < 65536
  · exact hn
  · exfalso
    have : packH n = .error .structError := by rw [packH, if_neg (by omega)]
    rw [this] at h
    cases h1 : packB 0 with
    | error e => rw [h1] at h; simp at h
    | ok z =>
      cases h2 : packB p with
      | error e => rw [h1, h2] at h; simp at h
      | ok z => rw [h1, h2] at h; simp at h

/-- A flat map that yields for each element its image or nothing. -/
theorem flatMap_sublist {α β γ : Type} (fs : List α) (k : α → List β) (v : β → γ) (w : α → γ)
    (h : ∀ f ∈ fs, (∃ b, k f = [b] ∧ v b = w f) ∨ k f = []) :
    ((fs.flatMap k).map v).Sublist (fs.map w) ∧
      ((fs.flatMap k).map v = fs.map w ↔ ∀ f ∈ fs, k f ≠ []) := by
  induction fs with
  | nil => simp
  | cons f fs ih =>
    obtain ⟨i1, i2⟩ := ih (fun x hx => h x (by simp [hx]))
    rcases h f (by simp) with ⟨b, hb, hv⟩ | hb
    · constructor
      · simp [hb, hv, i1]
      · simp only [List.flatMap_cons, hb, List.map_append, List.map_cons, List.map_nil, hv, List.singleton_append,
          List.cons.injEq, true_and, List.forall_mem_cons, i2]
        simp
    · constructor
      · simp only [List.flatMap_cons, hb, List.nil_append, List.map_cons]
        exact i1.trans (List.sublist_cons_self _ _)
      · simp only [List.flatMap_cons, hb, List.nil_append, List.map_cons, List.forall_mem_cons]
        constructor
        · intro he
          have := i1.length_le
          rw [he] at this
          simp at this
          omega
        · rintro ⟨h, -⟩; exact absurd rfl h

/-- How bad an outcome is, the documented order. -/
def rank4 : TxStatus → Nat
  | .passedEtherToTxRing => 0
  | .dropEtherGatewayArpCacheFail => 1
  | .dropEtherArpCacheFail => 2
  | .dropEtherNoGatewayIp4 => 3
  | .dropEtherResolutionFail => 4
  | _ => 5

def rank6 : TxStatus → Nat
  | .passedEtherToTxRing => 0
  | .dropEtherGatewayNdCacheFail => 1
  | .dropEtherNdCacheFail => 2
  | .dropEtherNoGatewayIp6 => 3
  | .dropEtherResolutionFail => 4
  | _ => 5

theorem mostSevere_worst (order : List TxStatus) (u : TxStatus) (rank : TxStatus → Nat)
    (hr : order.Pairwise (fun x y => rank y ≤ rank x)) (sts : List TxStatus) (hne : sts ≠ [])
    (h : ∀ x ∈ sts, x ∈ order) :
    mostSevere order u sts ∈ sts ∧ ∀ x ∈ sts, rank x ≤ rank (mostSevere order u sts) := by
  rw [mostSevere]
  cases hf : order.find? (· ∈ sts) with
  | none =>
    obtain ⟨x, hx⟩ := List.exists_mem_of_ne_nil _ hne
    rw [List.find?_eq_none] at hf
    exact absurd (by simpa using hx) (hf x (h x hx))
  | some y =>
    rw [Option.getD_some]
    rw [List.find?_eq_some_iff_append] at hf
    obtain ⟨h1, b, a, rfl, h2⟩ := hf
    refine ⟨by simpa using h1, ?_⟩
    intro x hx
    have := h x hx
    rw [List.mem_append, List.mem_cons] at this
    rcases this with hb | rfl | ha
    · have := h2 x hb; simp [hx] at this
    · exact Nat.le_refl _
    · rw [List.pairwise_append, List.pairwise_cons] at hr
      exact hr.2.1.1 x ha

/-- The outcomes the link layer can have for an IPv4 packet. -/
theorem link_ip4_status (s : Stack) (arp : ArpLookup) (nd : NdLookup) (p : Pkt) (hd : Ip4.Tx) (hp : p.ip4Hdr = some hd) :
    (okOf (phtxEther s arp nd .zero .zero p)).1 ∈ severityIp4 := by
  rw [phtxEther_ip4 s arp nd p hd hp]
  have : ∀ e, etherDstIp4 s arp hd.src hd.dst = .ok (.error e) → e ∈ severityIp4 := by
    intro e he
    rw [etherDstIp4] at he
    split at he
    · simp only [bind, Except.bind, pure, Except.pure] at he
      split at he <;> simp at he
    · (repeat' split at he) <;> simp at he <;> subst he <;> decide
  cases h : etherDstIp4 s arp hd.src hd.dst with
  | error e => exact (by decide : TxStatus.dropEtherResolutionFail ∈ severityIp4)
  | ok r =>
    cases r with
    | ok m => exact (by decide : TxStatus.passedEtherToTxRing ∈ severityIp4)
    | error e => exact this e h

/-- C27: if sending a packet that does not fit the MTU queues anything, then the queued packets are fragments of one
fragmentation of the bytes of the carried packet, in order, all with the same addresses, TTL, protocol and identification
(one more than the last one used); all of them are queued exactly when the call reports success.  Each fragment's wire
form fits the MTU and, for an ordinary source address, the receiving parser reads all of this back. -/
theorem C27_ip4_fragmentation {s s' : Stack} {arp : Nat → ArpLookup} {src dst : Ip4Address} {ttl : Nat} {c : L4}
    {st : TxStatus} {outs : List Outgoing} (hmtu : 28 ≤ s.mtu) (hmtu' : s.mtu < 65536) (hws : c.WellSized)
    (hbig : s.mtu < 20 + c.len) (h : phtxIp4 s arp src dst ttl c = (s', .ok (st, outs)))
    (hq : outs ≠ [] ∨ st = .passedEtherToTxRing) :
    ∃ a ps data fs, Ip4.pshdrSum a dst c.proto c.len = .ok ps ∧ c.assemble ps = .ok data ∧
      IsFragmentation data (s.mtu - 20) fs ∧ s' = { s with ip4Id := s.ip4Id + 1 } ∧
      (outs.map (·.pkt)).Sublist (fs.map (fragPkt a dst ttl (s.ip4Id + 1) c.proto)) ∧
      (st = .passedEtherToTxRing ↔ outs.map (·.pkt) = fs.map (fragPkt a dst ttl (s.ip4Id + 1) c.proto)) ∧
      ∀ f ∈ fs, ∃ hd b, fragPkt a dst ttl (s.ip4Id + 1) c.proto f = .ip4Frag hd f.data ∧
        Ip4.assembleFrag hd f.data = .ok b ∧ b.length ≤ s.mtu ∧
        (a.isMulticast = false → a.isReserved = false → a.isLimitedBroadcast = false → ∀ pad,
          Ip4.parse (b ++ pad) = .ok none ∧ ∃ r, Ip4.read (b ++ pad) = .ok r ∧ r.src = a ∧ r.dst = dst ∧ r.ttl = ttl ∧
            r.proto = c.proto ∧ r.id = s.ip4Id + 1 ∧ r.offset = f.offset ∧ r.mf = f.mf ∧ r.df = false ∧
            r.dataCopy = f.data) := by
  rcases phtxIp4_returns hbig h with ⟨h1, h2⟩ | ⟨ht0, ht, hp, hdst, a, ps, data, ha, hps, hd⟩
  · rcases hq with hq | hq
    · exact absurd h1 hq
    · rw [hq] at h2; simp at h2
  have hlen := hws ps data hd
  have hn := pshdr_len hps
  have hne : data ≠ [] := by intro he; rw [he] at hlen; simp at hlen; omega
  obtain ⟨fs, hF, hok, hbad⟩ := phtxIp4_frag arp hmtu hmtu' hbig ht0 ht hp ha hdst hps hd hne
  rcases Nat.lt_or_ge s.ip4Id 65535 with hid | hid
  case inr => rw [hbad (by omega)] at h; simp at h
  rw [hok hid] at h
  simp only [Prod.mk.injEq, Except.ok.injEq] at h
  obtain ⟨hs', hst, hout⟩ := h
  have key := flatMap_sublist fs (fun f => (okOf (phtxEther s (arp f.offset) (fun _ => none)
            .zero .zero (fragPkt a dst ttl (s.ip4Id + 1) c.proto f))).2) (·.pkt) (fragPkt a dst ttl (s.ip4Id + 1) c.proto) (
      fun f _ => (link_okOf s _ _ _ _ _).1)
  rw [hout] at key
  refine ⟨a, ps, data, fs, hps, hd, hF, hs'.symm, key.1, ?_, ?_⟩
  · rw [key.2, ← hst]
    have hsev := mostSevere_worst severityIp4 .dropIp4Unknown rank4 (by decide)
      (fs.map (fun f => (okOf (phtxEther s (arp f.offset) (fun _ => none)
            .zero .zero (fragPkt a dst ttl (s.ip4Id + 1) c.proto f))).1)) (by simpa using hF.ne_nil hne) (by
        intro x hx
        obtain ⟨f, hf, rfl⟩ := List.mem_map.mp hx
        exact link_ip4_status s _ _ _ _ rfl)
    constructor
    · intro hpass f hf
      have := hsev.2 _ (List.mem_map_of_mem hf)
      rw [hpass] at this
      have h0 : (okOf (phtxEther s (arp f.offset) (fun _ => none)
            .zero .zero (fragPkt a dst ttl (s.ip4Id + 1) c.proto f))).1 = .passedEtherToTxRing := by
        have hm := link_ip4_status s (arp f.offset) (fun _ => none) (fragPkt a dst ttl (s.ip4Id + 1) c.proto f) _ rfl
        revert this hm
        generalize (okOf (phtxEther s (arp f.offset) (fun _ => none)
            .zero .zero (fragPkt a dst ttl (s.ip4Id + 1) c.proto f))).1 = x
        intro h1 h2
        cases x <;> first | rfl | (revert h1; decide) 
      exact (link_okOf s _ _ _ _ _).2.mp h0
    · intro hall
      obtain ⟨f, hf, he⟩ := List.mem_map.mp hsev.1
      rw [← he]
      exact (link_okOf s _ _ _ _ _).2.mpr (hall f hf)
  · intro f hf
    have h1 := hF.offset_le hf
    have h2 := hF.fits f hf
    have h3 := hF.aligned f hf
    have hOk : (fragTx a dst ttl (s.ip4Id + 1) c.proto f.offset f.mf).Ok f.data.length := by
      refine ⟨by simp [fragTx]; omega, by simp [fragTx], by simp [fragTx], by simp [fragTx]; omega, hp, by simp [fragTx],
        by simp [fragTx], by simp [fragTx]; omega, h3, by simp [fragTx]; omega⟩
    obtain ⟨ps', hps'⟩ : ∃ ps', Ip4.pshdrSum a dst c.proto f.data.length = .ok ps' :=
      ⟨_, Ip4.pshdr_ok a dst c.proto f.data.length (by omega) (by omega)⟩
    obtain ⟨b, hb, hbl⟩ : ∃ b, Ip4.assembleFrag (fragTx a dst ttl (s.ip4Id + 1) c.proto f.offset f.mf) f.data = .ok b ∧
        b.length = 20 + f.data.length := by
      refine ⟨_, Ip4.assembleFrag_ok _ _ hOk, ?_⟩
      rw [List.length_append, Ip4.headerWith_length, Ip4.Tx.hlen_eq]
      rfl
    refine ⟨_, b, rfl, hb, by omega, ?_⟩
    · intro m1 m2 m3 pad
      have hS : (fragTx a dst ttl (s.ip4Id + 1) c.proto f.offset f.mf).Sane := ⟨m1, m2, m3, by simp [fragTx]⟩
      obtain ⟨b', e1, e2, e3, e4⟩ := C16_ip4_frag_roundtrip _ f.data pad ps' hOk hS hps'
      obtain ⟨p1, p2⟩ := e4 (e3 rfl)
      have : b' = b := by
        rw [hb] at e1
        injection e1 with e1
        exact e1.symm
      rw [this] at p1 p2
      exact ⟨p1, _, p2, rfl, rfl, rfl, rfl, rfl, rfl, rfl, rfl, rfl⟩

/-- C27: such a send does go through: with a packet the stack can build, identifications left and the next hop known
throughout, every fragment is queued. -/
theorem C27_ip4_fragmentation_succeeds {s : Stack} (arp : Nat → ArpLookup) {src dst a : Ip4Address} {ttl : Nat} {c : L4}
    (hmtu : 28 ≤ s.mtu) (hmtu' : s.mtu < 65536) (hbig : s.mtu < 20 + c.len) (hlen : c.len < 65536)
    (hp : c.proto = 1 ∨ c.proto = 17 ∨ c.proto = 6 ∨ c.proto = 255) (hd : ∀ ps, ∃ d, c.assemble ps = .ok d ∧ d.length = c.len)
    (ht0 : 0 < ttl) (ht : ttl < 256) (hid : s.ip4Id < 65535) (hdst : dst ≠ .zero)
    (ha : validateSrcIp4 s src dst c.kind = .ok a)
    (hop : ∀ o p hd, p.ip4Hdr = some hd → hd.src = a → hd.dst = dst →
      ∃ m, SentTo s p (phtxEther s (arp o) (fun _ => none) .zero .zero p) m) :
    ∃ outs, phtxIp4 s arp src dst ttl c = ({ s with ip4Id := s.ip4Id + 1 }, .ok (.passedEtherToTxRing, outs)) := by
  obtain ⟨ps, hps⟩ : ∃ ps, Ip4.pshdrSum a dst c.proto c.len = .ok ps := ⟨_, Ip4.pshdr_ok a dst c.proto c.len (by omega) hlen⟩
  obtain ⟨d, h1, h2⟩ := hd ps
  have hne : d ≠ [] := by intro he; rw [he] at h2; simp at h2; omega
  obtain ⟨fs, hF, hok, -⟩ := phtxIp4_frag arp hmtu hmtu' hbig ht0 ht hp ha hdst hps h1 hne
  have hok := hok hid
  have hall : ∀ x ∈ fs.map (fun f => (okOf (phtxEther s (arp f.offset) (fun _ => none)
            .zero .zero (fragPkt a dst ttl (s.ip4Id + 1) c.proto f))).1), x = .passedEtherToTxRing := by
    intro x hx
    obtain ⟨f, hf, rfl⟩ := List.mem_map.mp hx
    obtain ⟨m, hm⟩ := hop f.offset (fragPkt a dst ttl (s.ip4Id + 1) c.proto f) _ rfl rfl rfl
    rw [SentTo] at hm
    simp only [hm, okOf]
  have hsev := mostSevere_worst severityIp4 .dropIp4Unknown rank4 (by decide)
      (fs.map (fun f => (okOf (phtxEther s (arp f.offset) (fun _ => none)
            .zero .zero (fragPkt a dst ttl (s.ip4Id + 1) c.proto f))).1)) (by simpa using hF.ne_nil hne) (by
        intro x hx; rw [hall x hx]; decide)
  rw [hall _ hsev.1] at hok
  exact ⟨_, hok⟩

/-- C69 for IPv4: the status of a fragmented send is that of one of its fragments, and none fared worse (in particular it
reports success only if every fragment was queued).  `res` is what the link layer answered for each fragment. -/
theorem C69_ip4_status {s s' : Stack} {arp : Nat → ArpLookup} {src dst : Ip4Address} {ttl : Nat} {c : L4}
    {st : TxStatus} {outs : List Outgoing} (hmtu : 28 ≤ s.mtu) (hmtu' : s.mtu < 65536) (hws : c.WellSized)
    (hbig : s.mtu < 20 + c.len) (h : phtxIp4 s arp src dst ttl c = (s', .ok (st, outs))) :
    (outs = [] ∧ (st = .dropIp4SrcNotOwned ∨ st = .dropIp4SrcMulticast ∨ st = .dropIp4SrcLimitedBroadcast ∨
        st = .dropIp4SrcUnspecified ∨ st = .dropIp4DstUnspecified)) ∨
    ∃ a fs, ∃ res : Piece → TxStatus × List Outgoing, fs ≠ [] ∧
      (∀ f ∈ fs, phtxEther s (arp f.offset) (fun _ => none) .zero .zero (fragPkt a dst ttl (s.ip4Id + 1) c.proto f) =
        .ok (res f)) ∧
      outs = fs.flatMap (fun f => (res f).2) ∧
      (∃ f ∈ fs, st = (res f).1) ∧ (∀ f ∈ fs, rank4 (res f).1 ≤ rank4 st) ∧ rank4 st ≤ 4 := by
  rcases phtxIp4_returns hbig h with h1 | ⟨ht0, ht, hp, hdst, a, ps, data, ha, hps, hd⟩
  · exact Or.inl h1
  · right
    have hlen := hws ps data hd
    have hne : data ≠ [] := by intro he; rw [he] at hlen; simp at hlen; omega
    obtain ⟨fs, hF, hok, hbad⟩ := phtxIp4_frag arp hmtu hmtu' hbig ht0 ht hp ha hdst hps hd hne
    rcases Nat.lt_or_ge s.ip4Id 65535 with hid | hid
    case inr => rw [hbad (by omega)] at h; simp at h
    rw [hok hid] at h
    simp only [Prod.mk.injEq, Except.ok.injEq] at h
    obtain ⟨-, hst, hout⟩ := h
    have hsev := mostSevere_worst severityIp4 .dropIp4Unknown rank4 (by decide)
      (fs.map (fun f => (okOf (phtxEther s (arp f.offset) (fun _ => none)
            .zero .zero (fragPkt a dst ttl (s.ip4Id + 1) c.proto f))).1)) (by simpa using hF.ne_nil hne) (by
        intro x hx
        obtain ⟨f, hf, rfl⟩ := List.mem_map.mp hx
        exact link_ip4_status s _ _ _ _ rfl)
    rw [hst] at hsev
    refine ⟨a, fs, fun f => okOf (phtxEther s (arp f.offset) (fun _ => none)
            .zero .zero (fragPkt a dst ttl (s.ip4Id + 1) c.proto f)), hF.ne_nil hne, ?_, hout.symm, ?_, ?_, ?_⟩
    · intro f hf; exact phtxEther_okOf _ _ _ _ _ _
    · obtain ⟨f, hf, he⟩ := List.mem_map.mp hsev.1
      exact ⟨f, hf, he.symm⟩
    · intro f hf; exact hsev.2 _ (List.mem_map_of_mem hf)
    · obtain ⟨f, hf, he⟩ := List.mem_map.mp hsev.1
      have := link_ip4_status s (arp f.offset) (fun _ => none) (fragPkt a dst ttl (s.ip4Id + 1) c.proto f) _ rfl
      rw [he] at this
      revert this; cases st <;> decide

/-! ### C71 -/

/-- A request to send that would have to be fragmented and that nothing else stands in the way of. -/
structure FragRequest (s : Stack) where
  src : Ip4Address
  dst : Ip4Address
  ttl : Nat
  c : L4
  arp : Nat → ArpLookup
  big : s.mtu < 20 + c.len
  notTooBig : c.len < 65536
  ttl_pos : 0 < ttl
  ttl_lt : ttl < 256
  proto : c.proto = 1 ∨ c.proto = 17 ∨ c.proto = 6 ∨ c.proto = 255
  builds : ∀ ps, ∃ d, c.assemble ps = .ok d ∧ d.length = c.len
  dst_ok : dst ≠ .zero
  src_ok : ∃ a, validateSrcIp4 s src dst c.kind = .ok a

/-- The results of carrying out requests one after the other. -/
def sendAll {s₀ : Stack} : Stack → List (FragRequest s₀) → List (Py (TxStatus × List Outgoing))
  | _, [] => []
  | s, r :: rs => (phtxIp4 s r.arp r.src r.dst r.ttl r.c).2 :: sendAll (phtxIp4 s r.arp r.src r.dst r.ttl r.c).1 rs

/-- C71 is false: of any sequence of sends that need fragmentation, starting with a fresh stack, exactly those from the
65536th on raise `AssertionError`, for ever (the identification is not reduced modulo 2^16). -/
theorem C71_exhausted_witness (s : Stack) (hmtu : 28 ≤ s.mtu) (hmtu' : s.mtu < 65536) (hid : s.ip4Id = 0)
    (rs : List (FragRequest s)) (n : Nat) (hn : n < rs.length) :
    (n < 65535 → ∃ r, (sendAll s rs)[n]? = some (.ok r)) ∧
    (65535 ≤ n → (sendAll s rs)[n]? = some (.error .assertionError)) := by
  suffices ∀ k, (n + k < 65535 → ∃ r, (sendAll { s with ip4Id := k } rs)[n]? = some (.ok r)) ∧
      (65535 ≤ n + k → (sendAll { s with ip4Id := k } rs)[n]? = some (.error .assertionError)) by
    have h0 : { s with ip4Id := 0 } = s := by cases s; simp at hid; simp [hid]
    have := this 0
    rwa [h0] at this
  clear hid
  induction rs generalizing n with
  | nil => simp at hn
  | cons r rs ih =>
    intro k
    obtain ⟨a, ha⟩ := r.src_ok
    have ha' : validateSrcIp4 { s with ip4Id := k } r.src r.dst r.c.kind = .ok a := ha
    obtain ⟨ps, hps⟩ : ∃ ps, Ip4.pshdrSum a r.dst r.c.proto r.c.len = .ok ps :=
      ⟨_, Ip4.pshdr_ok a r.dst r.c.proto r.c.len (by have := r.proto; omega) r.notTooBig⟩
    obtain ⟨d, h1, h2⟩ := r.builds ps
    have hbig := r.big
    have hne : d ≠ [] := by intro he; rw [he] at h2; simp at h2; omega
    obtain ⟨fs, hF, hok, hbad⟩ := phtxIp4_frag (s := { s with ip4Id := k }) r.arp hmtu hmtu' r.big r.ttl_pos r.ttl_lt
      r.proto ha' r.dst_ok hps h1 hne
    have hst : (phtxIp4 { s with ip4Id := k } r.arp r.src r.dst r.ttl r.c).1 = { s with ip4Id := k + 1 } := by
      rcases Nat.lt_or_ge k 65535 with h | h
      · rw [hok h]
      · rw [hbad h]
    cases n with
    | zero =>
      simp only [sendAll, List.getElem?_cons_zero, Option.some.injEq]
      constructor
      · intro h; exact ⟨_, by rw [hok (by simpa using h)]⟩
      · intro h; rw [hbad (by simpa using h)]
    | succ n =>
      simp only [sendAll, List.getElem?_cons_succ, hst]
      have := ih n (by simpa using hn) (k + 1)
      rwa [show n + (k + 1) = n + 1 + k by omega] at this


/-! ### IPv6 -/

/-- The stack's own addresses are ordinary: specified and not among the joined groups. -/
def Stack.PlainIp6 (s : Stack) : Prop := ∀ h ∈ s.ip6Host, h.address ≠ .zero ∧ h.address ∉ s.ip6Multicast

/-- The packet of one IPv6 fragment: hop limit 64, next header 44, carrying the fragment header. -/
def frag6Pkt (a dst : Ip6Address) (id next : Nat) (f : Piece) : Pkt :=
  .ip6 { src := a, dst := dst, hop := 64, dscp := 0, ecn := 0, flow := 0 } (Ip6Frag.carried next f.offset f.mf id f.data)

theorem validateSrcIp6_again {s : Stack} {src dst a : Ip6Address} {k : L4Kind} (hs : s.PlainIp6)
    (h : validateSrcIp6 s src dst k = .ok a) (hz : a ≠ .zero) : validateSrcIp6 s a dst .other = .ok a := by
  rcases validateSrcIp6_owned h with h1 | ⟨h1, -⟩
  · rw [Stack.ip6Unicast, List.mem_map] at h1
    obtain ⟨x, hx, rfl⟩ := h1
    obtain ⟨-, h3⟩ := hs x hx
    rw [validateSrcIp6, if_neg (fun h => h (Or.inl (List.mem_map_of_mem hx))), if_neg h3,
      if_neg (fun e => hz ((Ip6Address.isUnspecified_iff _).mp e))]
  · exact absurd h1 hz

theorem validateSrcIp6_zero_other {s : Stack} {src dst : Ip6Address} {k : L4Kind} (hs : s.PlainIp6)
    (h : validateSrcIp6 s src dst k = .ok .zero) : validateSrcIp6 s .zero dst .other = .error .dropIp6SrcUnspecified := by
  have hno : ∀ {a}, a ∈ s.ip6Host.map (·.address) → a ≠ Ip6Address.zero := by
    intro a ha; obtain ⟨x, hx, rfl⟩ := List.mem_map.mp ha; exact (hs x hx).1
  rw [validateSrcIp6] at h
  split at h
  · cases h
  split at h
  · split at h
    · rename_i a t hu
      injection h with h
      exact absurd h (hno (a := a) (by show a ∈ s.ip6Unicast; rw [hu]; simp))
    · cases h
  rename_i hown hnm
  split at h
  · rename_i hz
    have hz := (Ip6Address.isUnspecified_iff _).mp hz
    subst hz
    split at h
    · rename_i b hb; injection h with h; exact absurd h (hno (firstAddr6_mem hb))
    · rename_i h1
      split at h
      · rename_i b hb; injection h with h; exact absurd h (hno (firstAddr6_mem hb))
      · rename_i h2
        rw [validateSrcIp6, if_neg hown, if_neg hnm, if_pos hz, h1, h2]
        rfl
  · rename_i hz
    injection h with h
    exact absurd ((Ip6Address.isUnspecified_iff _).mpr h) hz

/-- What a send of an oversized IPv6 packet does, in terms of the link layer's answers. -/
theorem phtxIp6_frag {s : Stack} (nd : Nat → NdLookup) {src dst : Ip6Address} {hop : Nat} {c : L4} {a : Ip6Address}
    {ps : Nat} {data : Bytes} (hs : s.PlainIp6) (hmtu : 56 ≤ s.mtu) (hmtu' : s.mtu < 65536) (hbig : s.mtu < 40 + c.len)
    (ht0 : 0 < hop) (ht : hop < 256) (hp : c.proto = 58 ∨ c.proto = 17 ∨ c.proto = 6 ∨ c.proto = 255)
    (ha : validateSrcIp6 s src dst c.kind = .ok a) (hdst : dst ≠ .zero)
    (hps : Ip6.pshdrSum a dst c.len c.proto = .ok ps) (hd : c.assemble ps = .ok data) (hne : data ≠ []) :
    ∃ fs, IsFragmentation data (s.mtu - 48) fs ∧
      (a ≠ .zero → phtxIp6 s nd src dst hop c = ({ s with ip6Id := s.ip6Id + 1 }, .ok
        (mostSevere severityIp6 .dropIp6ExtFragUnknown (fs.map (fun f => (okOf (phtxEther s (fun _ => none) (nd f.offset)
            .zero .zero (frag6Pkt a dst (s.ip6Id + 1) c.proto f))).1)),
         fs.flatMap (fun f => (okOf (phtxEther s (fun _ => none) (nd f.offset)
            .zero .zero (frag6Pkt a dst (s.ip6Id + 1) c.proto f))).2)))) ∧
      (a = .zero → phtxIp6 s nd src dst hop c = ({ s with ip6Id := s.ip6Id + 1 }, .ok (.dropIp6ExtFragUnknown, []))) := by
  have hroom : (s.mtu - 40 - 8) &&& 0b1111111111111000 = (s.mtu - 48) / 8 * 8 := mtu_room (by omega)
  obtain ⟨frags, hfr⟩ : ∃ frags, dataFrags data ((s.mtu - 48) / 8 * 8) = .ok frags := by
    rw [dataFrags, if_neg (by omega)]; exact ⟨_, rfl⟩
  have hF := isFragmentation data _ (s.mtu - 48) frags (by omega) (by omega) hfr
  have hz : ¬ dst.isUnspecified = true := fun e => hdst ((Ip6Address.isUnspecified_iff _).mp e)
  have hsm : phtxIp6Small s (nd 0) src dst hop c = .ok (.inr (a, dst)) := by
    simp only [phtxIp6Small, ht0, ht, ha, validateDstIp6, if_neg hz, packetTx6_asserts a dst hop c.proto ht (by omega),
      if_neg (show ¬ 40 + c.len ≤ s.mtu by omega), decide_true, Bool.and_self, pyAssert_true, py_ok_bind, py_pure]
  have hmain : phtxIp6 s nd src dst hop c = ({ s with ip6Id := s.ip6Id + 1 }, do
      let (sts, outs) ← sendFrags (sendFragIp6 { s with ip6Id := s.ip6Id + 1 } nd a dst c.proto (s.ip6Id + 1)) 0 frags
      return (mostSevere severityIp6 .dropIp6ExtFragUnknown sts, outs)) := by
    simp only [phtxIp6, hsm, hps, hd, py_ok_bind, hroom, hfr]
  have hnx : pyAssert (c.proto == 58 || c.proto == 17 || c.proto == 6 || c.proto == 255) = .ok () := by
    have : (c.proto == 58 || c.proto == 17 || c.proto == 6 || c.proto == 255) = true := by simp; omega
    rw [this]; rfl
  refine ⟨_, hF, ?_, ?_⟩
  · intro haz
    have ha' := validateSrcIp6_again hs ha haz
    have ha'' : validateSrcIp6 { s with ip6Id := s.ip6Id + 1 } a dst .other = .ok a := ha'
    rw [hmain, sendFrags_ok _ (fun f => okOf (phtxEther s (fun _ => none) (nd f.offset) .zero .zero
      (frag6Pkt a dst (s.ip6Id + 1) c.proto f)))]
    · simp
    · intro f hf
      have hl := hF.fits f hf
      rw [sendFragIp6, hnx, py_ok_bind]
      have e : phtxEther { s with ip6Id := s.ip6Id + 1 } (fun _ => none) (nd f.offset) .zero .zero
          (.ip6 (packetTx6 a dst 64) (Ip6Frag.carried c.proto f.offset f.mf (s.ip6Id + 1) f.data)) =
          .ok (okOf (phtxEther s (fun _ => none) (nd f.offset) .zero .zero
            (frag6Pkt a dst (s.ip6Id + 1) c.proto f))) := phtxEther_okOf s _ _ _ _ _
      have hl' : 40 + (Ip6Frag.carried c.proto f.offset f.mf (s.ip6Id + 1) f.data).len ≤ s.mtu := by
        simp only [Ip6Frag.carried]; omega
      simp only [phtxIp6Small, ha'', validateDstIp6, if_neg hz, if_pos hl', e,
        show (Ip6Frag.carried c.proto f.offset f.mf (s.ip6Id + 1) f.data).proto = 44 from rfl,
        packetTx6_asserts a dst 64 44 (by omega) (by omega)]
      simp
  · intro haz
    subst haz
    have ha' := validateSrcIp6_zero_other hs ha
    have ha'' : validateSrcIp6 { s with ip6Id := s.ip6Id + 1 } .zero dst .other = .error .dropIp6SrcUnspecified := ha'
    rw [hmain, sendFrags_ok _ (fun f => (.dropIp6SrcUnspecified, []))]
    · have hsev : mostSevere severityIp6 .dropIp6ExtFragUnknown
          ((piecesOf 0 frags).map (fun _ => TxStatus.dropIp6SrcUnspecified)) = .dropIp6ExtFragUnknown := by
        rw [mostSevere, List.find?_eq_none.mpr]
        · rfl
        · intro x hx
          simp only [severityIp6, List.mem_cons, List.not_mem_nil, or_false] at hx
          rcases hx with rfl | rfl | rfl | rfl | rfl <;> simp
      simp only [py_ok_bind, py_pure, hsev]
      simp
    · intro f hf
      rw [sendFragIp6, hnx, py_ok_bind]
      simp only [phtxIp6Small, ha'']
      simp

theorem link_ip6_status (s : Stack) (arp : ArpLookup) (nd : NdLookup) (p : Pkt) (hd : Ip6.Tx) (hp : p.ip6Hdr = some hd) :
    (okOf (phtxEther s arp nd .zero .zero p)).1 ∈ severityIp6 := by
  rw [phtxEther_ip6 s arp nd p hd hp]
  have : ∀ e, etherDstIp6 s nd hd.src hd.dst = .ok (.error e) → e ∈ severityIp6 := by
    intro e he
    rw [etherDstIp6] at he
    split at he
    · simp only [bind, Except.bind, pure, Except.pure] at he
      split at he <;> simp at he
    · (repeat' split at he) <;> simp at he <;> subst he <;> decide
  cases h : etherDstIp6 s nd hd.src hd.dst with
  | error e => exact (by decide : TxStatus.dropEtherResolutionFail ∈ severityIp6)
  | ok r =>
    cases r with
    | ok m => exact (by decide : TxStatus.passedEtherToTxRing ∈ severityIp6)
    | error e => exact this e h

theorem validateSrcIp6_error {s : Stack} {src dst : Ip6Address} {k : L4Kind} {e : TxStatus}
    (h : validateSrcIp6 s src dst k = .error e) :
    e = .dropIp6SrcNotOwned ∨ e = .dropIp6SrcMulticast ∨ e = .dropIp6SrcUnspecified := by
  rw [validateSrcIp6] at h
  (repeat' split at h) <;> simp at h <;> subst h <;> simp

theorem phtxIp6_returns {s s' : Stack} {nd : Nat → NdLookup} {src dst : Ip6Address} {hop : Nat} {c : L4} {st : TxStatus}
    {outs : List Outgoing} (hbig : s.mtu < 40 + c.len) (hx : c.proto ≠ 44) (hws : c.WellSized)
    (hmtu : 56 ≤ s.mtu)
    (h : phtxIp6 s nd src dst hop c = (s', .ok (st, outs))) :
    (outs = [] ∧ (st = .dropIp6SrcNotOwned ∨ st = .dropIp6SrcMulticast ∨ st = .dropIp6SrcUnspecified ∨
        st = .dropIp6DstUnspecified)) ∨
      (0 < hop ∧ hop < 256 ∧ (c.proto = 58 ∨ c.proto = 17 ∨ c.proto = 6 ∨ c.proto = 255) ∧ dst ≠ .zero ∧
        ∃ a ps data, validateSrcIp6 s src dst c.kind = .ok a ∧ Ip6.pshdrSum a dst c.len c.proto = .ok ps ∧
          c.assemble ps = .ok data) := by
  rw [phtxIp6] at h
  have ht : 0 < hop ∧ hop < 256 := by
    apply Classical.byContradiction
    intro hn
    have : (decide (0 < hop) && decide (hop < 256)) = false := by simp; omega
    simp [phtxIp6Small, this] at h
  cases hv : validateSrcIp6 s src dst c.kind with
  | error e =>
    simp only [phtxIp6Small, ht, hv, decide_true, Bool.and_self, pyAssert_true, py_ok_bind, py_pure, Prod.mk.injEq,
      Except.ok.injEq] at h
    refine Or.inl ⟨h.2.2.symm, ?_⟩
    rw [← h.2.1]
    rcases validateSrcIp6_error hv with h | h | h <;> simp [h]
  | ok a =>
    by_cases hz : dst.isUnspecified = true
    · simp only [phtxIp6Small, ht, hv, validateDstIp6, hz, if_true, decide_true, Bool.and_self, pyAssert_true, py_ok_bind,
        py_pure, Prod.mk.injEq, Except.ok.injEq] at h
      exact Or.inl ⟨h.2.2.symm, by rw [← h.2.1]; simp⟩
    have hz' : dst ≠ .zero := fun e => hz ((Ip6Address.isUnspecified_iff _).mpr e)
    have hp : c.proto = 58 ∨ c.proto = 17 ∨ c.proto = 6 ∨ c.proto = 255 := by
      by_cases hp : (c.proto == 58 || c.proto == 17 || c.proto == 6 || c.proto == 44 || c.proto == 255) = true
      · simp [or_assoc] at hp; omega
      · rw [Bool.not_eq_true] at hp
        have : ip6Asserts (packetTx6 a dst hop) c.proto = .error .assertionError := by
          simp [ip6Asserts, hp, packetTx6, show hop ≤ 255 by omega]
        simp [phtxIp6Small, ht, hv, validateDstIp6, hz, this] at h
    have hsm : phtxIp6Small s (nd 0) src dst hop c = .ok (.inr (a, dst)) := by
      simp only [phtxIp6Small, ht, hv, validateDstIp6, if_neg hz, packetTx6_asserts a dst hop c.proto ht.2 (by omega),
        if_neg (show ¬ 40 + c.len ≤ s.mtu by omega), decide_true, Bool.and_self, pyAssert_true, py_ok_bind, py_pure]
    simp only [hsm] at h
    cases hps : Ip6.pshdrSum a dst c.len c.proto with
    | error e => rw [hps] at h; simp at h
    | ok ps =>
      cases hd : c.assemble ps with
      | error e => simp [hps, hd] at h
      | ok data => exact Or.inr ⟨ht.1, ht.2, hp, hz', a, ps, data, rfl, hps, hd⟩


/-- C28: if sending an IPv6 packet that does not fit the MTU queues anything, then the queued packets are fragments of one
fragmentation of the bytes of the carried packet, in order, all with the same addresses, next header and identification;
all of them are queued exactly when the call reports success.  Each fragment's wire form fits the MTU and the receiving
parsers read all of this back (for an ordinary source, and while the 32 bit identification lasts). -/
theorem C28_ip6_fragmentation {s s' : Stack} {nd : Nat → NdLookup} {src dst : Ip6Address} {hop : Nat} {c : L4}
    {st : TxStatus} {outs : List Outgoing} (hs : s.PlainIp6) (hmtu : 56 ≤ s.mtu) (hmtu' : s.mtu < 65536) (hws : c.WellSized)
    (hbig : s.mtu < 40 + c.len) (hx : c.proto ≠ 44) (h : phtxIp6 s nd src dst hop c = (s', .ok (st, outs)))
    (hq : outs ≠ [] ∨ st = .passedEtherToTxRing) :
    ∃ a ps data fs, Ip6.pshdrSum a dst c.len c.proto = .ok ps ∧ c.assemble ps = .ok data ∧ a ∈ s.ip6Unicast ∧
      IsFragmentation data (s.mtu - 48) fs ∧ s' = { s with ip6Id := s.ip6Id + 1 } ∧
      (outs.map (·.pkt)).Sublist (fs.map (frag6Pkt a dst (s.ip6Id + 1) c.proto)) ∧
      (st = .passedEtherToTxRing ↔ outs.map (·.pkt) = fs.map (frag6Pkt a dst (s.ip6Id + 1) c.proto)) ∧
      ∀ f ∈ fs, ∃ hd x, frag6Pkt a dst (s.ip6Id + 1) c.proto f = .ip6 hd x ∧
        (a.isMulticast = false → s.ip6Id + 1 < 2 ^ 32 → data.length < 65536 → ∃ b, Ip6.assemble hd x = .ok b ∧
          b.length ≤ s.mtu ∧ Ip6.parse b = .ok none ∧ ∃ r, Ip6.read b = .ok r ∧ r.src = a ∧ r.dst = dst ∧ r.hop = 64 ∧
            r.next = 44 ∧ Ip6Frag.parse r.rest = .ok none ∧
            Ip6Frag.read r.rest r.dlen = .ok { next := c.proto, offset := f.offset, mf := f.mf, id := s.ip6Id + 1,
                                               dataCopy := f.data }) := by
  rcases phtxIp6_returns hbig hx hws hmtu h with ⟨h1, h2⟩ | ⟨ht0, ht, hp, hdst, a, ps, data, ha, hps, hd⟩
  · rcases hq with hq | hq
    · exact absurd h1 hq
    · rw [hq] at h2; simp at h2
  have hlen := hws ps data hd
  have hne : data ≠ [] := by intro he; rw [he] at hlen; simp at hlen; omega
  obtain ⟨fs, hF, hok, hbad⟩ := phtxIp6_frag nd hs hmtu hmtu' hbig ht0 ht hp ha hdst hps hd hne
  have haz : a ≠ .zero := by
    intro e
    rw [hbad e] at h
    simp only [Prod.mk.injEq, Except.ok.injEq] at h
    obtain ⟨-, h1, h2⟩ := h
    rcases hq with hq | hq
    · exact hq h2.symm
    · rw [← h1] at hq; cases hq
  rw [hok haz] at h
  simp only [Prod.mk.injEq, Except.ok.injEq] at h
  obtain ⟨hs', hst, hout⟩ := h
  have hown : a ∈ s.ip6Unicast := by
    rcases validateSrcIp6_owned ha with h1 | ⟨h1, -⟩
    · exact h1
    · exact absurd h1 haz
  have key := flatMap_sublist fs (fun f => (okOf (phtxEther s (fun _ => none) (nd f.offset) .zero .zero (frag6Pkt a dst (s.ip6Id + 1) c.proto f))).2) (·.pkt) (frag6Pkt a dst (s.ip6Id + 1) c.proto) (
      fun f _ => (link_okOf s _ _ _ _ _).1)
  rw [hout] at key
  refine ⟨a, ps, data, fs, hps, hd, hown, hF, hs'.symm, key.1, ?_, ?_⟩
  · rw [key.2, ← hst]
    have hsev := mostSevere_worst severityIp6 .dropIp6ExtFragUnknown rank6 (by decide)
      (fs.map (fun f => (okOf (phtxEther s (fun _ => none) (nd f.offset) .zero .zero (frag6Pkt a dst (s.ip6Id + 1) c.proto f))).1)) (by simpa using hF.ne_nil hne) (by
        intro x hx
        obtain ⟨f, hf, rfl⟩ := List.mem_map.mp hx
        exact link_ip6_status s _ _ _ _ rfl)
    constructor
    · intro hpass f hf
      have := hsev.2 _ (List.mem_map_of_mem hf)
      rw [hpass] at this
      have h0 : (okOf (phtxEther s (fun _ => none) (nd f.offset) .zero .zero (frag6Pkt a dst (s.ip6Id + 1) c.proto f))).1 = .passedEtherToTxRing := by
        have hm := link_ip6_status s (fun _ => none) (nd f.offset) (frag6Pkt a dst (s.ip6Id + 1) c.proto f) _ rfl
        revert this hm
        generalize (okOf (phtxEther s (fun _ => none) (nd f.offset) .zero .zero (frag6Pkt a dst (s.ip6Id + 1) c.proto f))).1 = x
        cases x <;> decide
      exact (link_okOf s _ _ _ _ _).2.mp h0
    · intro hall
      obtain ⟨f, hf, he⟩ := List.mem_map.mp hsev.1
      rw [← he]
      exact (link_okOf s _ _ _ _ _).2.mpr (hall f hf)
  · intro f hf
    refine ⟨_, _, rfl, ?_⟩
    intro hm hid h16
    have hfl := hF.fits f hf
    have hol := hF.offset_le hf
    obtain ⟨b0, g1, g2, g3, g4⟩ := C17_ip6_frag_roundtrip c.proto f.offset f.mf (s.ip6Id + 1) f.data hp (by omega)
      (hF.aligned f hf) hid
    obtain ⟨ps', hps'⟩ : ∃ ps', Ip6.pshdrSum a dst (8 + f.data.length) 44 = .ok ps' :=
      ⟨_, Ip6.pshdr_ok a dst (8 + f.data.length) 44 (by omega) (by omega)⟩
    obtain ⟨b, e1, e2, e3⟩ := C17_ip6_roundtrip_dscp0_partial
      { src := a, dst := dst, hop := 64, dscp := 0, ecn := 0, flow := 0 }
      (Ip6Frag.carried c.proto f.offset f.mf (s.ip6Id + 1) f.data) b0 ps'
      (by refine ⟨?_, ?_, ?_, ?_, ?_, ?_⟩ <;> simp [Ip6Frag.carried] <;> omega) hps' g1 (by rw [g2]; rfl) (show 0 < 64 by decide) hm rfl (show 0 < 2 ^ 20 by decide)
    have hbl : b.length ≤ s.mtu := by
      obtain ⟨r, k1, k2, k3, -⟩ := C26_ip6_accepted b e2
      rw [e3] at k1
      injection k1 with k1
      rw [← k1] at k3
      simp only [Ip6Frag.carried] at k3
      omega
    refine ⟨b, e1, hbl, e2, _, e3, rfl, rfl, rfl, rfl, g3, ?_⟩
    rw [show (Ip6Frag.carried c.proto f.offset f.mf (s.ip6Id + 1) f.data).len = b0.length by rw [g2]; rfl]
    exact g4

/-- C28: such a send does go through: with a packet the stack can build and the next hop known throughout, every fragment
is queued. -/
theorem C28_ip6_fragmentation_succeeds {s : Stack} (nd : Nat → NdLookup) {src dst a : Ip6Address} {hop : Nat} {c : L4}
    (hs : s.PlainIp6) (hmtu : 56 ≤ s.mtu) (hmtu' : s.mtu < 65536) (hbig : s.mtu < 40 + c.len) (hlen : c.len < 65536)
    (hp : c.proto = 58 ∨ c.proto = 17 ∨ c.proto = 6 ∨ c.proto = 255) (hd : ∀ ps, ∃ d, c.assemble ps = .ok d ∧ d.length = c.len)
    (ht0 : 0 < hop) (ht : hop < 256) (hdst : dst ≠ .zero)
    (ha : validateSrcIp6 s src dst c.kind = .ok a) (haz : a ≠ .zero)
    (hhop : ∀ o p hd, p.ip6Hdr = some hd → hd.src = a → hd.dst = dst →
      ∃ m, SentTo s p (phtxEther s (fun _ => none) (nd o) .zero .zero p) m) :
    ∃ outs, phtxIp6 s nd src dst hop c = ({ s with ip6Id := s.ip6Id + 1 }, .ok (.passedEtherToTxRing, outs)) := by
  obtain ⟨ps, hps⟩ : ∃ ps, Ip6.pshdrSum a dst c.len c.proto = .ok ps := ⟨_, Ip6.pshdr_ok a dst c.len c.proto (by omega) (by omega)⟩
  obtain ⟨d, h1, h2⟩ := hd ps
  have hne : d ≠ [] := by intro he; rw [he] at h2; simp at h2; omega
  obtain ⟨fs, hF, hok, -⟩ := phtxIp6_frag nd hs hmtu hmtu' hbig ht0 ht hp ha hdst hps h1 hne
  have hok := hok haz
  have hall : ∀ x ∈ fs.map (fun f => (okOf (phtxEther s (fun _ => none) (nd f.offset) .zero .zero (frag6Pkt a dst (s.ip6Id + 1) c.proto f))).1), x = .passedEtherToTxRing := by
    intro x hx
    obtain ⟨f, hf, rfl⟩ := List.mem_map.mp hx
    obtain ⟨m, hm⟩ := hhop f.offset (frag6Pkt a dst (s.ip6Id + 1) c.proto f) _ rfl rfl rfl
    rw [SentTo] at hm
    simp only [hm, okOf]
  have hsev := mostSevere_worst severityIp6 .dropIp6ExtFragUnknown rank6 (by decide)
      (fs.map (fun f => (okOf (phtxEther s (fun _ => none) (nd f.offset) .zero .zero (frag6Pkt a dst (s.ip6Id + 1) c.proto f))).1)) (by simpa using hF.ne_nil hne) (by
        intro x hx; rw [hall x hx]; decide)
  rw [hall _ hsev.1] at hok
  exact ⟨_, hok⟩

/-- C69 for IPv6: the status of a fragmented send is that of one of its fragments, and none fared worse.  The exception is
a send from the unspecified address, whose fragments are all refused and which reports "unknown". -/
theorem C69_ip6_status {s s' : Stack} {nd : Nat → NdLookup} {src dst : Ip6Address} {hop : Nat} {c : L4}
    {st : TxStatus} {outs : List Outgoing} (hs : s.PlainIp6) (hmtu : 56 ≤ s.mtu) (hmtu' : s.mtu < 65536) (hws : c.WellSized)
    (hbig : s.mtu < 40 + c.len) (hx : c.proto ≠ 44) (h : phtxIp6 s nd src dst hop c = (s', .ok (st, outs))) :
    (outs = [] ∧ (st = .dropIp6SrcNotOwned ∨ st = .dropIp6SrcMulticast ∨ st = .dropIp6SrcUnspecified ∨
        st = .dropIp6DstUnspecified)) ∨
    (outs = [] ∧ st = .dropIp6ExtFragUnknown ∧ src = .zero) ∨
    ∃ a fs, ∃ res : Piece → TxStatus × List Outgoing, fs ≠ [] ∧
      (∀ f ∈ fs, phtxEther s (fun _ => none) (nd f.offset) .zero .zero (frag6Pkt a dst (s.ip6Id + 1) c.proto f) =
        .ok (res f)) ∧
      outs = fs.flatMap (fun f => (res f).2) ∧
      (∃ f ∈ fs, st = (res f).1) ∧ (∀ f ∈ fs, rank6 (res f).1 ≤ rank6 st) ∧ rank6 st ≤ 4 := by
  rcases phtxIp6_returns hbig hx hws hmtu h with h1 | ⟨ht0, ht, hp, hdst, a, ps, data, ha, hps, hd⟩
  · exact Or.inl h1
  · right
    have hlen := hws ps data hd
    have hne : data ≠ [] := by intro he; rw [he] at hlen; simp at hlen; omega
    obtain ⟨fs, hF, hok, hbad⟩ := phtxIp6_frag nd hs hmtu hmtu' hbig ht0 ht hp ha hdst hps hd hne
    by_cases haz : a = .zero
    · left
      rw [hbad haz] at h
      simp only [Prod.mk.injEq, Except.ok.injEq] at h
      refine ⟨h.2.2.symm, h.2.1.symm, ?_⟩
      rcases validateSrcIp6_owned ha with h1 | ⟨-, h1, -⟩
      · rw [Stack.ip6Unicast, List.mem_map] at h1
        obtain ⟨x, hx, rfl⟩ := h1
        exact absurd haz (hs x hx).1
      · exact h1
    right
    rw [hok haz] at h
    simp only [Prod.mk.injEq, Except.ok.injEq] at h
    obtain ⟨hs', hst, hout⟩ := h
    have hsev := mostSevere_worst severityIp6 .dropIp6ExtFragUnknown rank6 (by decide)
      (fs.map (fun f => (okOf (phtxEther s (fun _ => none) (nd f.offset) .zero .zero (frag6Pkt a dst (s.ip6Id + 1) c.proto f))).1)) (by simpa using hF.ne_nil hne) (by
        intro x hx
        obtain ⟨f, hf, rfl⟩ := List.mem_map.mp hx
        exact link_ip6_status s _ _ _ _ rfl)
    rw [hst] at hsev
    refine ⟨a, fs, fun f => (okOf (phtxEther s (fun _ => none) (nd f.offset) .zero .zero (frag6Pkt a dst (s.ip6Id + 1) c.proto f))), hF.ne_nil hne, fun f _ => phtxEther_okOf s _ _ _ _ _, hout.symm, ?_, ?_, ?_⟩
    · obtain ⟨f, hf, he⟩ := List.mem_map.mp hsev.1
      exact ⟨f, hf, he.symm⟩
    · exact fun f hf => hsev.2 _ (List.mem_map_of_mem hf)
    · obtain ⟨f, hf, he⟩ := List.mem_map.mp hsev.1
      have hm := link_ip6_status s (fun _ => none) (nd f.offset) (frag6Pkt a dst (s.ip6Id + 1) c.proto f) _ rfl
      rw [he] at hm
      revert hm
      cases st <;> decide


namespace Example

/-- 50 bytes of a carried packet with protocol 17. -/
def l4 : L4 := { proto := 17, len := 50, assemble := fun _ => .ok (List.replicate 50 0xAB), kind := .other }
def small : Stack := { stack with mtu := 60 }

/-- A 70 byte packet through an MTU of 60: two fragments, of 40 and 10 bytes; the identification advances. -/
example : ∃ m, (phtxIp4 small (fun _ _ => m) host4.address ⟨0x0A0001FE, by decide⟩ 64 l4).2.map (fun r => (r.1, r.2.length)) =
      .ok (.passedEtherToTxRing, 2) ∧
    (phtxIp4 small (fun _ _ => m) host4.address ⟨0x0A0001FE, by decide⟩ 64 l4).1.ip4Id = 1 :=
  ⟨some ⟨1, by decide⟩, by decide +kernel⟩

/-- A next hop that goes missing between the fragments: the first one is sent, the call reports the failure. -/
example : (phtxIp4 small (fun o _ => if o = 0 then some ⟨1, by decide⟩ else none) host4.address ⟨0x0A0001FE, by decide⟩ 64 l4).2.map
    (fun r => (r.1, r.2.length)) = .ok (.dropEtherArpCacheFail, 1) := by decide +kernel

/-- A 90 byte IPv6 packet through an MTU of 60: seven fragments. -/
example : small.PlainIp6 ∧
    (phtxIp6 small (fun _ _ => some ⟨1, by decide⟩) host6.address ⟨0x20010DB8000000000000000000000009, by decide⟩ 64 l4).2.map
      (fun r => (r.1, r.2.length)) = .ok (.passedEtherToTxRing, 7) := by
  refine ⟨?_, by decide +kernel⟩
  intro h hh
  simp [small, stack] at hh
  subst hh
  decide

/-- A request that counts for `C71_exhausted_witness`. -/
def request : FragRequest small where
  src := host4.address
  dst := ⟨0x0A0001FE, by decide⟩
  ttl := 64
  c := l4
  arp := fun _ _ => none
  big := by decide
  notTooBig := by decide
  ttl_pos := by decide
  ttl_lt := by decide
  proto := by decide
  builds := fun _ => ⟨_, rfl, by decide⟩
  dst_ok := by decide
  src_ok := ⟨host4.address, by decide⟩

end Example

end Verif
