import Verif.Lemmas.EndToEnd
import Verif.Props.Fragment
/-! Lemmas for C70: what the sending stack queues. -/
namespace Verif
open Spec

theorem udp_bytes {sport dport : Nat} {data d : Bytes} {ps : Nat} (h : Udp.assemble sport dport data ps = .ok d) :
    d.length = 8 + data.length ∧ 8 + data.length < 65536 ∧ IsDatagram sport dport data d := by
  rw [Udp.assemble] at h
  by_cases h1 : sport ≤ 0xFFFF
  · by_cases h2 : dport ≤ 0xFFFF
    · by_cases h3 : 8 + data.length < 65536
      · have hs : packH sport = .ok (bePack 2 sport) := packH_ok (by omega)
        have hd : packH dport = .ok (bePack 2 dport) := packH_ok (by omega)
        simp only [h1, h2, decide_true, pyAssert_true, py_ok_bind, hs, hd, packH_ok h3, packH_ok (show 0 < 65536 by omega)] at h
        have hlt := inetCksum_lt (bePack 2 sport ++ bePack 2 dport ++ bePack 2 (8 + data.length) ++ bePack 2 0 ++ data) ps
        rw [packIntoH_ok hlt (by simp; omega)] at h
        cases h
        refine ⟨by simp; omega, h3, inetCksum (bePack 2 sport ++ bePack 2 dport ++ bePack 2 (8 + data.length) ++ bePack 2 0 ++ data) ps, ?_⟩
        simp [bePack]
      · have : packH (8 + data.length) = .error .structError := by rw [packH, if_neg (by omega)]
        have hs : packH sport = .ok (bePack 2 sport) := packH_ok (by omega)
        have hd : packH dport = .ok (bePack 2 dport) := packH_ok (by omega)
        simp [h1, h2, hs, hd, this, pyAssert_true] at h
    · simp [h1, h2, pyAssert_true, pyAssert] at h
  · simp [h1, pyAssert] at h

/-- The frame put on the wire, arriving at a stack that takes its link-layer address, is one that carries the packet. -/
theorem same_link4 {o : Outgoing} {h : Ip4.Hdr} 
    (ht : o.pkt.etherType = Ether.typeIp4) (hb : ∃ b, o.pkt.assemble = .ok b ∧ Ip4.parse b = .ok none ∧ Ip4.read b = .ok h) :
    ∃ F, o.frame = .ok F ∧ ∀ n, MacForUs n o.dst → Carries4 n o F := by
  obtain ⟨b, h1, h2, h3⟩ := hb
  obtain ⟨f, f1, f2, f3⟩ := C14_ether_roundtrip o.src o.dst Ether.typeIp4 b (by decide)
  refine ⟨f, by rw [Outgoing.frame, h1, py_ok_bind, ht]; exact f1, fun n hm => ?_⟩
  exact ⟨h, h, ⟨b, h1, h3⟩, ⟨_, ⟨f2, f3, hm⟩, rfl, h2, h3⟩, rfl, rfl, rfl, rfl, rfl, rfl, rfl⟩

/-- The stack builds a datagram into packets: what `outs` is. -/
theorem sent4 {st st' : Stack} {arp : Nat → ArpLookup} {src dst : Ip4Address} {sport dport : Nat} {data : Bytes}
    {outs : List Outgoing} (hmtu : 28 ≤ st.mtu) (hmtu' : st.mtu < 65536) (hord : ∀ a ∈ st.ip4Unicast, OrdinarySource4 a)
    (hs : 0 < sport ∧ sport < 65536) (hd : 0 < dport ∧ dport < 65536)
    (h : phtxIp4 st arp src dst 64 { Udp.carried sport dport data with kind := .udp sport dport } =
      (st', .ok (.passedEtherToTxRing, outs))) (id₀ : Nat) :
    ∃ T : Transit4, T.dst = dst ∧ T.sport = sport ∧ T.dport = dport ∧ T.data = data ∧
      validateSrcIp4 st src dst (.udp sport dport) = .ok T.a ∧ outs.length = T.fs.length ∧
      (T.id = id₀ ∨ ∃ o ∈ outs, ∃ h, Ip4Of o h ∧ IsFrag4 h ∧ h.src = T.a ∧ h.dst = dst ∧ h.id = T.id) ∧
      ∀ (i : Nat) o, outs[i]? = some o → ∃ h, Ip4Of o h ∧ h.src = T.a ∧ h.dst = dst ∧ h.proto = 17 ∧
        (IsFrag4 h → h.id = T.id) ∧ T.fs[i]? = some h.piece ∧
        ∃ F, o.frame = .ok F ∧ ∀ n, MacForUs n o.dst → Carries4 n o F := by
  obtain ⟨c, hc⟩ : ∃ c : L4, c = { Udp.carried sport dport data with kind := .udp sport dport } := ⟨_, rfl⟩
  rw [← hc] at h
  have hk : c.kind = .udp sport dport := by rw [hc]
  have hpr : c.proto = 17 := by rw [hc]; rfl
  have hcl : c.len = 8 + data.length := by rw [hc]; rfl
  have hca : ∀ ps, c.assemble ps = Udp.assemble sport dport data ps := by intro ps; rw [hc]; rfl
  have hws : c.WellSized := by
    intro ps d hd
    rw [hca] at hd
    rw [hcl]; exact (udp_bytes hd).1
  have hsrc : ∀ {a}, validateSrcIp4 st src dst c.kind = .ok a → OrdinarySource4 a := by
    intro a ha
    rcases validateSrcIp4_owned ha with h | ⟨h, -⟩
    · exact hord a h
    · rw [h]; exact ⟨by decide, by decide, by decide⟩
  by_cases hbig : st.mtu < 20 + c.len
  · -- fragmented
    obtain ⟨a, ps, d, fs, hps, hd', hF, -, -, hall, hrd⟩ := C27_ip4_fragmentation hmtu hmtu' hws hbig h (.inr rfl)
    have hall := hall.mp rfl
    rw [hca] at hd'
    have hb := udp_bytes hd'
    have hne : d ≠ [] := by intro e; have := hb.1; rw [e] at this; simp at this; omega
    have hfs := hF.ne_nil hne
    -- the source
    have ha : validateSrcIp4 st src dst c.kind = .ok a := by
      have hlen := congrArg List.length hall
      simp only [List.length_map] at hlen
      cases houts : outs with
      | nil => rw [houts] at hlen; exact absurd (List.length_eq_zero_iff.mp hlen.symm) hfs
      | cons o os =>
        cases hfs' : fs with
        | nil => exact absurd hfs' hfs
        | cons f fs' =>
          rw [houts, hfs'] at hall
          simp only [List.map_cons, List.cons.injEq] at hall
          obtain ⟨a', hd, h1, h2, h3, -⟩ := phtxIp4_hdr h o (by rw [houts]; simp)
          rw [hall.1] at h2
          simp only [fragPkt, Pkt.ip4Hdr, Option.some.injEq] at h2
          rw [← h2] at h3
          simp only at h3
          rw [h3]; exact h1
    have hor := hsrc ha
    rw [hpr, hcl] at hps
    refine ⟨⟨a, dst, st.ip4Id + 1, sport, dport, data, ps, d, _, fs, hs, hd, hb.2.1, hps, hd', hF⟩, rfl, rfl, rfl, rfl, ?_, ?_, ?_, ?_⟩
    · rw [← hk]; exact ha
    · have := congrArg List.length hall
      simpa using this
    · right
      -- the first packet is a fragment
      have hlen := congrArg List.length hall
      simp only [List.length_map] at hlen
      have h0 : 0 < fs.length := List.length_pos_iff.mpr hfs
      obtain ⟨o, ho⟩ : ∃ o, outs[0]? = some o := ⟨_, List.getElem?_eq_getElem (by omega)⟩
      obtain ⟨f, hf⟩ : ∃ f, fs[0]? = some f := ⟨_, List.getElem?_eq_getElem h0⟩
      have hpk : o.pkt = fragPkt a dst 64 (st.ip4Id + 1) c.proto f := by
        have : (outs.map (·.pkt))[0]? = (fs.map (fragPkt a dst 64 (st.ip4Id + 1) c.proto))[0]? := by rw [hall]
        simp only [List.getElem?_map, ho, hf, Option.map_some, Option.some.injEq] at this
        exact this
      obtain ⟨hdr, b, e1, e2, -, e3⟩ := hrd f (List.mem_of_getElem? hf)
      obtain ⟨-, r, r1, r2, r3, -, r4, r5, r6, r7, -, r8⟩ := e3 hor.1 hor.2.1 hor.2.2 []
      rw [List.append_nil] at r1
      refine ⟨o, List.mem_of_getElem? ho, r, ⟨b, by rw [hpk, e1]; exact e2, r1⟩, ?_, r2, r3, r5⟩
      by_cases hfr : IsFrag4 r
      · exact hfr
      · exfalso
        rw [IsFrag4, not_or, Decidable.not_not, Bool.not_eq_true, r6, r7] at hfr
        obtain ⟨w1, -, w3⟩ := whole_piece hF hf hfr.1 hfr.2
        have := hF.fits f (List.mem_of_getElem? hf)
        rw [w3, hb.1] at this
        omega
    · intro i o ho
      have : (outs.map (·.pkt))[i]? = (fs.map (fragPkt a dst 64 (st.ip4Id + 1) c.proto))[i]? := by rw [hall]
      simp only [List.getElem?_map, ho, Option.map_some] at this
      obtain ⟨f, hf, hpk⟩ := Option.map_eq_some_iff.mp this.symm
      obtain ⟨hdr, b, e1, e2, -, e3⟩ := hrd f (List.mem_of_getElem? hf)
      obtain ⟨r0, r, r1, r2, r3, -, r4, r5, r6, r7, -, r8⟩ := e3 hor.1 hor.2.1 hor.2.2 []
      rw [List.append_nil] at r0 r1
      refine ⟨r, ⟨b, by rw [← hpk, e1]; exact e2, r1⟩, r2, r3, by rw [r4, hpr], fun _ => r5, ?_, ?_⟩
      · rw [hf, Ip4.Hdr.piece, r6, r7, r8]
      · exact same_link4 (by rw [← hpk]; rfl) ⟨b, by rw [← hpk, e1]; exact e2, r0, r1⟩
  · -- in one packet
    have hmtu2 : 20 + c.len ≤ st.mtu := by omega
    rw [phtxIp4, if_neg (by omega)] at h
    cases ha : validateSrcIp4 st src dst c.kind with
    | error e =>
      rw [ha] at h
      simp only [Prod.mk.injEq, Except.ok.injEq] at h
      have := (validateSrcIp4_error ha).1
      rw [h.2.1] at this
      simp at this
    | ok a =>
      rw [ha] at h
      simp only [validateDstIp4] at h
      by_cases hz : dst.isUnspecified = true
      · simp [hz] at h
      · have hh : (packetTx a dst 64 c.proto).hlen = 20 := by rw [Ip4.Tx.hlen_eq]; rfl
        have hor := hsrc ha
        simp only [if_neg hz, packetTx_asserts a dst 64 c.proto (by omega) (by omega), hh, if_pos hmtu2, Prod.mk.injEq] at h
        obtain ⟨ps, hps⟩ : ∃ ps, Ip4.pshdrSum a dst c.proto c.len = .ok ps := ⟨_, Ip4.pshdr_ok a dst c.proto c.len (by omega) (by omega)⟩
        have hps' := hps
        rw [hpr, hcl] at hps
        obtain ⟨d, h1, h2, -⟩ := C18_udp_roundtrip sport dport data [] ps hs hd (by omega) (pshdr4 hps).2.1
        rw [← hca] at h1
        obtain ⟨f, f1, -, f3, f4⟩ := C16_ip4_roundtrip (packetTx a dst 64 c.proto) c.toCarried d [] ps
          ⟨by simp [packetTx], by simp [packetTx], by simp [packetTx], by simp [packetTx], by simp [packetTx, hpr],
            by simp [packetTx], by simp [packetTx], by simp [packetTx]; omega, by simp [packetTx], by simp [packetTx]⟩
          ⟨hor.1, hor.2.1, hor.2.2, by simp [packetTx]⟩ hps' h1 (by rw [h2, hcl])
        obtain ⟨f6, f5⟩ := f4 (f3 rfl)
        rw [List.append_nil] at f5 f6
        have hne : d ≠ [] := by intro e; rw [e] at h2; simp at h2; omega
        rw [hca] at h1
        obtain ⟨o, ho, hpk⟩ : ∃ o, outs = [o] ∧ o.pkt = .ip4 (packetTx a dst 64 c.proto) c.toCarried := by
          rcases phtxEther_pkt h.2 with ⟨-, m, hm⟩ | ⟨h1, -⟩
          · exact ⟨_, hm, rfl⟩
          · simp at h1
        refine ⟨⟨a, dst, id₀, sport, dport, data, ps, d, d.length, [⟨0, false, d⟩], hs, hd, by omega, hps, h1, ?_⟩, rfl, rfl, rfl, rfl,
          by rw [← hk, ha], by rw [ho]; rfl, .inl rfl, ?_⟩
        · refine ⟨by simp, ?_, by simp, by simpa using hne, by simp, ?_⟩
          · intro i f hf
            cases i with
            | zero => simp at hf; simp [← hf]
            | succ i => simp at hf
          · intro i f hf
            cases i with
            | zero => simp at hf; simp [← hf]
            | succ i => simp at hf
        · intro i o' ho'
          rw [ho] at ho'
          cases i with
          | succ i => simp at ho'
          | zero =>
            simp only [List.getElem?_cons_zero, Option.some.injEq] at ho'
            subst ho'
            refine ⟨_, ⟨f, by rw [hpk]; exact f1, f5⟩, rfl, rfl, hpr, ?_, rfl, ?_⟩
            · intro hfr
              simp [IsFrag4, packetTx] at hfr
            · exact same_link4 (by rw [hpk]; rfl) ⟨f, by rw [hpk]; exact f1, f6, f5⟩

theorem Ip4.read_id {f : Bytes} {h : Ip4.Hdr} (hr : Ip4.read f = .ok h) : h.id < 65536 := by
  rw [Ip4.read] at hr
  cases hid : Ip4.id f with
  | error _ =>
    rw [hid] at hr
    simp only [bind, Except.bind] at hr
    repeat' split at hr
    all_goals cases hr
  | ok v =>
    rw [hid] at hr
    have hv : v < 65536 := u16_lt hid
    simp only [bind, Except.bind, pure, Except.pure] at hr
    repeat' split at hr
    all_goals try cases hr
    exact hv

/-- An identification no fragment at the receiver has. -/
theorem unused_id (n : Node) : ∃ id₀ ≥ 65536, ∀ a b, n.flows4.get? (a, b, id₀) = none := by
  have key : ∀ l : Dict Frag.Key4 Frag.Flow, ∃ N, ∀ e ∈ l, e.1.2.2 < N := by
    intro l
    induction l with
    | nil => exact ⟨0, by simp⟩
    | cons e l ih =>
      obtain ⟨N, hN⟩ := ih
      refine ⟨N + e.1.2.2 + 1, ?_⟩
      intro x hx
      rcases List.mem_cons.mp hx with rfl | hx
      · omega
      · have := hN x hx; omega
  obtain ⟨N, hN⟩ := key n.flows4
  refine ⟨65536 + N, by omega, ?_⟩
  intro a b
  cases hg : n.flows4.get? (a, b, 65536 + N) with
  | none => rfl
  | some v =>
    have := hN _ (Dict.get?_mem hg)
    simp at this
    omega

theorem sendto_passed {data : Bytes} {res : Py (TxStatus × List Outgoing)} {outs : List Outgoing}
    (h : Socks.sentLen data res = .ok (data.length, outs)) (hout : outs ≠ [])
    (hres : ∀ st os, res = .ok (st, os) → data = [] → os ≠ [] → st = .passedEtherToTxRing) :
    res = .ok (.passedEtherToTxRing, outs) := by
  cases res with
  | error e => simp [Socks.sentLen] at h
  | ok r =>
    obtain ⟨s, o⟩ := r
    simp only [Socks.sentLen, Except.ok.injEq, Prod.mk.injEq] at h
    obtain ⟨h1, rfl⟩ := h
    by_cases hs : s = .passedEtherToTxRing
    · rw [hs]
    · rw [if_neg hs] at h1
      exact absurd (hres s o rfl (List.length_eq_zero_iff.mp h1.symm) hout) hs

theorem completions_none (count : Nat) (got : List Nat) (l : List (Option Nat)) (h : l.filterMap id = []) :
    (completions count got l).count true = 0 := by
  induction l generalizing got with
  | nil => rfl
  | cons x l ih =>
    cases x with
    | none => simp only [completions]; rw [List.count_cons]; simp [ih got (by simpa using h)]
    | some i => simp at h

/-- If each packet arrives once, exactly one arrival completes the datagram. -/
theorem completions_once (count : Nat) (got : List Nat) (l : List (Option Nat))
    (h : (got ++ l.filterMap id).Perm (List.range count)) (hne : l.filterMap id ≠ []) :
    (completions count got l).count true = 1 := by
  induction l generalizing got with
  | nil => simp at hne
  | cons x l ih =>
    cases x with
    | none =>
      simp only [completions]
      rw [List.count_cons, ih got (by simpa using h) (by simpa using hne)]
      simp
    | some i =>
      rw [completions]
      simp only [List.filterMap_cons, id_eq] at h
      have hperm : ((i :: got) ++ l.filterMap id).Perm (List.range count) :=
        List.perm_middle.symm.trans h
      by_cases hall : ∀ j < count, j ∈ i :: got
      · rw [if_pos hall, List.count_cons, completions_none]
        · simp
        · have hn : ((i :: got) ++ l.filterMap id).Nodup := hperm.nodup_iff.mpr List.nodup_range
          cases hl : l.filterMap id with
          | nil => rfl
          | cons k ks =>
            exfalso
            rw [hl] at hn hperm
            have hk : k < count := by
              have := (hperm.mem_iff (a := k)).mp (by simp)
              simpa using this
            have := hall k hk
            rw [List.nodup_append] at hn
            exact hn.2.2 k this k (by simp) rfl
      · rw [if_neg hall, List.count_cons, ih (i :: got) hperm]
        · simp
        · intro hl
          apply hall
          intro j hj
          rw [hl, List.append_nil] at hperm
          exact (hperm.mem_iff).mpr (by simpa using hj)

end Verif
