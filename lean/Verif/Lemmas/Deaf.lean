import Verif.Spec.Deaf
import Verif.Lemmas.Boot
import Verif.Lemmas.WireTcp
import Verif.Lemmas.WireNd
import Verif.Lemmas.Nearly
import Verif.Lemmas.Origin
import Verif.Lemmas.Echo
/-! What the receive handlers do with a frame without raising. -/
namespace Verif
open Spec

/-! ### TCP options -/

theorem Tcp.optionCheck_cut (f : Bytes) (hl : Nat) (hf : hl ≤ f.length) (fuel o : Nat) (hfu : hl ≤ o + fuel) (ha : OptionAt f o) (e : PyErr)
    (h : optionCheck f hl fuel o = .error e) : ∃ o, OptionAt f o ∧ o < hl ∧ 2 ≤ be f o 1 ∧ f.length < o + needs (be f o 1) := by
  induction fuel generalizing o with
  | zero => rw [optionCheck, if_neg (by omega)] at h; cases h
  | succ fuel ih =>
    rw [optionCheck] at h
    split at h
    · rename_i ho
      have hk := idx_be (f := f) (i := o) (by omega)
      simp only [hk, codec] at h
      split at h
      · cases h
      · split at h
        · rename_i h1
          rw [if_neg (by omega)] at h
          exact ih _ (by omega) (.nop ha h1) h
        · rename_i h0 h1
          rw [if_neg (by omega)] at h
          by_cases hlast : o + 1 < f.length
          · have hb := idx_be (f := f) (i := o + 1) hlast
            simp only [hb, codec] at h
            split at h
            · cases h
            · split at h
              · cases h
              · exact ih _ (by omega) (.opt ha (by omega)) h
          · refine ⟨o, ha, ho, by omega, ?_⟩
            unfold needs
            repeat' split
            all_goals omega
    · cases h

theorem Tcp.readOpt_whole {f : Bytes} {o k : Nat} (h : o + needs k ≤ f.length) : ∃ x, readOpt f o k = .ok x := by
  have h2 : 2 ≤ needs k := by unfold needs; repeat' split
                              all_goals omega
  have hb := idx_be (f := f) (i := o + 1) (by omega)
  simp only [readOpt, hb, codec]
  split
  · rename_i hk; subst hk
    have : needs 2 = 4 := rfl
    rw [u16_be (by omega)]; exact ⟨_, rfl⟩
  split
  · rename_i hk; subst hk
    have : needs 3 = 3 := rfl
    rw [idx_be (by omega)]; exact ⟨_, rfl⟩
  split
  · exact ⟨_, rfl⟩
  split
  · rename_i hk; subst hk
    have : needs 8 = 10 := rfl
    rw [u32_be (by omega), u32_be (by omega)]; exact ⟨_, rfl⟩
  · exact ⟨_, rfl⟩

theorem Tcp.optionsLoop_cut (f : Bytes) (hl : Nat) (fuel o : Nat) (ha : OptionAt f o) (hc : optionCheck f hl fuel o = .ok none) :
    (∃ l, optionsLoop f hl fuel o = .ok l) ∨ ∃ o, OptionAt f o ∧ o < hl ∧ 2 ≤ be f o 1 ∧ f.length < o + needs (be f o 1) := by
  induction fuel generalizing o with
  | zero =>
    rw [optionCheck] at hc
    rw [optionsLoop]
    split
    · rename_i h; rw [if_pos h] at hc; cases hc
    · exact .inl ⟨_, rfl⟩
  | succ fuel ih =>
    rw [optionCheck] at hc
    rw [optionsLoop]
    split
    · rename_i h
      rw [if_pos h] at hc
      cases hk : idx f o with
      | error e => rw [hk] at hc; simp at hc
      | ok k =>
        have hlt : o < f.length := by
          obtain ⟨hi, -⟩ := idx_eq_ok.mp hk; exact hi
        have hke : be f o 1 = k := by
          have := idx_be (f := f) (i := o) hlt
          rw [hk] at this; injection this with this; exact this.symm
        simp only [hk, codec] at hc ⊢
        split
        · exact .inl ⟨_, rfl⟩
        · rename_i h0
          rw [if_neg h0] at hc
          split
          · rename_i h1
            rw [if_pos h1] at hc
            split at hc
            · cases hc
            · rcases ih _ (.nop ha (by omega)) hc with ⟨l, hl⟩ | x
              · exact .inl ⟨.nop :: l, by simp [hl]⟩
              · exact .inr x
          · rename_i h1
            rw [if_neg h1] at hc
            split at hc
            · cases hc
            · cases hn : idx f (o + 1) with
              | error e => rw [hn] at hc; simp at hc
              | ok l =>
                have hlt' : o + 1 < f.length := by
                  obtain ⟨hi, -⟩ := idx_eq_ok.mp hn; exact hi
                have hle : be f (o + 1) 1 = l := by
                  have := idx_be (f := f) (i := o + 1) hlt'
                  rw [hn] at this; injection this with this; exact this.symm
                by_cases hroom : f.length < o + needs (be f o 1)
                · exact .inr ⟨o, ha, h, by omega, hroom⟩
                obtain ⟨x, hx⟩ := Tcp.readOpt_whole (f := f) (o := o) (k := k) (by rw [hke] at hroom; omega)
                simp only [hn, hx, codec] at hc ⊢
                split at hc
                · cases hc
                · split at hc
                  · cases hc
                  · have := OptionAt.opt ha (by omega)
                    rw [hle] at this
                    rcases ih _ this hc with ⟨l', hl⟩ | y
                    · exact .inl ⟨x :: l', by simp [hl]⟩
                    · exact .inr y
    · exact .inl ⟨_, rfl⟩

theorem Tcp.hlen_be {f : Bytes} (h : 13 ≤ f.length) : Tcp.hlen f = .ok (be f 12 1 / 16 * 4) := by
  have hlt := be_lt f 12 1
  have hh : (be f 12 1 &&& 0b11110000) >>> 2 = be f 12 1 / 16 * 4 := by
    rw [show (0b11110000 : Nat) = 2 ^ 8 - 2 ^ 4 from rfl, and_high (by omega) (by omega), Nat.shiftRight_eq_div_pow]
    omega
  simp only [Tcp.hlen, idx_be (f := f) (i := 12) (by omega), py_ok_bind, py_pure, hh]

/-- A segment that is not cut is refused or can be read. -/
theorem Tcp.not_cut {f : Bytes} {dlen ps : Nat} (hf : f.length < 2 ^ 63) (hps : ps < 2 ^ 72) (h : ¬ CutTcp f) :
    (∃ s, Tcp.parse f dlen ps = .ok (some s)) ∨ (Tcp.parse f dlen ps = .ok none ∧ ∃ x, Tcp.read f dlen = .ok x ∧
      x.sport < 65536 ∧ x.dport < 65536 ∧ x.seq = be f 4 4 ∧ x.flags.syn = bit f 13 1 ∧ x.flags.fin = bit f 13 0 ∧
        x.data.length = dlen - be f 12 1 / 16 * 4) := by
  unfold CutTcp at h
  have h13 : 13 ≤ f.length := Classical.byContradiction fun x => h (.inl (by omega))
  have hcut : ¬ ∃ o, OptionAt f o ∧ o < be f 12 1 / 16 * 4 ∧ 2 ≤ be f o 1 ∧ f.length < o + needs (be f o 1) := fun x => h (.inr x)
  have hhl := Tcp.hlen_be h13
  rcases (C24_tcp_total_partial f dlen ps hf hps h13).1 with ⟨r, hr⟩ | ⟨hr, hl, k, hk, hk2⟩
  · cases r with
    | some s => exact .inl ⟨s, hr⟩
    | none =>
      right
      refine ⟨hr, ?_⟩
      obtain ⟨hl', sp, dp, sq, ak, fl, wn, up, hh, l20, -, -, ld, lf, -, h1, h2, h3, h4, h5, h6, h7, -, hoc⟩ := C74_tcp_accepted f dlen ps hf hps hr
      have : hl' = be f 12 1 / 16 * 4 := by rw [hhl] at hh; injection hh with hh; exact hh.symm
      subst this
      rcases Tcp.optionsLoop_cut f _ _ _ .first hoc with ⟨l, hl2⟩ | x
      · refine ⟨Tcp.Hdr.mk sp dp sq ak fl wn up l (slice f (be f 12 1 / 16 * 4) dlen), by simp only [Tcp.read, Tcp.options, hhl, h1, h2, h3, h4, h5, h6, h7, hl2, codec], ?_, ?_, ?_, ?_, ?_, ?_⟩
        · have := u16_be (f := f) (i := 0) (by omega)
          rw [Tcp.sport, this] at h1; injection h1 with h1; have := be_lt f 0 2; dsimp only; omega
        · have := u16_be (f := f) (i := 2) (by omega)
          rw [Tcp.dport, this] at h2; injection h2 with h2; have := be_lt f 2 2; dsimp only; omega
        · have := u32_be (f := f) (i := 4) (by omega)
          rw [Tcp.seq, this] at h3; injection h3 with h3; exact h3.symm
        · have b13 := idx_be (f := f) (i := 13) (by omega)
          have b12 := idx_be (f := f) (i := 12) (by omega)
          simp only [Tcp.flags, Tcp.flagNs, Tcp.flagCrw, Tcp.flagEce, Tcp.flagUrg, Tcp.flagAck, Tcp.flagPsh, Tcp.flagRst, Tcp.flagSyn, Tcp.flagFin, b12, b13, py_ok_bind, py_pure] at h5
          injection h5 with h5; subst h5
          exact bit_eq _ 1
        · have b13 := idx_be (f := f) (i := 13) (by omega)
          have b12 := idx_be (f := f) (i := 12) (by omega)
          simp only [Tcp.flags, Tcp.flagNs, Tcp.flagCrw, Tcp.flagEce, Tcp.flagUrg, Tcp.flagAck, Tcp.flagPsh, Tcp.flagRst, Tcp.flagSyn, Tcp.flagFin, b12, b13, py_ok_bind, py_pure] at h5
          injection h5 with h5; subst h5
          exact bit_eq _ 0
        · simp; omega
      · exact absurd x hcut
  · exfalso
    rw [hhl] at hl
    injection hl with hl
    have h20 : 20 ≤ f.length := by
      refine Classical.byContradiction fun hlt => ?_
      have := be_lt f 12 1
      rw [Tcp.parse] at hr
      have : Tcp.integrity f dlen ps = .ok (some "TCP integrity - wrong packet checksum") ∨ Tcp.integrity f dlen ps = .ok (some "TCP integrity - wrong packet length (I)") := by
        unfold Tcp.integrity
        split
        · exact .inl rfl
        · right
          dsimp only [codec]
          rw [if_pos (by omega)]; rfl
      rcases this with e | e <;> · rw [e] at hr; simp [hhl] at hr
    have hi : Tcp.integrity f dlen ps = .error .indexError := by
      cases hi : Tcp.integrity f dlen ps with
      | error e =>
        rw [Tcp.parse, hi] at hr
        simp at hr; rw [hr]
      | ok r =>
        exfalso
        cases r with
        | some s => rw [Tcp.parse, hi] at hr; simp [hhl] at hr
        | none =>
          obtain ⟨sp, hsp, -, -⟩ := u16_ex (f := f) (i := 0) (by omega)
          obtain ⟨x13, e13, l13, -⟩ := idx_ex (f := f) (i := 13) (by omega)
          obtain ⟨dp, hdp, -, -⟩ := u16_ex (f := f) (i := 2) (by omega)
          obtain ⟨ak, hak, -, -⟩ := u32_ex (f := f) (i := 8) (by omega)
          obtain ⟨up, hup, -, -⟩ := u16_ex (f := f) (i := 18) (by omega)
          have hs : ∃ r, Tcp.sanity f = .ok r := by
            simp only [Tcp.sanity, Tcp.sport, hsp, Tcp.dport, hdp, Tcp.flagUrg, Tcp.flagAck,
                Tcp.flagRst, Tcp.flagSyn, Tcp.flagFin, e13, Tcp.ack, hak, Tcp.urg, hup, codec]
            repeat' split
            all_goals exact ⟨_, rfl⟩
          obtain ⟨r, hs⟩ := hs
          rw [Tcp.parse, hi] at hr
          cases r <;> simp [hs, hhl] at hr
    have hb := idx_be (f := f) (i := 12) (by omega)
    have hh : (be f 12 1 &&& 0b11110000) >>> 2 = be f 12 1 / 16 * 4 := by
      have hlt := be_lt f 12 1
      rw [show (0b11110000 : Nat) = 2 ^ 8 - 2 ^ 4 from rfl, and_high (by omega) (by omega), Nat.shiftRight_eq_div_pow]
      omega
    unfold Tcp.integrity at hi
    simp only [hb, hh, codec] at hi
    repeat' split at hi
    all_goals first
      | cases hi; done
      | exact hcut (Tcp.optionCheck_cut f _ (by omega) _ _ (by omega) .first _ hi)

/-! ### What is asked of the transmit side -/

/-- A packet of at most `mtu` bytes; and numbers that fit, unless the segment answered runs over. -/
def Fits (mtu : Nat) (over : Prop) : Eff → Prop
  | .txIcmp4 _ _ m => 20 + Icmp4.len m ≤ mtu
  | .txIcmp6 _ _ hop m => 0 < hop ∧ hop < 256 ∧ 40 + Icmp6.len m ≤ mtu
  | .txTcp _ _ x => x.sport < 65536 ∧ x.dport < 65536 ∧ x.seq = 0 ∧ x.win = 0 ∧ x.urp = 0 ∧ x.options = [] ∧ x.data = [] ∧ (over ∨ x.ack < 2 ^ 32)
  | _ => True

theorem Rx.arp_total (n : Node) (dst : MacAddress) (f : Bytes) (mtu : Nat) (over : Prop) : ∃ l, Rx.arp n dst f = .ok l ∧ ∀ e ∈ l, Fits mtu over e := by
  obtain ⟨r, hr, hn⟩ := C22_arp_total f
  cases r with
  | some s => exact ⟨[], by simp only [Rx.arp, hr, codec], by simp⟩
  | none =>
    obtain ⟨h, hh⟩ := hn rfl
    simp only [Rx.arp, hr, hh, codec]
    repeat' split
    all_goals exact ⟨_, rfl, by simp [Fits]⟩

theorem Rx.quoted4_total (f : Bytes) : ∃ x, Rx.quoted4 f = .ok x := by
  unfold Rx.quoted4
  split
  · exact ⟨_, rfl⟩
  have b0 := idx_be (f := f) (i := 0) (by omega)
  have b9 := idx_be (f := f) (i := 9) (by omega)
  obtain ⟨s, b12, -⟩ := ip4_ok (f := f) (i := 12) (j := 16) rfl (by omega)
  obtain ⟨d, b16, -⟩ := ip4_ok (f := f) (i := 16) (j := 20) rfl (by omega)
  simp only [b0, b9, b12, b16, codec]
  generalize (be f 0 1 &&& 0b00001111) <<< 2 = hl
  split
  · exact ⟨_, rfl⟩
  split
  · exact ⟨_, rfl⟩
  split
  · exact ⟨_, rfl⟩
  split
  · exact ⟨_, rfl⟩
  rw [u16_be (by omega), u16_be (by omega)]
  exact ⟨_, rfl⟩

theorem Rx.quoted6_total (f : Bytes) : ∃ x, Rx.quoted6 f = .ok x := by
  unfold Rx.quoted6
  split
  · exact ⟨_, rfl⟩
  have b0 := idx_be (f := f) (i := 0) (by omega)
  have b6 := idx_be (f := f) (i := 6) (by omega)
  obtain ⟨s, b8, -⟩ := ip6_ok (f := f) (i := 8) (j := 24) rfl (by omega)
  obtain ⟨d, b24, -⟩ := ip6_ok (f := f) (i := 24) (j := 40) rfl (by omega)
  simp only [b0, b6, b8, b24, u16_be (f := f) (i := 40) (by omega), u16_be (f := f) (i := 42) (by omega), codec]
  split
  · exact ⟨_, rfl⟩
  split <;> exact ⟨_, rfl⟩

theorem Rx.unreachable_fits (n : Node) (x : Option UdpMd) (mtu : Nat) (over : Prop) : ∀ e ∈ Rx.unreachable n x, Fits mtu over e := by
  intro e he
  unfold Rx.unreachable at he
  split at he
  · simp at he
  · split at he
    · simp at he; subst he; trivial
    · simp at he

theorem Rx.icmp4_total (n : Node) (src dst : Ip4Address) (dlen : Nat) (f : Bytes) {mtu : Nat} (hm : 28 ≤ mtu) (hd : 20 + dlen ≤ mtu) (over : Prop) :
    ∃ l, Rx.icmp4 n src dst dlen f = .ok l ∧ ∀ e ∈ l, Fits mtu over e := by
  obtain ⟨r, hr, hn⟩ := C22_icmp4_total f dlen
  cases r with
  | some s => exact ⟨[], by simp only [Rx.icmp4, hr, codec], by simp⟩
  | none =>
    obtain ⟨-, -, h, hh⟩ := hn rfl
    simp only [Rx.icmp4, hr, hh, codec]
    cases h with
    | echo t c id seq data =>
      dsimp only
      split
      · refine ⟨_, rfl, ?_⟩
        have hdata : data.length ≤ dlen - 8 := by
          rw [Icmp4.read] at hh
          cases h0 : Icmp4.type f with
          | error e => simp [h0] at hh
          | ok t' =>
          cases h1 : Icmp4.code f with
          | error e => simp [h0, h1] at hh
          | ok c' =>
          simp only [h0, h1, py_ok_bind] at hh
          split at hh
          · cases h2 : Icmp4.ecId f with
            | error e => simp [h2] at hh
            | ok a =>
            cases h3 : Icmp4.ecSeq f with
            | error e => simp [h2, h3] at hh
            | ok b =>
            cases h4 : Icmp4.ecData f dlen with
            | error e => simp [h2, h3, h4] at hh
            | ok d =>
              simp [h2, h3, h4] at hh
              obtain ⟨-, -, -, -, rfl⟩ := hh
              rw [Icmp4.ecData, h0] at h4
              simp only [codec] at h4
              cases ha : pyAssert (t' == 8 || t' == 0) with
              | error e => rw [ha] at h4; cases h4
              | ok u => rw [ha] at h4; injection h4 with h4; subst h4; simp; omega
          · split at hh
            · cases h4 : Icmp4.unData f dlen <;> simp [h4] at hh
            · simp at hh
        intro e he
        simp at he; subst he
        show 20 + (8 + data.length) ≤ mtu
        omega
      · exact ⟨_, rfl, by simp⟩
    | unreachable c data =>
      obtain ⟨x, hx⟩ := Rx.quoted4_total data
      dsimp only
      rw [hx]
      exact ⟨_, rfl, Rx.unreachable_fits n x mtu over⟩
    | other _ _ => exact ⟨_, rfl, by simp⟩

theorem Rx.udp_total (n : Node) (ip : Rx.IpHdr) (f : Bytes) (hf : f.length < 2 ^ 63) (hps : ip.pshdrSum < 2 ^ 72) {mtu : Nat} (hm : 568 ≤ mtu) (over : Prop) :
    ∃ l, Rx.udp n ip f = .ok l ∧ ∀ e ∈ l, Fits mtu over e := by
  obtain ⟨r, hr, hn⟩ := C22_udp_total f ip.dlen ip.pshdrSum hf hps
  cases r with
  | some s => exact ⟨[], by simp only [Rx.udp, hr, codec], by simp⟩
  | none =>
    obtain ⟨h, hh⟩ := hn rfl
    simp only [Rx.udp, hr, hh, codec]
    split
    · exact ⟨_, rfl, by simp [Fits]⟩
    · split
      · exact ⟨_, rfl, by simp⟩
      · refine ⟨_, rfl, ?_⟩
        intro e he
        unfold Rx.portUnreachable at he
        split at he
        · simp at he; subst he
          have : (ip.packetCopy.take 520).length ≤ 520 := by simp; omega
          exact ⟨by omega, by omega, show 40 + (8 + (ip.packetCopy.take 520).length) ≤ mtu by omega⟩
        · simp at he; subst he
          have : (ip.packetCopy.take 520).length ≤ 520 := by simp; omega
          exact (show 20 + (8 + (ip.packetCopy.take 520).length) ≤ mtu by omega)
        · simp at he

theorem Rx.tcp_total (n : Node) (ip : Rx.IpHdr) (f : Bytes) (hf : f.length < 2 ^ 63) (hps : ip.pshdrSum < 2 ^ 72) (h : ¬ CutTcp f) (mtu : Nat) :
    ∃ l, Rx.tcp n ip f = .ok l ∧ ∀ e ∈ l, Fits mtu (RunsOver f ip.dlen) e := by
  rcases Tcp.not_cut (dlen := ip.dlen) hf hps h with ⟨s, hs⟩ | ⟨hp, x, hx, h1, h2, h3, h4, h5, h6⟩
  · exact ⟨[], by simp only [Rx.tcp, hs, codec], by simp⟩
  · simp only [Rx.tcp, hp, hx, codec]
    split
    · exact ⟨_, rfl, by simp [Fits]⟩
    · refine ⟨_, rfl, ?_⟩
      intro e he
      simp at he; subst he
      refine ⟨h2, h1, rfl, rfl, rfl, rfl, rfl, ?_⟩
      unfold RunsOver
      show _ ∨ x.seq + x.flags.syn.toNat + x.flags.fin.toNat + x.data.length < 2 ^ 32
      rw [h3, h4, h5, h6]
      omega

theorem Rx.nd_at {m : Bytes} {start o : Nat} (h : OptAt m start o) : NdOptionAt m start o := by
  induction h with
  | first => exact .first
  | next h hn ih =>
    rename_i o n
    obtain ⟨hi, e⟩ := List.getElem?_eq_some_iff.mp hn
    have : be m (o + 1) 1 = n.toNat := by
      have := idx_be (f := m) (i := o + 1) hi
      rw [idx, hn] at this
      injection this with this; exact this.symm
    rw [← this]
    exact .next ih hi

theorem Rx.bad_pi {m : Bytes} {start : Nat} (h : BadPi m start) :
    ∃ o, NdOptionAt m start o ∧ o < m.length ∧ be m o 1 = 3 ∧ (m.length < o + 32 ∨ 128 < be m (o + 2) 1) := by
  obtain ⟨o, ha, hl, h3, h⟩ := h
  have hb : ∀ {i : Nat} {k : UInt8}, m[i]? = some k → be m i 1 = k.toNat := by
    intro i k hk
    obtain ⟨hi, -⟩ := List.getElem?_eq_some_iff.mp hk
    have := idx_be (f := m) (i := i) hi
    rw [idx, hk] at this
    injection this with this; exact this.symm
  refine ⟨o, Rx.nd_at ha, hl, by rw [hb h3]; rfl, ?_⟩
  rcases h with h | ⟨k, hk, h⟩
  · exact .inl h
  · exact .inr (by rw [hb hk]; exact h)

/-- An eight-byte router solicitation can be read. -/
theorem Icmp6.read_rs {f : Bytes} {plen : Nat} (ht : idx f 0 = .ok 133) (h8 : f.length ≤ 8) (h2 : 2 ≤ f.length) : Icmp6.read f plen = .ok (.routerSolicitation []) := by
  have h1 := idx_be (f := f) (i := 1) (by omega)
  have : Icmp6.readNdOptions f f.length 12 = .ok [] := by rw [Icmp6.readNdOptions.eq_def]; dsimp only; rw [if_neg (by omega)]
  simp [Icmp6.read, Icmp6.type, Icmp6.code, ht, h1, Icmp6.ndOptions, Icmp6.optStart, this]

/-- An accepted router solicitation is for all routers. -/
theorem Icmp6.rs_dst {f : Bytes} {plen ps hop : Nat} {src dst : Ip6Address} (h : Icmp6.parse f plen ps src dst hop = .ok none) (ht : idx f 0 = .ok 133)
    (h2 : 2 ≤ f.length) : dst = Icmp6.allRouters := by
  have h1 := idx_be (f := f) (i := 1) (by omega)
  rw [Icmp6.parse] at h
  cases hi : Icmp6.integrity f plen ps with
  | error e => rw [hi] at h; simp at h
  | ok r =>
    cases r with
    | some s => rw [hi] at h; simp at h
    | none =>
      rw [hi] at h
      simp only [Icmp6.sanity, Icmp6.type, Icmp6.code, ht, h1, codec, Icmp6.sanityRs] at h
      simp at h
      repeat' split at h
      all_goals first
        | cases h; done
        | assumption

theorem Icmp6.read_echo_len {f : Bytes} {plen t id seq : Nat} {data : Bytes} (hr : Icmp6.read f plen = .ok (.echo t id seq data)) : data.length ≤ plen - 8 := by
  rw [Icmp6.read] at hr
  cases h0 : Icmp6.type f with
  | error e => simp [h0] at hr
  | ok t' =>
  cases h1 : Icmp6.code f with
  | error e => simp [h0, h1] at hr
  | ok c' =>
  simp only [h0, h1, py_ok_bind] at hr
  split at hr
  · cases h4 : Icmp6.unData f plen <;> simp [h4] at hr
  split at hr
  · cases h2 : Icmp6.ecId f with
    | error e => simp [h2] at hr
    | ok a =>
    cases h3 : Icmp6.ecSeq f with
    | error e => simp [h2, h3] at hr
    | ok b =>
    cases h4 : Icmp6.ecData f plen with
    | error e => simp [h2, h3, h4] at hr
    | ok d =>
      simp [h2, h3, h4] at hr
      obtain ⟨-, -, -, rfl⟩ := hr
      rw [Icmp6.ecData, h0] at h4
      simp only [codec] at h4
      cases ha : pyAssert (t' == 128 || t' == 129) with
      | error e => rw [ha] at h4; cases h4
      | ok u => rw [ha] at h4; injection h4 with h4; subst h4; simp; omega
  split at hr
  · cases h4 : Icmp6.ndOptions f <;> simp [h4] at hr
  split at hr
  · rw [Icmp6.readRa] at hr
    cases h2 : idx f 4 with
    | error e => simp [h2] at hr
    | ok a =>
    cases h3 : idx f 5 with
    | error e => simp [h2, h3] at hr
    | ok b =>
    cases h4 : u16 f 6 with
    | error e => simp [h2, h3, h4] at hr
    | ok c =>
    cases h5 : u32 f 8 with
    | error e => simp [h2, h3, h4, h5] at hr
    | ok d =>
    cases h6 : u32 f 12 with
    | error e => simp [h2, h3, h4, h5, h6] at hr
    | ok e =>
    cases h7 : Icmp6.ndOptions f <;> simp [h2, h3, h4, h5, h6, h7] at hr
  split at hr
  · cases h4 : Icmp6.nsTarget f with
    | error e => simp [h4] at hr
    | ok a => cases h5 : Icmp6.ndOptions f <;> simp [h4, h5] at hr
  split at hr
  · rw [Icmp6.readNa] at hr
    cases h2 : idx f 4 with
    | error e => simp [h2] at hr
    | ok a =>
    cases h4 : Icmp6.naTarget f with
    | error e => simp [h2, h4] at hr
    | ok b => cases h5 : Icmp6.ndOptions f <;> simp [h2, h4, h5] at hr
  · simp at hr

theorem Rx.icmp6_total (n : Node) (src dst : Ip6Address) (hop ps : Nat) (f : Bytes) {mtu : Nat} (hm : 568 ≤ mtu) (hd : 40 + f.length ≤ mtu) (over : Prop)
    (h : ¬ OddNd src.int dst.int f) : ∃ l, Rx.icmp6 n src dst hop f.length ps f = .ok l ∧ ∀ e ∈ l, Fits mtu over e := by
  have hb : ∀ {t : Nat}, idx f 0 = .ok t → be f 0 1 = t := by
    intro t ht
    obtain ⟨hi, -⟩ := idx_eq_ok.mp ht
    rw [idx_be hi] at ht; injection ht
  have hnd : ∀ t, ndStart t = ndOffset t := fun t => rfl
  unfold OddNd at h
  cases hp : Icmp6.parse f f.length ps src dst hop with
  | error e =>
    exfalso
    obtain ⟨t, ht, hc⟩ := C25_icmp6_raises_only_partial f f.length ps src dst hop e hp
    rw [hb ht] at h
    rcases hc with ⟨h1, h2, -, k, hk⟩ | ⟨rfl, h1, rfl, -⟩ | ⟨rfl, -, -, hpi⟩
    · exact h ⟨h1, h2, .inl ⟨k, hk⟩⟩
    · exact h ⟨by omega, by omega, .inr (.inl ⟨rfl, rfl, .inl h1⟩)⟩
    · exact h ⟨by omega, by omega, .inr (.inr ⟨by omega, Rx.bad_pi hpi⟩)⟩
  | ok r =>
    cases r with
    | some s => exact ⟨[], by simp only [Rx.icmp6, hp, codec], by simp⟩
    | none =>
      have h4 : 4 ≤ f.length := by
        refine Classical.byContradiction fun hlt => ?_
        rw [Icmp6.parse] at hp
        have : ∃ s, Icmp6.integrity f f.length ps = .ok (some s) := by
          unfold Icmp6.integrity
          split
          · exact ⟨_, rfl⟩
          · rw [if_pos (by omega)]; exact ⟨_, rfl⟩
        obtain ⟨s, hs⟩ := this
        rw [hs] at hp
        simp at hp
      have ht := idx_be (f := f) (i := 0) (by omega)
      have hread : ∃ q, Icmp6.read f f.length = .ok q := by
        by_cases h133 : be f 0 1 = 133
        · rw [h133] at ht
          have hdst := Icmp6.rs_dst hp ht (by omega)
          have h8 : f.length ≤ 8 := Classical.byContradiction fun hlt => h ⟨by omega, by omega, .inr (.inl ⟨h133, by rw [hdst]; rfl, .inr (by omega)⟩)⟩
          exact ⟨_, Icmp6.read_rs ht h8 (by omega)⟩
        · exact C25_icmp6_read_partial f f.length ps src dst hop _ hp ht h133
            (fun h1 h2 hpi => h ⟨by omega, h2, .inr (.inr ⟨h133, Rx.bad_pi hpi⟩)⟩)
      obtain ⟨q, hq⟩ := hread
      simp only [Rx.icmp6, hp, hq, codec]
      cases q with
      | neighborSolicitation t o =>
        refine ⟨_, rfl, ?_⟩
        intro e he
        unfold Rx.neighborSolicitation at he
        split at he
        · simp at he
        · rw [List.mem_append] at he
          rcases he with he | he
          · split at he
            · split at he
              · simp at he
              · simp at he; subst he; trivial
            · simp at he
          · simp at he; subst he
            exact ⟨by omega, by omega, show 40 + (24 + 8) ≤ mtu by omega⟩
      | neighborAdvertisement r s o t opts =>
        refine ⟨_, rfl, ?_⟩
        intro e he
        unfold Rx.neighborAdvertisement at he
        split at he
        · simp at he; subst he; trivial
        · split at he
          · simp at he; subst he; trivial
          · simp at he
      | routerSolicitation o => exact ⟨_, rfl, by simp⟩
      | routerAdvertisement a b c d e g o => exact ⟨_, rfl, by simp [Fits]⟩
      | echo t id seq data =>
        have := Icmp6.read_echo_len hq
        dsimp only
        split
        · refine ⟨_, rfl, ?_⟩
          intro e he
          simp at he; subst he
          exact ⟨by omega, by omega, show 40 + (8 + data.length) ≤ mtu by omega⟩
        · exact ⟨_, rfl, by simp⟩
      | unreachable c data =>
        obtain ⟨x, hx⟩ := Rx.quoted6_total data
        dsimp only
        rw [hx]
        exact ⟨_, rfl, Rx.unreachable_fits n x mtu over⟩
      | other _ _ => exact ⟨_, rfl, by simp⟩

/-! ### Whole frames -/

theorem Ip4.read_rest {p : Bytes} {h : Ip4.Hdr} (H : Ip4.parse p = .ok none) (hr : Ip4.read p = .ok h) : h.rest = p.drop (be p 0 1 % 16 * 4) := by
  obtain ⟨r, hr', h1, h2, h3, h4, h5, h6, h7, -⟩ := C26_ip4_accepted_partial p H
  have := Except.ok.inj (hr'.symm.trans hr)
  subst this
  have b0 := idx_be (f := p) (i := 0) (by omega)
  have b1 := idx_be (f := p) (i := 1) (by omega)
  have b2 := u16_be (f := p) (i := 2) (by omega)
  have b4 := u16_be (f := p) (i := 4) (by omega)
  have b6 := idx_be (f := p) (i := 6) (by omega)
  have b6' := u16_be (f := p) (i := 6) (by omega)
  have b8 := idx_be (f := p) (i := 8) (by omega)
  have b9 := idx_be (f := p) (i := 9) (by omega)
  obtain ⟨s, b12, s'⟩ := ip4_be (f := p) (i := 12) (by omega)
  obtain ⟨d, b16, d'⟩ := ip4_be (f := p) (i := 16) (by omega)
  have hh : Ip4.hlen p = .ok (be p 0 1 % 16 * 4) := by
    simp only [Ip4.hlen, b0, py_ok_bind, py_pure]
    rw [and_F, Nat.shiftLeft_eq, show (2 : Nat) ^ 2 = 4 from rfl]
  simp only [Ip4.read, hh, Ip4.plen, b2, Ip4.src, b12, Ip4.dst, b16, Ip4.proto, b9, Ip4.dscp, Ip4.ecn, b1, Ip4.id, b4, Ip4.flagDf, b6,
    Ip4.flagMf, Ip4.offset, b6', Ip4.ttl, b8, py_ok_bind, py_pure] at hr
  cases ho : Ip4.options p with
  | error e => simp [ho] at hr
  | ok o =>
    cases hps : Ip4.pshdrSum s d (be p 9 1) (be p 2 2 - be p 0 1 % 16 * 4) with
    | error e => simp [ho, hps] at hr
    | ok ps =>
      simp only [ho, hps, py_ok_bind] at hr
      have hr := Except.ok.inj hr
      subst hr
      rfl

theorem Rx.ip4_total (n : Node) (t₀ t₁ : Int) (p : Bytes) {mtu : Nat} (hm : 568 ≤ mtu) (hl : p.length ≤ mtu) (hp : p.length < 2 ^ 63)
    (h1 : ¬ CutIp4 p) (h2 : ¬ IsFragment4 p) (h3 : be p 9 1 = 6 → ¬ CutTcp (body4 p)) :
    ∃ l, (Rx.ip4 n t₀ t₁ p).2 = .ok l ∧ ∀ e ∈ l, Fits mtu (be p 9 1 = 6 ∧ RunsOver (body4 p) (be p 2 2 - be p 0 1 % 16 * 4)) e := by
  rcases C23_ip4_total_partial p with ⟨r, hr, hn⟩ | ⟨hr, h20, hhl, k, hk, hk2⟩
  · cases r with
    | some s => exact ⟨[], by simp only [Rx.ip4, hr, codec], by simp⟩
    | none =>
      obtain ⟨h, hh⟩ := hn rfl
      obtain ⟨H, hdl, hdl'⟩ := Ip4.sound hr hh
      obtain ⟨-, ho, hmf, -, hps, hrest⟩ := Ip4.frag hr hh
      obtain ⟨r, hr', -, q1, q2, q3, q4, q5, -⟩ := C26_ip4_accepted_partial p hr
      have := Except.ok.inj (hr'.symm.trans hh)
      subst this
      have hb0 : be p 0 1 % 16 * 4 = r.hlen := by
        have b0 := idx_be (f := p) (i := 0) (by omega)
        obtain ⟨x, hx1, hx2⟩ := idx_some b0
        rw [hx1] at q1
        simp at q1
        rw [← hx2, q1]
      have hpl : be p 2 2 - be p 0 1 % 16 * 4 = r.dlen := by
        have := congrArg List.length H.hasPayload
        rw [← hdl] at this
        have h5 := H.length
        have h6 := H.header
        simp at this
        omega
      have hrst : r.rest = body4 p := by
        rw [body4]
        exact Ip4.read_rest hr hh
      have hwhole : ¬ (r.offset ≠ 0 ∨ r.mf = true) := by
        rintro (x | x)
        · apply h2; rw [IsFragment4]; rw [ho] at x; omega
        · apply h2; rw [IsFragment4]
          rw [hmf] at x
          have e : be p 6 2 = be p 6 1 * 256 + be p 7 1 := be_two (f := p) (i := 6) (by omega)
          have e7 := be_lt p 7 1
          simp [bit] at x
          omega
      have hps72 : r.pshdrSum < 2 ^ 72 := by
        have hpr := be_lt p 9 1
        have : r.proto < 256 := by rw [← H.hasProto]; omega
        obtain ⟨_, _, _, _, _, x⟩ := under4 this hdl' hps
        exact x
      have hrl : r.rest.length < 2 ^ 63 := by rw [hrst, body4]; simp; omega
      simp only [Rx.ip4, hr, hh, codec]
      split
      · exact ⟨[], rfl, by simp⟩
      unfold Rx.ip4Dispatch
      split
      · exact Rx.icmp4_total n _ _ _ _ (by omega) (by omega) _
      split
      · exact Rx.udp_total n _ _ hrl hps72 hm _
      split
      · rename_i h6
        have h6' : be p 9 1 = 6 := by rw [H.hasProto]; exact h6
        rw [hrst] at hrl ⊢
        obtain ⟨l, e, hf⟩ := Rx.tcp_total n (Rx.ofIp4 r) (body4 p) hrl hps72 (h3 h6') mtu
        refine ⟨l, e, ?_⟩
        rw [hpl]
        simp only [h6', true_and]
        exact hf
      · exact ⟨[], rfl, by simp⟩
  · exfalso
    apply h1
    have hb0 := idx_be (f := p) (i := 0) (by omega)
    obtain ⟨x, hx1, hx2⟩ := idx_some hb0
    rw [hx1] at hhl
    simp at hhl
    refine ⟨h20, by rw [← hx2]; exact hhl, ?_⟩
    have hbl := idx_be (f := p) (i := p.length - 1) (by omega)
    obtain ⟨y, hy1, hy2⟩ := idx_some hbl
    rw [List.getLast?_eq_getElem?, hy1] at hk
    injection hk with hk
    rw [← hy2, hk]
    exact UInt8.le_iff_toNat_le.mp hk2

theorem Rx.ip6_total (n : Node) (t₀ t₁ : Int) (d : Nat) (p : Bytes) {mtu : Nat} (hm : 568 ≤ mtu) (hl : p.length ≤ mtu)
    (h1 : be p 6 1 ≠ 44) (h2 : be p 6 1 = 58 → ¬ OddNd (be p 8 16) (be p 24 16) (p.drop 40)) (h3 : be p 6 1 = 6 → ¬ CutTcp (p.drop 40)) :
    ∃ l, (Rx.ip6 n t₀ t₁ d p).2 = .ok l ∧ ∀ e ∈ l, Fits mtu (be p 6 1 = 6 ∧ RunsOver (p.drop 40) (be p 4 2)) e := by
  obtain ⟨r, hr, hn⟩ := C22_ip6_total p
  cases r with
  | some s => rw [Rx.ip6.eq_def]; exact ⟨[], by simp only [hr, codec], by simp⟩
  | none =>
    obtain ⟨h, hh⟩ := hn rfl
    obtain ⟨H, hdl, hdl', hps⟩ := Ip6.sound hr hh
    have hrest := H.hasPayload
    have hnx := H.hasNext
    have hle := H.length
    have hsrc := H.hasSrc
    have hps72 : h.pshdrSum < 2 ^ 72 := by
      have hpr := be_lt p 6 1
      obtain ⟨_, _, _, _, _, x⟩ := under6 (next := h.next) (by omega) (by omega) hps
      exact x
    have hrl : h.rest.length < 2 ^ 63 := by omega
    rw [Rx.ip6.eq_def]
    simp only [hr, hh, codec]
    split
    · exact ⟨[], rfl, by simp⟩
    rw [if_neg (by omega)]
    split
    · rename_i h58
      rw [hdl]
      have : h.rest.length = p.length - 40 := by rw [hrest]; simp
      exact Rx.icmp6_total n _ _ _ _ _ hm (by omega) _ (by rw [hsrc, H.hasDst, hrest]; exact h2 (by omega))
    split
    · exact Rx.udp_total n _ _ hrl hps72 hm _
    split
    · rename_i h6
      have h6' : be p 6 1 = 6 := by omega
      rw [hrest] at hrl ⊢
      obtain ⟨l, e, hf⟩ := Rx.tcp_total n (Rx.ofIp6 h) (p.drop 40) hrl hps72 (h3 h6') mtu
      refine ⟨l, e, ?_⟩
      have : (Rx.ofIp6 h).dlen = be p 4 2 := by
        show h.dlen = _
        rw [hdl, hrest]; simp; omega
      rw [this] at hf
      simp only [h6', true_and]
      exact hf
    · exact ⟨[], rfl, by simp⟩

end Verif
