import Verif.Spec.AcceptIp
import Verif.Lemmas.WireTcp
import Verif.Lemmas.WireNd
/-! C107: which frames, IP packets and TCP segments the parsers accept. -/
namespace Verif
open Spec

/-- C107: an Ethernet frame is accepted if it is in order, and only then. -/
theorem C107_ether (f : Bytes) : Ether.parse f = .ok none ↔ FrameInOrder f := by
  unfold Ether.parse FrameInOrder
  by_cases h : f.length < 14
  · simp only [codec, if_pos h]
    constructor
    · intro x; cases x
    · intro x; omega
  · simp only [Ether.type, u16_be (show 12 + 2 ≤ f.length by omega), codec, if_neg h]
    split
    · constructor
      · intro x; cases x
      · intro x; omega
    · exact ⟨fun _ => by omega, fun _ => rfl⟩

/-- The walk at the end of the options. -/
theorem drop_take_nil {f : Bytes} {h o : Nat} (hf : h ≤ f.length) : (f.take h).drop o = [] ↔ h ≤ o := by
  rw [List.drop_eq_nil_iff]; simp; omega

theorem drop_take_cons {f : Bytes} {h o : Nat} (hf : h ≤ f.length) (ho : o < h) :
    ∃ k : UInt8, (f.take h).drop o = k :: (f.take h).drop (o + 1) ∧ idx f o = .ok k.toNat := by
  have : o < (f.take h).length := by simp; omega
  have e := List.drop_eq_getElem_cons this
  exact ⟨_, e, (cons_of_drop e).2.2.1⟩

theorem Walks.one_iff {next t : Bytes} {k : UInt8} (hk : 2 ≤ k.toNat) : Walks next (k :: 1 :: t) ↔ Walks next (1 :: t) := by
  constructor
  · intro h
    generalize hx : (k :: 1 :: t) = x at h
    cases h with
    | nil => cases hx
    | eol => cases hx; simp at hk
    | nop => cases hx; simp at hk
    | opt k n v _ hn _ => cases hx; simp at hn
    | one k _ h => cases hx; exact h
    | last k _ _ => cases hx
  · exact fun h => .one k hk h

theorem Walks.zero_not {next t : Bytes} {k : UInt8} (hk : 2 ≤ k.toNat) : ¬ Walks next (k :: 0 :: t) := by
  intro h
  generalize hx : (k :: 0 :: t) = x at h
  cases h with
  | nil => cases hx
  | eol => cases hx; simp at hk
  | nop => cases hx; simp at hk
  | opt k n v _ hn _ => cases hx; simp at hn
  | one k _ h => cases hx
  | last k _ _ => cases hx

theorem Walks.nop_iff {next t : Bytes} : Walks next (1 :: t) ↔ Walks next t := by
  constructor
  · intro h
    generalize hx : (1 :: t) = x at h
    cases h with
    | nil => cases hx
    | eol => cases hx
    | nop h => cases hx; exact h
    | opt k n v hk _ _ => cases hx; simp at hk
    | one k hk h => cases hx; simp at hk
    | last k hk _ => cases hx; simp at hk
  · exact .nop

theorem Walks.opt_iff {next t : Bytes} {k n : UInt8} (hk : 2 ≤ k.toNat) (hn : 2 ≤ n.toNat) :
    Walks next (k :: n :: t) ↔ n.toNat - 2 ≤ t.length ∧ Walks next (t.drop (n.toNat - 2)) := by
  constructor
  · intro h
    generalize hx : (k :: n :: t) = x at h
    cases h with
    | nil => cases hx
    | eol => cases hx; simp at hk
    | nop => cases hx; simp at hk
    | opt k n v hk hn' h =>
      cases hx
      rw [show n.toNat - 2 = v.length by omega]
      exact ⟨by simp, by rw [List.drop_left]; exact h⟩
    | one k hk h => cases hx; simp at hn
    | last k hk _ => cases hx
  · rintro ⟨h1, h2⟩
    rw [← List.take_append_drop (n.toNat - 2) t]
    exact .opt k n _ hk (by simp; omega) h2

theorem Walks.last_iff {next : Bytes} {k : UInt8} (hk : 2 ≤ k.toNat) : Walks next [k] ↔ ∃ t, next = 1 :: t := by
  constructor
  · intro h
    generalize hx : [k] = x at h
    cases h with
    | nil => cases hx
    | eol => cases hx; simp at hk
    | nop => cases hx; simp at hk
    | opt k n v _ hn _ => cases hx
    | one k _ h => cases hx
    | last k _ h => exact ⟨_, h⟩
  · rintro ⟨t, h⟩; exact .last k hk h

theorem UInt8.of_toNat {k : UInt8} {n : Nat} (h : k.toNat = n) (hn : n < 256) : k = UInt8.ofNat n := by
  rw [← h]; simp

theorem Ip4.walk_iff (f : Bytes) (hlen : Nat) (hf : hlen ≤ f.length) : ∀ fuel optr, optr ≤ hlen → hlen ≤ optr + fuel →
    (Ip4.optionCheck f hlen fuel optr = .ok none ↔ Walks (f.drop hlen) ((f.take hlen).drop optr)) := by
  intro fuel
  induction fuel with
  | zero =>
    intro optr h1 h2
    rw [Ip4.optionCheck.eq_def]; dsimp only
    rw [if_neg (by omega), (drop_take_nil hf).2 (by omega)]
    exact ⟨fun _ => .nil, fun _ => rfl⟩
  | succ fuel ih =>
    intro optr h1 h2
    rw [Ip4.optionCheck.eq_def]; dsimp only
    by_cases ho : optr < hlen
    swap
    · rw [if_neg (by omega), (drop_take_nil hf).2 (by omega)]
      exact ⟨fun _ => .nil, fun _ => rfl⟩
    rw [if_pos ho]
    obtain ⟨k, e, hk⟩ := drop_take_cons hf ho
    simp only [hk, codec]
    by_cases k0 : k.toNat = 0
    · rw [if_pos k0, e, UInt8.of_toNat k0 (by omega)]
      exact ⟨fun _ => .eol _, fun _ => rfl⟩
    rw [if_neg k0]
    by_cases k1 : k.toNat = 1
    · rw [if_pos k1, if_neg (by omega), e, UInt8.of_toNat k1 (by omega), ih _ (by omega) (by omega)]
      exact Walks.nop_iff.symm
    rw [if_neg k1, if_neg (by omega)]
    have hk2 : 2 ≤ k.toNat := by omega
    by_cases hlast : optr + 1 = hlen
    · rw [e, (drop_take_nil hf).2 (by omega), Walks.last_iff hk2]
      cases hd : f.drop hlen with
      | nil =>
        have hl : f.length ≤ hlen := by simpa using hd
        rw [show idx f (optr + 1) = .error .indexError by simp [idx, List.getElem?_eq_none (show f.length ≤ optr + 1 by omega)]]
        constructor
        · intro h; cases h
        · rintro ⟨t, h⟩; cases h
      | cons n t =>
        rw [hlast, Ip4.idx_drop hd]
        simp only [codec]
        by_cases n1 : n.toNat = 1
        · rw [if_neg (by omega), if_neg (by omega), n1, hlast, ih _ (by omega) (by omega), (drop_take_nil hf).2 (by omega)]
          exact ⟨fun _ => ⟨t, by rw [UInt8.of_toNat n1 (by omega)]; rfl⟩, fun _ => .nil⟩
        · constructor
          · intro h
            split at h
            · cases h
            · rw [if_pos (by omega)] at h; cases h
          · rintro ⟨t', h⟩
            cases h; simp at n1
    · obtain ⟨n, e', hn⟩ := drop_take_cons hf (show optr + 1 < hlen by omega)
      simp only [hn, codec]
      rw [e, e']
      by_cases n0 : n.toNat = 0
      · rw [if_pos n0, UInt8.of_toNat n0 (by omega)]
        exact ⟨fun h => (by cases h), fun h => absurd h (Walks.zero_not hk2)⟩
      rw [if_neg n0]
      by_cases n1 : n.toNat = 1
      · rw [if_neg (by omega), n1, ih _ (by omega) (by omega), e', UInt8.of_toNat n1 (by omega)]
        exact (Walks.one_iff hk2).symm
      · rw [Walks.opt_iff hk2 (by omega), List.drop_drop]
        split
        · rename_i h
          constructor
          · intro h; cases h
          · rintro ⟨h1, -⟩; simp at h1; omega
        · rw [ih _ (by omega) (by omega), show optr + 1 + 1 + (n.toNat - 2) = optr + n.toNat by omega]
          exact ⟨fun h => ⟨by simp; omega, h⟩, fun h => h.2⟩

theorem Tcp.walk_iff (f : Bytes) (hlen : Nat) (hf : hlen ≤ f.length) : ∀ fuel optr, optr ≤ hlen → hlen ≤ optr + fuel →
    (Tcp.optionCheck f hlen fuel optr = .ok none ↔ Walks (f.drop hlen) ((f.take hlen).drop optr)) := by
  intro fuel
  induction fuel with
  | zero =>
    intro optr h1 h2
    rw [Tcp.optionCheck.eq_def]; dsimp only
    rw [if_neg (by omega), (drop_take_nil hf).2 (by omega)]
    exact ⟨fun _ => .nil, fun _ => rfl⟩
  | succ fuel ih =>
    intro optr h1 h2
    rw [Tcp.optionCheck.eq_def]; dsimp only
    by_cases ho : optr < hlen
    swap
    · rw [if_neg (by omega), (drop_take_nil hf).2 (by omega)]
      exact ⟨fun _ => .nil, fun _ => rfl⟩
    rw [if_pos ho]
    obtain ⟨k, e, hk⟩ := drop_take_cons hf ho
    simp only [hk, codec]
    by_cases k0 : k.toNat = 0
    · rw [if_pos k0, e, UInt8.of_toNat k0 (by omega)]
      exact ⟨fun _ => .eol _, fun _ => rfl⟩
    rw [if_neg k0]
    by_cases k1 : k.toNat = 1
    · rw [if_pos k1, if_neg (by omega), e, UInt8.of_toNat k1 (by omega), ih _ (by omega) (by omega)]
      exact Walks.nop_iff.symm
    rw [if_neg k1, if_neg (by omega)]
    have hk2 : 2 ≤ k.toNat := by omega
    by_cases hlast : optr + 1 = hlen
    · rw [e, (drop_take_nil hf).2 (by omega), Walks.last_iff hk2]
      cases hd : f.drop hlen with
      | nil =>
        have hl : f.length ≤ hlen := by simpa using hd
        rw [show idx f (optr + 1) = .error .indexError by simp [idx, List.getElem?_eq_none (show f.length ≤ optr + 1 by omega)]]
        constructor
        · intro h; cases h
        · rintro ⟨t, h⟩; cases h
      | cons n t =>
        rw [hlast, Ip4.idx_drop hd]
        simp only [codec]
        by_cases n1 : n.toNat = 1
        · rw [if_neg (by omega), if_neg (by omega), n1, hlast, ih _ (by omega) (by omega), (drop_take_nil hf).2 (by omega)]
          exact ⟨fun _ => ⟨t, by rw [UInt8.of_toNat n1 (by omega)]; rfl⟩, fun _ => .nil⟩
        · constructor
          · intro h
            split at h
            · cases h
            · rw [if_pos (by omega)] at h; cases h
          · rintro ⟨t', h⟩
            cases h; simp at n1
    · obtain ⟨n, e', hn⟩ := drop_take_cons hf (show optr + 1 < hlen by omega)
      simp only [hn, codec]
      rw [e, e']
      by_cases n0 : n.toNat = 0
      · rw [if_pos n0, UInt8.of_toNat n0 (by omega)]
        exact ⟨fun h => (by cases h), fun h => absurd h (Walks.zero_not hk2)⟩
      rw [if_neg n0]
      by_cases n1 : n.toNat = 1
      · rw [if_neg (by omega), n1, ih _ (by omega) (by omega), e', UInt8.of_toNat n1 (by omega)]
        exact (Walks.one_iff hk2).symm
      · rw [Walks.opt_iff hk2 (by omega), List.drop_drop]
        split
        · rename_i h
          constructor
          · intro h; cases h
          · rintro ⟨h1, -⟩; simp at h1; omega
        · rw [ih _ (by omega) (by omega), show optr + 1 + 1 + (n.toNat - 2) = optr + n.toNat by omega]
          exact ⟨fun h => ⟨by simp; omega, h⟩, fun h => h.2⟩

theorem source4_iff {p : Bytes} {s : Ip4Address} (s' : s.int = be p 12 4) (hl : 20 ≤ p.length) :
    (s.isMulticast = false ∧ s.isReserved = false ∧ s.isLimitedBroadcast = false) ↔
      be p 12 1 < 224 ∨ (240 ≤ be p 12 1 ∧ be p 15 1 % 2 = 1 ∧ be p 12 4 ≠ 0xFFFFFFFF) := by
  rw [Bool.eq_false_iff, ne_eq, (C08_ip4_classes_partial s).2.2.2.2.1, Bool.eq_false_iff, ne_eq, C08_reserved_partial s,
    Bool.eq_false_iff, ne_eq, (C08_ip4_classes_partial s).2.1]
  have e1 := be_add (f := p) (i := 12) (j := 1) (k := 3) (by omega)
  have e2 := be_add (f := p) (i := 12) (j := 3) (k := 1) (by omega)
  have l1 := be_lt p 13 3
  have l2 := be_lt p 15 1
  have l3 := be_lt p 12 1
  simp only [cidr, dot, Nat.reduceSub, Nat.reducePow, Nat.reduceDiv, Nat.reduceMul, Nat.reduceAdd] at *
  omega

/-- C107: an IPv4 packet is accepted if it is in order, and only then.  Partial: for what the code takes besides see `Walks` and `Ip4InOrder`, and the
witnesses. -/
theorem C107_ip4_partial (p : Bytes) : Ip4.parse p = .ok none ↔ Ip4InOrder p := by
  by_cases hlen : 20 ≤ p.length
  swap
  · constructor
    · intro h; simp [Ip4.parse, Ip4.integrity, show p.length < 20 by omega, codec] at h
    · intro h; exact absurd h.length hlen
  have b0 := idx_be (f := p) (i := 0) (by omega)
  have b2 := u16_be (f := p) (i := 2) (by omega)
  have b6 := idx_be (f := p) (i := 6) (by omega)
  have b6' := u16_be (f := p) (i := 6) (by omega)
  obtain ⟨s, b12, s'⟩ := ip4_be (f := p) (i := 12) (by omega)
  have hsrc : Ip4.src p = .ok s := b12
  have hS := source4_iff s' hlen
  have hv : Ip4.ver p = .ok (be p 0 1 / 16) := by
    simp only [Ip4.ver, b0, py_ok_bind, py_pure, Nat.shiftRight_eq_div_pow]
  have hh : Ip4.hlen p = .ok (be p 0 1 % 16 * 4) := by
    simp only [Ip4.hlen, b0, py_ok_bind, py_pure]
    rw [and_F, Nat.shiftLeft_eq, show (2 : Nat) ^ 2 = 4 from rfl]
  have hdf : Ip4.flagDf p = .ok (bit p 6 6) := by simp only [Ip4.flagDf, b6, py_ok_bind, py_pure]; exact congrArg _ (bit_eq _ 6)
  have hmf : Ip4.flagMf p = .ok (bit p 6 5) := by simp only [Ip4.flagMf, b6, py_ok_bind, py_pure]; exact congrArg _ (bit_eq _ 5)
  have hoff : Ip4.offset p = .ok (be p 6 2 % 0x2000 * 8) := by
    simp only [Ip4.offset, b6', py_ok_bind, py_pure]
    rw [show (0b0001111111111111 : Nat) = 2 ^ 13 - 1 from rfl, Nat.and_two_pow_sub_one_eq_mod, Nat.shiftLeft_eq]
  have hhl : be p 0 1 % 16 * 4 ≤ 60 := by omega
  by_cases hH : 20 ≤ be p 0 1 % 16 * 4 ∧ be p 0 1 % 16 * 4 ≤ be p 2 2 ∧ be p 2 2 ≤ p.length
  swap
  · constructor
    · intro h
      simp only [Ip4.parse, Ip4.integrity, hh, Ip4.plen, b2, codec] at h
      rw [if_neg (by omega), if_pos hH] at h
      cases h
    · intro h; exact absurd h.header hH
  by_cases hC : inetCksum (p.take (be p 0 1 % 16 * 4)) = 0
  swap
  · constructor
    · intro h
      simp only [Ip4.parse, Ip4.integrity, hh, Ip4.plen, b2, codec] at h
      rw [if_neg (by omega), if_neg (by simpa using hH), if_pos hC] at h
      cases h
    · intro h; exact absurd ((valid_iff (by simp; omega)).2 h.checksum) hC
  have hint : Ip4.integrity p = Ip4.optionCheck p (be p 0 1 % 16 * 4) (be p 0 1 % 16 * 4 + 1) 20 := by
    simp only [Ip4.integrity, hh, Ip4.plen, b2, codec]
    rw [if_neg (by omega), if_neg (by simpa using hH), if_neg (by simp [hC])]
  have hw := Ip4.walk_iff p (be p 0 1 % 16 * 4) (by omega) (be p 0 1 % 16 * 4 + 1) 20 (by omega) (by omega)
  have hC' := (valid_iff (by simp; omega)).1 hC
  by_cases hO : Ip4.integrity p = .ok none
  swap
  · constructor
    · intro h
      rw [Ip4.parse] at h
      cases hi : Ip4.integrity p with
      | error e => simp [hi] at h
      | ok r =>
        cases r with
        | none => exact absurd hi hO
        | some r => simp [hi] at h
    · intro h
      rw [hint] at hO
      exact absurd (hw.2 h.options) hO
  have hW := hw.1 (hint ▸ hO)
  obtain ⟨os, hos⟩ := Ip4.optionsLoop_of_check p _ _ 20 (hint ▸ hO)
  have hopt : Ip4.options p = .ok os := by simp only [Ip4.options, hh, py_ok_bind, hos]
  simp only [Ip4.parse, hO, Ip4.sanity, hv, hsrc, hdf, hmf, hoff, hopt, codec]
  have key : Ip4InOrder p ↔ be p 0 1 / 16 = 4 ∧ (s.isMulticast = false ∧ s.isReserved = false ∧ s.isLimitedBroadcast = false) ∧
      (bit p 6 6 = true → bit p 6 5 = false ∧ be p 6 2 % 0x2000 = 0) := by
    rw [hS]
    exact ⟨fun h => ⟨h.version, h.source, h.whole⟩, fun h => ⟨hlen, h.1, hH, hC', h.2.1, h.2.2, hW⟩⟩
  rw [key]
  clear key hS hw hW hos hopt hint hO hC hC' hH
  generalize bit p 6 6 = df
  generalize bit p 6 5 = mf
  generalize be p 0 1 / 16 = v
  generalize be p 6 2 % 0x2000 = o
  generalize s.isMulticast = x
  generalize s.isReserved = y
  generalize s.isLimitedBroadcast = z
  by_cases v4 : v = 4
  swap
  · simp [v4]
  subst v4
  by_cases o0 : o = 0
  · cases x <;> cases y <;> cases z <;> cases df <;> cases mf <;> simp [o0]
  · cases x <;> cases y <;> cases z <;> cases df <;> cases mf <;> simp [o0]

/-- C107: the same for IPv6. -/
theorem C107_ip6 (p : Bytes) : Ip6.parse p = .ok none ↔ Ip6InOrder p := by
  unfold Ip6InOrder
  by_cases hlen : 40 ≤ p.length
  swap
  · constructor
    · intro h; simp [Ip6.parse, show p.length < 40 by omega, codec] at h
    · intro h; exact absurd h.1 hlen
  have b0 := idx_be (f := p) (i := 0) (by omega)
  have b4 := u16_be (f := p) (i := 4) (by omega)
  have b7 := idx_be (f := p) (i := 7) (by omega)
  obtain ⟨s, b8, s'⟩ := ip6_be (f := p) (i := 8) (by omega)
  have hsrc : Ip6.src p = .ok s := b8
  have hm := Ip6.multicast_first s' hlen
  have hv : Ip6.ver p = .ok (be p 0 1 / 16) := by
    simp only [Ip6.ver, b0, py_ok_bind, py_pure, Nat.shiftRight_eq_div_pow]
  simp only [Ip6.parse, b4, hv, Ip6.hop, b7, hsrc, codec]
  rw [if_neg (by omega)]
  repeat' split
  all_goals simp_all

/-- C107: the same for the fragment header of IPv6. -/
theorem C107_ip6_frag (p : Bytes) : Ip6Frag.parse p = .ok none ↔ 8 ≤ p.length := by
  unfold Ip6Frag.parse
  split
  · constructor
    · intro h; cases h
    · intro h; omega
  · exact ⟨fun _ => by omega, fun _ => rfl⟩

theorem Tcp.accepts (p pad : Bytes) (ps : Nat) : Tcp.parse (p ++ pad) p.length ps = .ok none ↔ inetCksum p ps = 0 ∧ TcpInOrder p pad := by
  have hf : (p ++ pad).take p.length = p := List.take_left
  have hfl : (p ++ pad).length = p.length + pad.length := List.length_append
  have stop : ∀ {r : String}, Tcp.integrity (p ++ pad) p.length ps = .ok (some r) → ¬ Tcp.parse (p ++ pad) p.length ps = .ok none := by
    intro r hr h
    simp only [Tcp.parse, hr, codec] at h
    cases hh : Tcp.hlen (p ++ pad) <;> simp [hh] at h
  by_cases h0 : inetCksum p ps = 0
  swap
  · refine ⟨fun h => absurd h (stop (by rw [Tcp.integrity, hf, if_pos h0]; rfl)), fun h => absurd h.1 h0⟩
  by_cases hlen : 20 ≤ p.length
  swap
  · refine ⟨fun h => absurd h (stop (by rw [Tcp.integrity, hf, if_neg (by simpa using h0), if_pos (by omega)]; rfl)), fun h => absurd h.2.length hlen⟩
  generalize hF : p ++ pad = f at *
  have r : ∀ i k, i + k ≤ 20 → be f i k = be p i k := fun i k h => be_of_take hf (by omega)
  have b0 : u16 f 0 = .ok (be p 0 2) := by rw [u16_be (by omega), r _ _ (by omega)]
  have b2 : u16 f 2 = .ok (be p 2 2) := by rw [u16_be (by omega), r _ _ (by omega)]
  have b8 : u32 f 8 = .ok (be p 8 4) := by rw [u32_be (by omega), r _ _ (by omega)]
  have b12 : idx f 12 = .ok (be p 12 1) := by rw [idx_be (by omega), r _ _ (by omega)]
  have b13 : idx f 13 = .ok (be p 13 1) := by rw [idx_be (by omega), r _ _ (by omega)]
  have b18 : u16 f 18 = .ok (be p 18 2) := by rw [u16_be (by omega), r _ _ (by omega)]
  have hlt := be_lt p 12 1
  have hh : (be p 12 1 &&& 0b11110000) >>> 2 = be p 12 1 / 16 * 4 := by
    rw [show (0b11110000 : Nat) = 2 ^ 8 - 2 ^ 4 from rfl, and_high (by omega) (by omega), Nat.shiftRight_eq_div_pow]
    omega
  have f0 : Tcp.flagFin f = .ok (bit p 13 0) := by simp only [Tcp.flagFin, b13, py_ok_bind, py_pure]; exact congrArg _ (bit_eq _ 0)
  have f1 : Tcp.flagSyn f = .ok (bit p 13 1) := by simp only [Tcp.flagSyn, b13, py_ok_bind, py_pure]; exact congrArg _ (bit_eq _ 1)
  have f2 : Tcp.flagRst f = .ok (bit p 13 2) := by simp only [Tcp.flagRst, b13, py_ok_bind, py_pure]; exact congrArg _ (bit_eq _ 2)
  have f4 : Tcp.flagAck f = .ok (bit p 13 4) := by simp only [Tcp.flagAck, b13, py_ok_bind, py_pure]; exact congrArg _ (bit_eq _ 4)
  have f5 : Tcp.flagUrg f = .ok (bit p 13 5) := by simp only [Tcp.flagUrg, b13, py_ok_bind, py_pure]; exact congrArg _ (bit_eq _ 5)
  by_cases hH : 20 ≤ be p 12 1 / 16 * 4 ∧ be p 12 1 / 16 * 4 ≤ p.length
  swap
  · refine ⟨fun h => absurd h (stop (by
      simp only [Tcp.integrity, hf, b12, hh, codec]
      rw [if_neg (by simpa using h0), if_neg (by omega), if_pos (by omega)])), fun h => absurd h.2.header hH⟩
  have hint : Tcp.integrity f p.length ps = Tcp.optionCheck f (be p 12 1 / 16 * 4) (be p 12 1 / 16 * 4 + 1) 20 := by
    simp only [Tcp.integrity, hf, b12, hh, codec]
    rw [if_neg (by simpa using h0), if_neg (by omega), if_neg (by omega)]
  have hw := Tcp.walk_iff f (be p 12 1 / 16 * 4) (by omega) (be p 12 1 / 16 * 4 + 1) 20 (by omega) (by omega)
  have e1 : f.drop (be p 12 1 / 16 * 4) = p.drop (be p 12 1 / 16 * 4) ++ pad := by rw [← hF, List.drop_append_of_le_length hH.2]
  have e2 : f.take (be p 12 1 / 16 * 4) = p.take (be p 12 1 / 16 * 4) := by rw [← hF, List.take_append_of_le_length hH.2]
  rw [e1, e2, ← hint] at hw
  have hsan : Tcp.sanity f = .ok none ↔ ¬ OddTcp p := by
    simp only [Tcp.sanity, Tcp.sport, b0, Tcp.dport, b2, f0, f1, f2, f4, f5, Tcp.ack, b8, Tcp.urg, b18, codec, OddTcp]
    clear hw hint e1 e2 hH f0 f1 f2 f4 f5 b0 b2 b8 b12 b13 b18 stop r hF hf hfl
    generalize be p 0 2 = sp
    generalize be p 2 2 = dp
    generalize be p 8 4 = ak
    generalize be p 18 2 = ur
    generalize bit p 13 0 = a
    generalize bit p 13 1 = b
    generalize bit p 13 2 = c
    generalize bit p 13 4 = d
    generalize bit p 13 5 = e
    by_cases s0 : sp = 0
    · simp [s0]
    by_cases d0 : dp = 0
    · simp [s0, d0]
    by_cases a0 : ak = 0 <;> by_cases u0 : ur = 0 <;> cases a <;> cases b <;> cases c <;> cases d <;> cases e <;> simp [s0, d0, a0, u0]
  constructor
  · intro h
    rw [Tcp.parse] at h
    cases hi : Tcp.integrity f p.length ps with
    | error e => simp [hi] at h
    | ok x =>
      cases x with
      | some x =>
        exfalso; simp only [hi, codec] at h
        cases hh : Tcp.hlen f <;> simp [hh] at h
      | none =>
        simp only [hi, codec] at h
        cases hs : Tcp.sanity f with
        | error e => simp [hs] at h
        | ok x =>
          cases x with
          | some x =>
            exfalso; simp only [hs, codec] at h
            cases hh : Tcp.hlen f <;> simp [hh] at h
          | none => exact ⟨h0, hlen, hH, hsan.1 hs, hw.1 hi⟩
  · rintro ⟨-, h1, h2, h3, h4⟩
    simp only [Tcp.parse, hw.2 h4, hsan.2 h3, codec]

/-- C107: the same for a TCP segment in an IPv4 packet, with link-layer padding behind it.  Partial: the options, as for IPv4. -/
theorem C107_tcp4_partial (src dst : Ip4Address) (p pad : Bytes) (hl : p.length < 65536) (ps : Nat) (hp : Ip4.pshdrSum src dst 6 p.length = .ok ps) :
    Tcp.parse (p ++ pad) p.length ps = .ok none ↔ Valid (pseudoHdr4 src dst 6 p.length ++ p) ∧ TcpInOrder p pad := by
  rw [Tcp.accepts, (pseudoHdr4_iff src dst (by omega) (by decide) hl hp).1]

theorem C107_tcp6_partial (src dst : Ip6Address) (p : Bytes) (hl : p.length < 65536) (ps : Nat) (hp : Ip6.pshdrSum src dst p.length 6 = .ok ps) :
    Tcp.parse p p.length ps = .ok none ↔ Valid (pseudoHdr6 src dst 6 p.length ++ p) ∧ TcpInOrder p [] := by
  have := Tcp.accepts p [] ps
  rw [List.append_nil] at this
  rw [this, (pseudoHdr6_iff src dst (by decide) hl hp).1]

/-- Well-formed options are walked, whatever is behind the header. -/
theorem C107_options {o : Bytes} {l : List (Nat × Bytes)} (h : Options o l) (next : Bytes) : Walks next o := by
  induction h with
  | nil => exact .nil
  | eol t => exact .eol t
  | nop _ ih => exact .nop ih
  | opt k n v h1 h2 _ ih => exact .opt k n v h1 h2 ih

/-- And what is walked is well formed, or has an option with a length of 1, perhaps read behind the header. -/
theorem C107_walked {next o : Bytes} (h : Walks next o) : (∃ l, Options o l) ∨
    ∃ (a : Bytes) (k : UInt8) (t : Bytes), 2 ≤ k.toNat ∧ (o = a ++ k :: 1 :: t ∨ (o = a ++ [k] ∧ next = 1 :: t)) := by
  induction h with
  | nil => exact .inl ⟨_, .nil⟩
  | eol t => exact .inl ⟨_, .eol t⟩
  | nop _ ih =>
    rcases ih with ⟨l, h⟩ | ⟨a, k, t, hk, rfl | ⟨rfl, hn⟩⟩
    · exact .inl ⟨l, .nop h⟩
    · exact .inr ⟨1 :: a, k, t, hk, .inl rfl⟩
    · exact .inr ⟨1 :: a, k, t, hk, .inr ⟨rfl, hn⟩⟩
  | opt k n v h1 h2 _ ih =>
    rcases ih with ⟨l, h⟩ | ⟨a, k', t, hk, rfl | ⟨rfl, hn⟩⟩
    · exact .inl ⟨_, .opt k n v h1 h2 h⟩
    · exact .inr ⟨k :: n :: (v ++ a), k', t, hk, .inl (by simp)⟩
    · exact .inr ⟨k :: n :: (v ++ a), k', t, hk, .inr ⟨by simp, hn⟩⟩
  | @one t k hk _ _ => exact .inr ⟨[], k, t, hk, .inl rfl⟩
  | @last t k hk hn => exact .inr ⟨[], k, t, hk, .inr ⟨rfl, hn⟩⟩

/-- What is missing in C107: an IPv4 packet is accepted with an option of length 1, and with an option that has its length behind the header; and so is a
TCP segment. -/
theorem C107_option_witness :
    Ip4.parse [0x46, 0, 0, 24, 0, 0, 0, 0, 64, 17, 0x5D, 0xD1, 10, 0, 0, 1, 10, 0, 0, 2, 7, 1, 1, 1] = .ok none ∧
    Ip4.parse [0x46, 0, 0, 25, 0, 0, 0, 0, 64, 17, 0x63, 0xCA, 10, 0, 0, 1, 10, 0, 0, 2, 1, 1, 1, 7, 1] = .ok none ∧
    Tcp.parse [0, 1, 0, 1, 0, 0, 0, 0, 0, 0, 0, 0, 0x60, 0x10, 0, 0, 0x97, 0xEB, 0, 0, 7, 1, 1, 1] 24 0 = .ok none := by
  decide +kernel

namespace Example.AcceptIp

/-- A segment with a SYN and the options of a first segment. -/
def syn : Bytes := [0, 1, 0, 2, 0, 0, 0, 9, 0, 0, 0, 0, 0x70, 0x02, 0, 64, 0, 0, 0, 0, 2, 4, 5, 0xB4, 1, 3, 3, 7]

theorem syn_options : Options ((syn.take (be syn 12 1 / 16 * 4)).drop 20) [(2, [5, 0xB4]), (3, [7])] :=
  .opt 2 4 [5, 0xB4] (by decide) rfl (.nop (.opt 3 3 [7] (by decide) rfl .nil))

example : TcpInOrder syn [] := ⟨by decide, by decide, by simp only [OddTcp]; decide, C107_options syn_options _⟩
/-- an option longer than the header -/
example (next : Bytes) : ¬ Walks next [1, 2, 4, 5] := by
  rw [Walks.nop_iff, Walks.opt_iff (by decide) (by decide)]
  rintro ⟨h, -⟩
  revert h; decide

end Example.AcceptIp
end Verif
