import Verif.Model.Icmp6
import Verif.Lemmas.Tcp
/-! Option walks and layout of the ICMPv6 codec. -/
namespace Verif

theorem Ip6Mask.ofPrefix_len (m : Ip6Mask) : Ip6Mask.ofPrefix m.len = .ok m := by
  obtain ⟨h, e⟩ := m.len_form
  simp only [Ip6Mask.ofPrefix, h, ↓reduceDIte]
  congr 1
  cases m with
  | mk i lt v =>
    simp only [Ip6Mask.mk.injEq]
    rw [onesThenZeros_eq _ _ h]; exact e.symm

theorem Ip6Network.ofMask_self (n : Ip6Network) : Ip6Network.ofMask n.address n.mask = n := by
  cases n with
  | mk a m h =>
    simp only [Ip6Network.ofMask, Ip6Network.mk.injEq, and_true]
    exact Ip6Address.ext' h

namespace Icmp6

/-- the bytes of an option -/
def TxOpt.raw : TxOpt → Bytes
  | .slla mac => bePack 1 1 ++ bePack 1 1 ++ bePack 6 mac.int
  | .tlla mac => bePack 1 2 ++ bePack 1 1 ++ bePack 6 mac.int
  | .pi valid prefer net l a r =>
    bePack 1 3 ++ bePack 1 4 ++ bePack 1 net.mask.len ++
      bePack 1 ((l.toNat <<< 7) ||| (a.toNat <<< 6) ||| (r.toNat <<< 6)) ++ bePack 4 valid ++ bePack 4 prefer ++
      bePack 4 0 ++ bePack 16 net.address.int

/-- The option values the constructors accept. -/
def TxOpt.Ok : TxOpt → Prop
  | .pi valid prefer .. => valid < 4294967296 ∧ prefer < 4294967296
  | _ => True

def rawAll (os : List TxOpt) : Bytes := (os.map TxOpt.raw).flatten

theorem piFlags_lt (l a r : Bool) : (l.toNat <<< 7) ||| (a.toNat <<< 6) ||| (r.toNat <<< 6) < 256 := by
  revert l a r; decide

theorem piFlags_read (l a r : Bool) :
    ((((l.toNat <<< 7) ||| (a.toNat <<< 6) ||| (r.toNat <<< 6)) &&& 0b10000000) != 0) = l ∧
    ((((l.toNat <<< 7) ||| (a.toNat <<< 6) ||| (r.toNat <<< 6)) &&& 0b01000000) != 0) = (a || r) ∧
    ((((l.toNat <<< 7) ||| (a.toNat <<< 6) ||| (r.toNat <<< 6)) &&& 0b00100000) != 0) = false := by
  revert l a r; decide

theorem TxOpt.bytes_ok (o : TxOpt) (h : o.Ok) : o.bytes = .ok o.raw := by
  cases o with
  | slla m => simp [TxOpt.bytes, TxOpt.raw, packB, codec]
  | tlla m => simp [TxOpt.bytes, TxOpt.raw, packB, codec]
  | pi v p net l a r =>
    simp only [TxOpt.Ok] at h
    have := net.mask.len_form.1
    simp only [TxOpt.bytes, TxOpt.raw, packB_ok (show 3 < 256 by omega), packB_ok (show 32 >>> 3 < 256 by decide),
      packB_ok (show net.mask.len < 256 by omega), packB_ok (piFlags_lt l a r), packL_ok h.1, packL_ok h.2,
      packL_ok (show 0 < 4294967296 by omega),
      show decide (v ≤ 0xFFFFFFFF) = true by simp; omega, show decide (p ≤ 0xFFFFFFFF) = true by simp; omega, codec]
    rfl

theorem TxOpt.raw_length (o : TxOpt) : o.raw.length = o.len := by cases o <;> simp [TxOpt.raw, TxOpt.len]

theorem rawNdOptions_ok (os : List TxOpt) (h : ∀ o ∈ os, o.Ok) : rawNdOptions os = .ok (rawAll os) := by
  induction os with
  | nil => rfl
  | cons o os ih =>
    simp only [rawNdOptions, o.bytes_ok (h o (by simp)), ih (fun o ho => h o (by simp [ho])), codec]
    simp [rawAll]

theorem rawAll_length (os : List TxOpt) : (rawAll os).length = optsLen os := by
  induction os with
  | nil => rfl
  | cons o os ih =>
    simp only [rawAll, optsLen, List.map_cons, List.flatten_cons, List.length_append, List.sum_cons] at *
    rw [ih, o.raw_length]

/-- What the parser returns for an option. -/
def TxOpt.parsed : TxOpt → RxOpt
  | .slla m => .slla 8 m
  | .tlla m => .tlla 8 m
  | .pi v p net l a r => .pi 32 l (a || r) false v p net

theorem readOpt_raw (o : TxOpt) (h : o.Ok) (rest : Bytes) : readOpt (o.raw ++ rest) = .ok o.parsed := by
  cases o with
  | slla m => simp [readOpt, TxOpt.raw, TxOpt.parsed, codec]
  | tlla m => simp [readOpt, TxOpt.raw, TxOpt.parsed, codec]
  | pi v p net l a r =>
    simp only [TxOpt.Ok] at h
    have := net.mask.len_form.1
    have hfl := piFlags_lt l a r
    obtain ⟨e1, e2, e3⟩ := piFlags_read l a r
    generalize hx : (l.toNat <<< 7) ||| (a.toNat <<< 6) ||| (r.toNat <<< 6) = x at *
    simp [readOpt, TxOpt.raw, TxOpt.parsed, codec, hx, Nat.mod_eq_of_lt hfl, Nat.mod_eq_of_lt h.1, Nat.mod_eq_of_lt h.2,
      Nat.mod_eq_of_lt (show net.mask.len < 256 by omega), Ip6Mask.ofPrefix_len, Ip6Network.ofMask_self, e1, e2, e3]

theorem idx_raw1 (o : TxOpt) (rest : Bytes) : idx (o.raw ++ rest) 1 = .ok (o.len / 8) := by
  cases o <;> simp [TxOpt.raw, TxOpt.len, codec]

theorem options_walk (f : Bytes) (opts : List TxOpt) (hok : ∀ o ∈ opts, o.Ok) (fuel optr : Nat)
    (hd : f.drop optr = rawAll opts) (ho : optr ≤ f.length) (hf : optsLen opts ≤ fuel) :
    ndOptionCheck f fuel optr = .ok none ∧ readNdOptions f fuel optr = .ok (opts.map TxOpt.parsed) := by
  induction opts generalizing fuel optr with
  | nil =>
    have : ¬ optr < f.length := by
      have := congrArg List.length hd
      simp [rawAll] at this; omega
    rw [ndOptionCheck.eq_def, readNdOptions.eq_def]
    simp [this]
  | cons o os ih =>
    have hok1 := hok o (by simp)
    have hok2 : ∀ o ∈ os, o.Ok := fun o ho => hok o (by simp [ho])
    have hlen := congrArg List.length hd
    rw [rawAll_length, List.length_drop] at hlen
    have hs : optsLen (o :: os) = o.len + optsLen os := by simp [optsLen]
    have hd1 : f.drop optr = o.raw ++ rawAll os := by rw [hd]; simp [rawAll]
    have hd2 : f.drop (optr + o.len) = rawAll os := by
      rw [← List.drop_drop, hd1, ← o.raw_length, List.drop_left]
    have h8 : 8 ≤ o.len ∧ o.len / 8 * 8 = o.len ∧ o.len / 8 ≠ 0 := by cases o <;> simp [TxOpt.len]
    obtain ⟨fuel, rfl⟩ : ∃ g, fuel = g + 1 := ⟨fuel - 1, by omega⟩
    have hlt : optr < f.length := by omega
    have IH := ih hok2 fuel (optr + o.len) hd2 (by omega) (by omega)
    have hi1 : idx f (optr + 1) = .ok (o.len / 8) := by rw [idx_add, hd1, idx_raw1]
    have hsh : (o.len / 8) <<< 3 = o.len := by rw [Nat.shiftLeft_eq]; omega
    rw [ndOptionCheck, readNdOptions]
    simp only [hlt, if_true, hi1, codec, sliceFrom, hd1, readOpt_raw o hok1, hsh, IH.1, IH.2, h8.2.2, if_false,
      List.map_cons, show ¬ optr + 1 > f.length by omega, show ¬ optr + o.len > f.length by omega, and_self]

/-- the layout of every assembled message -/
theorem assemble_ok {m : Msg} {b : Bytes} (ps : Nat) (hb : body m = .ok b) :
    ∃ ck < 65536, assemble m ps = .ok (bePack 1 m.type ++ (bePack 1 m.code ++ (bePack 2 ck ++ b))) := by
  have ht : m.type < 256 := by cases m <;> simp [Msg.type]
  have hc : m.code < 256 := by cases m <;> simp [Msg.code]
  refine ⟨inetCksum (bePack 1 m.type ++ bePack 1 m.code ++ bePack 2 0 ++ b) ps, inetCksum_lt _ _, ?_⟩
  simp only [assemble, hb, start, packB_ok ht, packB_ok hc, packH_ok (show 0 < 65536 by omega), codec, finish]
  rw [packIntoH_ok (inetCksum_lt _ _) (by simp; omega)]
  simp [codec]

/-- reading a message at offset 4 or later is reading its body -/
theorem read_body (t c ck : Nat) (b : Bytes) (j k : Nat) :
    let f := bePack 1 t ++ (bePack 1 c ++ (bePack 2 ck ++ b))
    idx f (4 + j) = idx b j ∧ u16 f (4 + j) = u16 b j ∧ u32 f (4 + j) = u32 b j ∧
      slice f (4 + j) (4 + k) = slice b j k ∧ f.drop (4 + j) = b.drop j := by
  intro f
  have e : f.drop 4 = b := by simp [f, codec]
  rw [idx_add, u16_add, u32_add, slice_add, ← List.drop_drop, e]
  exact ⟨rfl, rfl, rfl, rfl, rfl⟩

end Icmp6
end Verif
