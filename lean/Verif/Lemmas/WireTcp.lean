import Mathlib.Data.Nat.Bitwise
import Verif.Lemmas.Wire
/-! What the UDP and TCP parsers do with the segments `Spec/Wire.lean` describes. -/
namespace Verif
open Spec

theorem be_of_take {f p : Bytes} {m i k : Nat} (h : f.take m = p) (hk : i + k ≤ m) : be f i k = be p i k := by
  rw [← h, be_take _ _ _ _ hk]

theorem slice_of_take {f p : Bytes} {m i : Nat} (h : f.take m = p) : slice f i m = p.drop i := by
  rw [slice, h]

theorem bit_eq (x i : Nat) : ((x &&& 2 ^ i) != 0) = decide (x / 2 ^ i % 2 = 1) := by
  rw [Nat.and_two_pow, Nat.testBit_eq_decide_div_mod_eq]
  by_cases h : x / 2 ^ i % 2 = 1
  · have := Nat.two_pow_pos i
    simp [h, Bool.toNat]
  · simp [h, Bool.toNat]

/-! ### UDP -/

theorem Udp.accept {f p : Bytes} {ps sport dport : Nat} {data : Bytes} (hf : f.take p.length = p) (hl : p.length ≤ f.length)
    (hck : inetCksum p ps = 0) (H : IsUdp p sport dport data) (hs : sport ≠ 0) (hd : dport ≠ 0) :
    Udp.parse f p.length ps = .ok none ∧ Udp.read f = .ok ⟨sport, dport, p.length, data⟩ := by
  obtain ⟨h1, h2, h3, h4, h5⟩ := H
  have b0 : u16 f 0 = .ok sport := by rw [u16_be (by omega), be_of_take hf (by omega), h3]
  have b2 : u16 f 2 = .ok dport := by rw [u16_be (by omega), be_of_take hf (by omega), h4]
  have b4 : u16 f 4 = .ok p.length := by rw [u16_be (by omega), be_of_take hf (by omega), h2]
  have hck' : inetCksum (f.take p.length) ps = 0 := by rw [hf]; exact hck
  constructor
  · simp only [Udp.parse, hck', b4, Udp.sport, b0, Udp.dport, b2, py_ok_bind, py_pure]
    rw [if_neg (by simp), if_neg (not_not.2 ⟨h1, hl⟩), if_neg (by simp [h1, hl]), if_neg hs, if_neg hd]
  · simp only [Udp.read, Udp.sport, b0, Udp.dport, b2, Udp.plen, b4, Udp.data, py_ok_bind, py_pure, slice_of_take hf, h5]

/-! ### TCP -/

theorem firstOption_cons_ne {k k' : Nat} {v : Bytes} {l : List (Nat × Bytes)} (h : k' ≠ k) : firstOption k ((k', v) :: l) = firstOption k l := by
  simp [firstOption, List.find?_cons, h]
theorem firstOption_cons_eq {k : Nat} {v : Bytes} {l : List (Nat × Bytes)} : firstOption k ((k, v) :: l) = some (beNat v) := by
  simp [firstOption, List.find?_cons]

def KnownLengths (opts : List (Nat × Bytes)) : Prop :=
  ∀ k v, (k, v) ∈ opts → (k = 2 → v.length = 2) ∧ (k = 3 → v.length = 1) ∧ (k = 4 → v.length = 0) ∧ (k = 8 → v.length = 8)

theorem Tcp.walk_of_options {o : Bytes} {l : List (Nat × Bytes)} (H : Options o l) (hk : KnownLengths l) :
    ∀ (f : Bytes) (hlen fuel optr : Nat), (f.take hlen).drop optr = o → hlen ≤ f.length → hlen ≤ optr + fuel →
      ∃ xs, Tcp.optionCheck f hlen fuel optr = .ok none ∧ Tcp.optionsLoop f hlen fuel optr = .ok xs ∧
        Tcp.mssOf xs = (firstOption 2 l).getD 536 ∧ Tcp.wscaleOf xs = (firstOption 3 l).map (2 ^ ·) := by
  induction H with
  | nil =>
    intro f hlen fuel optr h hl _
    have := congrArg List.length h
    simp at this
    refine ⟨[], ?_, ?_, rfl, rfl⟩
    · rw [Tcp.optionCheck.eq_def]; simp [show ¬ optr < hlen by omega]
    · rw [Tcp.optionsLoop.eq_def]; simp [show ¬ optr < hlen by omega]
  | eol t =>
    intro f hlen fuel optr h hl hf
    obtain ⟨h1, h2, h3, h4⟩ := cons_of_drop h
    obtain ⟨fuel, rfl⟩ : ∃ m, fuel = m + 1 := ⟨fuel - 1, by omega⟩
    refine ⟨[.eol], ?_, ?_, rfl, rfl⟩
    · rw [Tcp.optionCheck]; simp [h1, h3]
    · rw [Tcp.optionsLoop]; simp [h1, h3]
  | @nop t l _ ih =>
    intro f hlen fuel optr h hl hf
    obtain ⟨h1, h2, h3, h4⟩ := cons_of_drop h
    obtain ⟨fuel, rfl⟩ : ∃ m, fuel = m + 1 := ⟨fuel - 1, by omega⟩
    obtain ⟨xs, x1, x2, x3, x4⟩ := ih hk f hlen fuel _ h4 hl (by omega)
    refine ⟨.nop :: xs, ?_, ?_, x3, x4⟩
    · rw [Tcp.optionCheck]
      simp only [h1, h3, if_true, py_ok_bind, py_pure]
      rw [if_neg (by decide), if_pos (by decide), if_neg (by omega), x1]
    · rw [Tcp.optionsLoop]
      simp only [h1, h3, if_true, py_ok_bind, py_pure]
      rw [if_neg (by decide), if_pos (by decide), x2]
      rfl
  | @opt t l k n v hk2 hn _ ih =>
    intro f hlen fuel optr h hl hf
    obtain ⟨h1, h2, h3, h4⟩ := cons_of_drop h
    obtain ⟨g1, g2, g3, g4⟩ := cons_of_drop h4
    obtain ⟨fuel, rfl⟩ : ∃ m, fuel = m + 1 := ⟨fuel - 1, by omega⟩
    have hlen' := congrArg List.length g4
    simp at hlen'
    have hv : (f.drop (optr + 2)).take v.length = v := by
      have e : ((f.take hlen).drop (optr + 2)).take v.length = v := by rw [show optr + 2 = optr + 1 + 1 from rfl, g4]; simp
      rw [List.drop_take, List.take_take] at e
      rw [← e]
      congr 1
      simp
      omega
    obtain ⟨xs, x1, x2, x3, x4⟩ := ih (fun k v h => hk k v (by simp [h])) f hlen fuel (optr + n.toNat) (by
      rw [show optr + n.toNat = optr + 1 + 1 + v.length by omega, ← List.drop_drop, g4]
      simp) hl (by omega)
    obtain ⟨k1, k2, k3, k4⟩ := hk k.toNat v (by simp)
    have key : ∀ x, Tcp.readOpt f optr k.toNat = .ok x →
        Tcp.optionCheck f hlen (fuel + 1) optr = .ok none ∧ Tcp.optionsLoop f hlen (fuel + 1) optr = .ok (x :: xs) :=
      fun x hx => Tcp.walk_step h1 h3 (by omega) (by omega) g3 (by omega) (by omega) hx ⟨x1, x2⟩
    by_cases e2 : k.toNat = 2
    · have hvl := k1 e2
      have hu : u16 f (optr + 2) = .ok (beNat v) := by rw [hvl] at hv; rw [u16_be (by omega), be, hv]
      obtain ⟨y1, y2⟩ := key (.mss n.toNat (beNat v)) (by simp only [Tcp.readOpt, g3, e2, hu, py_ok_bind, py_pure]; rfl)
      rw [e2]
      exact ⟨_, y1, y2, by rw [firstOption_cons_eq]; rfl, by rw [firstOption_cons_ne (by decide)]; exact x4⟩
    by_cases e3 : k.toNat = 3
    · have hvl := k2 e3
      have hu : idx f (optr + 2) = .ok (beNat v) := by rw [hvl] at hv; rw [idx_be (by omega), be, hv]
      obtain ⟨y1, y2⟩ := key (.wscale n.toNat (beNat v)) (by simp only [Tcp.readOpt, g3, e3, hu, py_ok_bind, py_pure]; rfl)
      rw [e3]
      refine ⟨_, y1, y2, by rw [firstOption_cons_ne (by decide)]; exact x3, ?_⟩
      rw [firstOption_cons_eq]
      simp [Tcp.wscaleOf, Nat.shiftLeft_eq]
    by_cases e4 : k.toNat = 4
    · obtain ⟨y1, y2⟩ := key (.sackPerm n.toNat) (by simp only [Tcp.readOpt, g3, e4, py_ok_bind, py_pure]; rfl)
      exact ⟨_, y1, y2, by rw [firstOption_cons_ne e2]; exact x3, by rw [firstOption_cons_ne e3]; exact x4⟩
    by_cases e8 : k.toNat = 8
    · have hvl := k4 e8
      have ha := u32_be (f := f) (i := optr + 2) (by omega)
      have hb := u32_be (f := f) (i := optr + 6) (by omega)
      obtain ⟨y1, y2⟩ := key (.timestamp n.toNat _ _) (by simp only [Tcp.readOpt, g3, e8, ha, hb, py_ok_bind, py_pure]; rfl)
      exact ⟨_, y1, y2, by rw [firstOption_cons_ne e2]; exact x3, by rw [firstOption_cons_ne e3]; exact x4⟩
    · obtain ⟨y1, y2⟩ := key (.unk k.toNat n.toNat (slice (sliceFrom f optr) 2 n.toNat))
        (by simp only [Tcp.readOpt, g3, e2, e3, e4, e8, py_ok_bind, py_pure, if_false])
      exact ⟨_, y1, y2, by rw [firstOption_cons_ne e2]; exact x3, by rw [firstOption_cons_ne e3]; exact x4⟩

theorem Tcp.accept {f p : Bytes} {ps : Nat} {opts : List (Nat × Bytes)} (hf : f.take p.length = p) (hl : p.length ≤ f.length)
    (hck : inetCksum p ps = 0) (H : IsTcp p opts) (ho : ¬ OddTcp p) :
    Tcp.parse f p.length ps = .ok none ∧ ∃ h, Tcp.read f p.length = .ok h ∧ ∀ ip : Rx.IpHdr, Rx.tcpMd ip h = segment ip.src ip.dst p opts := by
  obtain ⟨h1, ⟨h2, h3⟩, h4, h5⟩ := H
  have r : ∀ i k, i + k ≤ 20 → be f i k = be p i k := fun i k h => be_of_take hf (by omega)
  have b0 : u16 f 0 = .ok (be p 0 2) := by rw [u16_be (by omega), r _ _ (by omega)]
  have b2 : u16 f 2 = .ok (be p 2 2) := by rw [u16_be (by omega), r _ _ (by omega)]
  have b4 : u32 f 4 = .ok (be p 4 4) := by rw [u32_be (by omega), r _ _ (by omega)]
  have b8 : u32 f 8 = .ok (be p 8 4) := by rw [u32_be (by omega), r _ _ (by omega)]
  have b12 : idx f 12 = .ok (be p 12 1) := by rw [idx_be (by omega), r _ _ (by omega)]
  have b13 : idx f 13 = .ok (be p 13 1) := by rw [idx_be (by omega), r _ _ (by omega)]
  have b14 : u16 f 14 = .ok (be p 14 2) := by rw [u16_be (by omega), r _ _ (by omega)]
  have b18 : u16 f 18 = .ok (be p 18 2) := by rw [u16_be (by omega), r _ _ (by omega)]
  have hlt := be_lt p 12 1
  have hh : (be p 12 1 &&& 0b11110000) >>> 2 = be p 12 1 / 16 * 4 := by
    rw [show (0b11110000 : Nat) = 2 ^ 8 - 2 ^ 4 from rfl, and_high (by omega) (by omega), Nat.shiftRight_eq_div_pow]
    omega
  have hhl : Tcp.hlen f = .ok (be p 12 1 / 16 * 4) := by simp only [Tcp.hlen, b12, py_ok_bind, py_pure, hh]
  have hck' : inetCksum (f.take p.length) ps = 0 := by rw [hf]; exact hck
  obtain ⟨xs, x1, x2, x3, x4⟩ := Tcp.walk_of_options h4 h5 f (be p 12 1 / 16 * 4) (be p 12 1 / 16 * 4 + 1) 20
    (by rw [← hf, List.take_take, hf, Nat.min_eq_left h3]) (by omega) (by omega)
  have f0 : Tcp.flagFin f = .ok (bit p 13 0) := by simp only [Tcp.flagFin, b13, py_ok_bind, py_pure]; exact congrArg _ (bit_eq _ 0)
  have f1 : Tcp.flagSyn f = .ok (bit p 13 1) := by simp only [Tcp.flagSyn, b13, py_ok_bind, py_pure]; exact congrArg _ (bit_eq _ 1)
  have f2 : Tcp.flagRst f = .ok (bit p 13 2) := by simp only [Tcp.flagRst, b13, py_ok_bind, py_pure]; exact congrArg _ (bit_eq _ 2)
  have f3 : Tcp.flagPsh f = .ok (bit p 13 3) := by simp only [Tcp.flagPsh, b13, py_ok_bind, py_pure]; exact congrArg _ (bit_eq _ 3)
  have f4 : Tcp.flagAck f = .ok (bit p 13 4) := by simp only [Tcp.flagAck, b13, py_ok_bind, py_pure]; exact congrArg _ (bit_eq _ 4)
  have f5 : Tcp.flagUrg f = .ok (bit p 13 5) := by simp only [Tcp.flagUrg, b13, py_ok_bind, py_pure]; exact congrArg _ (bit_eq _ 5)
  simp only [OddTcp, not_or, not_and, Bool.not_eq_true, Bool.not_eq_false] at ho
  obtain ⟨o1, o2, o3, o4, o5, o6, o7, o8⟩ := ho
  constructor
  · have hint : Tcp.integrity f p.length ps = .ok none := by
      simp only [Tcp.integrity, hck', b12, hh, py_ok_bind, py_pure]
      rw [if_neg (by simp), if_neg (by omega), if_neg (by omega), x1]
    have hsan : Tcp.sanity f = .ok none := by
      simp only [Tcp.sanity, Tcp.sport, b0, Tcp.dport, b2, f0, f1, f2, f4, f5, Tcp.ack, b8, Tcp.urg, b18, py_ok_bind, py_pure]
      rw [if_neg o1, if_neg o2, if_neg (by simpa using o3), if_neg (by simpa using o4), if_neg (by simpa using o5),
        if_neg (by simpa using o6), if_neg (by simpa using o7), if_neg (by simpa using o8)]
    simp only [Tcp.parse, hint, hsan, py_ok_bind, py_pure]
  · refine ⟨?hd, ?rd, ?fs⟩
    rotate_left
    · simp only [Tcp.read, hhl, Tcp.sport, b0, Tcp.dport, b2, Tcp.seq, b4, Tcp.ack, b8, Tcp.flags, Tcp.flagNs, b12, Tcp.flagCrw, b13,
        Tcp.flagEce, f0, f1, f2, f3, f4, f5, Tcp.win, b14, Tcp.urg, b18, Tcp.options, x2, py_ok_bind, py_pure]
      rfl
    · intro ip
      simp only [Rx.tcpMd, segment, x3, x4]
      congr 1
      rw [slice_of_take hf]

end Verif
