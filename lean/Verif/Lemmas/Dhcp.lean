import Verif.Spec.Dhcp
import Verif.Lemmas.Codec
/-! Lemmas about DHCP messages. -/
namespace Verif.Dhcp
open Spec

theorem decode_encode (s : String) : decode (encode s) = .ok s := by
  unfold decode encode
  have h : (⟨s.toUTF8.data.toList.toArray⟩ : ByteArray) = s.toByteArray := by
    rw [Array.toArray_toList]; rfl
  rw [h]
  unfold String.fromUTF8?
  rw [dif_pos s.isValidUTF8]
  rfl

theorem encode_length (s : String) (h : Ascii s) : (encode s).length = s.length := by
  have key : ∀ l : List Char, (∀ c ∈ l, c.toNat < 128) → l.utf8Encode.size = l.length := by
    intro l
    induction l with
    | nil => intro _; rw [List.utf8Encode_nil]; rfl
    | cons c l ih =>
      intro hc
      rw [List.utf8Encode_cons, ByteArray.size_append, ih (fun c' m => hc c' (List.mem_cons_of_mem _ m)), List.utf8Encode_singleton]
      have h1 : c.utf8Size = 1 := by
        rw [Char.utf8Size_eq_one_iff, UInt32.le_iff_toNat_le]
        have := hc c (List.mem_cons_self ..)
        rw [Char.toNat] at this
        show _ ≤ 127
        omega
      simp [h1]; omega
  have hs : (encode s).length = s.toByteArray.size := rfl
  rw [hs, ← String.utf8Encode_toList, key s.toList h, String.length_toList]

theorem tlv_ok {code len : Nat} {v : Bytes} (h1 : code < 256) (h2 : len < 256) :
    tlv code len v = .ok (UInt8.ofNat code :: UInt8.ofNat len :: v) := by
  unfold tlv
  rw [packB_ok h1, packB_ok h2]
  rfl

theorem tlv_inv {code len : Nat} {v b : Bytes} (h : tlv code len v = .ok b) : len < 256 := by
  unfold tlv packB at h
  split at h
  · split at h
    · assumption
    · cases h
  · cases h

theorem packS_self {n : Nat} {b : Bytes} (h : b.length = n) : packS n b = b := by
  unfold packS
  rw [List.take_append_of_le_length (by omega), List.take_of_length_le (by omega)]

/-- The option and its bytes belong together. -/
structure Canon (o : Opt) (b : Bytes) : Prop where
  raw : o.raw = .ok b
  parse : Opt.parse b = .ok o
  shape : ∃ code data, b = UInt8.ofNat code :: UInt8.ofNat (data : Bytes).length :: data ∧ 0 < code ∧ code < 255 ∧ data.length < 256

theorem idx0 {c n : Nat} {v : Bytes} (h : c < 256) : idx (UInt8.ofNat c :: UInt8.ofNat n :: v) 0 = .ok c := by
  simp [idx]; omega
theorem idx1 {c n : Nat} {v : Bytes} (h : n < 256) : idx (UInt8.ofNat c :: UInt8.ofNat n :: v) 1 = .ok n := by
  simp [idx]; omega
theorem slice2 {c n : UInt8} {v : Bytes} {k : Nat} (h : v.length = k) : slice (c :: n :: v) 2 (2 + k) = v := by
  unfold slice
  rw [show 2 + k = k + 1 + 1 by omega, List.take_succ_cons, List.take_succ_cons, List.take_of_length_le (by omega)]
  rfl
theorem slice26 {c n : UInt8} {v : Bytes} (h : v.length = 4) : slice (c :: n :: v) 2 6 = v := slice2 h

theorem maskBytes_length (m : Ip4Mask) : m.toBytes.length = 4 := by simp [Ip4Mask.toBytes]

theorem mask_ofBytes (m : Ip4Mask) : Ip4Mask.ofBytes m.toBytes = .ok m := by
  have hl : (bePack 4 m.int).length = 4 := by simp
  have hi : m.int &&& 0xFFFFFFFF = m.int := by rw [and_FFFFFFFF]; exact Nat.mod_eq_of_lt m.lt
  unfold Ip4Mask.ofBytes Ip4Mask.toBytes
  rw [if_pos hl, unpackBE_ok hl, beNat_bePack, Nat.mod_eq_of_lt m.lt]
  show Ip4Mask.ofInt (Int.ofNat m.int) = _
  unfold Ip4Mask.ofInt
  dsimp only
  rw [dif_pos hi, dif_pos m.valid]

theorem canon_mask (m : Ip4Mask) : Canon (.subnetMask 4 m) (1 :: 4 :: m.toBytes) := by
  have hl := maskBytes_length m
  refine ⟨?_, ?_, 1, m.toBytes, by rw [hl]; rfl, by decide, by decide, by omega⟩
  · show tlv 1 4 (packS 4 m.toBytes) = _
    rw [packS_self hl, tlv_ok (by decide) (by decide)]; rfl
  · show Opt.parse (UInt8.ofNat 1 :: UInt8.ofNat 4 :: m.toBytes) = _
    unfold Opt.parse
    rw [idx0 (by decide), idx1 (by decide), slice26 hl, mask_ofBytes]; rfl

theorem canon_addr (c : Nat) (k : Nat → Ip4Address → Opt) (hc : (c = 50 ∧ k = .reqIpAddr) ∨ (c = 54 ∧ k = .srvId)) (a : Ip4Address) :
    Canon (k 4 a) (UInt8.ofNat c :: 4 :: a.toBytes) := by
  have hl := a.toBytes_length
  rcases hc with ⟨rfl, rfl⟩ | ⟨rfl, rfl⟩
  · refine ⟨?_, ?_, 50, a.toBytes, by rw [hl]; rfl, by decide, by decide, by omega⟩
    · show tlv 50 4 (packS 4 a.toBytes) = _
      rw [packS_self hl, tlv_ok (by decide) (by decide)]; rfl
    · show Opt.parse (UInt8.ofNat 50 :: UInt8.ofNat 4 :: a.toBytes) = _
      unfold Opt.parse
      rw [idx0 (by decide), idx1 (by decide), slice26 hl, a.ofBytes_toBytes]; rfl
  · refine ⟨?_, ?_, 54, a.toBytes, by rw [hl]; rfl, by decide, by decide, by omega⟩
    · show tlv 54 4 (packS 4 a.toBytes) = _
      rw [packS_self hl, tlv_ok (by decide) (by decide)]; rfl
    · show Opt.parse (UInt8.ofNat 54 :: UInt8.ofNat 4 :: a.toBytes) = _
      unfold Opt.parse
      rw [idx0 (by decide), idx1 (by decide), slice26 hl, a.ofBytes_toBytes]; rfl

theorem flat_length (l : List Ip4Address) : (l.flatMap Ip4Address.toBytes).length = l.length * 4 := by
  induction l with
  | nil => rfl
  | cons a l ih => rw [List.flatMap_cons, List.length_append, ih, a.toBytes_length, List.length_cons]; omega

theorem addrs_flat (l : List Ip4Address) (pre : Bytes) :
    addrs (pre ++ l.flatMap Ip4Address.toBytes) l.length pre.length = .ok l := by
  induction l generalizing pre with
  | nil => rfl
  | cons a l ih =>
    have h1 : slice (pre ++ (a :: l).flatMap Ip4Address.toBytes) pre.length (pre.length + 4) = a.toBytes := by
      unfold slice
      rw [List.take_append, List.take_of_length_le (by omega), show pre.length + 4 - pre.length = 4 by omega, List.flatMap_cons,
        List.take_append_of_le_length (by simp), List.take_of_length_le (by simp)]
      simp
    have h2 := ih (pre ++ a.toBytes)
    rw [List.append_assoc, ← List.flatMap_cons, List.length_append, a.toBytes_length] at h2
    rw [List.length_cons]
    unfold addrs
    rw [h1, a.ofBytes_toBytes]
    show (do let l ← addrs _ l.length (pre.length + 4); return a :: l) = _
    rw [h2]; rfl

theorem canon_addrs (c : Nat) (k : Nat → List Ip4Address → Opt) (hc : (c = 3 ∧ k = .router) ∨ (c = 6 ∧ k = .dns)) (l : List Ip4Address)
    (hl : l.length * 4 < 256) :
    Canon (k (l.length * 4) l) (UInt8.ofNat c :: UInt8.ofNat (l.length * 4) :: l.flatMap Ip4Address.toBytes) := by
  have hf := flat_length l
  have ha : addrs (UInt8.ofNat c :: UInt8.ofNat (l.length * 4) :: l.flatMap Ip4Address.toBytes) ((l.length * 4 + 3) / 4) 2 = .ok l := by
    rw [show (l.length * 4 + 3) / 4 = l.length by omega]
    exact addrs_flat l [UInt8.ofNat c, UInt8.ofNat (l.length * 4)]
  rcases hc with ⟨rfl, rfl⟩ | ⟨rfl, rfl⟩
  · refine ⟨?_, ?_, 3, l.flatMap Ip4Address.toBytes, by rw [hf], by decide, by decide, by omega⟩
    · show tlv 3 _ (packS (l.length * 4) _) = _
      rw [packS_self hf, tlv_ok (by decide) hl]
    · unfold Opt.parse
      rw [idx0 (by decide), idx1 hl]
      show (do return Opt.router (l.length * 4) (← addrs _ ((l.length * 4 + 3) / 4) 2) : Py Opt) = _
      rw [ha]; rfl
  · refine ⟨?_, ?_, 6, l.flatMap Ip4Address.toBytes, by rw [hf], by decide, by decide, by omega⟩
    · show tlv 6 _ (packS (l.length * 4) _) = _
      rw [packS_self hf, tlv_ok (by decide) hl]
    · unfold Opt.parse
      rw [idx0 (by decide), idx1 hl]
      show (do return Opt.dns (l.length * 4) (← addrs _ ((l.length * 4 + 3) / 4) 2) : Py Opt) = _
      rw [ha]; rfl

theorem canon_text (c : Nat) (k : Nat → String → Opt) (hc : (c = 12 ∧ k = .hostName) ∨ (c = 15 ∧ k = .domainName)) (s : String) (n : Nat)
    (hn : (encode s).length = n) (hl : n < 256) : Canon (k n s) (UInt8.ofNat c :: UInt8.ofNat n :: encode s) := by
  rcases hc with ⟨rfl, rfl⟩ | ⟨rfl, rfl⟩
  · refine ⟨?_, ?_, 12, encode s, by rw [hn], by decide, by decide, by omega⟩
    · show tlv 12 _ (packS n _) = _
      rw [packS_self hn, tlv_ok (by decide) hl]
    · unfold Opt.parse
      rw [idx0 (by decide), idx1 hl]
      show (do return Opt.hostName n (← decode (slice _ 2 (2 + n))) : Py Opt) = _
      rw [slice2 hn, decode_encode]; rfl
  · refine ⟨?_, ?_, 15, encode s, by rw [hn], by decide, by decide, by omega⟩
    · show tlv 15 _ (packS n _) = _
      rw [packS_self hn, tlv_ok (by decide) hl]
    · unfold Opt.parse
      rw [idx0 (by decide), idx1 hl]
      show (do return Opt.domainName n (← decode (slice _ 2 (2 + n))) : Py Opt) = _
      rw [slice2 hn, decode_encode]; rfl

theorem canon_lease (n : Nat) (h : n < 2 ^ 32) : Canon (.leaseTime 4 n) (51 :: 4 :: bePack 4 n) := by
  have hl : (bePack 4 n).length = 4 := by simp
  refine ⟨?_, ?_, 51, bePack 4 n, by rw [hl]; rfl, by decide, by decide, by omega⟩
  · show (do let v ← packL n; tlv 51 4 v) = _
    rw [packL_ok h]
    show tlv 51 4 _ = _
    rw [tlv_ok (by decide) (by decide)]; rfl
  · show Opt.parse (UInt8.ofNat 51 :: UInt8.ofNat 4 :: bePack 4 n) = _
    unfold Opt.parse
    rw [idx0 (by decide), idx1 (by decide)]
    have hu : u32 (UInt8.ofNat 51 :: UInt8.ofNat 4 :: bePack 4 n) 2 = .ok n := by
      unfold u32
      rw [slice26 hl, unpackBE_ok hl, beNat_bePack, Nat.mod_eq_of_lt h]
    simp only [py_ok_bind, hu]; rfl

theorem canon_msg (n : Nat) (h : n < 256) : Canon (.msgType 1 n) [53, 1, UInt8.ofNat n] := by
  refine ⟨?_, ?_, 53, [UInt8.ofNat n], rfl, by decide, by decide, by simp⟩
  · show (do let v ← packB n; tlv 53 1 v) = _
    rw [packB_ok h]
    show tlv 53 1 _ = _
    rw [tlv_ok (by decide) (by decide)]; rfl
  · show Opt.parse (UInt8.ofNat 53 :: UInt8.ofNat 1 :: [UInt8.ofNat n]) = _
    unfold Opt.parse
    rw [idx0 (by decide), idx1 (by decide)]
    have : idx (UInt8.ofNat 53 :: UInt8.ofNat 1 :: [UInt8.ofNat n]) 2 = .ok n := by simp [idx]; omega
    simp only [py_ok_bind, this]; rfl

theorem bytesOf_ok {l : List Nat} {b : Bytes} (h : bytesOf l = .ok b) : b.length = l.length ∧ b.map UInt8.toNat = l := by
  induction l generalizing b with
  | nil => unfold bytesOf at h; cases h; exact ⟨rfl, rfl⟩
  | cons n l ih =>
    unfold bytesOf at h
    split at h
    · rename_i hn
      cases hb : bytesOf l with
      | error e => rw [hb] at h; cases h
      | ok r =>
        rw [hb] at h
        cases h
        obtain ⟨h1, h2⟩ := ih hb
        refine ⟨by simp [h1], ?_⟩
        rw [List.map_cons, h2]
        simp; omega
    · cases h

theorem bytesOf_map (b : Bytes) : bytesOf (b.map UInt8.toNat) = .ok b := by
  induction b with
  | nil => rfl
  | cons x b ih =>
    rw [List.map_cons]
    unfold bytesOf
    rw [if_pos x.toNat_lt, ih]
    show Except.ok _ = _
    simp

theorem canon_param (v : Bytes) (hl : v.length < 256) :
    Canon (.paramReq v.length (v.map UInt8.toNat)) (55 :: UInt8.ofNat v.length :: v) := by
  refine ⟨?_, ?_, 55, v, rfl, by decide, by decide, hl⟩
  · show (do let w ← bytesOf (v.map UInt8.toNat); tlv 55 v.length (packS v.length w)) = _
    rw [bytesOf_map]
    show tlv 55 _ (packS v.length v) = _
    rw [packS_self rfl, tlv_ok (by decide) hl]; rfl
  · show Opt.parse (UInt8.ofNat 55 :: UInt8.ofNat v.length :: v) = _
    unfold Opt.parse
    rw [idx0 (by decide), idx1 hl]
    show (do return Opt.paramReq v.length ((slice _ 2 (2 + v.length)).map UInt8.toNat) : Py Opt) = _
    rw [slice2 rfl]; rfl

theorem flat_of {v : Bytes} (h : v.length % 4 = 0) : ∃ l : List Ip4Address, v = l.flatMap Ip4Address.toBytes := by
  generalize hn : v.length / 4 = n
  induction n generalizing v with
  | zero => exact ⟨[], by simpa using (by omega : v.length = 0)⟩
  | succ n ih =>
    obtain ⟨l, hl⟩ := ih (v := v.drop 4) (by simp; omega) (by simp; omega)
    have h4 : (v.take 4).length = 4 := by simp; omega
    refine ⟨⟨beNat (v.take 4), by have := beNat_lt (v.take 4); rw [h4] at this; omega⟩ :: l, ?_⟩
    rw [List.flatMap_cons, ← hl, Ip4Address.toBytes]
    have := bePack_beNat (v.take 4)
    rw [h4] at this
    rw [this, List.take_append_drop]

/-- Every well-formed option is one the parser takes and gives back. -/
theorem canon_of (t : Tlv) (h : t.WellFormed) : ∃ o, Canon o t.bytes := by
  obtain ⟨code, v⟩ := t
  obtain ⟨h0, h255, hl, h1, h36, ht, h4, h53⟩ := h
  dsimp only at *
  unfold Tlv.bytes
  dsimp only
  have addr : v.length = 4 → ∃ a : Ip4Address, a.toBytes = v := by
    intro q
    refine ⟨⟨beNat v, by have := beNat_lt v; rw [q] at this; omega⟩, ?_⟩
    have := bePack_beNat v
    rw [q] at this
    exact this
  by_cases c1 : code = 1
  · subst c1
    obtain ⟨m, rfl⟩ := h1 rfl
    exact ⟨_, by rw [maskBytes_length]; exact canon_mask m⟩
  by_cases c3 : code = 3 ∨ code = 6
  · obtain ⟨l, rfl⟩ := flat_of (h36 c3)
    rw [flat_length] at hl ⊢
    rcases c3 with rfl | rfl
    · exact ⟨_, canon_addrs 3 .router (.inl ⟨rfl, rfl⟩) l hl⟩
    · exact ⟨_, canon_addrs 6 .dns (.inr ⟨rfl, rfl⟩) l hl⟩
  by_cases c12 : code = 12 ∨ code = 15
  · obtain ⟨s, rfl⟩ := ht c12
    rcases c12 with rfl | rfl
    · exact ⟨_, canon_text 12 .hostName (.inl ⟨rfl, rfl⟩) s _ rfl hl⟩
    · exact ⟨_, canon_text 15 .domainName (.inr ⟨rfl, rfl⟩) s _ rfl hl⟩
  by_cases c50 : code = 50
  · subst c50
    obtain ⟨a, rfl⟩ := addr (h4 (by simp))
    exact ⟨_, by rw [a.toBytes_length]; exact canon_addr 50 .reqIpAddr (.inl ⟨rfl, rfl⟩) a⟩
  by_cases c54 : code = 54
  · subst c54
    obtain ⟨a, rfl⟩ := addr (h4 (by simp))
    exact ⟨_, by rw [a.toBytes_length]; exact canon_addr 54 .srvId (.inr ⟨rfl, rfl⟩) a⟩
  by_cases c51 : code = 51
  · subst c51
    have q := h4 (by simp)
    have := bePack_beNat v
    rw [q] at this
    refine ⟨.leaseTime 4 (beNat v), ?_⟩
    have c := canon_lease (beNat v) (by have := beNat_lt v; rw [q] at this; omega)
    rw [this] at c
    rw [q]; exact c
  by_cases c53 : code = 53
  · subst c53
    have q := h53 rfl
    match v, q with
    | [x], _ =>
      have c := canon_msg x.toNat x.toNat_lt
      rw [UInt8.ofNat_toNat] at c
      exact ⟨_, c⟩
  by_cases c55 : code = 55
  · subst c55
    exact ⟨_, canon_param v hl⟩
  · refine ⟨.unk code v.length v, ?_, ?_, code, v, rfl, h0, h255, hl⟩
    · show tlv code v.length (packS v.length v) = _
      rw [packS_self rfl, tlv_ok (by omega) hl]
    · unfold Opt.parse
      rw [idx0 (by omega), idx1 hl]
      simp only [py_ok_bind]
      split
      all_goals first | omega | skip
      rw [slice2 rfl]; rfl

/-! ### The loop over the options -/

theorem rawOptions_append {os ps : List Opt} {a b : Bytes} (h1 : rawOptions os = .ok a) (h2 : rawOptions ps = .ok b) :
    rawOptions (os ++ ps) = .ok (a ++ b) := by
  induction os generalizing a with
  | nil => unfold rawOptions at h1; cases h1; simpa using h2
  | cons o os ih =>
    unfold rawOptions at h1
    cases hr : o.raw with
    | error e => rw [hr] at h1; cases h1
    | ok x =>
      cases hs : rawOptions os with
      | error e => rw [hr, hs] at h1; cases h1
      | ok y =>
        rw [hr, hs] at h1
        cases h1
        rw [List.cons_append, rawOptions, hr, ih hs]
        simp

theorem rawOptions_one {o : Opt} {b : Bytes} (h : o.raw = .ok b) : rawOptions [o] = .ok b := by
  unfold rawOptions rawOptions
  rw [h]
  simp

theorem rawOptions_cons {o : Opt} {os : List Opt} {b : Bytes} (h : rawOptions (o :: os) = .ok b) :
    ∃ x y, o.raw = .ok x ∧ rawOptions os = .ok y ∧ b = x ++ y := by
  unfold rawOptions at h
  cases hr : o.raw with
  | error e => rw [hr] at h; cases h
  | ok x =>
    cases hs : rawOptions os with
    | error e => rw [hr, hs] at h; cases h
    | ok y => rw [hr, hs] at h; cases h; exact ⟨x, y, rfl, rfl, rfl⟩

theorem optLoop_one {o : Opt} {b pre rest : Bytes} {opts : List Opt} {fuel : Nat} (h : Canon o b) (hp : rawOptions opts = .ok pre) :
    optLoop (pre ++ (b ++ rest)) (fuel + 1) pre.length opts = optLoop (pre ++ (b ++ rest)) fuel (pre.length + b.length) (opts ++ [o]) ∧
    rawOptions (opts ++ [o]) = .ok (pre ++ b) := by
  have hr := rawOptions_append hp (rawOptions_one h.raw)
  refine ⟨?_, hr⟩
  obtain ⟨code, data, hb, h0, h255, hl⟩ := h.shape
  have hi0 : idx (pre ++ (b ++ rest)) pre.length = .ok code := by
    unfold idx
    rw [List.getElem?_append_right (by omega), hb]
    simp; omega
  have hi1 : ∀ rest, idx (pre ++ (b ++ rest)) (pre.length + 1) = .ok data.length := by
    intro rest
    unfold idx
    rw [List.getElem?_append_right (by omega), hb]
    simp; omega
  have hlb : b.length = data.length + 2 := by rw [hb]; simp
  have hs : slice (pre ++ (b ++ rest)) pre.length (pre.length + data.length + 2) = b := by
    unfold slice
    rw [show pre.length + data.length + 2 = pre.length + b.length by omega, List.take_length_add_append, List.take_left]
    simp
  have hro := hi1 []
  rw [List.append_nil] at hro
  rw [optLoop, if_pos (by simp; omega), hi0]
  simp only [py_ok_bind]
  rw [if_neg (by omega), if_neg (by omega), hi1]
  simp only [py_ok_bind]
  rw [hs, h.parse]
  simp only [py_ok_bind]
  rw [hr]
  simp only [py_ok_bind]
  rw [hro]
  simp only [py_ok_bind]
  rw [hlb, Nat.add_assoc]

theorem optLoop_canon {ps : List (Opt × Bytes)} (h : ∀ p ∈ ps, Canon p.1 p.2) {pre rest : Bytes} {opts : List Opt} {fuel : Nat}
    (hp : rawOptions opts = .ok pre) :
    optLoop (pre ++ (ps.flatMap Prod.snd ++ rest)) (fuel + ps.length) pre.length opts =
      optLoop (pre ++ (ps.flatMap Prod.snd ++ rest)) fuel (pre.length + (ps.flatMap Prod.snd).length) (opts ++ ps.map Prod.fst) ∧
    rawOptions (opts ++ ps.map Prod.fst) = .ok (pre ++ ps.flatMap Prod.snd) := by
  induction ps generalizing pre opts with
  | nil => simpa using hp
  | cons p ps ih =>
    obtain ⟨o, b⟩ := p
    have hc : Canon o b := h (o, b) (List.mem_cons_self ..)
    obtain ⟨h1, h2⟩ := optLoop_one (rest := ps.flatMap Prod.snd ++ rest) (fuel := fuel + ps.length) hc hp
    obtain ⟨h3, h4⟩ := ih (fun p m => h p (List.mem_cons_of_mem _ m)) h2
    simp only [List.flatMap_cons, List.map_cons, List.length_cons, List.append_assoc, List.length_append, List.cons_append,
      List.nil_append] at h1 h3 h4 ⊢
    refine ⟨?_, h4⟩
    rw [← Nat.add_assoc fuel, h1, h3, Nat.add_assoc pre.length]

/-- At a 0 byte the loop stays where it is. -/
theorem optLoop_pad {raw : Bytes} {i : Nat} (h : idx raw i = .ok 0) (fuel : Nat) (opts : List Opt) :
    optLoop raw fuel i opts = .error .nonTermination := by
  have hi : i < raw.length := by
    apply Classical.byContradiction
    intro hn
    unfold idx at h
    rw [List.getElem?_eq_none (by omega)] at h
    cases h
  induction fuel generalizing opts with
  | zero => rfl
  | succ fuel ih =>
    rw [optLoop, if_pos hi, h]
    simp only [py_ok_bind]
    rw [if_neg (by decide), if_pos trivial]
    exact ih _

theorem optLoop_enough (raw : Bytes) (k fuel i : Nat) (opts : List Opt) (h : raw.length + 1 ≤ fuel + i) (h1 : 0 < fuel) :
    optLoop raw (fuel + k) i opts = optLoop raw fuel i opts := by
  induction fuel generalizing i opts with
  | zero => omega
  | succ fuel ih =>
    by_cases hi : i < raw.length
    · by_cases hz : idx raw i = .ok 0
      · rw [optLoop_pad hz, optLoop_pad hz]
      · rw [show fuel + 1 + k = fuel + k + 1 by omega, optLoop, optLoop, if_pos hi, if_pos hi]
        cases hc : idx raw i with
        | error e => rfl
        | ok c =>
          simp only [py_ok_bind]
          by_cases h255 : c = 255
          · rw [if_pos h255, if_pos h255]
          · rw [if_neg h255, if_neg h255, if_neg (by rintro rfl; exact hz hc), if_neg (by rintro rfl; exact hz hc)]
            cases idx raw (i + 1) with
            | error e => rfl
            | ok n =>
              simp only [py_ok_bind]
              cases Opt.parse (slice raw i (i + n + 2)) with
              | error e => rfl
              | ok o =>
                simp only [py_ok_bind]
                cases rawOptions (opts ++ [o]) with
                | error e => rfl
                | ok ro =>
                  simp only [py_ok_bind]
                  cases idx ro (i + 1) with
                  | error e => rfl
                  | ok n' =>
                    simp only [py_ok_bind]
                    by_cases hf : fuel = 0
                    · omega
                    · exact ih _ _ (by omega) (by omega)
    · rw [show fuel + 1 + k = fuel + k + 1 by omega, optLoop, optLoop, if_neg hi, if_neg hi]

/-- Fewer rounds are not enough either. -/
theorem optLoop_less {raw : Bytes} {f k i : Nat} {opts : List Opt} (h : optLoop raw k i opts = .error .nonTermination) (hf : f ≤ k) :
    optLoop raw f i opts = .error .nonTermination := by
  induction f generalizing k i opts with
  | zero => rfl
  | succ f ih =>
    obtain ⟨k, rfl⟩ : ∃ j, k = j + 1 := ⟨k - 1, by omega⟩
    rw [optLoop] at h ⊢
    by_cases hi : i < raw.length
    · rw [if_pos hi] at h ⊢
      cases hc : idx raw i with
      | error e => rw [hc] at h; exact h
      | ok c =>
        rw [hc] at h
        simp only [py_ok_bind] at h ⊢
        by_cases h255 : c = 255
        · rw [if_pos h255] at h; cases h
        · rw [if_neg h255] at h ⊢
          by_cases h0 : c = 0
          · rw [if_pos h0] at h ⊢
            exact ih h (by omega)
          · rw [if_neg h0] at h ⊢
            cases hn : idx raw (i + 1) with
            | error e => rw [hn] at h; exact h
            | ok n =>
              rw [hn] at h
              simp only [py_ok_bind] at h ⊢
              cases hp : Opt.parse (slice raw i (i + n + 2)) with
              | error e => rw [hp] at h; exact h
              | ok o =>
                rw [hp] at h
                simp only [py_ok_bind] at h ⊢
                cases hr : rawOptions (opts ++ [o]) with
                | error e => rw [hr] at h; exact h
                | ok ro =>
                  rw [hr] at h
                  simp only [py_ok_bind] at h ⊢
                  cases hm : idx ro (i + 1) with
                  | error e => rw [hm] at h; exact h
                  | ok n' =>
                    rw [hm] at h
                    simp only [py_ok_bind] at h ⊢
                    exact ih h (by omega)
    · rw [if_neg hi] at h; cases h

/-! ### Errors other than not ending -/

/-- It ends. -/
structure Ends {α : Type} (x : Py α) : Prop where
  ne : x ≠ .error .nonTermination

theorem Ends.ok {α : Type} (a : α) : Ends (.ok a : Py α) := ⟨by intro h; cases h⟩
theorem Ends.err {α : Type} {e : PyErr} (h : e ≠ .nonTermination) : Ends (.error e : Py α) :=
  ⟨by intro h'; cases h'; exact h rfl⟩
theorem Ends.bind {α β : Type} {x : Py α} {f : α → Py β} (h : Ends x) (hf : ∀ a, x = .ok a → Ends (f a)) : Ends (x >>= f) := by
  cases x with
  | error e => exact ⟨fun h' => h.ne (by cases h'; rfl)⟩
  | ok a => exact hf a rfl

theorem ends_idx (b : Bytes) (i : Nat) : Ends (idx b i) := by
  unfold idx; split
  · exact .ok _
  · exact .err (by decide)
theorem ends_packB (n : Nat) : Ends (packB n) := by
  unfold packB; split
  · exact .ok _
  · exact .err (by decide)
theorem ends_packL (n : Nat) : Ends (packL n) := by
  unfold packL; split
  · exact .ok _
  · exact .err (by decide)
theorem ends_unpack (n : Nat) (b : Bytes) : Ends (unpackBE n b) := by
  unfold unpackBE; split
  · exact .ok _
  · exact .err (by decide)
theorem ends_tlv (c n : Nat) (v : Bytes) : Ends (tlv c n v) :=
  (ends_packB c).bind fun _ _ => (ends_packB n).bind fun _ _ => .ok _
theorem ends_decode (b : Bytes) : Ends (decode b) := by
  unfold decode; split
  · exact .ok _
  · exact .err (by decide)
theorem ends_ip4 (b : Bytes) : Ends (Ip4Address.ofBytes b) := by
  unfold Ip4Address.ofBytes
  split
  · refine (ends_unpack ..).bind fun v _ => ?_
    unfold Ip4Address.ofInt
    split
    · split
      · exact .ok _
      · exact .err (by decide)
    · exact .err (by decide)
  · exact .err (by decide)
theorem ends_mask (b : Bytes) : Ends (Ip4Mask.ofBytes b) := by
  unfold Ip4Mask.ofBytes
  split
  · refine (ends_unpack ..).bind fun v _ => ?_
    unfold Ip4Mask.ofInt
    split
    · split
      · split
        · exact .ok _
        · exact .err (by decide)
      · exact .err (by decide)
    · exact .err (by decide)
  · exact .err (by decide)
theorem ends_addrs (r : Bytes) (n i : Nat) : Ends (addrs r n i) := by
  induction n generalizing i with
  | zero => exact .ok _
  | succ n ih => exact (ends_ip4 _).bind fun _ _ => (ih _).bind fun _ _ => .ok _
theorem ends_bytesOf (l : List Nat) : Ends (bytesOf l) := by
  induction l with
  | nil => exact .ok _
  | cons n l ih =>
    unfold bytesOf
    split
    · exact ih.bind fun _ _ => .ok _
    · exact .err (by decide)
theorem ends_raw (o : Opt) : Ends o.raw := by
  cases o <;> unfold Opt.raw
  case leaseTime => exact (ends_packL _).bind fun _ _ => ends_tlv ..
  case msgType => exact (ends_packB _).bind fun _ _ => ends_tlv ..
  case paramReq => exact (ends_bytesOf _).bind fun _ _ => ends_tlv ..
  all_goals first | exact ends_tlv .. | exact ends_packB _
theorem ends_rawOptions (os : List Opt) : Ends (rawOptions os) := by
  induction os with
  | nil => exact .ok _
  | cons o os ih => exact (ends_raw o).bind fun _ _ => ih.bind fun _ _ => .ok _
theorem ends_parseOpt (r : Bytes) : Ends (Opt.parse r) := by
  unfold Opt.parse
  refine (ends_idx ..).bind fun c _ => (ends_idx ..).bind fun n _ => ?_
  split
  · exact (ends_mask _).bind fun _ _ => .ok _
  · exact (ends_addrs ..).bind fun _ _ => .ok _
  · exact (ends_addrs ..).bind fun _ _ => .ok _
  · exact (ends_decode _).bind fun _ _ => .ok _
  · exact (ends_decode _).bind fun _ _ => .ok _
  · exact (ends_ip4 _).bind fun _ _ => .ok _
  · exact (ends_unpack ..).bind fun _ _ => .ok _
  · exact (ends_idx ..).bind fun _ _ => .ok _
  · exact (ends_ip4 _).bind fun _ _ => .ok _
  · exact .ok _
  · exact .ok _

theorem ends_optLoop (raw : Bytes) (h0 : (0 : UInt8) ∉ raw) (fuel i : Nat) (opts : List Opt) (h : raw.length + 1 ≤ fuel + i) (h1 : 0 < fuel) :
    Ends (optLoop raw fuel i opts) := by
  induction fuel generalizing i opts with
  | zero => omega
  | succ fuel ih =>
    rw [optLoop]
    split
    · refine (ends_idx ..).bind fun c hc => ?_
      split
      · exact .ok _
      · split
        · rename_i hz
          subst hz
          exfalso
          unfold idx at hc
          split at hc
          · rename_i x hx
            have hx0 : x = 0 := by
              apply UInt8.toNat_inj.mp
              injection hc
            subst hx0
            exact h0 (List.mem_of_getElem? hx)
          · cases hc
        · refine (ends_idx ..).bind fun n _ => (ends_parseOpt _).bind fun o _ => (ends_rawOptions _).bind fun ro _ => (ends_idx ..).bind fun n' _ => ?_
          exact ih _ _ (by omega) (by omega)
    · exact .ok _

/-! ### What is built -/

theorem zeros_eq (n : Nat) : List.replicate n (0 : UInt8) = bePack n 0 := by
  induction n with
  | zero => rfl
  | succ n ih => rw [bePack, Nat.zero_div, ← ih, List.replicate_succ']; rfl

/-- A built packet starts with a header from which all fields are read. -/
theorem header_ok (a : Args) (h : Bytes) (hh : (build a).rawHeader = .ok h) (hc : a.chaddr.length = 6) (rest : Bytes) (fuel : Nat) :
    parseWith fuel (h ++ rest) = (optLoop rest fuel 0 []).map (fun os => { build a with options := os }) := by
  unfold Packet.rawHeader at hh
  have ho : a.op < 256 := by
    apply Classical.byContradiction
    intro hn
    rw [show packB (build a).op = .error .structError from if_neg hn] at hh
    cases hh
  have hx : a.xid < 4294967296 := by
    apply Classical.byContradiction
    intro hn
    rw [show packB (build a).op = .ok _ from packB_ok ho, show packB (build a).hwtype = .ok _ from packB_ok (by decide : 1 < 256),
      show packB (build a).hwlen = .ok _ from packB_ok (by decide : 6 < 256),
      show packB (build a).hops = .ok _ from packB_ok (by decide : 0 < 256),
      show packL (build a).xid = .error .structError from if_neg hn] at hh
    cases hh
  have hf : (build a).flagB.toNat <<< 15 < 65536 := by cases (build a).flagB <;> decide
  rw [show packB (build a).op = .ok _ from packB_ok ho, show packB (build a).hwtype = .ok _ from packB_ok (by decide : 1 < 256),
    show packB (build a).hwlen = .ok _ from packB_ok (by decide : 6 < 256),
    show packB (build a).hops = .ok _ from packB_ok (by decide : 0 < 256),
    show packL (build a).xid = .ok _ from packL_ok hx, show packH (build a).secs = .ok _ from packH_ok (by decide : 0 < 65536),
    packH_ok hf] at hh
  simp only [py_ok_bind, py_pure] at hh
  injection hh with hh
  rw [packS_self (Ip4Address.toBytes_length _), packS_self (Ip4Address.toBytes_length _), packS_self (Ip4Address.toBytes_length _),
    packS_self (Ip4Address.toBytes_length _), packS_self (show ((build a).chaddr ++ List.replicate 10 0).length = 16 by simp [build, hc]),
    packS_self (show (build a).sname.length = 64 by simp [build]), packS_self (show (build a).file.length = 128 by simp [build])] at hh
  have hch : bePack 6 (beNat a.chaddr) = a.chaddr := by
    have := bePack_beNat a.chaddr
    rwa [hc] at this
  have hm : ([0x63, 0x82, 0x53, 0x63] : Bytes) = bePack 4 0x63825363 := by decide
  rw [hm, show (build a).chaddr = bePack 6 (beNat a.chaddr) from hch.symm, show (build a).sname = bePack 64 0 from zeros_eq 64,
    show (build a).file = bePack 128 0 from zeros_eq 128, zeros_eq 10] at hh
  have hfl : ((a.flagB.toNat <<< 15 % 65536 &&& 0x8000) != 0) = a.flagB := by cases a.flagB <;> decide
  subst hh
  have hne : ∀ r : Bytes, bePack 1 a.op ++ r ≠ [] := by intro r; simp [bePack]
  unfold parseWith
  simp (disch := omega) only [codec, build, Nat.sub_self, Nat.reduceSub, Nat.reduceAdd, Nat.reduceMod]
  rw [if_neg (hne _), hfl, hch, Nat.mod_eq_of_lt ho, Nat.mod_eq_of_lt hx, zeros_eq, zeros_eq]
  generalize bePack 64 0 = z1
  generalize bePack 128 0 = z2
  cases optLoop rest fuel 0 [] with
  | error e => rfl
  | ok os => rfl

/-- Any 240 bytes are a header. -/
theorem header_any (hdr : Bytes) (h : hdr.length = 240) :
    ∃ p : Packet, ∀ (rest : Bytes) (fuel : Nat),
      parseWith fuel (hdr ++ rest) = (optLoop rest fuel 0 []).map (fun os => { p with options := os }) := by
  obtain ⟨op, e1, -⟩ := idx_ex (f := hdr) (i := 0) (by omega)
  obtain ⟨ht, e2, -⟩ := idx_ex (f := hdr) (i := 1) (by omega)
  obtain ⟨hl, e3, -⟩ := idx_ex (f := hdr) (i := 2) (by omega)
  obtain ⟨hp, e4, -⟩ := idx_ex (f := hdr) (i := 3) (by omega)
  obtain ⟨x, e5, -⟩ := u32_ex (f := hdr) (i := 4) (by omega)
  obtain ⟨sc, e6, -⟩ := u16_ex (f := hdr) (i := 8) (by omega)
  obtain ⟨fl, e7, -⟩ := u16_ex (f := hdr) (i := 10) (by omega)
  obtain ⟨ci, e8, -⟩ := ip4_ok (f := hdr) (i := 12) (j := 16) rfl (by omega)
  obtain ⟨yi, e9, -⟩ := ip4_ok (f := hdr) (i := 16) (j := 20) rfl (by omega)
  obtain ⟨si, e10, -⟩ := ip4_ok (f := hdr) (i := 20) (j := 24) rfl (by omega)
  obtain ⟨gi, e11, -⟩ := ip4_ok (f := hdr) (i := 24) (j := 28) rfl (by omega)
  refine ⟨⟨op, ht, hl, hp, x, sc, fl &&& 0x8000 != 0, ci, yi, si, gi, slice hdr 28 (28 + hl), slice hdr 44 108, slice hdr 108 236, []⟩, ?_⟩
  intro rest fuel
  have hne : hdr ++ rest ≠ [] := by
    intro hn
    have := congrArg List.length hn
    simp [h] at this
  have ht : (hdr ++ rest).take 240 = hdr := by rw [← h, List.take_left]
  have hd : sliceFrom (hdr ++ rest) 240 = rest := by rw [sliceFrom, ← h, List.drop_left]
  unfold parseWith
  rw [if_neg hne]
  dsimp only
  rw [ht, hd, e1, e2, e3, e4, e5, e6, e7, e8, e9, e10, e11]
  simp only [py_ok_bind]
  cases optLoop rest fuel 0 [] with
  | error e => rfl
  | ok os => rfl

/-- What the bytes of an option, if it has any, tell. -/
def Good (o : Opt) : Prop := ∀ b, o.raw = .ok b → Canon o b

theorem rawOptions_good {os : List Opt} (h : ∀ o ∈ os, Good o) {b : Bytes} (hb : rawOptions os = .ok b) :
    ∃ ps : List (Opt × Bytes), (∀ p ∈ ps, Canon p.1 p.2) ∧ ps.map Prod.fst = os ∧ ps.flatMap Prod.snd = b := by
  induction os generalizing b with
  | nil => unfold rawOptions at hb; cases hb; exact ⟨[], by simp, rfl, rfl⟩
  | cons o os ih =>
    obtain ⟨x, y, h1, h2, rfl⟩ := rawOptions_cons hb
    obtain ⟨ps, h3, h4, h5⟩ := ih (fun o m => h o (List.mem_cons_of_mem _ m)) h2
    refine ⟨(o, x) :: ps, ?_, by rw [List.map_cons, h4], by rw [List.flatMap_cons, h5]⟩
    intro p m
    rcases List.mem_cons.mp m with rfl | m
    · exact h o (List.mem_cons_self ..) x h1
    · exact h3 p m

theorem Canon.good {o : Opt} {b : Bytes} (h : Canon o b) : Good o := by
  intro b' h'
  have := h.raw.symm.trans h'
  cases this
  exact h

theorem good_mask (m : Ip4Mask) : Good (.subnetMask 4 m) := (canon_mask m).good
theorem good_req (a : Ip4Address) : Good (.reqIpAddr 4 a) := (canon_addr 50 .reqIpAddr (.inl ⟨rfl, rfl⟩) a).good
theorem good_srv (a : Ip4Address) : Good (.srvId 4 a) := (canon_addr 54 .srvId (.inr ⟨rfl, rfl⟩) a).good
theorem good_router (l : List Ip4Address) : Good (.router (l.length * 4) l) := fun _ h =>
  (canon_addrs 3 .router (.inl ⟨rfl, rfl⟩) l (tlv_inv h)).good _ h
theorem good_dns (l : List Ip4Address) : Good (.dns (l.length * 4) l) := fun _ h =>
  (canon_addrs 6 .dns (.inr ⟨rfl, rfl⟩) l (tlv_inv h)).good _ h
theorem good_host (s : String) (hs : Ascii s) : Good (.hostName s.length s) := fun _ h =>
  (canon_text 12 .hostName (.inl ⟨rfl, rfl⟩) s _ (encode_length s hs) (tlv_inv h)).good _ h
theorem good_domain (s : String) (hs : Ascii s) : Good (.domainName s.length s) := fun _ h =>
  (canon_text 15 .domainName (.inr ⟨rfl, rfl⟩) s _ (encode_length s hs) (tlv_inv h)).good _ h
theorem good_lease (n : Nat) : Good (.leaseTime 4 n) := by
  intro b h
  have hn : n < 2 ^ 32 := by
    apply Classical.byContradiction
    intro hn
    unfold Opt.raw at h
    dsimp only at h
    rw [show packL n = .error .structError from if_neg hn] at h
    cases h
  exact (canon_lease n hn).good _ h
theorem good_msg (n : Nat) : Good (.msgType 1 n) := by
  intro b h
  have hn : n < 2 ^ 8 := by
    apply Classical.byContradiction
    intro hn
    unfold Opt.raw at h
    dsimp only at h
    rw [show packB n = .error .structError from if_neg hn] at h
    cases h
  exact (canon_msg n hn).good _ h
theorem good_param (l : List Nat) : Good (.paramReq l.length l) := by
  intro b h
  unfold Opt.raw at h
  dsimp only at h
  cases hv : bytesOf l with
  | error e => rw [hv] at h; cases h
  | ok v =>
    obtain ⟨h1, h2⟩ := bytesOf_ok hv
    rw [hv] at h
    simp only [py_ok_bind] at h
    have hl := tlv_inv h
    have := canon_param v (by omega)
    rw [h1, h2] at this
    refine this.good b ?_
    unfold Opt.raw
    dsimp only
    rw [hv]
    exact h

theorem given_mem {α : Type} {x : Option α} {f : α → Bool} {k : α → Opt} {o : Opt} (h : o ∈ given x f k) : ∃ v, x = some v ∧ o = k v := by
  unfold given at h
  split at h
  · cases h
  · split at h
    · cases h
    · exact ⟨_, rfl, List.mem_singleton.mp h⟩

theorem given_find {α β : Type} (x : Option α) (f : α → Bool) (k : α → Opt) (g : Opt → Option β) :
    (given x f k).findSome? g = (x.filter (fun v => !f v)).bind (fun v => g (k v)) := by
  unfold given
  cases x with
  | none => rfl
  | some v =>
    cases h : f v <;> simp [h, Option.filter]

/-- The options of a packet that is built, without END. -/
def Args.body (a : Args) : List Opt := a.options.dropLast

theorem Args.options_body (a : Args) : a.options = a.body ++ [.end_] := by
  unfold body Args.options
  rw [List.dropLast_concat]

theorem Args.body_good (a : Args) (h1 : ∀ s, a.hostName = some s → Ascii s) (h2 : ∀ s, a.domainName = some s → Ascii s) :
    ∀ o ∈ a.body, Good o := by
  intro o m
  unfold body Args.options at m
  rw [List.dropLast_concat] at m
  simp only [List.mem_append, or_assoc] at m
  rcases m with m | m | m | m | m | m | m | m | m | m <;> obtain ⟨v, hv, rfl⟩ := given_mem m
  · exact good_mask v
  · exact good_router v
  · exact good_dns v
  · exact good_host v (h1 v hv)
  · exact good_domain v (h2 v hv)
  · exact good_req v
  · exact good_lease v
  · exact good_srv v
  · exact good_param v
  · exact good_msg v

theorem rawOptions_end {os : List Opt} {b : Bytes} (h : rawOptions (os ++ [.end_]) = .ok b) :
    ∃ x, rawOptions os = .ok x ∧ b = x ++ [255] := by
  induction os generalizing b with
  | nil =>
    refine ⟨[], rfl, ?_⟩
    have : rawOptions [.end_] = .ok [255] := by decide
    rw [List.nil_append, this] at h
    cases h; rfl
  | cons o os ih =>
    obtain ⟨x, y, h1, h2, rfl⟩ := rawOptions_cons h
    obtain ⟨z, h3, rfl⟩ := ih h2
    refine ⟨x ++ z, ?_, by simp⟩
    unfold rawOptions
    rw [h1, h3]
    rfl

/-- The loop, over canonical options that are followed by END. -/
theorem optLoop_end {ps : List (Opt × Bytes)} (h : ∀ p ∈ ps, Canon p.1 p.2) (tail : Bytes) (fuel : Nat) (hf : ps.length < fuel) :
    optLoop (ps.flatMap Prod.snd ++ 255 :: tail) fuel 0 [] = .ok (ps.map Prod.fst ++ [.end_]) := by
  obtain ⟨k, rfl⟩ : ∃ k, fuel = k + 1 + ps.length := ⟨fuel - 1 - ps.length, by omega⟩
  have := (optLoop_canon h (pre := []) (rest := 255 :: tail) (opts := []) (fuel := k + 1) rfl).1
  simp only [List.nil_append, List.length_nil, Nat.zero_add] at this
  rw [this, optLoop, if_pos (by simp)]
  have hi : idx (ps.flatMap Prod.snd ++ 255 :: tail) (ps.flatMap Prod.snd).length = .ok 255 := by simp [idx]
  rw [hi]
  rfl

/-- The loop, over canonical options and nothing else. -/
theorem optLoop_stop {ps : List (Opt × Bytes)} (h : ∀ p ∈ ps, Canon p.1 p.2) (fuel : Nat) (hf : ps.length < fuel) :
    optLoop (ps.flatMap Prod.snd) fuel 0 [] = .ok (ps.map Prod.fst) := by
  obtain ⟨k, rfl⟩ : ∃ k, fuel = k + 1 + ps.length := ⟨fuel - 1 - ps.length, by omega⟩
  have := (optLoop_canon h (pre := []) (rest := []) (opts := []) (fuel := k + 1) rfl).1
  simp only [List.nil_append, List.append_nil, List.length_nil, Nat.zero_add] at this
  rw [this, optLoop, if_neg (by simp)]

theorem canon_count {ps : List (Opt × Bytes)} (h : ∀ p ∈ ps, Canon p.1 p.2) : ps.length ≤ (ps.flatMap Prod.snd).length := by
  induction ps with
  | nil => simp
  | cons p ps ih =>
    obtain ⟨_, d, hd, -⟩ := (h p (List.mem_cons_self ..)).shape
    have := ih (fun p m => h p (List.mem_cons_of_mem _ m))
    rw [List.flatMap_cons, List.length_append, hd, List.length_cons, List.length_cons]
    omega

/-- The canonical options of well-formed ones. -/
theorem tlvs_canon {ts : List Tlv} (h : ∀ t ∈ ts, t.WellFormed) :
    ∃ ps : List (Opt × Bytes), (∀ p ∈ ps, Canon p.1 p.2) ∧ ps.flatMap Prod.snd = ts.flatMap Tlv.bytes := by
  induction ts with
  | nil => exact ⟨[], by simp, rfl⟩
  | cons t ts ih =>
    obtain ⟨o, ho⟩ := canon_of t (h t (List.mem_cons_self ..))
    obtain ⟨ps, h1, h2⟩ := ih (fun t m => h t (List.mem_cons_of_mem _ m))
    refine ⟨(o, t.bytes) :: ps, ?_, by rw [List.flatMap_cons, List.flatMap_cons, h2]⟩
    intro p m
    rcases List.mem_cons.mp m with rfl | m
    · exact ho
    · exact h1 p m

theorem roundtrip (a : Args) (b : Bytes) (hb : (build a).raw = .ok b) (hc : a.chaddr.length = 6)
    (h1 : ∀ s, a.hostName = some s → Ascii s) (h2 : ∀ s, a.domainName = some s → Ascii s) : parse b = .ok (build a) := by
  unfold Packet.raw at hb
  cases hh : (build a).rawHeader with
  | error e => rw [hh] at hb; cases hb
  | ok h =>
    cases ho : rawOptions (build a).options with
    | error e => rw [hh, ho] at hb; cases hb
    | ok o =>
      rw [hh, ho] at hb
      simp only [py_ok_bind, py_pure] at hb
      cases hb
      rw [show (build a).options = a.options from rfl, a.options_body] at ho
      obtain ⟨x, hx, rfl⟩ := rawOptions_end ho
      obtain ⟨ps, h3, h4, rfl⟩ := rawOptions_good (a.body_good h1 h2) hx
      have hn := canon_count h3
      unfold parse
      rw [header_ok a h hh hc, optLoop_end h3 [] _ (by rw [List.length_append, List.length_append]; omega), h4, ← a.options_body]
      rfl

theorem raw_ok (a : Args) (ho : a.op < 256) (hx : a.xid < 2 ^ 32) (hopt : ∃ b, rawOptions a.options = .ok b) : ∃ b, (build a).raw = .ok b := by
  have hf : (build a).flagB.toNat <<< 15 < 65536 := by cases (build a).flagB <;> decide
  obtain ⟨o, ho'⟩ := hopt
  unfold Packet.raw Packet.rawHeader
  rw [show packB (build a).op = .ok _ from packB_ok ho, show packB (build a).hwtype = .ok _ from packB_ok (by decide : 1 < 256),
    show packB (build a).hwlen = .ok _ from packB_ok (by decide : 6 < 256),
    show packB (build a).hops = .ok _ from packB_ok (by decide : 0 < 256),
    show packL (build a).xid = .ok _ from packL_ok hx, show packH (build a).secs = .ok _ from packH_ok (by decide : 0 < 65536),
    packH_ok hf, show rawOptions (build a).options = .ok o from ho']
  exact ⟨_, rfl⟩

end Verif.Dhcp
