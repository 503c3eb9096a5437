import Verif.Model.AddrText
import Verif.Spec.AddrText
import Verif.Lemmas.Py
import Verif.Lemmas.Addr
import Mathlib.Data.Fin.VecNotation
import Mathlib.Tactic.Ring
namespace Verif
theorem Rx.mem_chr {p : Char → Bool} {s r : Text} : r ∈ Rx.chr p s ↔ ∃ c, p c = true ∧ s = c :: r := by
  cases s with
  | nil => simp [Rx.chr]
  | cons c t =>
    simp only [Rx.chr]
    constructor
    · intro h
      split at h
      · rename_i hp; simp at h; subst h; exact ⟨c, hp, rfl⟩
      · simp at h
    · rintro ⟨d, hd, e⟩
      injection e with e1 e2; subst e1; subst e2; simp [hd]
theorem Rx.mem_seq {a b : Rx} {s r : Text} : r ∈ Rx.seq a b s ↔ ∃ t ∈ a s, r ∈ b t := by simp [Rx.seq]
theorem Rx.mem_alt {a b : Rx} {s r : Text} : r ∈ Rx.alt a b s ↔ r ∈ a s ∨ r ∈ b s := by simp [Rx.alt]
theorem Rx.mem_rep_zero {a : Rx} {s r : Text} : r ∈ Rx.rep a 0 0 s ↔ r = s := by simp [Rx.rep, Rx.upTo]
theorem Rx.mem_rep_opt {a : Rx} {k : Nat} {s r : Text} : r ∈ Rx.rep a 0 (k + 1) s ↔ r = s ∨ r ∈ Rx.seq a (Rx.rep a 0 k) s := by
  simp [Rx.rep, Rx.upTo]
theorem Rx.mem_rep_succ {a : Rx} {n k : Nat} {s r : Text} : r ∈ Rx.rep a (n + 1) k s ↔ r ∈ Rx.seq a (Rx.rep a n k) s := by
  cases k <;> simp [Rx.rep]

theorem macRx_iff {s r : Text} : r ∈ macRx s ↔ ∃ c0 c1 s0 c2 c3 s1 c4 c5 s2 c6 c7 s3 c8 c9 s4 c10 c11,
    s = c0 :: c1 :: s0 :: c2 :: c3 :: s1 :: c4 :: c5 :: s2 :: c6 :: c7 :: s3 :: c8 :: c9 :: s4 :: c10 :: c11 :: r ∧
    (∀ c ∈ [c0, c1, c2, c3, c4, c5, c6, c7, c8, c9, c10, c11], isHex c = true) ∧
    ∀ c ∈ [s0, s1, s2, s3, s4], c = ':' ∨ c = '-' := by
  constructor
  · intro h
    simp only [macRx, Rx.mem_seq, Rx.mem_rep_succ, Rx.mem_rep_zero, Rx.mem_chr] at h
    obtain ⟨t, h, u, ⟨c10, h10, rfl⟩, _, ⟨c11, h11, rfl⟩, rfl⟩ := h
    obtain ⟨_, ⟨_, ⟨_, ⟨c0, h0, rfl⟩, _, ⟨c1, h1, rfl⟩, rfl⟩, s0, k0, rfl⟩, h⟩ := h
    obtain ⟨_, ⟨_, ⟨_, ⟨c2, h2, rfl⟩, _, ⟨c3, h3, rfl⟩, rfl⟩, s1, k1, rfl⟩, h⟩ := h
    obtain ⟨_, ⟨_, ⟨_, ⟨c4, h4, rfl⟩, _, ⟨c5, h5, rfl⟩, rfl⟩, s2, k2, rfl⟩, h⟩ := h
    obtain ⟨_, ⟨_, ⟨_, ⟨c6, h6, rfl⟩, _, ⟨c7, h7, rfl⟩, rfl⟩, s3, k3, rfl⟩, h⟩ := h
    obtain ⟨_, ⟨_, ⟨_, ⟨c8, h8, rfl⟩, _, ⟨c9, h9, rfl⟩, rfl⟩, s4, k4, rfl⟩, h⟩ := h
    subst h
    refine ⟨c0, c1, s0, c2, c3, s1, c4, c5, s2, c6, c7, s3, c8, c9, s4, c10, c11, rfl, ?_, ?_⟩
    · simp [*]
    · simp at k0 k1 k2 k3 k4; simp [*]
  · rintro ⟨c0, c1, s0, c2, c3, s1, c4, c5, s2, c6, c7, s3, c8, c9, s4, c10, c11, rfl, h, k⟩
    have k' : ∀ c ∈ [s0, s1, s2, s3, s4], (c == ':' || c == '-') = true := by
      intro c hc; simpa using k c hc
    simp only [List.mem_cons, List.not_mem_nil, or_false, forall_eq_or_imp, forall_eq] at h k'
    simp [macRx, Rx.seq, Rx.rep, Rx.upTo, Rx.chr, h, k']

/-! ### Characters -/

theorem Char.eq_of_toNat {c : Char} {n : Nat} (h : c.toNat = n) : c = Char.ofNat n := by rw [← h, Char.ofNat_toNat]

theorem char_le_iff (a b : Char) : a ≤ b ↔ a.toNat ≤ b.toNat := Iff.rfl

theorem isDec_iff (c : Char) : isDec c = true ↔ 48 ≤ c.toNat ∧ c.toNat ≤ 57 := by
  simp [isDec, char_le_iff]

theorem isHex_mem {c : Char} (h : isHex c = true) : c ∈ "0123456789abcdefABCDEF".toList := by
  simp only [isHex, isDec, Bool.or_eq_true, Bool.and_eq_true, decide_eq_true_eq, char_le_iff] at h
  have e : c.toNat ∈ [48, 49, 50, 51, 52, 53, 54, 55, 56, 57, 97, 98, 99, 100, 101, 102, 65, 66, 67, 68, 69, 70] := by
    simp only [List.mem_cons, List.not_mem_nil, or_false]
    have h0 : '0'.toNat = 48 := rfl
    have h1 : '9'.toNat = 57 := rfl
    have h2 : 'A'.toNat = 65 := rfl
    have h3 : 'F'.toNat = 70 := rfl
    have h4 : 'a'.toNat = 97 := rfl
    have h5 : 'f'.toNat = 102 := rfl
    omega
  have e2 : ∀ n ∈ [48, 49, 50, 51, 52, 53, 54, 55, 56, 57, 97, 98, 99, 100, 101, 102, 65, 66, 67, 68, 69, 70],
      Char.ofNat n ∈ "0123456789abcdefABCDEF".toList := by decide +kernel
  rw [← Char.ofNat_toNat c]; exact e2 _ e

theorem hex_facts {c : Char} (h : isHex c = true) :
    Spec.hexValue c = some (digitVal c) ∧ digitVal (pyLower c) = digitVal c ∧ isHex (pyLower c) = true ∧ digitVal c < 16 ∧
    pyIsSpace c = false ∧ (pyLower c == ':' || pyLower c == '-' || pyLower c == '.') = false := by
  have e : ∀ c ∈ "0123456789abcdefABCDEF".toList, Spec.hexValue c = some (digitVal c) ∧ digitVal (pyLower c) = digitVal c ∧
      isHex (pyLower c) = true ∧ digitVal c < 16 ∧
      pyIsSpace c = false ∧ (pyLower c == ':' || pyLower c == '-' || pyLower c == '.') = false := by decide +kernel
  exact e c (isHex_mem h)

theorem isHex_of_hexValue {c : Char} {v : Nat} (h : Spec.hexValue c = some v) : isHex c = true := by
  unfold Spec.hexValue at h
  have h1 : c.toLower ∈ "0123456789abcdef".toList := by
    rw [List.idxOf?_eq_some_iff] at h
    obtain ⟨h2, h3, _⟩ := h
    have := List.getElem_mem h2
    simp at h3; rw [← h3]; exact this
  by_cases hu : 'A' ≤ c ∧ c ≤ 'Z'
  · rw [char_le_iff, char_le_iff] at hu
    have h2 : 'A'.toNat = 65 := rfl
    have h3 : 'Z'.toNat = 90 := rfl
    rw [h2, h3] at hu
    have e : ∀ n < 91, 65 ≤ n → (Char.ofNat n).toLower ∈ "0123456789abcdef".toList → isHex (Char.ofNat n) = true := by decide +kernel
    have := e c.toNat (by omega) hu.1
    rw [Char.ofNat_toNat] at this; exact this h1
  · have : c.toLower = c := by
      unfold Char.toLower
      rw [dif_neg]; intro h; exact hu ⟨h.1, h.2⟩
    rw [this] at h1
    have e : ∀ c ∈ "0123456789abcdef".toList, isHex c = true := by decide +kernel
    exact e c h1

theorem pyIsSpace_iff (c : Char) : pyIsSpace c = true ↔ c.toNat ∈ Spec.blanks := by
  simp only [pyIsSpace, Spec.blanks, Bool.or_eq_true, Bool.and_eq_true, decide_eq_true_eq, beq_iff_eq, List.mem_cons, List.not_mem_nil,
    or_false]
  omega

theorem pyIsSpace_lower (c : Char) : pyIsSpace (pyLower c) = pyIsSpace c := by
  unfold pyLower
  split
  · rename_i h
    rw [char_le_iff, char_le_iff] at h
    have h2 : 'A'.toNat = 65 := rfl
    have h3 : 'Z'.toNat = 90 := rfl
    rw [h2, h3] at h
    have e : ∀ n < 91, 65 ≤ n → pyIsSpace (Char.ofNat (n + 32)) = false ∧ pyIsSpace (Char.ofNat n) = false := by decide +kernel
    have := e c.toNat (by omega) h.1
    rw [this.1]; rw [Char.ofNat_toNat] at this; rw [this.2]
  · rfl

/-! ### strip -/

theorem dropWhile_append_blank {p : Char → Bool} (pre t : Text) (h : ∀ c ∈ pre, p c = true) (ht : ∀ c ∈ t.head?, p c = false) :
    (pre ++ t).dropWhile p = t := by
  induction pre with
  | nil =>
    cases t with
    | nil => rfl
    | cons c t => simp at ht; simp [ht]
  | cons c pre ih => simp at h; simp [h.1]; exact ih h.2

theorem pyStrip_eq (pre t post : Text) (h1 : Spec.Blank pre) (h2 : Spec.Blank post) (h3 : t ≠ [])
    (h4 : ∀ c ∈ t.head?, pyIsSpace c = false) (h5 : ∀ c ∈ t.getLast?, pyIsSpace c = false) : pyStrip (pre ++ t ++ post) = t := by
  unfold pyStrip
  rw [List.append_assoc, dropWhile_append_blank pre (t ++ post) (fun c hc => (pyIsSpace_iff c).2 (h1 c hc))]
  · rw [List.reverse_append, dropWhile_append_blank post.reverse t.reverse]
    · simp
    · intro c hc; exact (pyIsSpace_iff c).2 (h2 c (by simpa using hc))
    · simpa using h5
  · intro c hc; cases t with
    | nil => exact absurd rfl h3
    | cons d t => simp at hc; exact h4 c (by simp [hc])

theorem pyStrip_split (s : Text) : ∃ pre post, s = pre ++ pyStrip s ++ post ∧ Spec.Blank pre ∧ Spec.Blank post := by
  refine ⟨s.takeWhile pyIsSpace, ((s.dropWhile pyIsSpace).reverse.takeWhile pyIsSpace).reverse, ?_, ?_, ?_⟩
  · unfold pyStrip
    rw [List.append_assoc, ← List.reverse_append, List.takeWhile_append_dropWhile, List.reverse_reverse,
      List.takeWhile_append_dropWhile]
  · intro c hc; exact (pyIsSpace_iff c).1 (List.all_eq_true.1 (List.all_takeWhile) c hc)
  · intro c hc; rw [List.mem_reverse] at hc; exact (pyIsSpace_iff c).1 (List.all_eq_true.1 (List.all_takeWhile) c hc)

theorem pyStrip_last (s : Text) : ∀ c ∈ (pyStrip s).getLast?, pyIsSpace c = false := by
  intro c hc
  unfold pyStrip at hc
  rw [List.getLast?_reverse] at hc
  have := List.head?_dropWhile_not pyIsSpace (s.dropWhile pyIsSpace).reverse
  rw [hc] at this; simpa using this

theorem dropWhile_map {f : Char → Char} {p : Char → Bool} (h : ∀ c, p (f c) = p c) (s : Text) :
    (s.map f).dropWhile p = (s.dropWhile p).map f := by
  induction s with
  | nil => rfl
  | cons c s ih => simp only [List.map_cons, List.dropWhile_cons, h]; split <;> simp_all

theorem pyStrip_lower (s : Text) : pyStrip (s.map pyLower) = (pyStrip s).map pyLower := by
  unfold pyStrip
  rw [dropWhile_map pyIsSpace_lower, ← List.map_reverse, dropWhile_map pyIsSpace_lower, ← List.map_reverse]

/-! ### MAC text -/

theorem whole_mac (s : Text) : Rx.whole macRx (pyStrip s) = true ↔ [] ∈ macRx (pyStrip s) := by
  unfold Rx.whole
  rw [List.any_eq_true]
  constructor
  · rintro ⟨t, ht, h⟩
    simp at h
    rcases h with rfl | rfl
    · exact ht
    · obtain ⟨c0, c1, s0, c2, c3, s1, c4, c5, s2, c6, c7, s3, c8, c9, s4, c10, c11, e, -, -⟩ := macRx_iff.1 ht
      have := pyStrip_last s '\n' (by rw [e]; rfl)
      exact absurd this (by decide)
  · intro h; exact ⟨[], h, by simp⟩

theorem fromHex_cons2 {a b : Char} {t : Text} {r : Bytes} (ha : isHex a = true) (hb : isHex b = true) (h : fromHex t = .ok r) :
    fromHex (a :: b :: t) = .ok (UInt8.ofNat (16 * digitVal a + digitVal b) :: r) := by
  simp [fromHex, ha, hb, h]

theorem MacAddress.ofBytes_eq (b : Bytes) (h : b.length = 6) :
    (do
      let v1 ← unpackBE 2 (slice b 0 2)
      let v2 ← unpackBE 2 (slice b 2 4)
      let v3 ← unpackBE 2 (slice b 4 6)
      if b.length = 6 then MacAddress.ofInt (((v1 <<< 32) + (v2 <<< 16) + v3 : Nat) : Int) else .error .structError : Py MacAddress)
      = MacAddress.ofBytes b := by
  simp [MacAddress.ofBytes, h]

/-- The pairs of an accepted text. -/
def macPairs (c : Fin 12 → Char) : Bytes :=
  [UInt8.ofNat (16 * digitVal (c 0) + digitVal (c 1)), UInt8.ofNat (16 * digitVal (c 2) + digitVal (c 3)),
   UInt8.ofNat (16 * digitVal (c 4) + digitVal (c 5)), UInt8.ofNat (16 * digitVal (c 6) + digitVal (c 7)),
   UInt8.ofNat (16 * digitVal (c 8) + digitVal (c 9)), UInt8.ofNat (16 * digitVal (c 10) + digitVal (c 11))]

theorem ofText_match {s : Text} {c0 c1 s0 c2 c3 s1 c4 c5 s2 c6 c7 s3 c8 c9 s4 c10 c11 : Char}
    (e : pyStrip s = [c0, c1, s0, c2, c3, s1, c4, c5, s2, c6, c7, s3, c8, c9, s4, c10, c11])
    (h : ∀ c ∈ [c0, c1, c2, c3, c4, c5, c6, c7, c8, c9, c10, c11], isHex c = true)
    (k : ∀ c ∈ [s0, s1, s2, s3, s4], c = ':' ∨ c = '-') :
    MacAddress.ofText s = MacAddress.ofBytes (macPairs ![c0, c1, c2, c3, c4, c5, c6, c7, c8, c9, c10, c11]) := by
  have hw : Rx.whole macRx (pyStrip s) = true := (whole_mac s).2 (macRx_iff.2 ⟨_, _, _, _, _, _, _, _, _, _, _, _, _, _, _, _, _, e, h, k⟩)
  unfold MacAddress.ofText
  rw [if_pos hw, pyStrip_lower, e]
  have hk : ∀ c ∈ [s0, s1, s2, s3, s4], (!(pyLower c == ':' || pyLower c == '-' || pyLower c == '.')) = false := by
    intro c hc; rcases k c hc with rfl | rfl <;> decide
  have hh : ∀ c ∈ [c0, c1, c2, c3, c4, c5, c6, c7, c8, c9, c10, c11], (!(pyLower c == ':' || pyLower c == '-' || pyLower c == '.')) = true := by
    intro c hc; simp [(hex_facts (h c hc)).2.2.2.2.2] 
  have hd := fun c hc => (hex_facts (h c hc)).2.1
  have hx := fun c hc => (hex_facts (h c hc)).2.2.1
  simp only [List.mem_cons, List.not_mem_nil, or_false, forall_eq_or_imp, forall_eq] at hk hh hd hx
  have ef : (List.map pyLower [c0, c1, s0, c2, c3, s1, c4, c5, s2, c6, c7, s3, c8, c9, s4, c10, c11]).filter
      (fun c => !(c == ':' || c == '-' || c == '.')) = [c0, c1, c2, c3, c4, c5, c6, c7, c8, c9, c10, c11].map pyLower := by
    simp only [List.map_cons, List.map_nil, List.filter_cons, hk, hh, Bool.false_eq_true, ↓reduceIte, List.filter_nil]
  rw [ef]
  have ex : fromHex ([c0, c1, c2, c3, c4, c5, c6, c7, c8, c9, c10, c11].map pyLower)
      = .ok (macPairs ![c0, c1, c2, c3, c4, c5, c6, c7, c8, c9, c10, c11]) := by
    simp only [List.map_cons, List.map_nil, fromHex, hx, Bool.and_self, ↓reduceIte, py_ok_bind, py_pure, hd]
    rfl
  rw [ex, py_ok_bind]
  exact MacAddress.ofBytes_eq _ rfl

theorem hex2_facts (b : UInt8) : ∃ x y, hex2 b = [x, y] ∧ isHex x = true ∧ isHex y = true ∧
    UInt8.ofNat (16 * digitVal x + digitVal y) = b := by
  have e : ∀ n < 256, hex2 (UInt8.ofNat n) = [(hex2 (UInt8.ofNat n))[0]!, (hex2 (UInt8.ofNat n))[1]!] ∧
      isHex (hex2 (UInt8.ofNat n))[0]! = true ∧ isHex (hex2 (UInt8.ofNat n))[1]! = true ∧
      UInt8.ofNat (16 * digitVal (hex2 (UInt8.ofNat n))[0]! + digitVal (hex2 (UInt8.ofNat n))[1]!) = UInt8.ofNat n := by decide +kernel
  have := e b.toNat b.toNat_lt
  rw [UInt8.ofNat_toNat] at this
  exact ⟨_, _, this.1, this.2.1, this.2.2.1, this.2.2.2⟩

theorem MacAddress.ofText_toText (m : MacAddress) : MacAddress.ofText m.toText = .ok m := by
  obtain ⟨b0, b1, b2, b3, b4, b5, hb⟩ : ∃ b0 b1 b2 b3 b4 b5, m.toBytes = [b0, b1, b2, b3, b4, b5] := by
    have := m.toBytes_length
    match h : m.toBytes, this with
    | [b0, b1, b2, b3, b4, b5], _ => exact ⟨b0, b1, b2, b3, b4, b5, rfl⟩
  obtain ⟨x0, y0, e0, hx0, hy0, v0⟩ := hex2_facts b0
  obtain ⟨x1, y1, e1, hx1, hy1, v1⟩ := hex2_facts b1
  obtain ⟨x2, y2, e2, hx2, hy2, v2⟩ := hex2_facts b2
  obtain ⟨x3, y3, e3, hx3, hy3, v3⟩ := hex2_facts b3
  obtain ⟨x4, y4, e4, hx4, hy4, v4⟩ := hex2_facts b4
  obtain ⟨x5, y5, e5, hx5, hy5, v5⟩ := hex2_facts b5
  have ht : m.toText = [x0, y0, ':', x1, y1, ':', x2, y2, ':', x3, y3, ':', x4, y4, ':', x5, y5] := by
    simp [MacAddress.toText, hb, pyJoin, e0, e1, e2, e3, e4, e5]
  have hs : pyStrip m.toText = [x0, y0, ':', x1, y1, ':', x2, y2, ':', x3, y3, ':', x4, y4, ':', x5, y5] := by
    rw [ht]
    have := pyStrip_eq [] [x0, y0, ':', x1, y1, ':', x2, y2, ':', x3, y3, ':', x4, y4, ':', x5, y5] [] (by intro c hc; cases hc)
      (by intro c hc; cases hc) (by simp) (by simp [(hex_facts hx0).2.2.2.2.1]) (by simp [(hex_facts hy5).2.2.2.2.1])
    simpa using this
  rw [ofText_match hs (by simp [*]) (by simp)]
  have : macPairs ![x0, y0, x1, y1, x2, y2, x3, y3, x4, y4, x5, y5] = m.toBytes := by
    rw [hb]; simp [macPairs, v0, v1, v2, v3, v4, v5]
  rw [this]; exact m.ofBytes_toBytes

/-! ### Numbers in text -/

theorem digitVal_digitChar (k : Nat) (h : k < 16) : digitVal (Nat.digitChar k) = k ∧ isHex (Nat.digitChar k) = true ∧
    (k < 10 → isDec (Nat.digitChar k) = true) ∧ (0 < k → Nat.digitChar k ≠ '0') := by
  have e : ∀ k < 16, digitVal (Nat.digitChar k) = k ∧ isHex (Nat.digitChar k) = true ∧
    (k < 10 → isDec (Nat.digitChar k) = true) ∧ (0 < k → Nat.digitChar k ≠ '0') := by decide +kernel
  exact e k h

theorem numVal_append (b : Nat) (s : Text) (c : Char) : numVal b (s ++ [c]) = numVal b s * b + digitVal c := by
  simp [numVal]

theorem numVal_toDigits (b : Nat) (h1 : 1 < b) (h2 : b ≤ 16) (n : Nat) : numVal b (Nat.toDigits b n) = n := by
  induction n using Nat.strongRecOn with
  | ind n ih =>
    rw [Nat.toDigits_eq_if h1]
    split
    · simp [numVal, (digitVal_digitChar n (by omega)).1]
    · have hlt : n / b < n := Nat.div_lt_self (by omega) h1
      rw [numVal_append, ih _ hlt, (digitVal_digitChar _ (Nat.lt_of_lt_of_le (Nat.mod_lt _ (by omega)) h2)).1]
      exact Nat.div_add_mod' n b

theorem toDigits_mem (b : Nat) (h1 : 1 < b) (h2 : b ≤ 16) (n : Nat) : ∀ c ∈ Nat.toDigits b n, ∃ k < b, c = Nat.digitChar k := by
  induction n using Nat.strongRecOn with
  | ind n ih =>
    rw [Nat.toDigits_eq_if h1]
    split
    · rename_i h; simp; exact ⟨n, h, rfl⟩
    · intro c hc
      have hlt : n / b < n := Nat.div_lt_self (by omega) h1
      rw [List.mem_append] at hc
      rcases hc with hc | hc
      · exact ih _ hlt c hc
      · simp at hc; exact ⟨n % b, Nat.mod_lt _ (by omega), hc⟩

theorem toDigits_head (b : Nat) (h1 : 1 < b) (h2 : b ≤ 16) (n : Nat) (h : 0 < n) : (Nat.toDigits b n).head? ≠ some '0' := by
  induction n using Nat.strongRecOn with
  | ind n ih =>
    rw [Nat.toDigits_eq_if h1]
    split
    · simp [(digitVal_digitChar n (by omega)).2.2.2 h]
    · have hlt : n / b < n := Nat.div_lt_self (by omega) h1
      have := ih _ hlt (Nat.div_pos (by omega) (by omega))
      rw [List.head?_append]
      cases hd : (Nat.toDigits b (n / b)).head? with
      | none => simp at hd
      | some c => rw [hd] at this; simpa using this

theorem decText_val (n : Nat) : numVal 10 (decText n) = n := numVal_toDigits 10 (by decide) (by decide) n
theorem decText_dec (n : Nat) : ∀ c ∈ decText n, isDec c = true := by
  intro c hc
  obtain ⟨k, hk, rfl⟩ := toDigits_mem 10 (by decide) (by decide) n c hc
  exact (digitVal_digitChar k (by omega)).2.2.1 hk
theorem decText_ne (n : Nat) : decText n ≠ [] := Nat.toDigits_ne_nil
theorem decText_inj {m n : Nat} (h : decText m = decText n) : m = n := by rw [← decText_val m, h, decText_val]
theorem decText_eq (n : Nat) : decText n = Spec.decimal n := by
  unfold decText Spec.decimal; rw [Nat.toString_eq_ofList_toDigits]; simp

theorem isDec_hex {c : Char} (h : isDec c = true) : isHex c = true := by simp [isHex, h]

theorem takeWhile_all {p : Char → Bool} (d x : Text) (h : ∀ c ∈ d, p c = true) (hx : ∀ c ∈ x.head?, p c = false) :
    (d ++ x).takeWhile p = d ∧ (d ++ x).dropWhile p = x := by
  constructor
  · induction d with
    | nil => cases x with
      | nil => rfl
      | cons c x => simp at hx; simp [hx]
    | cons c d ih => simp at h; simp [h.1]; exact ih h.2
  · exact dropWhile_append_blank d x h hx

/-- a decimal number without leading zeros followed by something that cannot continue it -/
theorem strtoul_dec (n : Nat) (x : Text) (hx : ∀ c ∈ x.head?, isHex c = false ∧ c ≠ 'x' ∧ c ≠ 'X') : strtoul (decText n ++ x) = (n, x) := by
  have hxd : ∀ c ∈ x.head?, isDec c = false := by
    intro c hc
    cases hd : isDec c with
    | false => rfl
    | true => have := (hx c hc).1; rw [isDec_hex hd] at this; cases this
  rcases Nat.eq_zero_or_pos n with rfl | hn
  · have e : decText 0 = ['0'] := rfl
    rw [e]
    cases x with
    | nil => rfl
    | cons c x =>
      have h := hx c (by simp)
      have hc : (decide ('0' ≤ c) && decide (c ≤ '7')) = false := by
        have := hxd c (by simp)
        simp only [isDec, char_le_iff, Bool.and_eq_false_iff, decide_eq_false_iff_not] at this ⊢
        have h1 : '9'.toNat = 57 := rfl
        have h2 : '7'.toNat = 55 := rfl
        omega
      simp only [strtoul, List.cons_append, List.nil_append]
      rw [if_neg (by simp [h.2.1, h.2.2])]
      rw [List.takeWhile_cons_of_pos (by decide), List.takeWhile_cons_of_neg (by simp [hc]),
        List.dropWhile_cons_of_pos (by decide), List.dropWhile_cons_of_neg (by simp [hc])]
      rfl
  · have hd : (decText n).head? ≠ some '0' := toDigits_head 10 (by decide) (by decide) n hn
    have t := takeWhile_all (decText n) x (decText_dec n) hxd
    have e : strtoul (decText n ++ x) = (numVal 10 ((decText n ++ x).takeWhile isDec), (decText n ++ x).dropWhile isDec) := by
      cases hdt : decText n with
      | nil => exact absurd hdt (decText_ne n)
      | cons c d =>
        rw [hdt] at hd
        unfold strtoul
        split
        · rename_i h; injection h with h1 h2; subst h1; simp at hd
        · rename_i h; injection h with h1 h2; subst h1; simp at hd
        · rfl
    rw [e, t.1, t.2, decText_val]

theorem atonLoop_dot (k acc n : Nat) (t : Text) (hn : n < 256) :
    atonLoop (k + 1) acc (decText n ++ '.' :: t) = atonLoop k (acc * 256 + n) t := by
  have hs := strtoul_dec n ('.' :: t) (by simp; decide)
  conv => lhs; unfold atonLoop
  cases hd : decText n with
  | nil => exact absurd hd (decText_ne n)
  | cons c d =>
    have hc : isDec c = true := decText_dec n c (by rw [hd]; simp)
    rw [hd] at hs
    simp only [List.cons_append] at hs ⊢
    simp only [hc, hs]
    rw [if_neg (by simp), if_neg (by omega)]
    simp; omega

theorem atonLoop_end (k acc n : Nat) (hn : n < 256) : atonLoop k acc (decText n) = some (acc * 256 ^ (k + 1) + n) := by
  have hs := strtoul_dec n [] (by simp)
  rw [List.append_nil] at hs
  unfold atonLoop
  cases hd : decText n with
  | nil => exact absurd hd (decText_ne n)
  | cons c d =>
    have hc : isDec c = true := decText_dec n c (by rw [hd]; simp)
    rw [hd] at hs
    simp only [hc, hs]
    have hp : 256 ≤ 256 ^ (k + 1) := by rw [Nat.pow_succ]; have := Nat.pow_pos (n := k) (show 0 < 256 by decide); omega
    simp; omega

/-- four numbers below 256 with dots between -/
def dotText (a b c d : Nat) : Text := decText a ++ '.' :: (decText b ++ '.' :: (decText c ++ '.' :: decText d))

theorem inetAton_dot (a b c d : Nat) (ha : a < 256) (hb : b < 256) (hc : c < 256) (hd : d < 256) :
    inetAton (dotText a b c d) = some (((a * 256 + b) * 256 + c) * 256 + d) := by
  unfold inetAton dotText
  rw [atonLoop_dot _ _ _ _ ha, atonLoop_dot _ _ _ _ hb, atonLoop_dot _ _ _ _ hc, atonLoop_end _ _ _ hd]
  simp

/-- A match leaves alone what follows. -/
def Rx.Ext (r : Rx) : Prop := ∀ s t x, t ∈ r s → t ++ x ∈ r (s ++ x)
theorem Rx.Ext.chr (p : Char → Bool) : (Rx.chr p).Ext := by
  intro s t x h
  rw [Rx.mem_chr] at h ⊢
  obtain ⟨c, hc, rfl⟩ := h; exact ⟨c, hc, rfl⟩
theorem Rx.Ext.seq {a b : Rx} (ha : a.Ext) (hb : b.Ext) : (Rx.seq a b).Ext := by
  intro s t x h
  rw [Rx.mem_seq] at h ⊢
  obtain ⟨u, hu, h⟩ := h; exact ⟨u ++ x, ha _ _ _ hu, hb _ _ _ h⟩
theorem Rx.Ext.alt {a b : Rx} (ha : a.Ext) (hb : b.Ext) : (Rx.alt a b).Ext := by
  intro s t x h
  rw [Rx.mem_alt] at h ⊢
  rcases h with h | h
  · exact .inl (ha _ _ _ h)
  · exact .inr (hb _ _ _ h)
theorem Rx.Ext.upTo {a : Rx} (ha : a.Ext) (k : Nat) : (Rx.upTo a k).Ext := by
  induction k with
  | zero => intro s t x h; simp [Rx.upTo] at h ⊢; exact h
  | succ k ih =>
    intro s t x h
    simp only [Rx.upTo, List.mem_cons] at h ⊢
    rcases h with rfl | h
    · exact .inl rfl
    · exact .inr (Rx.Ext.seq ha ih _ _ _ h)
theorem Rx.Ext.rep {a : Rx} (ha : a.Ext) (n k : Nat) : (Rx.rep a n k).Ext := by
  induction n with
  | zero => exact Rx.Ext.upTo ha k
  | succ n ih => exact Rx.Ext.seq ha ih

theorem octetRx_ext : octetRx.Ext :=
  .alt (.seq (.chr _) (.seq (.chr _) (.chr _))) (.seq (.rep (.alt (.seq (.chr _) (.chr _)) (.seq (.rep (.chr _) _ _) (.chr _))) _ _) (.chr _))

theorem octetRx_dec (n : Nat) (h : n < 256) (x : Text) : x ∈ octetRx (decText n ++ x) := by
  have e : ∀ n < 256, [] ∈ octetRx (decText n) := by decide +kernel
  exact octetRx_ext _ _ x (e n h)

theorem search_of_mem {r : Rx} {s t : Text} (h : t ∈ r s) : r.search s = true := by
  have : (r s).isEmpty = false := by cases hr : r s with
    | nil => rw [hr] at h; cases h
    | cons => rfl
  cases s <;> simp [Rx.search, this]

theorem search_dot (a b c d : Nat) (ha : a < 256) (hb : b < 256) (hc : c < 256) (hd : d < 256) (x : Text) :
    Rx.search ip4Rx (dotText a b c d ++ x) = true := by
  apply search_of_mem (t := x)
  have step : ∀ n < 256, ∀ y, y ∈ Rx.seq octetRx (Rx.chr (· == '.')) (decText n ++ '.' :: y) := by
    intro n hn y
    rw [Rx.mem_seq]; exact ⟨_, octetRx_dec n hn _, by simp [Rx.chr]⟩
  simp only [dotText, ip4Rx, List.append_assoc, List.cons_append]
  rw [Rx.mem_seq]
  refine ⟨_, ?_, octetRx_dec d hd x⟩
  simp only [Rx.mem_rep_succ, Rx.mem_seq (a := Rx.seq _ _), Rx.mem_rep_zero]
  exact ⟨_, step a ha _, _, step b hb _, _, step c hc _, rfl⟩

theorem Ip4Address.toText_eq (a : Ip4Address) :
    a.toText = dotText (a.int / 16777216) (a.int / 65536 % 256) (a.int / 256 % 256) (a.int % 256) := by
  have e : a.toBytes.map (fun b => b.toNat) = [a.int / 16777216, a.int / 65536 % 256, a.int / 256 % 256, a.int % 256] := by
    have := a.lt
    simp [Ip4Address.toBytes, bePack]
    omega
  have e2 : a.toBytes.map (fun b => decText b.toNat) = (a.toBytes.map (fun b => b.toNat)).map decText := by simp
  rw [Ip4Address.toText, e2, e]
  simp [pyJoin, dotText]

theorem dotText_chars (a b c d : Nat) : ∀ x ∈ dotText a b c d, isDec x = true ∨ x = '.' := by
  intro x hx
  simp only [dotText, List.mem_append, List.mem_cons] at hx
  rcases hx with hx | hx | hx | hx | hx | hx | hx
  all_goals first
    | exact .inr hx
    | exact .inl (decText_dec _ _ hx)

theorem Ip4Address.ofText_dot (a b c d : Nat) (ha : a < 256) (hb : b < 256) (hc : c < 256) (hd : d < 256) :
    Ip4Address.ofText (dotText a b c d) = Ip4Address.ofInt ((((a * 256 + b) * 256 + c) * 256 + d : Nat) : Int) := by
  unfold Ip4Address.ofText
  have h := search_dot a b c d ha hb hc hd []
  rw [List.append_nil] at h
  rw [if_pos h, if_neg, inetAton_dot _ _ _ _ ha hb hc hd]
  intro h
  rw [List.contains_iff_mem] at h
  rcases dotText_chars _ _ _ _ _ h with h | h
  · revert h; decide
  · revert h; decide

theorem Ip4Address.ofText_toText (a : Ip4Address) : Ip4Address.ofText a.toText = .ok a := by
  have := a.lt
  rw [a.toText_eq, Ip4Address.ofText_dot _ _ _ _ (by omega) (by omega) (by omega) (by omega)]
  have e : ((a.int / 16777216 * 256 + a.int / 65536 % 256) * 256 + a.int / 256 % 256) * 256 + a.int % 256 = a.int := by omega
  rw [e]; exact Ip4Address.ofInt_ok _ a.lt

/-! ### Networks and hosts -/

theorem pySplit_none (sep : Char) (s : Text) (h : sep ∉ s) : pySplit sep s = [s] := by
  induction s with
  | nil => rfl
  | cons c s ih =>
    simp at h
    have h1 : c ≠ sep := fun e => h.1 e.symm
    simp [pySplit, h1, ih h.2]

theorem pySplit_one (sep : Char) (a b : Text) (ha : sep ∉ a) (hb : sep ∉ b) : pySplit sep (a ++ sep :: b) = [a, b] := by
  induction a with
  | nil => simp [pySplit, pySplit_none sep b hb]
  | cons c a ih =>
    simp at ha
    have h1 : c ≠ sep := fun e => ha.1 e.symm
    simp [pySplit, h1, ih ha.2]

theorem isDec_facts {c : Char} (h : isDec c = true) : pyIsSpace c = false ∧ c ≠ '-' ∧ c ≠ '+' ∧ c ≠ '_' ∧ c ≠ '/' ∧ c ≠ '.' := by
  have e : ∀ c ∈ "0123456789abcdefABCDEF".toList, isDec c = true →
      pyIsSpace c = false ∧ c ≠ '-' ∧ c ≠ '+' ∧ c ≠ '_' ∧ c ≠ '/' ∧ c ≠ '.' := by decide +kernel
  exact e c (isHex_mem (isDec_hex h)) h

theorem pyInt_dec (n : Nat) : pyInt (decText n) = .ok (n : Int) := by
  have hs : pyStrip (decText n) = decText n := by
    have := pyStrip_eq [] (decText n) [] (by intro c hc; cases hc) (by intro c hc; cases hc) (decText_ne n)
      (fun c hc => (isDec_facts (decText_dec n c (List.mem_of_mem_head? hc))).1)
      (fun c hc => (isDec_facts (decText_dec n c (List.mem_of_mem_getLast? hc))).1)
    simpa using this
  have hsp : pySplit '_' (decText n) = [decText n] := by
    apply pySplit_none; intro h; exact (isDec_facts (decText_dec n _ h)).2.2.2.1 rfl
  have hf : (decText n).filter isDec = decText n := by
    rw [List.filter_eq_self]; exact decText_dec n
  have hall : (decText n).all isDec = true := by rw [List.all_eq_true]; exact decText_dec n
  unfold pyInt
  rw [hs]
  split
  · rename_i d e; exact absurd rfl (isDec_facts (decText_dec n '-' (by rw [e]; simp))).2.1
  · rename_i d e; exact absurd rfl (isDec_facts (decText_dec n '+' (by rw [e]; simp))).2.2.1
  · simp [hsp, hf, hall, decText_ne, decText_val]

theorem foldl_ones (n a : Nat) : (List.replicate n true).foldl (fun acc (b : Bool) => 2 * acc + b.toNat) a = 2 ^ n * (a + 1) - 1 := by
  induction n generalizing a with
  | zero => simp
  | succ n ih =>
    rw [List.replicate_succ, List.foldl_cons, ih]
    simp [Nat.pow_succ]; congr 1; ring_nf

theorem onesZeros32_nat (n : Nat) (h : n ≤ 32) : onesZeros32 n = 2 ^ 32 - 2 ^ (32 - n) := by
  rw [← onesThenZeros_eq 32 n h]
  unfold onesZeros32 onesThenZeros
  have : ((32 : Int) - (n : Int)).toNat = 32 - n := by omega
  rw [this]; rfl

theorem onesZeros32_big (n : Nat) (h : 32 < n) : 2 ^ 32 ≤ onesZeros32 n := by
  unfold onesZeros32
  have h1 : ((32 : Int) - (n : Int)).toNat = 0 := by omega
  rw [h1]
  simp only [Int.toNat_natCast, List.replicate_zero, List.append_nil, foldl_ones]
  have : 2 ^ 33 ≤ 2 ^ n := Nat.pow_le_pow_right (by decide) h
  omega

theorem Ip4Mask.ofInt_big (v : Nat) (h : 2 ^ 32 ≤ v) : Ip4Mask.ofInt v = .error .formatError := by
  show Ip4Mask.ofInt (Int.ofNat v) = _
  simp only [Ip4Mask.ofInt]
  rw [dif_neg]
  rw [and_FFFFFFFF]; omega

theorem toText_noSlash (a : Ip4Address) : '/' ∉ a.toText := by
  rw [a.toText_eq]; intro h
  rcases dotText_chars _ _ _ _ _ h with h | h
  · exact (isDec_facts h).2.2.2.2.1 rfl
  · revert h; decide

theorem decText_noSlash (n : Nat) : '/' ∉ decText n := fun h => (isDec_facts (decText_dec n _ h)).2.2.2.2.1 rfl

end Verif
