import Verif.Props.Addr
import Verif.Lemmas.AddrTextMask
/-! Properties C04, C05, C06, C77: text forms of addresses, masks, networks and hosts. -/
namespace Verif
open Spec
/-- **C04** text: a text is accepted exactly if, without white space around, it is six pairs of hexadecimal digits separated by `:` or `-`;
the pairs are then the bytes of the address.  Every other text is rejected with the format error. -/
theorem C04_mac_text (s : List Char) :
    (∀ m, MacAddress.ofText s = .ok m ↔ ∃ pre t post, s = pre ++ t ++ post ∧ Blank pre ∧ Blank post ∧ MacForm t m.toBytes) ∧
    ((¬ ∃ pre t post b, s = pre ++ t ++ post ∧ Blank pre ∧ Blank post ∧ MacForm t b) → MacAddress.ofText s = .error .formatError) := by
  have key : ∀ pre t post b, s = pre ++ t ++ post → Blank pre → Blank post → MacForm t b → MacAddress.ofText s = MacAddress.ofBytes b := by
    intro pre t post b e h1 h2 ⟨h3, h4, h5, h6⟩
    match t, h3, b, h4 with
    | [c0, c1, s0, c2, c3, s1, c4, c5, s2, c6, c7, s3, c8, c9, s4, c10, c11], _, [b0, b1, b2, b3, b4, b5], _ =>
      have k0 := h5 0 (by decide); have k1 := h5 1 (by decide); have k2 := h5 2 (by decide)
      have k3 := h5 3 (by decide); have k4 := h5 4 (by decide)
      have v0 := h6 0 (by decide); have v1 := h6 1 (by decide); have v2 := h6 2 (by decide)
      have v3 := h6 3 (by decide); have v4 := h6 4 (by decide); have v5 := h6 5 (by decide)
      have conv : ∀ {x y : Char} {z : UInt8}, (∃ hi lo, hexValue x = some hi ∧ hexValue y = some lo ∧ z = UInt8.ofNat (16 * hi + lo)) →
          isHex x = true ∧ isHex y = true ∧ z = UInt8.ofNat (16 * digitVal x + digitVal y) := by
        rintro x y z ⟨hi, lo, a1, a2, a3⟩
        have b1 := isHex_of_hexValue a1
        have b2 := isHex_of_hexValue a2
        rw [(hex_facts b1).1] at a1; rw [(hex_facts b2).1] at a2
        injection a1 with a1; injection a2 with a2
        exact ⟨b1, b2, by rw [a1, a2]; exact a3⟩
      simp at k0 k1 k2 k3 k4
      have v0 := conv (by simpa using v0); have v1 := conv (by simpa using v1); have v2 := conv (by simpa using v2)
      have v3 := conv (by simpa using v3); have v4 := conv (by simpa using v4); have v5 := conv (by simpa using v5)
      have hs : pyStrip s = [c0, c1, s0, c2, c3, s1, c4, c5, s2, c6, c7, s3, c8, c9, s4, c10, c11] := by
        rw [e]
        exact pyStrip_eq _ _ _ h1 h2 (by simp) (by simp [(hex_facts v0.1).2.2.2.2.1]) (by simp [(hex_facts v5.2.1).2.2.2.2.1])
      rw [ofText_match hs (by simp [v0, v1, v2, v3, v4, v5]) (by simp [*])]
      congr 1
      simp [macPairs, v0.2.2, v1.2.2, v2.2.2, v3.2.2, v4.2.2, v5.2.2]
  have key2 : Rx.whole macRx (pyStrip s) = true → ∃ pre t post b, s = pre ++ t ++ post ∧ Blank pre ∧ Blank post ∧ MacForm t b := by
    intro h
    obtain ⟨c0, c1, s0, c2, c3, s1, c4, c5, s2, c6, c7, s3, c8, c9, s4, c10, c11, e, hx, hk⟩ := macRx_iff.1 ((whole_mac s).1 h)
    obtain ⟨pre, post, e2, h1, h2⟩ := pyStrip_split s
    refine ⟨pre, _, post, macPairs ![c0, c1, c2, c3, c4, c5, c6, c7, c8, c9, c10, c11], e2, h1, h2, ?_⟩
    rw [e]
    refine ⟨rfl, rfl, ?_, ?_⟩
    · simp at hk
      intro i hi
      have : i = 0 ∨ i = 1 ∨ i = 2 ∨ i = 3 ∨ i = 4 := by omega
      rcases this with rfl | rfl | rfl | rfl | rfl <;> simp [hk]
    · have hv := fun c hc => (hex_facts (hx c hc)).1
      simp only [List.mem_cons, List.not_mem_nil, or_false, forall_eq_or_imp, forall_eq] at hv
      intro i hi
      have : i = 0 ∨ i = 1 ∨ i = 2 ∨ i = 3 ∨ i = 4 ∨ i = 5 := by omega
      rcases this with rfl | rfl | rfl | rfl | rfl | rfl <;> simp [hv, macPairs]
  constructor
  · intro m
    constructor
    · intro h
      by_cases hw : Rx.whole macRx (pyStrip s) = true
      · obtain ⟨pre, t, post, b, e, h1, h2, h3⟩ := key2 hw
        refine ⟨pre, t, post, e, h1, h2, ?_⟩
        have := key pre t post b e h1 h2 h3
        rw [h] at this
        obtain ⟨m', hm, hb⟩ := C04_mac_bytes.2.1 b h3.2.1
        rw [hm] at this; injection this with this; subst this
        rw [hb]; exact h3
      · simp [MacAddress.ofText, hw] at h
    · rintro ⟨pre, t, post, e, h1, h2, h3⟩
      rw [key pre t post _ e h1 h2 h3]; exact m.ofBytes_toBytes
  · intro h
    have hw : ¬ Rx.whole macRx (pyStrip s) = true := fun hw => h (key2 hw)
    simp [MacAddress.ofText, hw]

/-- **C04** `str()` and back; distinct addresses print differently. -/
theorem C04_mac_str (m : MacAddress) :
    MacAddress.ofText m.toText = .ok m ∧ (∀ m', m.toText = m'.toText → m = m') := by
  refine ⟨m.ofText_toText, fun m' h => ?_⟩
  have h1 := m.ofText_toText
  rw [h, m'.ofText_toText] at h1
  injection h1 with h1; exact h1.symm

example : MacAddress.toText ⟨0x0200AB07FF10, by decide⟩ = "02:00:ab:07:ff:10".toList := by decide +kernel
example : MacAddress.ofText " 02-00:AB:07:ff:10\n".toList = .ok ⟨0x0200AB07FF10, by decide⟩ := by decide +kernel
example : MacAddress.ofText "02:00:ab:07:ff:1".toList = .error .formatError := by decide +kernel

/-! ### C05: IPv4 -/

/-- **C05** text: four decimal numbers below 256 with dots between are read as the address they denote; every address prints as the four
decimal numbers of its bytes and is read back; distinct addresses print differently. -/
theorem C05_ip4_text :
    (∀ a b c d, a < 256 → b < 256 → c < 256 → d < 256 →
      ∃ x : Ip4Address, Ip4Address.ofText (dotted a b c d) = .ok x ∧ x.int = dot a b c d) ∧
    (∀ x : Ip4Address, ∃ a b c d, a < 256 ∧ b < 256 ∧ c < 256 ∧ d < 256 ∧ x.int = dot a b c d ∧ x.toText = dotted a b c d) ∧
    (∀ x : Ip4Address, Ip4Address.ofText x.toText = .ok x) ∧
    (∀ x y : Ip4Address, x.toText = y.toText → x = y) := by
  have hdot : ∀ a b c d, dotText a b c d = dotted a b c d := by
    intro a b c d; simp only [dotText, dotted, decText_eq]
  refine ⟨fun a b c d ha hb hc hd => ?_, fun x => ?_, fun x => x.ofText_toText, fun x y h => ?_⟩
  · have hlt : ((a * 256 + b) * 256 + c) * 256 + d < 2 ^ 32 := by omega
    exact ⟨⟨_, hlt⟩, by rw [← hdot, Ip4Address.ofText_dot a b c d ha hb hc hd, Ip4Address.ofInt_ok _ hlt], rfl⟩
  · have := x.lt
    exact ⟨x.int / 16777216, x.int / 65536 % 256, x.int / 256 % 256, x.int % 256, by omega, by omega, by omega, by omega, by unfold dot; omega,
      by rw [← hdot]; exact x.toText_eq⟩
  · have h1 := x.ofText_toText
    rw [h, y.ofText_toText] at h1; injection h1 with h1; exact h1.symm

/-- The converse is not strict: numbers with a leading zero are read as octal, what follows a blank is ignored (even if only that looks like an
address), and a NUL character gives another exception than the format error. -/
theorem C05_lenient_witness :
    Ip4Address.ofText "010.0.0.1".toList = .ok ⟨dot 8 0 0 1, by decide⟩ ∧
    Ip4Address.ofText "10.0.0.1 x".toList = .ok ⟨dot 10 0 0 1, by decide⟩ ∧
    Ip4Address.ofText "1 10.0.0.1".toList = .ok ⟨dot 0 0 0 1, by decide⟩ ∧
    Ip4Address.ofText "10.0.0.1\x00".toList = .error .valueError := by
  refine ⟨?_, ?_, ?_, ?_⟩ <;> decide +kernel

/-! ### C06: IPv6 -/

/-- **C06** text: `str()` of an address is read back as the same address, and distinct addresses print differently. -/
theorem C06_ip6_text :
    (∀ x : Ip6Address, Ip6Address.ofText x.toText = .ok x) ∧ (∀ x y : Ip6Address, x.toText = y.toText → x = y) := by
  refine ⟨fun x => x.ofText_toText, fun x y h => ?_⟩
  have h1 := x.ofText_toText
  rw [h, y.ofText_toText] at h1; injection h1 with h1; exact h1.symm

example : Ip6Address.toText ⟨0x20010db8000000000002000300000000, by decide⟩ = "2001:db8::2:3:0:0".toList := by decide +kernel
example : Ip6Address.toText ⟨0xffff0a000107, by decide⟩ = "::ffff:10.0.1.7".toList := by decide +kernel
example : Ip6Address.ofText "FE80::1:2".toList = .ok ⟨0xfe800000000000000000000000010002, by decide⟩ := by decide +kernel

/-! ### C77: masks, networks and hosts in text -/

theorem Ip4Mask.prefix_len (m : Ip4Mask) : m.len ≤ 32 ∧ Ip4Mask.ofPrefix m.len = .ok m := by
  obtain ⟨n, hn, e⟩ := (validateBits_iff 32 m.int m.lt).1 m.valid
  have hl : m.len = n := by rw [Ip4Mask.len, e, maskLen_prefix 32 n hn]
  refine ⟨by omega, ?_⟩
  obtain ⟨m', h1, -, -, h4⟩ := C10_ip4_mask.2.1 n hn
  rw [hl, h1]; congr 1; cases m; cases m'; simp_all

theorem Ip6Mask.prefix_len (m : Ip6Mask) : m.len ≤ 128 ∧ Ip6Mask.ofPrefix m.len = .ok m := by
  obtain ⟨n, hn, e⟩ := (validateBits_iff 128 m.int m.lt).1 m.valid
  have hl : m.len = n := by rw [Ip6Mask.len, e, maskLen_prefix 128 n hn]
  refine ⟨by omega, ?_⟩
  obtain ⟨m', h1, -, -, h4⟩ := C10_ip6_mask.2.1 n hn
  rw [hl, h1]; congr 1; cases m; cases m'; simp_all

theorem Ip4Network.ofText_slash (a : Ip4Address) (n : Nat) :
    Ip4Network.ofText (a.toText ++ '/' :: decText n) =
      (match Ip4Mask.ofPrefix n with | .ok m => .ok (Ip4Network.ofMask a m) | .error e => .error e) := by
  unfold Ip4Network.ofText
  rw [pySplit_one _ _ _ (toText_noSlash a) (decText_noSlash n)]
  simp only [pyInt_dec]
  by_cases hn : n ≤ 32
  · obtain ⟨m, h1, h2, -, -⟩ := C10_ip4_mask.2.1 n hn
    rw [onesZeros32_nat n hn, h2, h1]
    simp only [a.ofText_toText]
  · rw [Ip4Mask.ofInt_big _ (onesZeros32_big n (by omega)), C10_ip4_mask.2.2 n (by omega)]

theorem Ip4Host.ofText_slash (a : Ip4Address) (n : Nat) :
    Ip4Host.ofText (a.toText ++ '/' :: decText n) =
      (match Ip4Mask.ofPrefix n with | .ok m => .ok (Ip4Host.ofMask a m) | .error _ => .error .formatError) := by
  unfold Ip4Host.ofText
  rw [pySplit_one _ _ _ (toText_noSlash a) (decText_noSlash n)]
  simp only [a.ofText_toText, Ip4Network.ofText_slash]
  cases Ip4Mask.ofPrefix n <;> rfl

theorem Ip6Network.ofText_slash (a : Ip6Address) (n : Nat) :
    Ip6Network.ofText (a.toText ++ '/' :: decText n) =
      (match Ip6Mask.ofPrefix n with | .ok m => .ok (Ip6Network.ofMask a m) | .error _ => .error .formatError) := by
  unfold Ip6Network.ofText
  rw [pySplit_one _ _ _ (toText6_noSlash a) (decText_noSlash n)]
  simp only [Ip6Mask.ofText_dec, a.ofText_toText]
  cases Ip6Mask.ofPrefix n <;> rfl

theorem Ip6Host.ofText_slash (a : Ip6Address) (n : Nat) :
    Ip6Host.ofText (a.toText ++ '/' :: decText n) =
      (match Ip6Mask.ofPrefix n with | .ok m => .ok (Ip6Host.ofMask a m) | .error _ => .error .formatError) := by
  unfold Ip6Host.ofText
  rw [pySplit_one _ _ _ (toText6_noSlash a) (decText_noSlash n)]
  simp only [a.ofText_toText, Ip6Network.ofText_slash]
  cases Ip6Mask.ofPrefix n <;> rfl

/-- **C77** IPv4: `address/n` names, for every address and every `n` up to 32, the network whose addresses share the first `n` bits with it, and the
host with that address in that network, without gateway; a greater `n` is rejected, and so is text without exactly one slash.  Networks print as
first address and length, hosts as address and length, and reading what is printed gives the same network, and the same address, network length and no
gateway. -/
theorem C77_ip4_text :
    (∀ (a : Ip4Address) (n : Nat), n ≤ 32 → ∃ N : Ip4Network,
      Ip4Network.ofText (a.toText ++ '/' :: decimal n) = .ok N ∧ N.mask.len = n ∧ (∀ b : Ip4Address, N.contains b = true ↔ cidr 32 a.int n b.int) ∧
      Ip4Host.ofText (a.toText ++ '/' :: decimal n) = .ok ⟨a, N, none⟩ ∧
      (Ip4Host.toText ⟨a, N, none⟩) = a.toText ++ '/' :: decimal n) ∧
    (∀ (a : Ip4Address) (n : Nat), 32 < n → Ip4Network.ofText (a.toText ++ '/' :: decimal n) = .error .formatError ∧
      Ip4Host.ofText (a.toText ++ '/' :: decimal n) = .error .formatError) ∧
    (∀ s : List Char, s.count '/' ≠ 1 → Ip4Network.ofText s = .error .formatError ∧ Ip4Host.ofText s = .error .formatError) ∧
    (∀ N : Ip4Network, Ip4Network.ofText N.toText = .ok N) ∧
    (∀ N M : Ip4Network, N.toText = M.toText → N = M) := by
  have rt : ∀ N : Ip4Network, Ip4Network.ofText N.toText = .ok N := by
    intro N
    unfold Ip4Network.toText
    rw [Ip4Network.ofText_slash, N.mask.prefix_len.2]
    simp only
    congr 1
    obtain ⟨⟨x, hx⟩, m, hm⟩ := N
    simp only [Ip4Network.ofMask, Ip4Network.mk.injEq, Ip4Address.mk.injEq, and_true]
    exact hm
  refine ⟨fun a n hn => ?_, fun a n hn => ?_, fun s hs => ?_, rt, fun N M h => ?_⟩
  · obtain ⟨m, h1, -, h3, h4⟩ := C10_ip4_mask.2.1 n hn
    refine ⟨Ip4Network.ofMask a m, ?_, h3, fun b => ?_, ?_, ?_⟩
    · rw [← decText_eq, Ip4Network.ofText_slash, h1]
    · rw [C11_network_of_address, h3]
    · rw [← decText_eq, Ip4Host.ofText_slash, h1]; rfl
    · rw [← decText_eq, ← h3]; rfl
  · rw [← decText_eq, Ip4Network.ofText_slash, Ip4Host.ofText_slash, C10_ip4_mask.2.2 n hn]; exact ⟨rfl, rfl⟩
  · have hc := pySplit_length '/' s
    constructor
    · unfold Ip4Network.ofText
      split
      · rename_i e; rw [e] at hc; simp at hc; omega
      · rfl
    · unfold Ip4Host.ofText
      split
      · rename_i e; rw [e] at hc; simp at hc; omega
      · rfl
  · have h1 := rt N
    rw [h, rt M] at h1; injection h1 with h1; exact h1.symm

/-- **C77** IPv6: the same, with `n` up to 128. -/
theorem C77_ip6_text :
    (∀ (a : Ip6Address) (n : Nat), n ≤ 128 → ∃ N : Ip6Network,
      Ip6Network.ofText (a.toText ++ '/' :: decimal n) = .ok N ∧ N.mask.len = n ∧ (∀ b : Ip6Address, N.contains b = true ↔ cidr 128 a.int n b.int) ∧
      Ip6Host.ofText (a.toText ++ '/' :: decimal n) = .ok ⟨a, N, none⟩ ∧
      (Ip6Host.toText ⟨a, N, none⟩) = a.toText ++ '/' :: decimal n) ∧
    (∀ (a : Ip6Address) (n : Nat), 128 < n → Ip6Network.ofText (a.toText ++ '/' :: decimal n) = .error .formatError ∧
      Ip6Host.ofText (a.toText ++ '/' :: decimal n) = .error .formatError) ∧
    (∀ s : List Char, s.count '/' ≠ 1 → Ip6Network.ofText s = .error .formatError ∧ Ip6Host.ofText s = .error .formatError) ∧
    (∀ N : Ip6Network, Ip6Network.ofText N.toText = .ok N) ∧
    (∀ N M : Ip6Network, N.toText = M.toText → N = M) := by
  have rt : ∀ N : Ip6Network, Ip6Network.ofText N.toText = .ok N := by
    intro N
    unfold Ip6Network.toText
    rw [Ip6Network.ofText_slash, N.mask.prefix_len.2]
    simp only
    congr 1
    obtain ⟨⟨x, hx⟩, m, hm⟩ := N
    simp only [Ip6Network.ofMask, Ip6Network.mk.injEq, Ip6Address.mk.injEq, and_true]
    exact hm
  refine ⟨fun a n hn => ?_, fun a n hn => ?_, fun s hs => ?_, rt, fun N M h => ?_⟩
  · obtain ⟨m, h1, -, h3, h4⟩ := C10_ip6_mask.2.1 n hn
    refine ⟨Ip6Network.ofMask a m, ?_, h3, fun b => ?_, ?_, ?_⟩
    · rw [← decText_eq, Ip6Network.ofText_slash, h1]
    · rw [C11_network_of_address6, h3]
    · rw [← decText_eq, Ip6Host.ofText_slash, h1]; rfl
    · rw [← decText_eq, ← h3]; rfl
  · rw [← decText_eq, Ip6Network.ofText_slash, Ip6Host.ofText_slash, C10_ip6_mask.2.2 n hn]; exact ⟨rfl, rfl⟩
  · have hc := pySplit_length '/' s
    constructor
    · unfold Ip6Network.ofText
      split
      · rename_i e; rw [e] at hc; simp at hc; omega
      · rfl
    · unfold Ip6Host.ofText
      split
      · rename_i e; rw [e] at hc; simp at hc; omega
      · rfl
  · have h1 := rt N
    rw [h, rt M] at h1; injection h1 with h1; exact h1.symm

/-- **C77** hosts: two hosts print the same exactly if address and network are the same (`==` of hosts; the gateway is not printed). -/
theorem C77_host_str :
    (∀ h k : Ip4Host, h.network.contains h.address = true → k.network.contains k.address = true →
      (h.toText = k.toText ↔ h.address = k.address ∧ h.network = k.network)) ∧
    (∀ h k : Ip6Host, h.network.contains h.address = true → k.network.contains k.address = true →
      (h.toText = k.toText ↔ h.address = k.address ∧ h.network = k.network)) := by
  constructor
  · intro h k hh hk
    refine ⟨fun e => ?_, fun e => by unfold Ip4Host.toText; rw [e.1, e.2]⟩
    obtain ⟨ha, hn⟩ := slash_inj (toText_noSlash _) (toText_noSlash _) e
    have ha := C05_ip4_text.2.2.2 _ _ ha
    have hn := decText_inj hn
    have hm : h.network.mask = k.network.mask := by
      have h1 := h.network.mask.prefix_len.2
      rw [hn, k.network.mask.prefix_len.2] at h1; injection h1 with h1; exact h1.symm
    exact ⟨ha, by rw [h.network.of_member _ hh, k.network.of_member _ hk, ha, hm]⟩
  · intro h k hh hk
    refine ⟨fun e => ?_, fun e => by unfold Ip6Host.toText; rw [e.1, e.2]⟩
    obtain ⟨ha, hn⟩ := slash_inj (toText6_noSlash _) (toText6_noSlash _) e
    have ha := C06_ip6_text.2 _ _ ha
    have hn := decText_inj hn
    have hm : h.network.mask = k.network.mask := by
      have h1 := h.network.mask.prefix_len.2
      rw [hn, k.network.mask.prefix_len.2] at h1; injection h1 with h1; exact h1.symm
    exact ⟨ha, by rw [h.network.of_member _ hh, k.network.of_member _ hk, ha, hm]⟩

/-- **C77** masks: `/n` is read as the mask of `n` ones, up to the length of an address, and rejected beyond; every mask prints as `/n` and is read back. -/
theorem C77_mask_text :
    (∀ n, n ≤ 32 → ∃ m : Ip4Mask, Ip4Mask.ofText ('/' :: decimal n) = .ok m ∧ m.len = n ∧ m.int = 2 ^ 32 - 2 ^ (32 - n)) ∧
    (∀ n, 32 < n → Ip4Mask.ofText ('/' :: decimal n) = .error .formatError) ∧
    (∀ m : Ip4Mask, Ip4Mask.ofText (maskText m.len) = .ok m) ∧
    (∀ n, n ≤ 128 → ∃ m : Ip6Mask, Ip6Mask.ofText ('/' :: decimal n) = .ok m ∧ m.len = n ∧ m.int = 2 ^ 128 - 2 ^ (128 - n)) ∧
    (∀ n, 128 < n → Ip6Mask.ofText ('/' :: decimal n) = .error .formatError) ∧
    (∀ m : Ip6Mask, Ip6Mask.ofText (maskText m.len) = .ok m) := by
  refine ⟨fun n hn => ?_, fun n hn => ?_, fun m => ?_, fun n hn => ?_, fun n hn => ?_, fun m => ?_⟩
  · obtain ⟨m, h1, -, h3, h4⟩ := C10_ip4_mask.2.1 n hn
    exact ⟨m, by rw [← decText_eq, Ip4Mask.ofText_dec, h1], h3, h4⟩
  · rw [← decText_eq, Ip4Mask.ofText_dec, C10_ip4_mask.2.2 n hn]
  · rw [maskText, Ip4Mask.ofText_dec, m.prefix_len.2]
  · obtain ⟨m, h1, -, h3, h4⟩ := C10_ip6_mask.2.1 n hn
    exact ⟨m, by rw [← decText_eq, Ip6Mask.ofText_dec, h1], h3, h4⟩
  · rw [← decText_eq, Ip6Mask.ofText_dec, C10_ip6_mask.2.2 n hn]
  · rw [maskText, Ip6Mask.ofText_dec, m.prefix_len.2]

/-- Beyond the property: a negative length is read as 0 for IPv4. -/
theorem C77_negative_length_witness : ∃ N : Ip4Network, Ip4Network.ofText "10.0.1.7/-1".toList = .ok N ∧ N.mask.len = 0 := by
  refine ⟨Ip4Network.ofMask ⟨dot 10 0 1 7, by decide⟩ ⟨0, by decide, by decide +kernel⟩, ?_, ?_⟩ <;> decide +kernel

namespace Example.AddrText
example : (Ip4Network.ofText "10.1.2.3/24".toList).map (fun n => n.toText) = .ok "10.1.2.0/24".toList := by decide +kernel
example : (Ip4Host.ofText "10.1.2.3/24".toList).map (fun n => n.toText) = .ok "10.1.2.3/24".toList := by decide +kernel
example : (Ip6Network.ofText "2001:db8::7/64".toList).map (fun n => n.toText) = .ok "2001:db8::/64".toList := by decide +kernel
example : (Ip4Mask.ofText "255.255.240.0".toList).map (fun n => maskText n.len) = .ok "/20".toList := by decide +kernel
end Example.AddrText

/-! ### Text whose version is not known -/

/-- **C77** `str_to_ip` and `ip_version`: the text of an IPv4 address is taken for that IPv4 address, and of an IPv6 address for that IPv6
address. -/
theorem C77_str_to_ip :
    (∀ a : Ip6Address, strToIp a.toText = .ok (some (.inl a)) ∧ ipVersion a.toText = .ok (some 6)) ∧
    (∀ a : Ip4Address, strToIp a.toText = .ok (some (.inr a)) ∧ ipVersion a.toText = .ok (some 4)) := by
  refine ⟨fun a => ?_, fun a => ?_⟩
  · simp [strToIp, ipVersion, a.ofText_toText]
  · have h6 : Ip6Address.ofText a.toText = .error .formatError := Ip6Address.ofText_noColon _ (toText_noColon a)
    simp [strToIp, ipVersion, a.ofText_toText, h6]

end Verif
