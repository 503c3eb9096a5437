import Verif.Model.Ip6
import Verif.Lemmas.Icmp6
/-! C21 (ICMPv6 round trip) and C25 (ICMPv6 parser on hostile input). -/
namespace Verif
open Spec (Verifies)
namespace Icmp6

/-- The option as the receiver should see it. -/
def TxOpt.shown : TxOpt → RxOpt
  | .slla m => .slla 8 m
  | .tlla m => .tlla 8 m
  | .pi v p net l a r => .pi 32 l a r v p net

/-- What the receiver should see of each message. -/
def expected : Msg → Hdr
  | .portUnreachable data => .unreachable 4 (data.take 520)
  | .echoRequest id seq data => .echo 128 id seq data
  | .echoReply id seq data => .echo 129 id seq data
  | .routerSolicitation opts => .routerSolicitation (opts.map TxOpt.shown)
  | .routerAdvertisement hop m o lt re rt opts => .routerAdvertisement hop m o lt re rt (opts.map TxOpt.shown)
  | .neighborSolicitation t opts => .neighborSolicitation t (opts.map TxOpt.shown)
  | .neighborAdvertisement r s o t opts => .neighborAdvertisement r s o t (opts.map TxOpt.shown)
  | .mld2Report _ => .other 143 0

/-- An option the codec carries faithfully: in range, and no R flag in a prefix-information option. -/
def TxOpt.Plain : TxOpt → Prop
  | .pi v p _ _ _ r => v < 4294967296 ∧ p < 4294967296 ∧ r = false
  | _ => True

/-- A record whose fields fit the wire format. -/
def Record.Ok (r : Record) : Prop := r.type < 256 ∧ r.aux.length < 256 ∧ r.sources.length < 65536

/-- The messages covered: field values in range; an unreachable message quotes at least 4 bytes; router solicitations
carry no options. -/
def Msg.Ok : Msg → Prop
  | .portUnreachable data => 4 ≤ data.length
  | .echoRequest id seq data => id < 65536 ∧ seq < 65536 ∧ data.length < 2 ^ 62
  | .echoReply id seq data => id < 65536 ∧ seq < 65536 ∧ data.length < 2 ^ 62
  | .routerSolicitation opts => opts = []
  | .routerAdvertisement hop _ _ lt re rt opts =>
    hop < 256 ∧ lt < 65536 ∧ re < 4294967296 ∧ rt < 4294967296 ∧ (∀ o ∈ opts, o.Plain) ∧ optsLen opts < 2 ^ 62
  | .neighborSolicitation _ opts => (∀ o ∈ opts, o.Plain) ∧ optsLen opts < 2 ^ 62
  | .neighborAdvertisement _ _ _ _ opts => (∀ o ∈ opts, o.Plain) ∧ optsLen opts < 2 ^ 62
  | .mld2Report rs => (∀ r ∈ rs, r.Ok) ∧ rs.length < 65536 ∧ (rs.map Record.len).sum < 2 ^ 62

/-- Does the option list carry a source link-layer address? -/
def HasSlla (opts : List TxOpt) : Prop := ∃ m, TxOpt.slla m ∈ opts

/-- The RFC 4861 / RFC 3810 rules on the enclosing IPv6 header under which a receiver takes the message. -/
def Msg.Addressed (src dst : Ip6Address) (hop : Nat) : Msg → Prop
  | .routerSolicitation _ => hop = 255 ∧ (src.isUnicast ∨ src.int = 0) ∧ dst = allRouters
  | .routerAdvertisement .. => hop = 255 ∧ src.isLinkLocal ∧ (dst.isUnicast ∨ dst = allNodes)
  | .neighborSolicitation t opts =>
    hop = 255 ∧ (src.isUnicast ∨ src.int = 0) ∧
      (dst = t ∨ dst.int = 0xFF0200000000000000000001FF000000 + t.int % 2 ^ 24) ∧ t.isUnicast ∧
      (src.int = 0 → ¬ HasSlla opts)
  | .neighborAdvertisement _ s _ _ _ =>
    hop = 255 ∧ src.isUnicast ∧ (dst = allNodes ∨ (s = true ∧ dst.isUnicast))
  | .mld2Report _ => hop = 1
  | _ => True

theorem Plain.ok {o : TxOpt} (h : o.Plain) : o.Ok ∧ o.parsed = o.shown := by
  cases o with
  | slla m => exact ⟨trivial, rfl⟩
  | tlla m => exact ⟨trivial, rfl⟩
  | pi v p n l a r => obtain ⟨h1, h2, rfl⟩ := h; exact ⟨⟨h1, h2⟩, by simp [TxOpt.parsed, TxOpt.shown]⟩

theorem map_shown {opts : List TxOpt} (h : ∀ o ∈ opts, o.Plain) : opts.map TxOpt.parsed = opts.map TxOpt.shown :=
  List.map_congr_left fun o ho => (Plain.ok (h o ho)).2

theorem sllaOf_shown (opts : List TxOpt) : (sllaOf (opts.map TxOpt.shown)).isSome = true ↔ HasSlla opts := by
  induction opts with
  | nil => simp [sllaOf, HasSlla]
  | cons o os ih =>
    cases o with
    | slla m => simp [TxOpt.shown, sllaOf, HasSlla]
    | tlla m => simpa [TxOpt.shown, sllaOf, HasSlla] using ih
    | pi v p n l a r => simpa [TxOpt.shown, sllaOf, HasSlla] using ih

theorem solicited (t : Ip6Address) : ∃ a, t.solicitedNodeMulticast = .ok a ∧
    a.int = 0xFF0200000000000000000001FF000000 + t.int % 2 ^ 24 := by
  have hlt : t.int % 2 ^ 24 < 2 ^ 24 := Nat.mod_lt _ (by decide)
  have e : (t.int &&& 0xFFFFFF) ||| 0xFF0200000000000000000001FF000000 =
      0xFF0200000000000000000001FF000000 + t.int % 2 ^ 24 := by
    rw [show (0xFFFFFF : Nat) = 2 ^ 24 - 1 from rfl, and_mask, Nat.or_comm,
      show (0xFF0200000000000000000001FF000000 : Nat) = 0xFF0200000000000000000001FF * 2 ^ 24 from by decide,
      or_disjoint hlt]
  rw [Ip6Address.solicitedNodeMulticast, e]
  exact ⟨⟨_, by omega⟩, Ip6Address.ofInt_ok _ (by omega), rfl⟩

theorem ip6_eq_iff {a b : Ip6Address} : a = b ↔ a.int = b.int := ⟨fun h => h ▸ rfl, Ip6Address.ext'⟩

theorem raw_record_ok (r : Record) (h : r.Ok) : ∃ b, r.raw = .ok b ∧ b.length = r.len ∧
    (∀ rest, idx (b ++ rest) 1 = .ok r.aux.length ∧ u16 (b ++ rest) 2 = .ok r.sources.length) := by
  have hs : ((r.sources.map (·.toBytes)).flatten).length = 16 * r.sources.length := by
    generalize r.sources = l
    induction l with
    | nil => rfl
    | cons a l ih => simp [ih]; omega
  refine ⟨bePack 1 r.type ++ (bePack 1 r.aux.length ++ (bePack 2 r.sources.length ++ (bePack 16 r.address.int ++
    ((r.sources.map (·.toBytes)).flatten ++ r.aux)))), ?_, ?_, ?_⟩
  · simp only [Record.raw, packB_ok h.1, packB_ok h.2.1, packH_ok h.2.2, codec]
  · simp [hs, Record.len]; omega
  · intro rest
    have h1 := h.2.1
    have h2 := h.2.2
    simp [codec, Nat.mod_eq_of_lt h1, Nat.mod_eq_of_lt h2]

theorem records_ok (rs : List Record) (h : ∀ r ∈ rs, r.Ok) : ∃ b, rawRecords rs = .ok b ∧
    b.length = (rs.map Record.len).sum ∧
    ∀ f optr, f.drop optr = b → optr ≤ f.length → recordCheck f f.length rs.length optr = .ok none := by
  induction rs with
  | nil =>
    refine ⟨[], rfl, rfl, fun f optr hd ho => ?_⟩
    have : optr = f.length := by have := congrArg List.length hd; simp at this; omega
    simp [recordCheck, this]
  | cons r rs ih =>
    obtain ⟨b1, e1, l1, i1⟩ := raw_record_ok r (h r (by simp))
    obtain ⟨b2, e2, l2, i2⟩ := ih (fun r hr => h r (by simp [hr]))
    refine ⟨b1 ++ b2, by simp [rawRecords, e1, e2], by simp [l1, l2], fun f optr hd ho => ?_⟩
    have hlen := congrArg List.length hd
    simp only [List.length_drop, List.length_append] at hlen
    have hr20 : 20 ≤ r.len := by unfold Record.len; omega
    rw [List.length_cons, recordCheck, if_neg (by omega), idx_add, u16_add, hd, (i1 b2).1, (i1 b2).2]
    simp only [codec]
    rw [show optr + (20 + r.aux.length + r.sources.length * 16) = optr + r.len by unfold Record.len; omega]
    refine i2 f _ ?_ (by omega)
    rw [← List.drop_drop, hd, ← l1, List.drop_left]

theorem naFlags (r s o : Bool) :
    ((r.toNat <<< 31) ||| (s.toNat <<< 30) ||| (o.toNat <<< 29) ||| 0) < 4294967296 ∧
    ((((r.toNat <<< 31) ||| (s.toNat <<< 30) ||| (o.toNat <<< 29) ||| 0) / 16777216 % 256 &&& 0b10000000) != 0) = r ∧
    ((((r.toNat <<< 31) ||| (s.toNat <<< 30) ||| (o.toNat <<< 29) ||| 0) / 16777216 % 256 &&& 0b01000000) != 0) = s ∧
    ((((r.toNat <<< 31) ||| (s.toNat <<< 30) ||| (o.toNat <<< 29) ||| 0) / 16777216 % 256 &&& 0b00100000) != 0) = o := by
  revert r s o; decide

theorem idx_here4 {x : Nat} {b : Bytes} : idx (bePack 4 x ++ b) 0 = .ok (x / 16777216 % 256) := by
  simp [idx, bePack]
  omega

theorem raFlags (m o : Bool) : ((m.toNat <<< 7) ||| (o.toNat <<< 6)) < 256 ∧
    ((((m.toNat <<< 7) ||| (o.toNat <<< 6)) &&& 0b10000000) != 0) = m ∧
    ((((m.toNat <<< 7) ||| (o.toNat <<< 6)) &&& 0b01000000) != 0) = o := by
  revert m o; decide

end Icmp6
open Icmp6

/-- The proved part of the round trip: what holds of a frame `f` assembled from `m`. -/
def C21_Roundtrip (m : Msg) (ps : Nat) (f : Bytes) : Prop :=
  f.length = Icmp6.len m ∧
  (∀ src dst hop, Verifies ps f → (Icmp6.parse f f.length ps src dst hop = .ok none ↔ m.Addressed src dst hop)) ∧
  (∀ src dst hop, ¬ Verifies ps f →
    Icmp6.parse f f.length ps src dst hop = .ok (some "ICMPv6 integrity - wrong packet checksum")) ∧
  Icmp6.read f f.length = .ok (expected m)

/-- What is known of an assembled frame. -/
structure Icmp6.Shape (m : Msg) (b f : Bytes) : Prop where
  drop : f.drop 4 = b
  len : f.length = 4 + b.length
  t : idx f 0 = .ok m.type
  c : idx f 1 = .ok m.code

theorem Icmp6.roundtrip_of {m : Msg} {b : Bytes} {ps : Nat} (hps : ps < 2 ^ 72) (hb : body m = .ok b)
    (hl : 4 + b.length = Icmp6.len m) (hl2 : Icmp6.len m < 2 ^ 63)
    (hi : ∀ f, Shape m b f → integrityOf f f.length m.type = .ok none)
    (hs : ∀ f src dst hop, Shape m b f → ∃ r, Icmp6.sanity f src dst hop = .ok r ∧ (r = none ↔ m.Addressed src dst hop))
    (hr : ∀ f, Shape m b f → Icmp6.read f f.length = .ok (expected m)) :
    ∃ f, Icmp6.assemble m ps = .ok f ∧ C21_Roundtrip m ps f := by
  obtain ⟨ck, hck, ha⟩ := assemble_ok ps hb
  refine ⟨_, ha, ?_⟩
  obtain ⟨f, hf⟩ : ∃ f, f = bePack 1 m.type ++ (bePack 1 m.code ++ (bePack 2 ck ++ b)) := ⟨_, rfl⟩
  rw [← hf]
  have ht : m.type < 256 := by cases m <;> simp [Msg.type]
  have hc : m.code < 256 := by cases m <;> simp [Msg.code]
  have sh : Shape m b f := by
    constructor
    · simp [hf, codec]
    · simp [hf]; omega
    · simp [hf, codec, Nat.mod_eq_of_lt ht]
    · simp [hf, codec, Nat.mod_eq_of_lt hc]
  have hlf : f.length = Icmp6.len m := by rw [sh.len, hl]
  have htk : f.take f.length = f := by simp
  refine ⟨hlf, fun src dst hop hv => ?_, fun src dst hop hv => ?_, hr f sh⟩
  · have h0 := (verifies_iff (data := f) (by omega) hps).mpr hv
    have h1 : 4 ≤ f.length := by have := sh.len; omega
    obtain ⟨r, hr1, hr2⟩ := hs f src dst hop sh
    simp [Icmp6.parse, Icmp6.integrity, h0, h1, sh.t, hi f sh, hr1, hr2]
  · have h0 := mt (verifies_iff (data := f) (by omega) hps).mp hv
    simp [Icmp6.parse, Icmp6.integrity, h0]

/-- C21 (proved part): every assembled message is `len` bytes long, is accepted (when its checksum verifies) exactly under
the IPv6 headers the RFCs allow, and shows its fields and options to the receiver.  Missing from the full claim because
the code does not satisfy it: prefix-information options with the R flag (`C21_pi_r_flag_witness`), options of router
solicitations (`C21_rs_options_witness`), reading back MLDv2 records (`C21_mld2_two_records`). -/
theorem C21_icmp6_roundtrip_partial (m : Msg) (ps : Nat) (hm : m.Ok) (hps : ps < 2 ^ 72) :
    ∃ f, Icmp6.assemble m ps = .ok f ∧ C21_Roundtrip m ps f := by
  cases m with
  | portUnreachable data =>
    simp only [Msg.Ok] at hm
    have hdl : 4 ≤ (data.take 520).length ∧ (data.take 520).length ≤ 520 := by simp; omega
    refine roundtrip_of (b := bePack 4 0 ++ data.take 520) hps ?_ ?_ ?_ ?_ ?_ ?_
    · simp [body, packL_ok]
    · simp [Icmp6.len]; omega
    · simp only [Icmp6.len]; omega
    · intro f sh
      have := sh.len
      simp only [List.length_append, bePack_length] at this
      simp [integrityOf, Msg.type]; omega
    · intro f src dst hop sh
      exact ⟨none, by simp [Icmp6.sanity, Icmp6.type, Icmp6.code, sh.t, sh.c, Msg.type, Msg.code], by simp [Msg.Addressed]⟩
    · intro f sh
      have e : slice f 8 f.length = data.take 520 := by
        rw [slice, List.take_of_length_le (Nat.le_refl _), show 8 = 4 + 4 from rfl, ← List.drop_drop, sh.drop]
        simp [codec]
      simp [Icmp6.read, Icmp6.type, Icmp6.code, Icmp6.unData, sh.t, sh.c, Msg.type, Msg.code, e, expected]
  | echoRequest id seq data =>
    obtain ⟨h1, h2, h3⟩ := hm
    refine roundtrip_of (b := bePack 2 id ++ (bePack 2 seq ++ data)) hps ?_ ?_ ?_ ?_ ?_ ?_
    · simp [body, packH_ok h1, packH_ok h2, show id ≤ 65535 by omega, show seq ≤ 65535 by omega]
    · simp [Icmp6.len]; omega
    · simp only [Icmp6.len]; omega
    · intro f sh
      have := sh.len
      simp only [List.length_append, bePack_length] at this
      simp [integrityOf, Msg.type]; omega
    · intro f src dst hop sh
      exact ⟨none, by simp [Icmp6.sanity, Icmp6.type, Icmp6.code, sh.t, sh.c, Msg.type, Msg.code], by simp [Msg.Addressed]⟩
    · intro f sh
      have e : slice f 8 f.length = data := by
        rw [slice, List.take_of_length_le (Nat.le_refl _), show 8 = 4 + 4 from rfl, ← List.drop_drop, sh.drop]
        simp [codec]
      have e4 : u16 f 4 = .ok id := by
        rw [show 4 = 4 + 0 from rfl, u16_add, sh.drop]; simp [codec]; omega
      have e6 : u16 f 6 = .ok seq := by
        rw [show 6 = 4 + 2 from rfl, u16_add, sh.drop]; simp [codec]; omega
      simp [Icmp6.read, Icmp6.type, Icmp6.code, Icmp6.ecId, Icmp6.ecSeq, Icmp6.ecData, sh.t, sh.c, Msg.type, Msg.code, e, e4, e6, expected]
  | echoReply id seq data =>
    obtain ⟨h1, h2, h3⟩ := hm
    refine roundtrip_of (b := bePack 2 id ++ (bePack 2 seq ++ data)) hps ?_ ?_ ?_ ?_ ?_ ?_
    · simp [body, packH_ok h1, packH_ok h2, show id ≤ 65535 by omega, show seq ≤ 65535 by omega]
    · simp [Icmp6.len]; omega
    · simp only [Icmp6.len]; omega
    · intro f sh
      have := sh.len
      simp only [List.length_append, bePack_length] at this
      simp [integrityOf, Msg.type]; omega
    · intro f src dst hop sh
      exact ⟨none, by simp [Icmp6.sanity, Icmp6.type, Icmp6.code, sh.t, sh.c, Msg.type, Msg.code], by simp [Msg.Addressed]⟩
    · intro f sh
      have e : slice f 8 f.length = data := by
        rw [slice, List.take_of_length_le (Nat.le_refl _), show 8 = 4 + 4 from rfl, ← List.drop_drop, sh.drop]
        simp [codec]
      have e4 : u16 f 4 = .ok id := by
        rw [show 4 = 4 + 0 from rfl, u16_add, sh.drop]; simp [codec]; omega
      have e6 : u16 f 6 = .ok seq := by
        rw [show 6 = 4 + 2 from rfl, u16_add, sh.drop]; simp [codec]; omega
      simp [Icmp6.read, Icmp6.type, Icmp6.code, Icmp6.ecId, Icmp6.ecSeq, Icmp6.ecData, sh.t, sh.c, Msg.type, Msg.code, e, e4, e6, expected]
  | routerSolicitation opts =>
    simp only [Msg.Ok] at hm
    subst hm
    have hopts : ∀ f, Shape (.routerSolicitation []) (bePack 4 0) f → ndOptions f = .ok [] := by
      intro f sh
      have := sh.len
      simp only [bePack_length] at this
      simp [ndOptions, Icmp6.type, sh.t, Msg.type, optStart]
      rw [readNdOptions.eq_def]; simp [show ¬ 12 < f.length by omega]
    refine roundtrip_of (b := bePack 4 0) hps ?_ ?_ ?_ ?_ ?_ ?_
    · simp [body, packL_ok, rawNdOptions]
    · simp [Icmp6.len, optsLen]
    · simp [Icmp6.len, optsLen]
    · intro f sh
      have := sh.len
      simp only [bePack_length] at this
      simp only [integrityOf, Msg.type]
      simp [show 8 ≤ f.length by omega]
      rw [ndOptionCheck.eq_def]; simp [show ¬ 8 < f.length by omega]
    · intro f src dst hop sh
      simp only [Icmp6.sanity, Icmp6.type, Icmp6.code, sh.t, sh.c, Msg.type, Msg.code, Msg.Addressed, sanityRs, hopts f sh, codec,
        sllaOf]
      by_cases a1 : hop = 255 <;> by_cases a2 : src.isUnicast <;> by_cases a3 : src.int = 0 <;> by_cases a4 : dst = allRouters <;>
        simp [a1, a2, a3, a4, Ip6Address.isUnspecified]
    · intro f sh
      simp [Icmp6.read, Icmp6.type, Icmp6.code, sh.t, sh.c, Msg.type, Msg.code, hopts f sh, expected]
  | routerAdvertisement hop m o lt re rt opts =>
    obtain ⟨h1, h2, h3, h4, h5, h6⟩ := hm
    have hok : ∀ o ∈ opts, o.Ok := fun o ho => (Plain.ok (h5 o ho)).1
    obtain ⟨x, hx⟩ : ∃ x, x = (m.toNat <<< 7) ||| (o.toNat <<< 6) := ⟨_, rfl⟩
    obtain ⟨r1, r2, r3⟩ := raFlags m o
    rw [← hx] at r1 r2 r3
    have walk : ∀ f, Shape (.routerAdvertisement hop m o lt re rt opts)
        (bePack 1 hop ++ (bePack 1 x ++ (bePack 2 lt ++ (bePack 4 re ++ (bePack 4 rt ++ rawAll opts))))) f →
        ndOptionCheck f f.length 16 = .ok none ∧ readNdOptions f f.length 16 = .ok (opts.map TxOpt.parsed) := by
      intro f sh
      have := sh.len
      simp only [List.length_append, bePack_length, rawAll_length] at this
      refine options_walk f opts hok _ _ ?_ (by omega) (by omega)
      rw [show 16 = 4 + 12 from rfl, ← List.drop_drop, sh.drop]; simp [codec]
    refine roundtrip_of (b := bePack 1 hop ++ (bePack 1 x ++ (bePack 2 lt ++ (bePack 4 re ++ (bePack 4 rt ++ rawAll opts)))))
      hps ?_ ?_ ?_ ?_ ?_ ?_
    · simp [body, ← hx, rawNdOptions_ok opts hok, packB_ok h1, packB_ok r1, packH_ok h2, packL_ok h3, packL_ok h4,
        show hop ≤ 255 by omega, show lt ≤ 65535 by omega, show re ≤ 4294967295 by omega, show rt ≤ 4294967295 by omega]
    · simp [Icmp6.len, rawAll_length]; omega
    · simp only [Icmp6.len]; omega
    · intro f sh
      have := sh.len
      simp only [List.length_append, bePack_length] at this
      simp [integrityOf, Msg.type, (walk f sh).1, show 16 ≤ f.length by omega]
    · intro f src dst hop sh
      simp only [Icmp6.sanity, Icmp6.type, Icmp6.code, sh.t, sh.c, Msg.type, Msg.code, Msg.Addressed, sanityRa, codec]
      refine ⟨_, rfl, ?_⟩
      by_cases a1 : hop = 255 <;> by_cases a2 : src.isLinkLocal <;> by_cases a3 : dst.isUnicast <;> by_cases a4 : dst = allNodes <;>
        simp [a1, a2, a3, a4]
    · intro f sh
      have e4 : idx f 4 = .ok hop := by
        rw [show 4 = 4 + 0 from rfl, idx_add, sh.drop]; simp [codec]; omega
      have e5 : idx f 5 = .ok x := by
        rw [show 5 = 4 + 1 from rfl, idx_add, sh.drop]; simp [codec]; omega
      have e6 : u16 f 6 = .ok lt := by
        rw [show 6 = 4 + 2 from rfl, u16_add, sh.drop]; simp [codec]; omega
      have e8 : u32 f 8 = .ok re := by
        rw [show 8 = 4 + 4 from rfl, u32_add, sh.drop]; simp [codec]; omega
      have e12 : u32 f 12 = .ok rt := by
        rw [show 12 = 4 + 8 from rfl, u32_add, sh.drop]; simp [codec]; omega
      simp only [Icmp6.read, Icmp6.type, Icmp6.code, sh.t, sh.c, Msg.type, Msg.code, readRa, ndOptions, optStart, (walk f sh).2, e4, e5, e6,
        e8, e12, expected, map_shown h5, codec, r2, r3]
      simp [(walk f sh).2, map_shown h5]
  | neighborSolicitation t opts =>
    obtain ⟨h5, h6⟩ := hm
    have hok : ∀ o ∈ opts, o.Ok := fun o ho => (Plain.ok (h5 o ho)).1
    have walk : ∀ f, Shape (.neighborSolicitation t opts) (bePack 4 0 ++ (bePack 16 t.int ++ rawAll opts)) f →
        ndOptionCheck f f.length 24 = .ok none ∧ readNdOptions f f.length 24 = .ok (opts.map TxOpt.parsed) := by
      intro f sh
      have := sh.len
      simp only [List.length_append, bePack_length, rawAll_length] at this
      refine options_walk f opts hok _ _ ?_ (by omega) (by omega)
      rw [show 24 = 4 + 20 from rfl, ← List.drop_drop, sh.drop]; simp [codec]
    have hopts : ∀ f, Shape (.neighborSolicitation t opts) (bePack 4 0 ++ (bePack 16 t.int ++ rawAll opts)) f →
        ndOptions f = .ok (opts.map TxOpt.shown) := by
      intro f sh
      simp only [ndOptions, Icmp6.type, sh.t, Msg.type, optStart, codec]
      simp [(walk f sh).2, map_shown h5]
    have htgt : ∀ f, Shape (.neighborSolicitation t opts) (bePack 4 0 ++ (bePack 16 t.int ++ rawAll opts)) f →
        nsTarget f = .ok t := by
      intro f sh
      rw [nsTarget, show 8 = 4 + 4 from rfl, show 24 = 4 + 20 from rfl, slice_add, sh.drop]; simp [codec]
    refine roundtrip_of (b := bePack 4 0 ++ (bePack 16 t.int ++ rawAll opts)) hps ?_ ?_ ?_ ?_ ?_ ?_
    · simp [body, rawNdOptions_ok opts hok, packL_ok, Ip6Address.toBytes_eq]
    · simp [Icmp6.len, rawAll_length]; omega
    · simp only [Icmp6.len]; omega
    · intro f sh
      have := sh.len
      simp only [List.length_append, bePack_length] at this
      simp [integrityOf, Msg.type, (walk f sh).1, show 24 ≤ f.length by omega]
    · intro f src dst hop sh
      obtain ⟨sn, hsn, hsn2⟩ := solicited t
      have hsl := sllaOf_shown opts
      simp only [Icmp6.sanity, Icmp6.type, Icmp6.code, sh.t, sh.c, Msg.type, Msg.code, Msg.Addressed, sanityNs, hopts f sh, htgt f sh, hsn,
        codec, ← hsn2, ← hsl]
      rw [← ip6_eq_iff]
      by_cases a1 : hop = 255 <;> by_cases a2 : src.isUnicast <;> by_cases a3 : src.int = 0 <;> by_cases a4 : dst = t ∨ dst = sn <;>
        by_cases a5 : t.isUnicast <;> by_cases a6 : (sllaOf (opts.map TxOpt.shown)).isSome <;>
        simp [a1, a2, a3, a4, a5, a6, Ip6Address.isUnspecified]
    · intro f sh
      simp only [Icmp6.read, Icmp6.type, Icmp6.code, sh.t, sh.c, Msg.type, Msg.code, hopts f sh, htgt f sh, expected, codec]
      simp
  | neighborAdvertisement r s o t opts =>
    obtain ⟨h5, h6⟩ := hm
    have hok : ∀ o ∈ opts, o.Ok := fun o ho => (Plain.ok (h5 o ho)).1
    obtain ⟨x, hx⟩ : ∃ x, x = (r.toNat <<< 31) ||| (s.toNat <<< 30) ||| (o.toNat <<< 29) ||| 0 := ⟨_, rfl⟩
    obtain ⟨r1, r2, r3, r4⟩ := naFlags r s o
    rw [← hx] at r1 r2 r3 r4
    have walk : ∀ f, Shape (.neighborAdvertisement r s o t opts) (bePack 4 x ++ (bePack 16 t.int ++ rawAll opts)) f →
        ndOptionCheck f f.length 24 = .ok none ∧ readNdOptions f f.length 24 = .ok (opts.map TxOpt.parsed) := by
      intro f sh
      have := sh.len
      simp only [List.length_append, bePack_length, rawAll_length] at this
      refine options_walk f opts hok _ _ ?_ (by omega) (by omega)
      rw [show 24 = 4 + 20 from rfl, ← List.drop_drop, sh.drop]; simp [codec]
    have htgt : ∀ f, Shape (.neighborAdvertisement r s o t opts) (bePack 4 x ++ (bePack 16 t.int ++ rawAll opts)) f →
        naTarget f = .ok t := by
      intro f sh
      rw [naTarget, show 8 = 4 + 4 from rfl, show 24 = 4 + 20 from rfl, slice_add, sh.drop]; simp [codec]
    have hfl : ∀ f, Shape (.neighborAdvertisement r s o t opts) (bePack 4 x ++ (bePack 16 t.int ++ rawAll opts)) f →
        idx f 4 = .ok (x / 16777216 % 256) := by
      intro f sh
      rw [show 4 = 4 + 0 from rfl, idx_add, sh.drop, idx_here4]
    refine roundtrip_of (b := bePack 4 x ++ (bePack 16 t.int ++ rawAll opts)) hps ?_ ?_ ?_ ?_ ?_ ?_
    · simp only [body, rawNdOptions_ok opts hok, ← hx, packL_ok r1, codec]
    · simp [Icmp6.len, rawAll_length]; omega
    · simp only [Icmp6.len]; omega
    · intro f sh
      have := sh.len
      simp only [List.length_append, bePack_length] at this
      simp [integrityOf, Msg.type, (walk f sh).1, show 24 ≤ f.length by omega]
    · intro f src dst hop sh
      simp only [Icmp6.sanity, Icmp6.type, Icmp6.code, sh.t, sh.c, Msg.type, Msg.code, Msg.Addressed, sanityNa, naFlagS, hfl f sh,
        codec, r3]
      by_cases a1 : hop = 255 <;> by_cases a2 : src.isUnicast <;> by_cases a3 : dst.isUnicast <;> by_cases a4 : dst = allNodes <;>
        cases s <;> simp [a1, a2, a3, a4]
    · intro f sh
      simp only [Icmp6.read, Icmp6.type, Icmp6.code, sh.t, sh.c, Msg.type, Msg.code, readNa, ndOptions, optStart, htgt f sh, (walk f sh).2,
        map_shown h5, hfl f sh, expected, codec, r2, r3, r4]
      simp [(walk f sh).2, map_shown h5]
  | mld2Report rs =>
    obtain ⟨h1, h2, h3⟩ := hm
    obtain ⟨b, hb, hbl, hbc⟩ := records_ok rs h1
    refine roundtrip_of (b := bePack 2 0 ++ (bePack 2 rs.length ++ b)) hps ?_ ?_ ?_ ?_ ?_ ?_
    · simp [body, hb, packH_ok h2, packH_ok]
    · simp [Icmp6.len, hbl]; omega
    · simp only [Icmp6.len]; omega
    · intro f sh
      have := sh.len
      simp only [List.length_append, bePack_length] at this
      have e6 : u16 f 6 = .ok rs.length := by
        rw [show 6 = 4 + 2 from rfl, u16_add, sh.drop]; simp [codec]; omega
      simp only [integrityOf, Msg.type]
      simp [show 8 ≤ f.length by omega, e6]
      refine hbc f 8 ?_ (by omega)
      rw [show 8 = 4 + 4 from rfl, ← List.drop_drop, sh.drop]; simp [codec]
    · intro f src dst hop sh
      simp only [Icmp6.sanity, Icmp6.type, Icmp6.code, sh.t, sh.c, Msg.type, Msg.code, Msg.Addressed, codec]
      by_cases a1 : hop = 1 <;> simp [a1]
    · intro f sh
      simp [Icmp6.read, Icmp6.type, Icmp6.code, sh.t, sh.c, Msg.type, Msg.code, expected]

example : (Msg.neighborSolicitation ⟨0xFE80000000000000000000000000ABCD, by decide⟩ [.slla ⟨0x020000000007, by decide⟩]).Ok := by
  simp [Msg.Ok, TxOpt.Plain, optsLen, TxOpt.len]
example : (Msg.neighborSolicitation ⟨0xFE80000000000000000000000000ABCD, by decide⟩ [.slla ⟨0x020000000007, by decide⟩]).Addressed
    ⟨0xFE800000000000000000000000000001, by decide⟩ ⟨0xFF0200000000000000000001FF00ABCD, by decide⟩ 255 :=
  ⟨rfl, .inl (by decide), .inr (by decide), by decide, fun h => absurd h (by decide)⟩
example : (Msg.mld2Report [⟨4, ⟨0xFF0200000000000000000001FF00ABCD, by decide⟩, [], []⟩]).Ok := by
  simp [Msg.Ok, Record.Ok, Record.len]

/-- A /64 used in the examples. -/
def Icmp6.exampleNet : Ip6Network :=
  ⟨⟨0x20010DB8000000000000000000000000, by decide⟩,
   ⟨0xFFFFFFFFFFFFFFFF0000000000000000, by decide,
     by rw [validateBits_iff _ _ (by decide)]; exact ⟨64, by decide, by decide⟩⟩, by decide⟩

/-- C21 fails for the R flag of a prefix-information option: it is written into the A bit, so a prefix announced with R
and without A is read back with A and without R. -/
theorem C21_pi_r_flag_witness :
    (do
      let f ← Icmp6.assemble (.routerAdvertisement 64 false false 1800 0 0 [.pi 3600 1800 exampleNet true false true]) 0
      Icmp6.read f f.length)
      = .ok (.routerAdvertisement 64 false false 1800 0 0 [.pi 32 true true false 3600 1800 exampleNet]) := by
  decide +kernel

/-- C21 fails for router solicitations with options (what a host normally sends): the parser reads them from offset 12
instead of 8.  With this source link-layer address it finds an option of length 0 there and never stops. -/
theorem C21_rs_options_witness :
    (do
      let f ← Icmp6.assemble (.routerSolicitation [.slla ⟨0x020000000007, by decide⟩]) 0
      Icmp6.read f f.length) = .error .nonTermination := by
  decide +kernel

theorem Icmp6.readSources_ok (pre : Bytes) (hp : pre.length = 20) (ss : List Ip6Address) (rest : Bytes) (done : List Ip6Address) :
    readSources (pre ++ (((done ++ ss).map (·.toBytes)).flatten ++ rest)) ss.length done.length = .ok ss := by
  have hl : ∀ l : List Ip6Address, ((l.map (·.toBytes)).flatten).length = 16 * l.length := by
    intro l
    induction l with
    | nil => rfl
    | cons a l ih => simp [ih]; omega
  induction ss generalizing done with
  | nil => rfl
  | cons a ss ih =>
    have IH := ih (done ++ [a])
    simp only [List.append_assoc, List.singleton_append, List.length_append, List.length_singleton] at IH
    rw [List.length_cons, readSources]
    simp only [IH]
    have e : slice (pre ++ (((done ++ a :: ss).map (·.toBytes)).flatten ++ rest)) (20 + 16 * done.length)
        (20 + 16 * (done.length + 1)) = a.toBytes := by
      rw [slice_add, ← hp, List.drop_left, show 16 * (done.length + 1) = 16 * done.length + 16 by omega,
        ← Nat.add_zero (16 * done.length), Nat.add_assoc, slice_add, Nat.zero_add, ← hl]
      simp only [List.map_append, List.flatten_append, List.append_assoc, List.map_cons, List.flatten_cons]
      rw [List.drop_left]
      exact slice_front (by simp)
    rw [e]
    simp

theorem Icmp6.RxRecord.parse_raw (r : Record) (hr : r.Ok) : ∃ b, r.raw = .ok b ∧ b ≠ [] ∧ ∀ tail,
    RxRecord.parse (b ++ tail) = .ok { raw := b ++ tail, type := r.type, address := r.address, sources := r.sources,
                                       aux := r.aux ++ tail } := by
  obtain ⟨h1, h2, h3⟩ := hr
  have hl : ((r.sources.map (·.toBytes)).flatten).length = 16 * r.sources.length := by
    generalize r.sources = l
    induction l with
    | nil => rfl
    | cons a l ih => simp [ih]; omega
  refine ⟨bePack 1 r.type ++ (bePack 1 r.aux.length ++ (bePack 2 r.sources.length ++
      (bePack 16 r.address.int ++ ((r.sources.map (·.toBytes)).flatten ++ r.aux)))), ?_, ?_, ?_⟩
  · simp only [Record.raw, packB_ok h1, packB_ok h2, packH_ok h3, codec]
  · intro h
    have := congrArg List.length h
    simp at this
  · intro tail
    have e2 := readSources_ok (bePack 1 r.type ++ (bePack 1 r.aux.length ++ (bePack 2 r.sources.length ++
      bePack 16 r.address.int))) (by simp) r.sources (r.aux ++ tail) []
    simp only [List.nil_append, List.append_assoc, List.length_nil] at e2
    obtain ⟨F, hF⟩ : ∃ F, F = bePack 1 r.type ++ (bePack 1 r.aux.length ++ (bePack 2 r.sources.length ++ (bePack 16 r.address.int ++
      ((r.sources.map (·.toBytes)).flatten ++ (r.aux ++ tail))))) := ⟨_, rfl⟩
    have a0 : idx F 0 = .ok r.type := by simp [hF, codec]; omega
    have a1 : idx F 1 = .ok r.aux.length := by simp [hF, codec]; omega
    have a2 : u16 F 2 = .ok r.sources.length := by simp [hF, codec]; omega
    have a4 : Ip6Address.ofBytes (slice F 4 20) = .ok r.address := by simp [hF, codec]
    have a5 : sliceFrom F (20 + 16 * r.sources.length) = r.aux ++ tail := by
      rw [sliceFrom, ← List.drop_drop, show F.drop 20 = (r.sources.map (·.toBytes)).flatten ++ (r.aux ++ tail) by simp [hF, codec], ← hl,
        List.drop_left]
    rw [← hF] at e2
    simp only [List.append_assoc]
    rw [← hF]
    simp [RxRecord.parse, a0, a1, a2, a4, a5, e2]

theorem Icmp6.mld2Records_eq (rs : List Record) (hrs : ∀ r ∈ rs, r.Ok) (hl : rs.length < 65536) (ps : Nat) :
    ∃ f b, Icmp6.assemble (.mld2Report rs) ps = .ok f ∧ rawRecords rs = .ok b ∧ mld2Records f = recordsLoop rs.length b := by
  obtain ⟨b, hb, -⟩ := records_ok rs hrs
  obtain ⟨ck, hck, ha⟩ := assemble_ok (m := .mld2Report rs) (b := bePack 2 0 ++ (bePack 2 rs.length ++ b)) ps
    (by simp [body, hb, packH_ok, hl])
  refine ⟨_, b, ha, hb, ?_⟩
  have : rs.length % 65536 = rs.length := Nat.mod_eq_of_lt hl
  simp [mld2Records, Icmp6.type, Msg.type, codec, this]

/-- C21: the record of a one-record MLDv2 report is read back. -/
theorem C21_mld2_one_record (r : Record) (ps : Nat) (hr : r.Ok) :
    ∃ f rr, Icmp6.assemble (.mld2Report [r]) ps = .ok f ∧ mld2Records f = .ok [rr] ∧ rr.type = r.type ∧
      rr.address = r.address ∧ rr.sources = r.sources ∧ rr.aux = r.aux := by
  obtain ⟨f, b, ha, hb, hm⟩ := mld2Records_eq [r] (by simpa using hr) (by simp) ps
  obtain ⟨b', hb', -, hp⟩ := RxRecord.parse_raw r hr
  have e : b = b' := by simp [rawRecords, hb'] at hb; exact hb.symm
  subst e
  have hp0 := hp []
  simp only [List.append_nil] at hp0
  exact ⟨f, _, ha, by rw [hm]; simp [recordsLoop, hp0]; rfl, rfl, rfl, rfl, rfl⟩

/-- C21 fails for MLDv2 reports of two or more records: reading the list always raises `IndexError`, because the first
parsed record reports the length of the whole rest of the frame as its own. -/
theorem C21_mld2_two_records (r1 r2 : Record) (rs : List Record) (ps : Nat) (hr : ∀ r ∈ r1 :: r2 :: rs, r.Ok)
    (hl : rs.length + 2 < 65536) :
    ∃ f, Icmp6.assemble (.mld2Report (r1 :: r2 :: rs)) ps = .ok f ∧ mld2Records f = .error .indexError := by
  obtain ⟨f, b, ha, hb, hm⟩ := mld2Records_eq (r1 :: r2 :: rs) hr (by simpa using hl) ps
  obtain ⟨b', hb', -, hp⟩ := RxRecord.parse_raw r1 (hr r1 (by simp))
  refine ⟨f, ha, ?_⟩
  rw [rawRecords] at hb
  simp only [hb', codec] at hb
  cases h2 : rawRecords (r2 :: rs) with
  | error e => rw [h2] at hb; cases hb
  | ok t =>
    rw [h2] at hb
    simp only [codec] at hb
    injection hb with hb
    rw [hm, ← hb]
    have h0 : RxRecord.parse [] = .error .indexError := rfl
    simp [recordsLoop, hp t, sliceFrom, h0]

/-! ### C25 -/

/-- The offsets at which the options of a frame start, walking from `start` by the length bytes. -/
inductive OptAt (f : Bytes) (start : Nat) : Nat → Prop
  | first : OptAt f start start
  | next {o : Nat} {n : UInt8} : OptAt f start o → f[o + 1]? = some n → OptAt f start (o + 8 * n.toNat)

/-- A prefix-information option that is cut off by the end of the frame or announces a prefix longer than 128. -/
def BadPi (f : Bytes) (start : Nat) : Prop :=
  ∃ o, OptAt f start o ∧ o < f.length ∧ f[o]? = some 3 ∧ (f.length < o + 32 ∨ ∃ k, f[o + 2]? = some k ∧ 128 < k.toNat)

theorem idx_some {f : Bytes} {i n : Nat} (h : idx f i = .ok n) : ∃ x : UInt8, f[i]? = some x ∧ x.toNat = n := by
  unfold idx at h
  split at h
  · rename_i x hx; injection h with h; exact ⟨x, hx, h⟩
  · cases h

theorem Icmp6.ndOptionCheck_total (f : Bytes) (fuel optr : Nat) (hf : f.length ≤ optr + fuel) :
    (∃ r, ndOptionCheck f fuel optr = .ok r) ∨
      (ndOptionCheck f fuel optr = .error .indexError ∧ ∃ k, f.length = optr + 8 * k + 1) := by
  induction fuel generalizing optr with
  | zero => left; rw [ndOptionCheck, if_neg (by omega)]; exact ⟨_, rfl⟩
  | succ fuel ih =>
    rw [ndOptionCheck]
    split
    · rename_i ho
      rw [if_neg (by omega)]
      by_cases hlast : optr + 1 < f.length
      · obtain ⟨n, hn, -, -⟩ := idx_ex (f := f) (i := optr + 1) hlast
        simp only [hn, codec]
        split
        · exact .inl ⟨_, rfl⟩
        · split
          · exact .inl ⟨_, rfl⟩
          · rename_i h0 h1
            have e : n <<< 3 = 8 * n := by rw [Nat.shiftLeft_eq]; omega
            rcases ih (optr + n <<< 3) (by omega) with h | ⟨h, k, hk⟩
            · exact .inl h
            · exact .inr ⟨h, n + k, by omega⟩
      · right
        refine ⟨?_, 0, by omega⟩
        simp [idx, List.getElem?_eq_none (show f.length ≤ optr + 1 by omega)]
    · exact .inl ⟨_, rfl⟩

theorem Icmp6.readOpt_total {f : Bytes} {o : Nat} (h8 : o + 8 ≤ f.length)
    (hpi : f[o]? = some 3 → o + 32 ≤ f.length ∧ ∀ k, f[o + 2]? = some k → k.toNat ≤ 128) :
    ∃ x, readOpt (sliceFrom f o) = .ok x := by
  have hlen : (sliceFrom f o).length = f.length - o := by simp [sliceFrom]
  have hg : ∀ i, (sliceFrom f o)[i]? = f[o + i]? := by intro i; simp [sliceFrom, List.getElem?_drop]
  generalize sliceFrom f o = g at *
  obtain ⟨k, hk, -, -⟩ := idx_ex (f := g) (i := 0) (by omega)
  obtain ⟨n, hn, -, -⟩ := idx_ex (f := g) (i := 1) (by omega)
  obtain ⟨m, hm, -⟩ := mac_ok (f := g) (i := 2) (j := 8) rfl (by omega)
  simp only [readOpt, hk, hn, hm, codec]
  split
  · exact ⟨_, rfl⟩
  · split
    · exact ⟨_, rfl⟩
    · split
      · rename_i h3
        obtain ⟨x, hx, hx3⟩ := idx_some hk
        have hx3' : x = 3 := by apply UInt8.toNat_inj.mp; rw [hx3, h3]; rfl
        obtain ⟨p1, p2⟩ := hpi (by rw [← Nat.add_zero o, ← hg, hx, hx3'])
        obtain ⟨fl, hfl, -, -⟩ := idx_ex (f := g) (i := 3) (by omega)
        obtain ⟨pl, hpl, -, -⟩ := idx_ex (f := g) (i := 2) (by omega)
        obtain ⟨v, hv, -, -⟩ := u32_ex (f := g) (i := 4) (by omega)
        obtain ⟨p, hp, -, -⟩ := u32_ex (f := g) (i := 8) (by omega)
        obtain ⟨a, ha, -⟩ := ip6_ok (f := g) (i := 16) (j := 32) rfl (by omega)
        obtain ⟨y, hy, hy2⟩ := idx_some hpl
        have := p2 y (by rw [← hg, hy])
        simp only [hfl, hpl, hv, hp, ha, codec, Ip6Mask.ofPrefix, show pl ≤ 128 by omega, ↓reduceDIte]
        exact ⟨_, rfl⟩
      · exact ⟨_, rfl⟩

theorem Icmp6.readNdOptions_of_check (f : Bytes) (start : Nat) (hb : ¬ BadPi f start) (fuel optr : Nat) (hat : OptAt f start optr)
    (hc : ndOptionCheck f fuel optr = .ok none) : ∃ l, readNdOptions f fuel optr = .ok l := by
  induction fuel generalizing optr with
  | zero =>
    rw [ndOptionCheck] at hc
    rw [readNdOptions]
    split
    · rename_i h; rw [if_pos h] at hc; cases hc
    · exact ⟨_, rfl⟩
  | succ fuel ih =>
    rw [ndOptionCheck] at hc
    rw [readNdOptions]
    split
    · rename_i h
      rw [if_pos h] at hc
      split at hc
      · cases hc
      · cases hn : idx f (optr + 1) with
        | error e => rw [hn] at hc; simp at hc
        | ok n =>
          simp only [hn, codec] at hc
          split at hc
          · cases hc
          · split at hc
            · cases hc
            · rename_i h0 h1 h2
              have e : n <<< 3 = 8 * n := by rw [Nat.shiftLeft_eq]; omega
              obtain ⟨x, hx, hxn⟩ := idx_some hn
              obtain ⟨o, ho⟩ := readOpt_total (f := f) (o := optr) (by omega) (by
                intro h3
                constructor
                · exact Decidable.byContradiction fun hlt => hb ⟨optr, hat, h, h3, .inl (by omega)⟩
                · exact fun k hk => Decidable.byContradiction fun hlt => hb ⟨optr, hat, h, h3, .inr ⟨k, hk, by omega⟩⟩)
              obtain ⟨l, hl⟩ := ih (optr + n <<< 3) (by rw [e, ← hxn]; exact .next hat hx) hc
              exact ⟨o :: l, by simp [ho, hn, hl]⟩
    · exact ⟨_, rfl⟩

theorem Icmp6.recordCheck_total (f : Bytes) (plen : Nat) (hp : plen ≤ f.length) (k optr : Nat) :
    ∃ r, recordCheck f plen k optr = .ok r := by
  induction k generalizing optr with
  | zero => rw [recordCheck]; split <;> exact ⟨_, rfl⟩
  | succ k ih =>
    rw [recordCheck]
    split
    · exact ⟨_, rfl⟩
    · obtain ⟨a, ha, -, -⟩ := idx_ex (f := f) (i := optr + 1) (by omega)
      obtain ⟨n, hn, -, -⟩ := u16_ex (f := f) (i := optr + 2) (by omega)
      simp only [ha, hn, codec]
      exact ih _

/-- Where the options of a neighbour-discovery message of type `t` start (RFC 4861, section 4). -/
def ndStart (t : Nat) : Nat := if t = 133 then 8 else if t = 134 then 16 else 24

theorem Icmp6.integrityOf_total (f : Bytes) (plen t : Nat) :
    (∃ r, integrityOf f plen t = .ok r) ∨
      (integrityOf f plen t = .error .indexError ∧ 133 ≤ t ∧ t ≤ 136 ∧ ∃ k, f.length = ndStart t + 8 * k + 1) := by
  unfold integrityOf
  split
  · split <;> exact .inl ⟨_, rfl⟩
  split
  · split <;> exact .inl ⟨_, rfl⟩
  split
  · split
    · exact .inl ⟨_, rfl⟩
    · rename_i h
      obtain ⟨n, hn, -, -⟩ := u16_ex (f := f) (i := 26) (by omega)
      simp only [hn, codec]
      split <;> exact .inl ⟨_, rfl⟩
  split
  · split
    · exact .inl ⟨_, rfl⟩
    · rename_i h133 _
      rcases ndOptionCheck_total f f.length 8 (by omega) with h | ⟨h, k, hk⟩
      · exact .inl h
      · exact .inr ⟨h, by omega, by omega, k, by simpa [ndStart, h133] using hk⟩
  split
  · split
    · exact .inl ⟨_, rfl⟩
    · rename_i h134 _
      rcases ndOptionCheck_total f f.length 16 (by omega) with h | ⟨h, k, hk⟩
      · exact .inl h
      · exact .inr ⟨h, by omega, by omega, k, by simpa [ndStart, h134] using hk⟩
  split
  · split
    · exact .inl ⟨_, rfl⟩
    · rename_i h135 _
      rcases ndOptionCheck_total f f.length 24 (by omega) with h | ⟨h, k, hk⟩
      · exact .inl h
      · exact .inr ⟨h, by omega, by omega, k, by simpa [ndStart, h135] using hk⟩
  split
  · split
    · exact .inl ⟨_, rfl⟩
    · rename_i h136 _
      rcases ndOptionCheck_total f f.length 24 (by omega) with h | ⟨h, k, hk⟩
      · exact .inl h
      · exact .inr ⟨h, by omega, by omega, k, by simpa [ndStart, h136] using hk⟩
  split
  · split
    · exact .inl ⟨_, rfl⟩
    · rename_i h
      obtain ⟨n, hn, -, -⟩ := u16_ex (f := f) (i := 6) (by omega)
      simp only [hn, codec]
      exact .inl (recordCheck_total f plen (by omega) _ _)
  · exact .inl ⟨_, rfl⟩


theorem Icmp6.integrity_cases {f : Bytes} {plen ps : Nat} (hok : Icmp6.integrity f plen ps = .ok none) :
    4 ≤ plen ∧ plen ≤ f.length ∧ ∃ t, idx f 0 = .ok t ∧ integrityOf f plen t = .ok none := by
  unfold Icmp6.integrity at hok
  split at hok
  · cases hok
  split at hok
  · cases hok
  · rename_i h1
    obtain ⟨t, ht, -, -⟩ := idx_ex (f := f) (i := 0) (by omega)
    simp only [ht, codec] at hok
    exact ⟨by omega, by omega, t, ht, hok⟩

theorem Icmp6.ok_ite {α : Type} {c : Prop} [Decidable c] {x y : Py α} (hx : c → ∃ r, x = .ok r)
    (hy : ¬ c → ∃ r, y = .ok r) : ∃ r, (if c then x else y) = .ok r := by
  by_cases h : c
  · rw [if_pos h]; exact hx h
  · rw [if_neg h]; exact hy h

theorem Icmp6.sanityNa_total {f : Bytes} (src dst : Ip6Address) (hop c : Nat) (hlen : 24 ≤ f.length) :
    ∃ r, sanityNa f src dst hop c = .ok r := by
  obtain ⟨fl, hfl, -, -⟩ := idx_ex (f := f) (i := 4) (by omega)
  simp only [sanityNa, naFlagS, hfl, codec]
  exact ok_ite (fun _ => ⟨_, rfl⟩) fun _ => ok_ite (fun _ => ⟨_, rfl⟩) fun _ => ok_ite (fun _ => ⟨_, rfl⟩) fun _ =>
    ok_ite (fun _ => ⟨_, rfl⟩) fun _ => ok_ite (fun _ => ⟨_, rfl⟩) fun _ => ⟨_, rfl⟩

theorem Icmp6.sanity_total {f : Bytes} {plen t c : Nat} (src dst : Ip6Address) (hop : Nat) (ht : idx f 0 = .ok t)
    (hc : idx f 1 = .ok c) (h133 : t ≠ 133) (h135 : t ≠ 135) (hit : integrityOf f plen t = .ok none) :
    ∃ r, Icmp6.sanity f src dst hop = .ok r := by
  simp only [Icmp6.sanity, Icmp6.type, Icmp6.code, ht, hc, codec]
  have two : ∀ (p : Prop) [Decidable p] (a b : Option String),
      ∃ r, (if p then Except.ok a else Except.ok b : Py (Option String)) = .ok r :=
    fun p _ a b => ok_ite (fun _ => ⟨_, rfl⟩) fun _ => ⟨_, rfl⟩
  refine ok_ite (fun _ => two ..) fun _ => ok_ite (fun _ => two ..) fun _ => ok_ite (fun _ => two ..) fun _ =>
    ok_ite (fun _ => two ..) fun _ => ok_ite (fun _ => two ..) fun _ =>
    ok_ite (fun _ => ok_ite (fun _ => ⟨_, rfl⟩) fun _ => two ..) fun _ => ok_ite (fun g => absurd g h133) fun _ =>
    ok_ite (fun _ => ⟨_, rfl⟩) fun _ => ok_ite (fun g => absurd g h135) fun _ => ok_ite (fun g => ?_) fun _ =>
    ok_ite (fun _ => ok_ite (fun _ => ⟨_, rfl⟩) fun _ => two ..) fun _ => ⟨_, rfl⟩
  subst g
  apply sanityNa_total
  simp only [integrityOf] at hit
  simp [badLength] at hit
  split at hit
  · cases hit
  · omega

/-- C25 (proved part): the only frames on which the parser raises (or hangs) are neighbour-discovery messages, and among
those only: a single stray byte after the options; a router solicitation from the unspecified address; a neighbour
solicitation from the unspecified address with a malformed prefix-information option.  The full claim (never) is false:
see the witnesses below. -/
theorem C25_icmp6_raises_only_partial (f : Bytes) (plen ps : Nat) (src dst : Ip6Address) (hop : Nat) (e : PyErr)
    (h : Icmp6.parse f plen ps src dst hop = .error e) :
    ∃ t, idx f 0 = .ok t ∧
      ((133 ≤ t ∧ t ≤ 136 ∧ e = .indexError ∧ ∃ k, f.length = ndStart t + 8 * k + 1) ∨
       (t = 133 ∧ src.int = 0 ∧ dst = allRouters ∧ hop = 255) ∨
       (t = 135 ∧ src.int = 0 ∧ hop = 255 ∧ BadPi f 24)) := by
  unfold Icmp6.parse at h
  cases hi : Icmp6.integrity f plen ps with
  | error e' =>
    rw [hi] at h
    simp only [codec] at h
    injection h with h
    subst h
    unfold Icmp6.integrity at hi
    split at hi
    · cases hi
    split at hi
    · cases hi
    · rename_i h1
      obtain ⟨t, ht, -, -⟩ := idx_ex (f := f) (i := 0) (by omega)
      simp only [ht, codec] at hi
      rcases integrityOf_total f plen t with ⟨r, hr⟩ | ⟨hr, a, b, k, hk⟩
      · rw [hr] at hi; cases hi
      · rw [hr] at hi
        injection hi with hi
        exact ⟨t, ht, .inl ⟨a, b, hi.symm, k, hk⟩⟩
  | ok r =>
    rw [hi] at h
    cases r with
    | some x => simp at h
    | none =>
      simp only [codec] at h
      obtain ⟨p1, p2, t, ht, hit⟩ := integrity_cases hi
      obtain ⟨c, hc, -, -⟩ := idx_ex (f := f) (i := 1) (by omega)
      refine ⟨t, ht, ?_⟩
      by_cases h133 : t = 133
      · right; left
        subst h133
        simp only [Icmp6.sanity, Icmp6.type, Icmp6.code, ht, hc, codec, sanityRs] at h
        simp at h
        repeat' split at h
        all_goals try cases h
        rename_i g1 g2 g3 g4 g5
        refine ⟨rfl, by simpa [Ip6Address.isUnspecified] using g5, by simpa using g4, by simpa using g2⟩
      · by_cases h135 : t = 135
        · right; right
          subst h135
          have hlen : 24 ≤ f.length := by
            simp only [integrityOf] at hit
            simp [badLength] at hit
            split at hit
            · cases hit
            · omega
          have hchk : ndOptionCheck f f.length 24 = .ok none := by
            simp only [integrityOf] at hit
            simp [badLength] at hit
            split at hit
            · cases hit
            · exact hit
          obtain ⟨a, ha, -⟩ := ip6_ok (f := f) (i := 8) (j := 24) rfl (by omega)
          obtain ⟨sn, hsn, -⟩ := solicited a
          simp only [Icmp6.sanity, Icmp6.type, Icmp6.code, ht, hc, codec, sanityNs, nsTarget, ha, hsn] at h
          simp at h
          by_cases hb : BadPi f 24
          · repeat' split at h
            all_goals try cases h
            rename_i g1 g2 g3 g4 g5 g6
            exact ⟨rfl, by simpa [Ip6Address.isUnspecified] using g6, by simpa using g2, hb⟩
          · exfalso
            obtain ⟨l, hl⟩ := readNdOptions_of_check f 24 hb f.length 24 .first hchk
            simp only [ndOptions, Icmp6.type, ht, codec, optStart] at h
            simp [hl] at h
            repeat' split at h
            all_goals cases h
        · exfalso
          obtain ⟨r, hr⟩ := sanity_total src dst hop ht hc h133 h135 hit
          rw [hr] at h
          cases h

/-- C25 (proved part): an accepted message other than a router solicitation can be read by the handler and the log line,
unless it carries a malformed prefix-information option. -/
theorem C25_icmp6_read_partial (f : Bytes) (plen ps : Nat) (src dst : Ip6Address) (hop t : Nat)
    (h : Icmp6.parse f plen ps src dst hop = .ok none) (ht : idx f 0 = .ok t) (hrs : t ≠ 133)
    (hpi : 134 ≤ t → t ≤ 136 → ¬ BadPi f (ndStart t)) : ∃ r, Icmp6.read f plen = .ok r := by
  unfold Icmp6.parse at h
  cases hi : Icmp6.integrity f plen ps with
  | error e' => rw [hi] at h; simp at h
  | ok r =>
    rw [hi] at h
    cases r with
    | some x => simp at h
    | none =>
      obtain ⟨p1, p2, t', ht', hit⟩ := integrity_cases hi
      rw [ht] at ht'
      injection ht' with ht'
      subst ht'
      obtain ⟨c, hc, -, -⟩ := idx_ex (f := f) (i := 1) (by omega)
      simp only [Icmp6.read, Icmp6.type, Icmp6.code, ht, hc, codec]
      unfold integrityOf at hit
      split
      · rename_i g; subst g; simp [Icmp6.unData, Icmp6.type, ht]
      · split
        · rename_i g1 g
          rw [if_neg g1, if_pos g] at hit
          split at hit
          · cases hit
          · have g' : (t == 128 || t == 129) = true := by simpa using g
            obtain ⟨i, hi, -, -⟩ := u16_ex (f := f) (i := 4) (by omega)
            obtain ⟨s, hs, -, -⟩ := u16_ex (f := f) (i := 6) (by omega)
            simp [Icmp6.ecId, Icmp6.ecSeq, Icmp6.ecData, Icmp6.type, ht, g', hi, hs]
        · split
          · rename_i g; subst g
            simp [badLength] at hit
            split at hit
            · cases hit
            · obtain ⟨l, hl⟩ := readNdOptions_of_check f 16 (hpi (by omega) (by omega)) f.length 16 .first hit
              obtain ⟨a, ha, -, -⟩ := idx_ex (f := f) (i := 4) (by omega)
              obtain ⟨b, hb, -, -⟩ := idx_ex (f := f) (i := 5) (by omega)
              obtain ⟨d, hd, -, -⟩ := u16_ex (f := f) (i := 6) (by omega)
              obtain ⟨u, hu, -, -⟩ := u32_ex (f := f) (i := 8) (by omega)
              obtain ⟨v, hv, -, -⟩ := u32_ex (f := f) (i := 12) (by omega)
              simp [readRa, ndOptions, optStart, Icmp6.type, ht, ha, hb, hd, hu, hv, hl]
          · split
            · rename_i g; subst g
              simp [badLength] at hit
              split at hit
              · cases hit
              · obtain ⟨l, hl⟩ := readNdOptions_of_check f 24 (hpi (by omega) (by omega)) f.length 24 .first hit
                obtain ⟨a, ha, -⟩ := ip6_ok (f := f) (i := 8) (j := 24) rfl (by omega)
                simp [nsTarget, ndOptions, optStart, Icmp6.type, ht, ha, hl]
            · split
              · rename_i g; subst g
                simp [badLength] at hit
                split at hit
                · cases hit
                · obtain ⟨l, hl⟩ := readNdOptions_of_check f 24 (hpi (by omega) (by omega)) f.length 24 .first hit
                  obtain ⟨a, ha, -⟩ := ip6_ok (f := f) (i := 8) (j := 24) rfl (by omega)
                  obtain ⟨b, hb, -, -⟩ := idx_ex (f := f) (i := 4) (by omega)
                  simp [readNa, naTarget, ndOptions, optStart, Icmp6.type, ht, ha, hb, hl]
              · exact ⟨_, rfl⟩

/-- Fill in the checksum of an ICMPv6 message sent from `src` to `dst`, and hand it to the parser, as a peer on the link
would do. -/
def Icmp6.received (f : Bytes) (src dst : Ip6Address) (hop : Nat) : Py (Option String) := do
  let ps ← Ip6.pshdrSum src dst f.length 58
  let f ← packIntoH f 2 (inetCksum f ps)
  Icmp6.parse f f.length ps src dst hop

/-- fe80::abcd and its solicited-node group, used in the witnesses. -/
def Icmp6.exampleTarget : Ip6Address := ⟨0xFE80000000000000000000000000ABCD, by decide⟩
def Icmp6.exampleGroup : Ip6Address := ⟨0xFF0200000000000000000001FF00ABCD, by decide⟩

/-- C25 fails: a neighbour solicitation with one stray byte after it makes the parser raise IndexError. -/
theorem C25_icmp6_stray_byte_witness :
    Icmp6.received ([135, 0, 0, 0, 0, 0, 0, 0] ++ exampleTarget.toBytes ++ [1]) ⟨0xFE800000000000000000000000000001, by decide⟩
      exampleGroup 255 = .error .indexError := by
  decide +kernel

/-- C25 fails: a duplicate-address probe with a cut-off prefix-information option makes the parser raise struct.error. -/
theorem C25_icmp6_short_prefix_witness :
    Icmp6.received ([135, 0, 0, 0, 0, 0, 0, 0] ++ exampleTarget.toBytes ++ [3, 1, 64, 0, 0, 0, 0, 0]) ⟨0, by decide⟩
      exampleGroup 255 = .error .structError := by
  decide +kernel

/-- C25 fails: a duplicate-address probe announcing a /129 makes the parser raise an address format error. -/
theorem C25_icmp6_long_prefix_witness :
    Icmp6.received ([135, 0, 0, 0, 0, 0, 0, 0] ++ exampleTarget.toBytes ++ [3, 4, 129] ++ List.replicate 29 0) ⟨0, by decide⟩
      exampleGroup 255 = .error .formatError := by
  decide +kernel

/-- C25 fails: a router solicitation from the unspecified address hangs the receive thread for ever. -/
theorem C25_icmp6_hang_witness :
    Icmp6.received [133, 0, 0, 0, 0, 0, 0, 0, 5, 1, 0, 0, 0, 0, 0, 0] ⟨0, by decide⟩ allRouters 255
      = .error .nonTermination := by
  decide +kernel

/-- The parser accepts a well-formed neighbour solicitation with a source link-layer address. -/
example : Icmp6.received ([135, 0, 0, 0, 0, 0, 0, 0] ++ exampleTarget.toBytes ++ [1, 1, 2, 0, 0, 0, 0, 7])
    ⟨0xFE800000000000000000000000000001, by decide⟩ exampleGroup 255 = .ok none := by
  decide +kernel

end Verif
