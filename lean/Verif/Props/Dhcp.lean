import Verif.Lemmas.Dhcp
import Verif.Props.Addr
/-! C66, C67, C68: DHCP messages and the DHCP client. -/
namespace Verif
open Dhcp Spec

/-! ### C66: build, then parse -/

/-- **C66** (partial: names of ASCII characters only): a message that the builder makes is parsed to the same header fields and to an option
for every argument that was given, where the builder leaves out a mask of length 0, an empty list or text and the number 0. -/
theorem C66_roundtrip_partial (a : Args) (b : Bytes) (hb : (build a).raw = .ok b) (hc : a.chaddr.length = 6)
    (h1 : ∀ s, a.hostName = some s → Ascii s) (h2 : ∀ s, a.domainName = some s → Ascii s) :
    ∃ p, parse b = .ok p ∧ p.op = a.op ∧ p.hwtype = 1 ∧ p.hwlen = 6 ∧ p.hops = 0 ∧ p.xid = a.xid ∧ p.secs = 0 ∧ p.flagB = a.flagB ∧
      p.ciaddr = a.ciaddr ∧ p.yiaddr = a.yiaddr ∧ p.siaddr = a.siaddr ∧ p.giaddr = a.giaddr ∧ p.chaddr = a.chaddr ∧
      p.sname = List.replicate 64 0 ∧ p.file = List.replicate 128 0 ∧
      p.subnetMask = a.subnetMask.filter (fun m => m.len ≠ 0) ∧
      p.router = a.router.filter (fun l => l ≠ []) ∧
      p.dns = a.dns.filter (fun l => l ≠ []) ∧
      p.hostName = a.hostName.filter (fun s => s ≠ "") ∧
      p.domainName = a.domainName.filter (fun s => s ≠ "") ∧
      p.reqIpAddr = a.reqIpAddr ∧
      p.leaseTime = a.leaseTime.filter (fun n => n ≠ 0) ∧
      p.srvId = a.srvId ∧
      p.paramReq = a.paramReq.filter (fun l => l ≠ []) ∧
      p.msgType = a.msgType.filter (fun n => n ≠ 0) := by
  refine ⟨build a, roundtrip a b hb hc h1 h2, rfl, rfl, rfl, rfl, rfl, rfl, rfl, rfl, rfl, rfl, rfl, rfl, rfl, rfl, ?_⟩
  have e : (build a).options = a.options := rfl
  have nn : ∀ {α β : Type} (o : Option α), (o.bind fun _ => (none : Option β)) = none := by intro α β o; cases o <;> rfl
  have ft : ∀ {α : Type} (o : Option α), o.filter (fun _ => true) = o := by intro α o; cases o <;> rfl
  have fb : ∀ {α : Type} (o : Option α) (f g : α → Bool), (∀ x, f x = g x) → (o.filter f).bind some = o.filter g := by
    intro α o f g h
    rw [funext h]; cases o.filter g <;> rfl
  have bs : ∀ {α : Type} (o : Option α), (o.bind fun v => some v) = o := by intro α o; cases o <;> rfl
  have eq : ∀ {α : Type} [BEq α] [LawfulBEq α] [DecidableEq α] (x y : α), (x == y) = decide (x = y) := by
    intro α _ _ _ x y; by_cases h : x = y <;> simp [h]
  refine ⟨?_, ?_, ?_, ?_, ?_, ?_, ?_, ?_, ?_, ?_⟩
  · simp only [Packet.subnetMask, e, Args.options, List.findSome?_append, given_find, nn, Option.or_none, Option.none_or, ft,
      List.findSome?_cons, List.findSome?_nil]
    exact fb _ _ _ fun x => by rw [eq]; simp
  · simp only [Packet.router, e, Args.options, List.findSome?_append, given_find, nn, Option.or_none, Option.none_or, ft,
      List.findSome?_cons, List.findSome?_nil]
    exact fb _ _ _ fun x => by cases x <;> simp
  · simp only [Packet.dns, e, Args.options, List.findSome?_append, given_find, nn, Option.or_none, Option.none_or, ft,
      List.findSome?_cons, List.findSome?_nil]
    exact fb _ _ _ fun x => by cases x <;> simp
  · simp only [Packet.hostName, e, Args.options, List.findSome?_append, given_find, nn, Option.or_none, Option.none_or, ft,
      List.findSome?_cons, List.findSome?_nil]
    exact fb _ _ _ fun x => by rw [eq]; simp
  · simp only [Packet.domainName, e, Args.options, List.findSome?_append, given_find, nn, Option.or_none, Option.none_or, ft,
      List.findSome?_cons, List.findSome?_nil]
    exact fb _ _ _ fun x => by rw [eq]; simp
  · simp only [Packet.reqIpAddr, e, Args.options, List.findSome?_append, given_find, nn, Option.or_none, Option.none_or, ft, Bool.not_false,
      List.findSome?_cons, List.findSome?_nil, bs]
  · simp only [Packet.leaseTime, e, Args.options, List.findSome?_append, given_find, nn, Option.or_none, Option.none_or, ft,
      List.findSome?_cons, List.findSome?_nil]
    exact fb _ _ _ fun x => by rw [eq]; simp
  · simp only [Packet.srvId, e, Args.options, List.findSome?_append, given_find, nn, Option.or_none, Option.none_or, ft, Bool.not_false,
      List.findSome?_cons, List.findSome?_nil, bs]
  · simp only [Packet.paramReq, e, Args.options, List.findSome?_append, given_find, nn, Option.or_none, Option.none_or, ft,
      List.findSome?_cons, List.findSome?_nil]
    exact fb _ _ _ fun x => by cases x <;> simp
  · simp only [Packet.msgType, e, Args.options, List.findSome?_append, given_find, nn, Option.or_none, Option.none_or, ft,
      List.findSome?_cons, List.findSome?_nil]
    exact fb _ _ _ fun x => by rw [eq]; simp

namespace Example.Dhcp
def mac : MacAddress := ⟨0x020000000001, by decide⟩
def ip (n : Nat) : Ip4Address := ⟨n % 2 ^ 32, Nat.mod_lt _ (by decide)⟩
def mask24 : Ip4Mask := ⟨0xFFFFFF00, by decide, by decide⟩
/-- a message with every option -/
def full : Args :=
  { op := 2, xid := 77, flagB := true, ciaddr := ip 0, yiaddr := ip 0x0A000005, siaddr := ip 0, giaddr := ip 0, chaddr := mac.toBytes,
    subnetMask := some mask24, router := some [ip 0x0A000001, ip 0x0A000002], dns := some [ip 0x08080808], hostName := some "PyTCP",
    domainName := some "example.org", reqIpAddr := some (ip 7), leaseTime := some 3600, srvId := some (ip 0x0A000001),
    paramReq := some [1, 3], msgType := some 5 }
def accented : Args := { full with hostName := some "caf\u00e9" }
end Example.Dhcp

example : ∃ b, (build Example.Dhcp.full).raw = .ok b ∧ b.length = 308 := ⟨_, rfl, by decide +kernel⟩

/-- **C66**: a host name that is not ASCII: its length is counted in characters, its bytes are cut to that, and the message cannot be
parsed. -/
theorem C66_not_ascii : ∃ (a : Args) (b : Bytes), a.chaddr.length = 6 ∧ (build a).raw = .ok b ∧ parse b = .error .valueError := by
  refine ⟨Example.Dhcp.accented, _, by decide, rfl, ?_⟩
  decide +kernel

/-! ### C67: the end of parsing -/

/-- **C67**: the rounds of the loop that `parse` allows are enough: with any larger number the result is the same.  So a result
`nonTermination` says that no number is enough. -/
theorem C67_enough (raw : Bytes) (fuel : Nat) (h : raw.length + 1 ≤ fuel) : parseWith fuel raw = parse raw := by
  obtain ⟨k, rfl⟩ : ∃ k, fuel = raw.length + 1 + k := ⟨fuel - (raw.length + 1), by omega⟩
  unfold parse parseWith
  rw [optLoop_enough]
  · simp [sliceFrom]
  · omega

/-- **C67** (partial): a datagram without a zero byte after its header is parsed, or an exception is raised: parsing ends. -/
theorem C67_ends_partial (raw : Bytes) (h : (0 : UInt8) ∉ raw.drop 240) : parse raw ≠ .error .nonTermination := by
  suffices Ends (parse raw) from this.ne
  unfold parse parseWith
  split
  · exact .err (by decide)
  · refine (ends_idx ..).bind fun _ _ => (ends_idx ..).bind fun _ _ => (ends_idx ..).bind fun _ _ => (ends_idx ..).bind fun _ _ =>
      (ends_unpack ..).bind fun _ _ => (ends_unpack ..).bind fun _ _ => (ends_unpack ..).bind fun _ _ => (ends_ip4 _).bind fun _ _ =>
      (ends_ip4 _).bind fun _ _ => (ends_ip4 _).bind fun _ _ => (ends_ip4 _).bind fun _ _ => Ends.bind ?_ fun _ _ => .ok _
    exact ends_optLoop _ h _ _ _ (by simp [sliceFrom]) (by omega)

/-- **C67** (partial): any header with well-formed options, then END and anything after it, or nothing: parsing ends, and gives a packet. -/
theorem C67_wellformed_partial (hdr : Bytes) (hh : hdr.length = 240) (ts : List Tlv) (ht : ∀ t ∈ ts, t.WellFormed) (tail : Bytes) :
    (∃ p, parse (hdr ++ (ts.flatMap Tlv.bytes ++ 255 :: tail)) = .ok p) ∧ ∃ p, parse (hdr ++ ts.flatMap Tlv.bytes) = .ok p := by
  obtain ⟨p, hp⟩ := header_any hdr hh
  obtain ⟨ps, h1, h2⟩ := tlvs_canon ht
  have hn := canon_count h1
  unfold parse
  rw [hp, hp, ← h2, optLoop_end h1 _ _ (by rw [List.length_append, List.length_append]; omega),
    optLoop_stop h1 _ (by rw [List.length_append]; omega)]
  exact ⟨⟨_, rfl⟩, ⟨_, rfl⟩⟩

/-- **C67** is false: any header with well-formed options, then a PAD, whatever comes after it: parsing does not end, in any number of
rounds. -/
theorem C67_pad (hdr : Bytes) (hh : hdr.length = 240) (ts : List Tlv) (ht : ∀ t ∈ ts, t.WellFormed) (tail : Bytes) (fuel : Nat) :
    parseWith fuel (hdr ++ (ts.flatMap Tlv.bytes ++ 0 :: tail)) = .error .nonTermination := by
  obtain ⟨p, hp⟩ := header_any hdr hh
  obtain ⟨ps, h1, h2⟩ := tlvs_canon ht
  rw [hp, ← h2]
  suffices optLoop (ps.flatMap Prod.snd ++ 0 :: tail) fuel 0 [] = .error .nonTermination by rw [this]; rfl
  have hpad : idx (ps.flatMap Prod.snd ++ 0 :: tail) (ps.flatMap Prod.snd).length = .ok 0 := by simp [idx]
  have hl := (optLoop_canon h1 (pre := []) (rest := 0 :: tail) (opts := []) (fuel := fuel) rfl).1
  simp only [List.nil_append, List.length_nil, Nat.zero_add] at hl
  rw [optLoop_pad hpad] at hl
  by_cases hf : (ps.flatMap Prod.snd ++ 0 :: tail).length + 1 ≤ fuel
  · obtain ⟨k, rfl⟩ : ∃ k, fuel = (ps.flatMap Prod.snd ++ 0 :: tail).length + 1 + k := ⟨_, (Nat.add_sub_cancel' hf).symm⟩
    rw [Nat.add_assoc, optLoop_enough _ _ _ _ _ (by omega) (by omega)] at hl
    rw [optLoop_enough _ _ _ _ _ (by omega) (by omega)]
    exact hl
  · exact optLoop_less hl (by omega)

/-- An option that RFC 2132 defines, one that the parser does not know, and a PAD after them. -/
example : (⟨53, [2]⟩ : Tlv).WellFormed ∧ (⟨28, [10, 0, 0, 255]⟩ : Tlv).WellFormed ∧ (⟨3, [10, 0, 0, 1]⟩ : Tlv).WellFormed := by
  simp [Tlv.WellFormed]

/-! ### C68: the client -/

/-- The gateway that the router option of an acknowledgement makes: its first address. -/
def FirstRouter (l : Option (List Ip4Address)) (g : Option Ip4Address) : Prop :=
  match l with
  | none => g = none
  | some l => ∃ x r, l = x :: r ∧ g = some x

/-- The client's two messages can be built. -/
theorem fetch_discover (mac : MacAddress) (xid : Nat) (hx : xid < 2 ^ 32) : ∃ b, (build (discover mac xid)).raw = .ok b :=
  raw_ok _ (show 1 < 256 by decide) hx ⟨_, rfl⟩
theorem fetch_request (mac : MacAddress) (xid : Nat) (hx : xid < 2 ^ 32) (s : Option Ip4Address) (y : Ip4Address) :
    ∃ b, (build (request mac xid s y)).raw = .ok b := by
  refine raw_ok _ (show 1 < 256 by decide) hx ?_
  cases s <;> exact ⟨_, rfl⟩

theorem fetch_cases (mac : MacAddress) (xid : Nat) (hx : xid < 2 ^ 32) (r₁ r₂ : Py Bytes) :
    ∃ b₁, (build (discover mac xid)).raw = .ok b₁ ∧
      ((r₁ = .error .receiveTimeout ∧ fetch mac xid r₁ r₂ = ⟨[b₁], true, .ok none⟩) ∨
      (∃ e, e ≠ .receiveTimeout ∧ r₁ = .error e ∧ fetch mac xid r₁ r₂ = ⟨[b₁], false, .error e⟩) ∨
      (∃ d e, r₁ = .ok d ∧ parse d = .error e ∧ fetch mac xid r₁ r₂ = ⟨[b₁], false, .error e⟩) ∨
      (∃ d p, r₁ = .ok d ∧ parse d = .ok p ∧ p.msgType ≠ some 2 ∧ fetch mac xid r₁ r₂ = ⟨[b₁], true, .ok none⟩) ∨
      (∃ d p b₂, r₁ = .ok d ∧ parse d = .ok p ∧ p.msgType = some 2 ∧ (build (request mac xid p.srvId p.yiaddr)).raw = .ok b₂ ∧
        fetch mac xid r₁ r₂ = fetchAck [b₁, b₂] r₂)) := by
  obtain ⟨b, hb⟩ := fetch_discover mac xid hx
  refine ⟨b, hb, ?_⟩
  unfold fetch
  simp only [hb]
  cases r₁ with
  | error e =>
    by_cases he : e = .receiveTimeout
    · subst he; exact .inl ⟨rfl, rfl⟩
    · refine .inr (.inl ⟨e, he, rfl, ?_⟩)
      cases e <;> first | rfl | exact absurd rfl he
  | ok d =>
    simp only
    cases hp : parse d with
    | error e => exact .inr (.inr (.inl ⟨d, e, rfl, hp, rfl⟩))
    | ok p =>
      simp only
      by_cases ht : p.msgType = some 2
      · obtain ⟨b₂, h₂⟩ := fetch_request mac xid hx p.srvId p.yiaddr
        refine .inr (.inr (.inr (.inr ⟨d, p, b₂, rfl, hp, ht, h₂, ?_⟩)))
        simp only [h₂, ht, ne_eq, not_true, if_false]
      · refine .inr (.inr (.inr (.inl ⟨d, p, rfl, hp, ht, ?_⟩)))
        rw [if_pos ht]

theorem fetchAck_cases (sent : List Bytes) (r : Py Bytes) :
    (r = .error .receiveTimeout ∧ fetchAck sent r = ⟨sent, true, .ok none⟩) ∨
    (∃ e, e ≠ .receiveTimeout ∧ r = .error e ∧ fetchAck sent r = ⟨sent, false, .error e⟩) ∨
    (∃ d e, r = .ok d ∧ parse d = .error e ∧ fetchAck sent r = ⟨sent, false, .error e⟩) ∨
    (∃ d p, r = .ok d ∧ parse d = .ok p ∧ p.msgType ≠ some 5 ∧ fetchAck sent r = ⟨sent, true, .ok none⟩) ∨
    (∃ d p, r = .ok d ∧ parse d = .ok p ∧ p.msgType = some 5 ∧ fetchAck sent r = ⟨sent, true, lease p⟩) := by
  unfold fetchAck
  cases r with
  | error e =>
    by_cases he : e = .receiveTimeout
    · subst he; exact .inl ⟨rfl, rfl⟩
    · refine .inr (.inl ⟨e, he, rfl, ?_⟩)
      cases e <;> first | rfl | exact absurd rfl he
  | ok d =>
    simp only
    cases hp : parse d with
    | error e => exact .inr (.inr (.inl ⟨d, e, rfl, hp, rfl⟩))
    | ok p =>
      simp only
      by_cases ht : p.msgType = some 5
      · refine .inr (.inr (.inr (.inr ⟨d, p, rfl, hp, ht, ?_⟩)))
        rw [if_neg (by simp [ht])]
      · refine .inr (.inr (.inr (.inl ⟨d, p, rfl, hp, ht, ?_⟩)))
        rw [if_pos ht]

theorem lease_ne_none (p : Packet) : lease p ≠ .ok none := by
  unfold lease
  intro h
  split at h
  · cases h
  · rename_i m _
    split at h
    · cases h
    · cases h
    · rename_i g r _
      cases hg : (Ip4Host.ofMask p.yiaddr m).setGateway (some g) with
      | error e => simp [hg] at h
      | ok x => simp [hg] at h

theorem setGateway_eq {h h' : Ip4Host} {g : Ip4Address} (e : h.setGateway (some g) = .ok h') : h' = { h with gateway := some g } := by
  unfold Ip4Host.setGateway at e
  dsimp only at e
  split at e
  · cases e
  · split at e
    · cases e
    · split at e
      · cases e
      · split at e
        · cases e
        · split at e
          · cases e
          · cases e; rfl

theorem lease_some (p : Packet) (h : Ip4Host) :
    lease p = .ok (some h) ↔ ∃ m, p.subnetMask = some m ∧ h.address = p.yiaddr ∧ h.network = Ip4Network.ofMask p.yiaddr m ∧
      FirstRouter p.router h.gateway ∧ h.GatewayOk := by
  obtain ⟨ha, hn, hg⟩ := h
  unfold lease
  cases hm : p.subnetMask with
  | none => simp
  | some m =>
    simp only [Option.some.injEq, exists_eq_left']
    cases hr : p.router with
    | none =>
      simp only [FirstRouter]
      constructor
      · intro e
        injection e with e
        injection e with e
        injection e with e1 e2 e3
        subst e1 e2 e3
        exact ⟨rfl, rfl, rfl, by intro g hg; cases hg⟩
      · rintro ⟨h1, h2, h3, -⟩
        subst h1 h2 h3
        rfl
    | some l =>
      cases l with
      | nil => simp [FirstRouter]
      | cons g r =>
        simp only [FirstRouter]
        constructor
        · intro e
          cases hs : (Ip4Host.ofMask p.yiaddr m).setGateway (some g) with
          | error e' => rw [hs] at e; cases e
          | ok h' =>
            rw [hs] at e
            simp only [py_ok_bind, py_pure] at e
            injection e with e
            injection e with e
            subst e
            have := setGateway_eq hs
            injection this with e1 e2 e3
            subst e1 e2 e3
            refine ⟨rfl, rfl, ⟨g, r, rfl, rfl⟩, ?_⟩
            obtain ⟨a1, a2, a3, a4⟩ := (C12_ip4_gateway_accepts _ g).mp ⟨_, hs⟩
            intro g' hg'
            cases hg'
            exact ⟨a1, a2, a3, a4⟩
        · rintro ⟨h1, h2, ⟨x, r', e, h3⟩, hok⟩
          subst h1 h2 h3
          injection e with e1 e2
          subst e1 e2
          obtain ⟨h', hs⟩ := (C12_ip4_gateway_accepts (Ip4Host.ofMask p.yiaddr m) g).mpr (hok g rfl)
          rw [hs, setGateway_eq hs]
          rfl

/-- **C68**: `fetch` returns a host exactly when the first datagram is an OFFER (type 2), the second is an ACK (type 5) with a mask,
and the first of its routers, if there is a router option, can be a gateway; then it is the host with the address and the mask of
the ACK and that gateway. -/
theorem C68_host (mac : MacAddress) (xid : Nat) (hx : xid < 2 ^ 32) (r₁ r₂ : Py Bytes) (h : Ip4Host) :
    (fetch mac xid r₁ r₂).result = .ok (some h) ↔
      ∃ d₁ p₁ d₂ p₂ m, r₁ = .ok d₁ ∧ parse d₁ = .ok p₁ ∧ p₁.msgType = some 2 ∧
        r₂ = .ok d₂ ∧ parse d₂ = .ok p₂ ∧ p₂.msgType = some 5 ∧ p₂.subnetMask = some m ∧
        h.address = p₂.yiaddr ∧ h.network = Ip4Network.ofMask p₂.yiaddr m ∧ FirstRouter p₂.router h.gateway ∧ h.GatewayOk := by
  obtain ⟨b₁, -, c⟩ := fetch_cases mac xid hx r₁ r₂
  constructor
  · intro e
    rcases c with ⟨-, c⟩ | ⟨_, -, -, c⟩ | ⟨_, _, -, -, c⟩ | ⟨_, _, -, -, -, c⟩ | ⟨d, p, b₂, h1, h2, h3, -, c⟩ <;> rw [c] at e
    · cases e
    · cases e
    · cases e
    · cases e
    · rcases fetchAck_cases [b₁, b₂] r₂ with ⟨-, c⟩ | ⟨_, -, -, c⟩ | ⟨_, _, -, -, c⟩ | ⟨_, _, -, -, -, c⟩ | ⟨d', p', h4, h5, h6, c⟩ <;> rw [c] at e
      · cases e
      · cases e
      · cases e
      · cases e
      · obtain ⟨m, h7, h8⟩ := (lease_some p' h).mp e
        exact ⟨d, p, d', p', m, h1, h2, h3, h4, h5, h6, h7, h8⟩
  · rintro ⟨d, p, d', p', m, h1, h2, h3, h4, h5, h6, h7, h8⟩
    subst h1 h4
    rcases c with ⟨c, -⟩ | ⟨_, -, c, -⟩ | ⟨_, _, c, c', -⟩ | ⟨_, _, c, c', c'', -⟩ | ⟨d₀, p₀, b₂, -, -, -, -, c⟩
    · cases c
    · cases c
    · cases c; rw [h2] at c'; cases c'
    · cases c; rw [h2] at c'; cases c'; exact absurd h3 c''
    · rw [c]
      rcases fetchAck_cases [b₁, b₂] (.ok d') with ⟨c, -⟩ | ⟨_, -, c, -⟩ | ⟨_, _, c, c', -⟩ | ⟨_, _, c, c', c'', -⟩ | ⟨_, _, e1, e2, -, c⟩
      · cases c
      · cases c
      · cases c; rw [h5] at c'; cases c'
      · cases c; rw [h5] at c'; cases c'; exact absurd h6 c''
      · cases e1; rw [h5] at e2; cases e2
        rw [c]
        exact (lease_some p' h).mpr ⟨m, h7, h8⟩

/-- **C68**: `fetch` returns nothing exactly when one of the two datagrams does not come within the time, or is well-formed but of another
type. -/
theorem C68_none (mac : MacAddress) (xid : Nat) (hx : xid < 2 ^ 32) (r₁ r₂ : Py Bytes) :
    (fetch mac xid r₁ r₂).result = .ok none ↔
      r₁ = .error .receiveTimeout ∨
      ∃ d₁ p₁, r₁ = .ok d₁ ∧ parse d₁ = .ok p₁ ∧
        (p₁.msgType ≠ some 2 ∨
          p₁.msgType = some 2 ∧ (r₂ = .error .receiveTimeout ∨ ∃ d₂ p₂, r₂ = .ok d₂ ∧ parse d₂ = .ok p₂ ∧ p₂.msgType ≠ some 5)) := by
  obtain ⟨b₁, -, c⟩ := fetch_cases mac xid hx r₁ r₂
  constructor
  · intro e
    rcases c with ⟨h, -⟩ | ⟨_, -, -, c⟩ | ⟨_, _, -, -, c⟩ | ⟨d, p, h1, h2, h3, -⟩ | ⟨d, p, b₂, h1, h2, h3, -, c⟩
    · exact .inl h
    · rw [c] at e; cases e
    · rw [c] at e; cases e
    · exact .inr ⟨d, p, h1, h2, .inl h3⟩
    · refine .inr ⟨d, p, h1, h2, .inr ⟨h3, ?_⟩⟩
      rw [c] at e
      rcases fetchAck_cases [b₁, b₂] r₂ with ⟨h, -⟩ | ⟨_, -, -, c⟩ | ⟨_, _, -, -, c⟩ | ⟨d', p', h4, h5, h6, -⟩ | ⟨d', p', -, -, -, c⟩
      · exact .inl h
      · rw [c] at e; cases e
      · rw [c] at e; cases e
      · exact .inr ⟨d', p', h4, h5, h6⟩
      · rw [c] at e; exact absurd e (lease_ne_none p')
  · intro e
    rcases c with ⟨-, c⟩ | ⟨x, hx, c', -⟩ | ⟨_, _, c', c'', -⟩ | ⟨_, _, -, -, -, c⟩ | ⟨d, p, b₂, h1, h2, h3, -, c⟩
    · rw [c]
    · rcases e with e | ⟨_, _, e, -⟩
      · rw [c'] at e; cases e; exact absurd rfl hx
      · rw [c'] at e; cases e
    · rcases e with e | ⟨_, _, e, e', -⟩
      · rw [c'] at e; cases e
      · rw [c'] at e; cases e; rw [c''] at e'; cases e'
    · rw [c]
    · rw [c]
      rcases e with e | ⟨_, _, e, e', e''⟩
      · rw [h1] at e; cases e
      · rw [h1] at e; cases e; rw [h2] at e'; cases e'
        rcases e'' with e | ⟨-, e⟩
        · exact absurd h3 e
        · rcases fetchAck_cases [b₁, b₂] r₂ with ⟨-, c⟩ | ⟨x, hx, c', -⟩ | ⟨_, _, c', c'', -⟩ | ⟨_, _, -, -, -, c⟩ | ⟨_, _, c', c'', c3, -⟩
          · rw [c]
          · rcases e with e | ⟨_, _, e, -⟩
            · rw [c'] at e; cases e; exact absurd rfl hx
            · rw [c'] at e; cases e
          · rcases e with e | ⟨_, _, e, e', -⟩
            · rw [c'] at e; cases e
            · rw [c'] at e; cases e; rw [c''] at e'; cases e'
          · rw [c]
          · rcases e with e | ⟨_, _, e, e', e3⟩
            · rw [c'] at e; cases e
            · rw [c'] at e; cases e; rw [c''] at e'; cases e'; exact absurd c3 e3

/-- **C68**: whenever `fetch` returns, the socket is closed. -/
theorem C68_closed (mac : MacAddress) (xid : Nat) (hx : xid < 2 ^ 32) (r₁ r₂ : Py Bytes) (o : Option Ip4Host)
    (h : (fetch mac xid r₁ r₂).result = .ok o) : (fetch mac xid r₁ r₂).closed = true := by
  obtain ⟨b₁, -, c⟩ := fetch_cases mac xid hx r₁ r₂
  rcases c with ⟨-, c⟩ | ⟨_, -, -, c⟩ | ⟨_, _, -, -, c⟩ | ⟨_, _, -, -, -, c⟩ | ⟨d, p, b₂, -, -, -, -, c⟩ <;> rw [c] at h ⊢
  · cases h
  · cases h
  · rcases fetchAck_cases [b₁, b₂] r₂ with ⟨-, c⟩ | ⟨_, -, -, c⟩ | ⟨_, _, -, -, c⟩ | ⟨_, _, -, -, -, c⟩ | ⟨_, _, -, -, -, c⟩ <;> rw [c] at h ⊢
    · cases h
    · cases h

/-- **C68**: a datagram that cannot be parsed, as the first or, after an OFFER, as the second: `fetch` raises and its socket stays open,
so that port 68 is in use from then on. -/
theorem C68_left_open (mac : MacAddress) (xid : Nat) (hx : xid < 2 ^ 32) (d : Bytes) (e : PyErr) (hd : parse d = .error e) :
    (∀ r₂, (fetch mac xid (.ok d) r₂).result = .error e ∧ (fetch mac xid (.ok d) r₂).closed = false) ∧
    ∀ o p, parse o = .ok p → p.msgType = some 2 →
      (fetch mac xid (.ok o) (.ok d)).result = .error e ∧ (fetch mac xid (.ok o) (.ok d)).closed = false := by
  constructor
  · intro r₂
    obtain ⟨b₁, -, c⟩ := fetch_cases mac xid hx (.ok d) r₂
    rcases c with ⟨c, -⟩ | ⟨_, -, c, -⟩ | ⟨_, _, h1, h2, c⟩ | ⟨_, _, h1, h2, -, -⟩ | ⟨_, _, _, h1, h2, -, -, -⟩
    · cases c
    · cases c
    · cases h1; rw [hd] at h2; cases h2; rw [c]; exact ⟨rfl, rfl⟩
    · cases h1; rw [hd] at h2; cases h2
    · cases h1; rw [hd] at h2; cases h2
  · intro o p ho ht
    obtain ⟨b₁, -, c⟩ := fetch_cases mac xid hx (.ok o) (.ok d)
    rcases c with ⟨c, -⟩ | ⟨_, -, c, -⟩ | ⟨_, _, h1, h2, -⟩ | ⟨_, _, h1, h2, h3, -⟩ | ⟨_, _, b₂, -, -, -, -, c⟩
    · cases c
    · cases c
    · cases h1; rw [ho] at h2; cases h2
    · cases h1; rw [ho] at h2; cases h2; exact absurd ht h3
    · rw [c]
      rcases fetchAck_cases [b₁, b₂] (.ok d) with ⟨c, -⟩ | ⟨_, -, c, -⟩ | ⟨_, _, h1, h2, c⟩ | ⟨_, _, h1, h2, -, -⟩ | ⟨_, _, h1, h2, -, -⟩
      · cases c
      · cases c
      · cases h1; rw [hd] at h2; cases h2; rw [c]; exact ⟨rfl, rfl⟩
      · cases h1; rw [hd] at h2; cases h2
      · cases h1; rw [hd] at h2; cases h2

/-- **C68**: what the client says.  The first datagram is a DISCOVER and the second, sent exactly when the first reply is an OFFER, is a
REQUEST for the address of the OFFER from the server it names; both are BOOTREQUESTs with the client's hardware address and the same
transaction number and ask for a mask and routers. -/
theorem C68_messages (mac : MacAddress) (xid : Nat) (hx : xid < 2 ^ 32) (r₁ r₂ : Py Bytes) :
    ∃ b₁ q₁, parse b₁ = .ok q₁ ∧ q₁.op = 1 ∧ q₁.xid = xid ∧ q₁.chaddr = mac.toBytes ∧ q₁.msgType = some 1 ∧ q₁.paramReq = some [1, 3] ∧
      ((fetch mac xid r₁ r₂).sent = [b₁] ∧ (¬ ∃ d p, r₁ = .ok d ∧ parse d = .ok p ∧ p.msgType = some 2) ∨
        ∃ d p b₂ q₂, r₁ = .ok d ∧ parse d = .ok p ∧ p.msgType = some 2 ∧ (fetch mac xid r₁ r₂).sent = [b₁, b₂] ∧ parse b₂ = .ok q₂ ∧
          q₂.op = 1 ∧ q₂.xid = xid ∧ q₂.chaddr = mac.toBytes ∧ q₂.msgType = some 3 ∧ q₂.paramReq = some [1, 3] ∧
          q₂.srvId = p.srvId ∧ q₂.reqIpAddr = some p.yiaddr) := by
  obtain ⟨b₁, hb, c⟩ := fetch_cases mac xid hx r₁ r₂
  have asc : ∀ s, (some "PyTCP" : Option String) = some s → Ascii s := by
    intro s e; cases e; unfold Ascii; decide
  have hq := roundtrip _ b₁ hb (MacAddress.toBytes_length mac) asc (by intro s e; cases e)
  refine ⟨b₁, _, hq, rfl, rfl, rfl, rfl, rfl, ?_⟩
  rcases c with ⟨h1, c⟩ | ⟨_, -, h1, c⟩ | ⟨_, _, h1, h2, c⟩ | ⟨_, _, h1, h2, h3, c⟩ | ⟨d, p, b₂, h1, h2, h3, h4, c⟩ <;> rw [c]
  · refine .inl ⟨rfl, ?_⟩
    rintro ⟨_, _, h, -⟩; rw [h1] at h; cases h
  · refine .inl ⟨rfl, ?_⟩
    rintro ⟨_, _, h, -⟩; rw [h1] at h; cases h
  · refine .inl ⟨rfl, ?_⟩
    rintro ⟨_, _, h, h', -⟩; rw [h1] at h; cases h; rw [h2] at h'; cases h'
  · refine .inl ⟨rfl, ?_⟩
    rintro ⟨_, _, h, h', h''⟩; rw [h1] at h; cases h; rw [h2] at h'; cases h'; exact h3 h''
  · have hq2 := roundtrip _ b₂ h4 (MacAddress.toBytes_length mac) asc (by intro s e; cases e)
    refine .inr ⟨d, p, b₂, _, h1, h2, h3, ?_, hq2, rfl, rfl, rfl, ?_, ?_, ?_, ?_⟩
    · rcases fetchAck_cases [b₁, b₂] r₂ with ⟨-, c⟩ | ⟨_, -, -, c⟩ | ⟨_, _, -, -, c⟩ | ⟨_, _, -, -, -, c⟩ | ⟨_, _, -, -, -, c⟩ <;> rw [c]
    all_goals cases p.srvId <;> rfl

/-- **C68**: replies are not matched to the transaction: what `fetch` returns does not depend on the number it chose nor on the
hardware address, so an OFFER and an ACK for another client's transaction are taken. -/
theorem C68_not_matched (mac mac' : MacAddress) (xid xid' : Nat) (hx : xid < 2 ^ 32) (hx' : xid' < 2 ^ 32) (r₁ r₂ : Py Bytes) :
    (fetch mac xid r₁ r₂).result = (fetch mac' xid' r₁ r₂).result := by
  have key : ∀ (s s' : List Bytes) (r : Py Bytes), (fetchAck s r).result = (fetchAck s' r).result := by
    intro s s' r
    unfold fetchAck
    cases r with
    | error e => cases e <;> rfl
    | ok d =>
      dsimp only
      cases parse d with
      | error e => rfl
      | ok p => dsimp only; split <;> rfl
  obtain ⟨b₁, hb₁⟩ := fetch_discover mac xid hx
  obtain ⟨b₁', hb₁'⟩ := fetch_discover mac' xid' hx'
  unfold fetch
  simp only [hb₁, hb₁']
  cases r₁ with
  | error e => cases e <;> rfl
  | ok d =>
    dsimp only
    cases parse d with
    | error e => rfl
    | ok p =>
      dsimp only
      obtain ⟨b₂, hb₂⟩ := fetch_request mac xid hx p.srvId p.yiaddr
      obtain ⟨b₂', hb₂'⟩ := fetch_request mac' xid' hx' p.srvId p.yiaddr
      simp only [hb₂, hb₂']
      split
      · rfl
      · exact key _ _ _

namespace Example.Dhcp
def offer : Bytes := match (build { full with msgType := some 2 }).raw with | .ok b => b | .error _ => []
def ack : Bytes := match (build full).raw with | .ok b => b | .error _ => []
end Example.Dhcp

/-- A lease: an OFFER, then an ACK with a mask and two routers. -/
example : (fetch Example.Dhcp.mac 5 (.ok Example.Dhcp.offer) (.ok Example.Dhcp.ack)).result =
    .ok (some ⟨Example.Dhcp.ip 0x0A000005, Ip4Network.ofMask (Example.Dhcp.ip 0x0A000005) Example.Dhcp.mask24, some (Example.Dhcp.ip 0x0A000001)⟩) := by
  decide +kernel

end Verif
