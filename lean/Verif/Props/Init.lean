import Verif.Lemmas.Init
import Verif.Spec.Init
import Verif.Spec.Rx
import Verif.Props.AddrText
import Verif.Props.Addrs
import Verif.Props.WireNd
/-! C95: making and starting the stack. -/
namespace Verif
open Spec

/-! ### Gateways -/

theorem cidr_ends {N : Ip4Network} {a : Ip4Address} {n : Nat} (hl : n ≤ 32) (hc : ∀ b, N.contains b = true ↔ cidr 32 a.int n b.int) :
    N.address.int = a.int / 2 ^ (32 - n) * 2 ^ (32 - n) ∧ N.lastInt = a.int / 2 ^ (32 - n) * 2 ^ (32 - n) + (2 ^ (32 - n) - 1) := by
  have hp := Nat.two_pow_pos (32 - n)
  obtain ⟨h1, h2, l, h3, h4, h5, h6⟩ := C11_ip4_membership N
  rw [Ip4Network.last_ok] at h3
  injection h3 with h3
  subst h3
  have hlt := a.lt
  generalize hk : 2 ^ (32 - n) = k at *
  have hp : 0 < k := by rw [← hk]; exact Nat.two_pow_pos _
  have hle : a.int / k * k ≤ a.int := Nat.div_mul_le_self _ _
  have hub : a.int / k * k + (k - 1) < 2 ^ 32 := by
    have : (2 : Nat) ^ 32 = 2 ^ n * k := by rw [← hk, ← Nat.pow_add]; congr 1; omega
    rw [this] at hlt ⊢
    have h1 : a.int / k < 2 ^ n := (Nat.div_lt_iff_lt_mul hp).2 hlt
    have h2 : (a.int / k + 1) * k ≤ 2 ^ n * k := Nat.mul_le_mul_right k h1
    rw [Nat.add_mul, Nat.one_mul] at h2
    omega
  have q2 := (hc _).1 h2
  have q5 := (hc _).1 h5
  unfold cidr at q2 q5
  rw [hk] at q2 q5
  have f1 : N.contains ⟨a.int / k * k, by omega⟩ = true := by
    rw [hc]; unfold cidr; rw [hk]; exact Nat.mul_div_cancel _ hp
  have f2 : N.contains ⟨a.int / k * k + (k - 1), hub⟩ = true := by
    rw [hc]; unfold cidr; rw [hk]
    show (a.int / k * k + (k - 1)) / k = a.int / k
    rw [Nat.mul_comm, Nat.mul_add_div hp, Nat.div_eq_of_lt (Nat.sub_lt hp Nat.one_pos), Nat.add_zero]
  have g1 := h6 _ f1
  have g2 := h6 _ f2
  dsimp only at q5 g1 g2
  have e1 := Nat.div_mul_le_self N.address.int k
  rw [q2] at e1
  have e2 := Nat.mod_lt N.lastInt hp
  have e3 := Nat.div_add_mod N.lastInt k
  rw [q5, Nat.mul_comm] at e3
  omega

theorem net4_ends (a : Ip4Address) (m : Ip4Mask) :
    (Ip4Network.ofMask a m).address.int = a.int / 2 ^ (32 - m.len) * 2 ^ (32 - m.len) ∧
    (Ip4Network.ofMask a m).lastInt = a.int / 2 ^ (32 - m.len) * 2 ^ (32 - m.len) + (2 ^ (32 - m.len) - 1) :=
  cidr_ends m.len_form.1 fun b => C11_network_of_address a b m

theorem gateway4 (a : Ip4Address) (m : Ip4Mask) (g : Ip4Address) :
    (Ip4Host.ofMask a m).setGateway (some g) =
      if Usable4 a m.len g then .ok { Ip4Host.ofMask a m with gateway := some g } else .error .gatewayError := by
  obtain ⟨h1, h2⟩ := net4_ends a m
  have hp := Nat.two_pow_pos (32 - m.len)
  have hc := C11_network_of_address a g m
  have key : (Ip4Network.ofMask a m).contains g = true →
      ((g = (Ip4Network.ofMask a m).address ↔ g.int % 2 ^ (32 - m.len) = 0) ∧
       (g = ⟨(Ip4Network.ofMask a m).lastInt, (Ip4Network.ofMask a m).lastInt_lt⟩ ↔ g.int % 2 ^ (32 - m.len) = 2 ^ (32 - m.len) - 1)) := by
    intro h
    have q := hc.1 h
    unfold cidr at q
    have e := Nat.div_add_mod g.int (2 ^ (32 - m.len))
    rw [q, Nat.mul_comm] at e
    constructor
    · constructor
      · intro w; rw [← w] at h1; omega
      · intro w; apply Ip4Address.ext'; omega
    · constructor
      · intro w
        have w' : g.int = (Ip4Network.ofMask a m).lastInt := by rw [w]
        omega
      · intro w; apply Ip4Address.ext'; show g.int = (Ip4Network.ofMask a m).lastInt; omega
  unfold Ip4Host.setGateway
  rw [Ip4Network.broadcast_ok]
  show (if (!(Ip4Network.ofMask a m).contains g) = true then _ else if g = (Ip4Network.ofMask a m).address then _ else
    if g = ⟨(Ip4Network.ofMask a m).lastInt, (Ip4Network.ofMask a m).lastInt_lt⟩ then _ else if g = a then _ else _) = _
  by_cases hh : (Ip4Network.ofMask a m).contains g = true
  · obtain ⟨k1, k2⟩ := key hh
    have hcid := hc.1 hh
    simp only [hh, Bool.not_true, Bool.false_eq_true, if_false, k1, k2, Usable4, hcid, true_and]
    by_cases c1 : g.int % 2 ^ (32 - m.len) = 0
    · simp [c1]
    · by_cases c2 : g.int % 2 ^ (32 - m.len) = 2 ^ (32 - m.len) - 1
      · simp [c1, c2]
      · by_cases c3 : g = a <;> simp [c1, c2, c3]
  · have : ¬ Usable4 a m.len g := fun u => hh (hc.2 u.1)
    simp [hh, this]

theorem gateway6 (h : Ip6Host) (g : Ip6Address) :
    h.setGateway (some g) = if Usable6 g then .ok { h with gateway := some g } else .error .gatewayError := by
  have hll : ip6LinkLocalNet.contains g = true ↔ Usable6 g := by
    have e1 : ip6LinkLocalNet.address.int = 0xFE80 * 2 ^ 112 := by decide
    have e2 : ip6LinkLocalNet.lastInt = 0xFE80 * 2 ^ 112 + (2 ^ 118 - 1) := by decide
    rw [Ip6Network.contains, Bool.and_eq_true, decide_eq_true_eq, decide_eq_true_eq, e1, e2, Usable6, cidr, hextet]
    have := g.lt
    omega
  unfold Ip6Host.setGateway
  dsimp only
  by_cases c : Usable6 g
  · rw [if_pos c, hll.2 c]; rfl
  · rw [if_neg c, show ip6LinkLocalNet.contains g = false by rw [← Bool.not_eq_true]; exact fun w => c (hll.1 w)]; rfl

/-! ### Reading the arguments -/

theorem text4_ne (a : Ip4Address) : a.toText ≠ [] := by
  intro h
  have := a.ofText_toText
  rw [h] at this
  rw [show Ip4Address.ofText [] = .error .formatError by decide +kernel] at this
  cases this

theorem text6_ne (a : Ip6Address) : a.toText ≠ [] := by
  intro h
  have := a.ofText_toText
  rw [h] at this
  rw [show Ip6Address.ofText [] = .error .formatError by decide +kernel] at this
  cases this

theorem host4_given {x : Ip4Address × Nat × Option Ip4Address} (hn : x.2.1 ≤ 32) (hg : ∀ g ∈ x.2.2, Usable4 x.1 x.2.1 g) :
    ∃ h, TcpIpStack.host4 (x.1.toText ++ '/' :: decimal x.2.1) (x.2.2.map (·.toText)) = .ok h ∧ Configured4 h x := by
  obtain ⟨a, n, g⟩ := x
  obtain ⟨m, h1, -, h3, h4⟩ := C10_ip4_mask.2.1 n hn
  have e : Ip4Host.ofText (a.toText ++ '/' :: decimal n) = .ok (Ip4Host.ofMask a m) := by
    rw [← decText_eq, Ip4Host.ofText_slash, h1]
  have hc : ∀ b, (Ip4Network.ofMask a m).contains b = true ↔ cidr 32 a.int n b.int := by
    intro b; rw [C11_network_of_address, h3]
  cases g with
  | none =>
    refine ⟨Ip4Host.ofMask a m, ?_, rfl, h3, hc, rfl⟩
    dsimp only
    unfold TcpIpStack.host4
    rw [e]
    rfl
  | some g =>
    have hu := hg g rfl
    refine ⟨{ Ip4Host.ofMask a m with gateway := some g }, ?_, rfl, h3, hc, rfl⟩
    have hne := text4_ne g
    have ht := g.ofText_toText
    dsimp only [Option.map_some]
    unfold TcpIpStack.host4
    rw [e]
    generalize g.toText = t at hne ht
    cases t with
    | nil => exact absurd rfl hne
    | cons c t =>
      simp only [py_ok_bind, ht]
      rw [gateway4, h3, if_pos hu]

theorem host6_given {x : Ip6Address × Nat × Option Ip6Address} (hn : x.2.1 ≤ 128) (hg : ∀ g ∈ x.2.2, Usable6 g) :
    ∃ h, TcpIpStack.host6 (x.1.toText ++ '/' :: decimal x.2.1) (x.2.2.map (·.toText)) = .ok h ∧ Configured6 h x := by
  obtain ⟨a, n, g⟩ := x
  obtain ⟨N, -, h3, hc, e, -⟩ := C77_ip6_text.1 a n hn
  cases g with
  | none =>
    refine ⟨⟨a, N, none⟩, ?_, rfl, h3, hc, rfl⟩
    dsimp only
    unfold TcpIpStack.host6
    rw [e]
    rfl
  | some g =>
    have hu := hg g rfl
    refine ⟨⟨a, N, some g⟩, ?_, rfl, h3, hc, rfl⟩
    have hne := text6_ne g
    have ht := g.ofText_toText
    dsimp only [Option.map_some]
    unfold TcpIpStack.host6
    rw [e]
    generalize g.toText = t at hne ht
    cases t with
    | nil => exact absurd rfl hne
    | cons c t =>
      simp only [py_ok_bind, ht]
      rw [gateway6, if_pos hu]

/-- What the constructor does with a proper wish. -/
theorem init_wish {w : Wish} (hw : w.Proper) (j4 j6 : Option Text) (s : TcpIpStack) : ∃ (h4 : Option Ip4Host) (h6 : Option Ip6Host),
    s.init (w.args j4 j6) = (⟨{ s.addrs with mac := w.mac.getD s.addrs.mac, ip4Pending := s.addrs.ip4Pending ++ h4.toList,
                                             ip6Pending := s.addrs.ip6Pending ++ h6.toList, ip4Support := true, ip6Support := true },
      w.ip4.isNone, true, w.ip6.isNone⟩, .ok ()) ∧
    (h4.isSome = w.ip4.isSome ∧ ∀ x ∈ w.ip4, ∀ h ∈ h4, Configured4 h x) ∧
    (h6.isSome = w.ip6.isSome ∧ ∀ x ∈ w.ip6, ∀ h ∈ h6, Configured6 h x) := by
  obtain ⟨m, i4, i6⟩ := w
  obtain ⟨p4, p6⟩ := hw
  have e1 : ∀ s : TcpIpStack, s.initMac (m.map (·.toText)) = ({ s with addrs := { s.addrs with mac := m.getD s.addrs.mac } }, .ok ()) := by
    intro s
    cases m with
    | none => rfl
    | some m => simp only [Option.map_some, TcpIpStack.initMac, MacAddress.ofText_toText]; rfl
  have e2 : ∃ h4 : Option Ip4Host, (∀ s : TcpIpStack, s.initIp4 (Wish.args ⟨m, i4, i6⟩ j4 j6).ip4 (Wish.args ⟨m, i4, i6⟩ j4 j6).gw4 =
        ({ s with addrs := { s.addrs with ip4Pending := s.addrs.ip4Pending ++ h4.toList, ip4Support := true }, dhcp := i4.isNone }, .ok ())) ∧
      (h4.isSome = i4.isSome ∧ ∀ x ∈ i4, ∀ h ∈ h4, Configured4 h x) := by
    cases i4 with
    | none => exact ⟨none, fun s => by simp [Wish.args, TcpIpStack.initIp4], rfl, nofun⟩
    | some x =>
      obtain ⟨h, e, hc⟩ := host4_given (p4 x rfl).1 (p4 x rfl).2
      exact ⟨some h, fun s => by simp [Wish.args, TcpIpStack.initIp4, e], rfl, fun y hy k hk => by cases hy; cases hk; exact hc⟩
  have e3 : ∃ h6 : Option Ip6Host, (∀ s : TcpIpStack, s.initIp6 (Wish.args ⟨m, i4, i6⟩ j4 j6).ip6 (Wish.args ⟨m, i4, i6⟩ j4 j6).gw6 =
        ({ s with addrs := { s.addrs with ip6Pending := s.addrs.ip6Pending ++ h6.toList, ip6Support := true }, lla := true,
                  gua := i6.isNone }, .ok ())) ∧
      (h6.isSome = i6.isSome ∧ ∀ x ∈ i6, ∀ h ∈ h6, Configured6 h x) := by
    cases i6 with
    | none => exact ⟨none, fun s => by simp [Wish.args, TcpIpStack.initIp6], rfl, nofun⟩
    | some x =>
      obtain ⟨h, e, hc⟩ := host6_given (p6 x rfl).1 (p6 x rfl).2
      exact ⟨some h, fun s => by simp [Wish.args, TcpIpStack.initIp6, e], rfl, fun y hy k hk => by cases hy; cases hk; exact hc⟩
  obtain ⟨h4, e2, c4⟩ := e2
  obtain ⟨h6, e3, c6⟩ := e3
  refine ⟨h4, h6, ?_, c4, c6⟩
  unfold TcpIpStack.init
  rw [show (Wish.args ⟨m, i4, i6⟩ j4 j6).mac = m.map (·.toText) from rfl, e1]
  dsimp only
  rw [e2]
  dsimp only
  rw [e3]

/-! ### IPv4 -/

/-- The state between the constructor and `start`. -/
def made (mac : MacAddress) (l4 : List Ip4Host) (l6 : List Ip6Host) : Addrs := { Addrs.start mac with ip4Pending := l4, ip6Pending := l6 }

theorem made_good (σ : Nat → List Heard) (mac : MacAddress) (l4 : List Ip4Host) (l6 : List Ip6Host) : Addrs.Good σ [] (made mac l4 l6) :=
  ⟨⟨by simp [made, Addrs.start], by simp [made, Addrs.start], by simp⟩, rfl, by intro x hx; simp [made, Addrs.start] at hx⟩

theorem made_ok {σ : Nat → List Heard} (hσ : FromFrames σ) (mac : MacAddress) (l4 : List Ip4Host) (l6 : List Ip6Host) (lla gua : Bool) :
    ∃ a v, (made mac l4 l6).acquireIp6 σ lla gua = (a, .ok ()) ∧ Addrs.Only6 gua { made mac l4 l6 with ip6Support := v } a := by
  have h := made_good σ mac l4 l6
  obtain ⟨v, ho⟩ := Addrs.only6_acquire σ lla gua (made mac l4 l6)
  suffices ((made mac l4 l6).acquireIp6 σ lla gua).2 = .ok () from ⟨_, v, by rw [← this], ho⟩
  unfold Addrs.acquireIp6
  rw [if_pos (show (made mac l4 l6).ip6Support = true from rfl)]
  have hm : Icmp6.allNodes.isMulticast = true := by decide
  obtain ⟨o, e, -⟩ := Addrs.join_eq hm (made mac l4 l6)
  have hj := h.inv.join hm
  rw [e] at hj ⊢
  exact createIp6_ok hσ ⟨hj, rfl, by intro x hx; simp [made, Addrs.start] at hx⟩ (by intro x hx; simp [made, Addrs.start] at hx) lla gua

/-- What `_create_stack_ip4_addressing` leaves. -/
theorem create4_eq (σ : Nat → List Heard) (a : Addrs) (hc : a.conflict = []) (hh : a.ip4Host = []) (hs : a.ip4Support = true) :
    (a.createIp4 σ).ip4Host = a.ip4Pending ∧ (a.createIp4 σ).ip4Support = !a.ip4Pending.isEmpty ∧ (a.createIp4 σ).mac = a.mac ∧
    (a.createIp4 σ).ip6Host = a.ip6Host ∧ (a.createIp4 σ).ip6Multicast = a.ip6Multicast ∧ (a.createIp4 σ).macMulticast = a.macMulticast ∧
    (a.createIp4 σ).ip6Support = a.ip6Support ∧ (AddrNote.solicit ∈ (a.createIp4 σ).out → AddrNote.solicit ∈ a.out) := by
  unfold Addrs.createIp4
  dsimp only
  have k : ∀ a, Addrs.Only4 a (Addrs.probeRound σ a) := Addrs.only4_round σ
  obtain ⟨p1, p2, p3⟩ := Addrs.probeRound_kept σ a
  obtain ⟨q1, q2, q3⟩ := Addrs.probeRound_kept σ (Addrs.probeRound σ a)
  obtain ⟨r1, r2, r3⟩ := Addrs.probeRound_kept σ (Addrs.probeRound σ (Addrs.probeRound σ a))
  have o := ((k a).trans (k _)).trans (k _)
  rw [p1] at q1
  rw [p2] at q2
  rw [p3] at q3
  rw [q1] at r1
  rw [q2, hh] at r2
  rw [q3, hc] at r3
  generalize Addrs.probeRound σ (Addrs.probeRound σ (Addrs.probeRound σ a)) = b at r1 r2 r3 o ⊢
  have o := o.trans (Addrs.only4_claim σ b.ip4Pending b)
  obtain ⟨c1, -, -⟩ := Addrs.claimIp4_eq σ b.ip4Pending b r3
  rw [r2, r1, List.nil_append] at c1
  rw [r1] at o ⊢
  generalize Addrs.claimIp4 σ a.ip4Pending b = c at c1 o ⊢
  split
  · rename_i e
    rw [c1] at e
    exact ⟨c1, by rw [e]; rfl, o.mac, o.ip6Host, o.ip6Multicast, o.macMulticast, o.ip6Support, o.quiet⟩
  · rename_i e
    rw [c1] at e
    refine ⟨c1, ?_, o.mac, o.ip6Host, o.ip6Multicast, o.macMulticast, o.ip6Support, o.quiet⟩
    rw [o.ip4Support, hs]
    cases h : a.ip4Pending with
    | nil => exact absurd h e
    | cons => rfl

theorem imported_wish {w : Wish} (hw : w.Proper) (j4 j6 : Option Text) (mac₀ : MacAddress) : ∃ (h4 : Option Ip4Host) (h6 : Option Ip6Host),
    (TcpIpStack.imported mac₀).init (w.args j4 j6) =
      (⟨made (w.mac.getD mac₀) h4.toList h6.toList, w.ip4.isNone, true, w.ip6.isNone⟩, .ok ()) ∧
    (h4.isSome = w.ip4.isSome ∧ ∀ x ∈ w.ip4, ∀ h ∈ h4, Configured4 h x) ∧
    (h6.isSome = w.ip6.isSome ∧ ∀ x ∈ w.ip6, ∀ h ∈ h6, Configured6 h x) := by
  obtain ⟨h4, h6, e, c4, c6⟩ := init_wish hw j4 j6 (TcpIpStack.imported mac₀)
  exact ⟨h4, h6, e, c4, c6⟩

/-- **C95** IPv4 address given: the constructor accepts it, and when `start` is done, whatever frames came meanwhile, the stack has
exactly this address, with this prefix length and gateway (and the MAC address asked for).  DHCP plays no part. -/
theorem C95_ip4_given {w : Wish} (hw : w.Proper) {x : Ip4Address × Nat × Option Ip4Address} (hx : w.ip4 = some x) (j4 j6 : Option Text)
    (mac₀ : MacAddress) {σ : Nat → List Heard} (hσ : FromFrames σ) (xid : Nat) (r₁ r₂ : Py Bytes) :
    ∃ s t h, (TcpIpStack.imported mac₀).init (w.args j4 j6) = (s, .ok ()) ∧ s.start σ xid r₁ r₂ = (t, .ok ()) ∧
      t.mac = w.mac.getD mac₀ ∧ Configured4 h x ∧ t.ip4Host = [h] ∧ t.ip4Support = true := by
  obtain ⟨h4, h6, e, ⟨c4, d4⟩, -⟩ := imported_wish hw j4 j6 mac₀
  rw [hx] at c4 d4
  obtain ⟨h, rfl⟩ := Option.isSome_iff_exists.1 c4
  obtain ⟨a, v, ea, o⟩ := made_ok hσ (w.mac.getD mac₀) [h] h6.toList true w.ip6.isNone
  obtain ⟨b1, b2, b3, -⟩ := create4_eq σ a o.conflict o.ip4Host o.ip4Support
  rw [o.ip4Pending] at b1 b2
  refine ⟨_, a.createIp4 σ, h, e, ?_, b3.trans o.mac, d4 x rfl h rfl, b1, b2⟩
  unfold TcpIpStack.start
  dsimp only [Option.toList_some]
  rw [ea]
  dsimp only
  unfold TcpIpStack.acquireIp4
  rw [if_pos (show a.ip4Support = true from o.ip4Support), if_neg (by rw [show a.ip4Pending = [h] from o.ip4Pending]; simp)]

/-- **C95** no IPv4 address given (a gateway alone is ignored): the address is that of the lease that the DHCP client gets; without a
lease IPv4 is switched off; an exception of the DHCP client is that of `start`. -/
theorem C95_ip4_dhcp {w : Wish} (hw : w.Proper) (hx : w.ip4 = none) (j4 j6 : Option Text) (mac₀ : MacAddress) {σ : Nat → List Heard}
    (hσ : FromFrames σ) (xid : Nat) (r₁ r₂ : Py Bytes) :
    ∃ s, (TcpIpStack.imported mac₀).init (w.args j4 j6) = (s, .ok ()) ∧
      match (Dhcp.fetch (w.mac.getD mac₀) xid r₁ r₂).result with
      | .ok (some h) => ∃ t, s.start σ xid r₁ r₂ = (t, .ok ()) ∧ t.ip4Host = [h] ∧ t.ip4Support = true
      | .ok none => ∃ t, s.start σ xid r₁ r₂ = (t, .ok ()) ∧ t.ip4Host = [] ∧ t.ip4Support = false
      | .error e => (s.start σ xid r₁ r₂).2 = .error e := by
  obtain ⟨h4, h6, e, ⟨c4, -⟩, -⟩ := imported_wish hw j4 j6 mac₀
  rw [hx] at c4
  cases h4 with
  | some => cases c4
  | none =>
    obtain ⟨a, v, ea, o⟩ := made_ok hσ (w.mac.getD mac₀) [] h6.toList true w.ip6.isNone
    refine ⟨_, e, ?_⟩
    unfold TcpIpStack.start
    dsimp only [Option.toList_none]
    rw [ea]
    dsimp only
    unfold TcpIpStack.acquireIp4
    have hp : a.ip4Pending = [] := o.ip4Pending
    rw [if_pos (show a.ip4Support = true from o.ip4Support), if_pos ⟨hp, by rw [hx]; rfl⟩,
      show Dhcp.fetch a.mac xid r₁ r₂ = Dhcp.fetch (w.mac.getD mac₀) xid r₁ r₂ by rw [show a.mac = w.mac.getD mac₀ from o.mac]]
    cases Dhcp.fetch (w.mac.getD mac₀) xid r₁ r₂ |>.result with
    | error e => rfl
    | ok v =>
      cases v with
      | none =>
        obtain ⟨b1, b2, -⟩ := create4_eq σ a o.conflict o.ip4Host o.ip4Support
        rw [hp] at b1 b2
        exact ⟨_, rfl, b1, b2⟩
      | some h =>
        obtain ⟨b1, b2, -⟩ := create4_eq σ { a with ip4Pending := a.ip4Pending ++ [h] } o.conflict o.ip4Host o.ip4Support
        exact ⟨_, rfl, b1.trans (by dsimp only; rw [hp]; rfl), b2.trans (by dsimp only; rw [hp]; rfl)⟩

/-! ### IPv6 -/

/-- The link-local host and what claiming it means. -/
theorem linkLocal_host (mac : MacAddress) : ∃ h₀, LinkLocalOf mac h₀ ∧
    ∀ (σ : Nat → List Heard) (a : Addrs), a.mac = mac → a.claimLinkLocal σ = a.claim σ h₀ := by
  obtain ⟨n, e, n64, na⟩ := Addrs.linkLocal64_ok
  obtain ⟨h, e1, hb, -, hn⟩ := C13_eui64 n mac n64
  refine ⟨{ h with gateway := none }, ⟨?_, by rw [← n64, ← hn], rfl⟩, ?_⟩
  · have h1 : n.address = ⟨hextet 0xFE80, by decide⟩ := Ip6Address.ext' na
    have h2 : (⟨hextet 0xFE80, by decide⟩ : Ip6Address).toBytes.take 8 = [0xFE, 0x80, 0, 0, 0, 0, 0, 0] := by decide +kernel
    show h.address.toBytes = _
    rw [hb, h1, h2]
  · intro σ a ha
    unfold Addrs.claimLinkLocal
    rw [e, ha]
    have : (do (← n.eui64 mac).setGateway none : Py Ip6Host) = .ok { h with gateway := none } := by rw [e1]; rfl
    rw [show (do (← (← (.ok n : Py Ip6Network)).eui64 mac).setGateway none : Py Ip6Host) = .ok { h with gateway := none } from this]

/-- One claim where nobody answers twice, or late, with all that is needed for the next one. -/
theorem claim_next {σ : Nat → List Heard} {a : Addrs} {gs : List Ip6Address} (h : Addrs.Inv a gs) (hc : a.candidate = none)
    (hd : a.dadEvent = 0) {k : Nat} (hk : a.steps = k) (x : Ip6Host) (h1 : adverts x.address (σ (k + 1) ++ σ (k + 2)) ≤ 1)
    (h2 : Heard.advert x.address ∉ σ (k + 3)) :
    ∃ b, a.claim σ x = (b, .ok ()) ∧ Addrs.Inv b gs ∧ b.candidate = none ∧ b.steps = k + 4 ∧ b.dadEvent = 0 ∧ b.ip6Pending = a.ip6Pending ∧
      Addrs.Only6 false a b ∧
      b.ip6Host = a.ip6Host ++ (if Heard.advert x.address ∈ σ (k + 1) ++ σ (k + 2) then [] else [x]) := by
  subst hk
  obtain ⟨b, e, b1, b2, b3, b4, b5, b6⟩ := Addrs.claim_orderly h hc hd x h1 h2
  obtain ⟨b', e', -, -, -, -, b8, -⟩ := Addrs.claim_spec σ h hc x
  have o := Addrs.only6_claim false σ a x
  rw [e] at e' o
  cases e'
  exact ⟨b, e, b1, b2, b3, b5, b8, o, b6⟩

theorem given6 (mac : MacAddress) (l4 : List Ip4Host) (h : Ip6Host) : ∃ h₀, LinkLocalOf mac h₀ ∧
    ∀ σ : Nat → List Heard, Orderly σ 0 (if h.address.isLinkLocal then [h, h₀] else [h₀, h]) →
    ∃ a, (made mac l4 [h]).acquireIp6 σ true false = (a, .ok ()) ∧ Addrs.Only6 false { made mac l4 [h] with ip6Support := a.ip6Support } a ∧
      (∀ g, g ∈ a.ip6Multicast ↔ g = Icmp6.allNodes ∨ ∃ x ∈ a.ip6Host, g = solicitedNode x.address) ∧
      (∀ m, m ∈ a.macMulticast ↔ ∃ g ∈ a.ip6Multicast, m = groupMac g) ∧
      if h.address.isLinkLocal then a.ip6Host = winners σ 0 [h, h₀] ∧ a.ip6Support = !a.ip6Host.isEmpty
      else if Heard.advert h₀.address ∈ σ 1 ++ σ 2 then a.ip6Host = [] ∧ a.ip6Support = false
      else a.ip6Host = winners σ 0 [h₀, h] ∧ a.ip6Support = true := by
  obtain ⟨h₀, hl, hcl⟩ := linkLocal_host mac
  refine ⟨h₀, hl, fun σ ho => ?_⟩
  have hg := (made_good σ mac l4 [h]).acquireIp6 rfl true false
  obtain ⟨v, hv⟩ := Addrs.only6_acquire σ true false (made mac l4 [h])
  suffices ∃ a, (made mac l4 [h]).acquireIp6 σ true false = (a, .ok ()) ∧
      if h.address.isLinkLocal then a.ip6Host = winners σ 0 [h, h₀] ∧ a.ip6Support = !a.ip6Host.isEmpty
      else if Heard.advert h₀.address ∈ σ 1 ++ σ 2 then a.ip6Host = [] ∧ a.ip6Support = false
      else a.ip6Host = winners σ 0 [h₀, h] ∧ a.ip6Support = true by
    obtain ⟨a, e, hr⟩ := this
    rw [e] at hg hv
    refine ⟨a, e, ⟨hv.1, hv.2, hv.3, hv.4, hv.5, rfl, hv.7⟩, fun g => ?_, fun m => ?_, hr⟩
    · rw [hg.inv.groups.mem_iff, List.mem_append, List.mem_map]
      simp [eq_comm]
    · rw [hg.inv.macs.mem_iff, List.mem_map]
      simp [eq_comm]
  clear hg hv
  have hm : Icmp6.allNodes.isMulticast = true := by decide
  unfold Addrs.acquireIp6
  rw [if_pos (show (made mac l4 [h]).ip6Support = true from rfl)]
  obtain ⟨o, e, -⟩ := Addrs.join_eq hm (made mac l4 [h])
  have hj := (made_good σ mac l4 [h]).inv.join hm
  rw [e] at hj ⊢
  dsimp only at hj ⊢
  generalize ha : ({ made mac l4 [h] with ip6Multicast := (made mac l4 [h]).ip6Multicast ++ [Icmp6.allNodes],
                                          macMulticast := (made mac l4 [h]).macMulticast ++ [groupMac Icmp6.allNodes], out := o } : Addrs) = a
    at hj ⊢
  have a1 : a.ip6Pending = [h] := by rw [← ha]; rfl
  have a2 : a.mac = mac := by rw [← ha]; rfl
  have a3 : a.candidate = none := by rw [← ha]; rfl
  have a4 : a.dadEvent = 0 := by rw [← ha]; rfl
  have a5 : a.steps = 0 := by rw [← ha]; rfl
  have a6 : a.ip6Host = [] := by rw [← ha]; rfl
  have a7 : a.ip6Support = true := by rw [← ha]; rfl
  clear ha e
  have erase : [h].eraseP (Addrs.sameHost h) = [] := by simp [Addrs.sameHost]
  unfold Addrs.createIp6
  rw [a1]
  by_cases hll : h.address.isLinkLocal = true
  · rw [if_pos hll] at ho
    simp only [if_pos hll]
    obtain ⟨o1, o2, o3, o4, -⟩ := ho
    simp only [List.filter_cons, hll, if_true, List.filter_nil, Addrs.claimAll, a1, erase]
    obtain ⟨b, eb, b1, b2, b3, b4, b5, b6, b7⟩ := claim_next (a := { a with ip6Pending := [] }) (hj.same rfl rfl rfl) a3 a4 a5 h o1 o2
    obtain ⟨c, ec, c1, c2, c3, c4, c5, c6, c7⟩ := claim_next b1 b2 b4 b3 h₀ o3 o4
    rw [eb]
    dsimp only
    rw [hcl σ b (b6.mac.trans a2), ec]
    dsimp only
    have hw : c.ip6Host = winners σ 0 [h, h₀] := by rw [c7, b7]; dsimp only; rw [a6]; simp [winners]
    have hs : c.ip6Support = true := c6.ip6Support.trans (b6.ip6Support.trans a7)
    by_cases hn : c.ip6Host = []
    · rw [if_pos hn]
      exact ⟨_, rfl, hw, by dsimp only; rw [hn]; rfl⟩
    · rw [if_neg hn, c5, b5]
      refine ⟨c, rfl, hw, ?_⟩
      rw [hs]
      cases hh : c.ip6Host with
      | nil => exact absurd hh hn
      | cons => rfl
  · rw [if_neg hll] at ho
    simp only [if_neg hll]
    obtain ⟨o1, o2, o3, o4, -⟩ := ho
    simp only [List.filter_cons, hll, if_false, Bool.false_eq_true, List.filter_nil, Addrs.claimAll, if_true]
    obtain ⟨b, eb, b1, b2, b3, b4, b5, b6, b7⟩ := claim_next hj a3 a4 a5 h₀ o1 o2
    rw [hcl σ a a2, eb]
    dsimp only
    have hs : b.ip6Support = true := b6.ip6Support.trans a7
    by_cases hc : Heard.advert h₀.address ∈ σ (0 + 1) ++ σ (0 + 2)
    · rw [if_pos hc, a6] at b7
      replace b7 : b.ip6Host = [] := b7
      rw [if_pos b7]
      exact ⟨_, rfl, by rw [if_pos hc]; exact ⟨b7, rfl⟩⟩
    · rw [if_neg hc, a6] at b7
      rw [if_neg (by rw [b7]; simp), b5, a1]
      simp only [Addrs.claimAll, b5, a1, erase]
      obtain ⟨c, ec, c1, c2, c3, c4, c5, c6, c7⟩ :=
        claim_next (a := { b with ip6Pending := [] }) (b1.same rfl rfl rfl) b2 b4 b3 h o3 o4
      rw [ec]
      refine ⟨c, rfl, ?_⟩
      rw [if_neg hc]
      refine ⟨?_, c6.ip6Support.trans hs⟩
      rw [c7]
      dsimp only
      rw [b7]
      simp only [winners, if_neg hc]
      simp

/-- What `start` does to IPv6, if the addresses were acquired. -/
theorem start_ip6 {s : TcpIpStack} {σ : Nat → List Heard} {a : Addrs} {g : Bool} {b : Addrs} (xid : Nat) (r₁ r₂ : Py Bytes)
    (h : s.addrs.acquireIp6 σ s.lla s.gua = (a, .ok ())) (o : Addrs.Only6 g b a) (h1 : b.ip4Host = []) (h2 : b.conflict = []) :
    (s.start σ xid r₁ r₂).1.ip6Host = a.ip6Host ∧ (s.start σ xid r₁ r₂).1.ip6Support = a.ip6Support ∧
    (s.start σ xid r₁ r₂).1.ip6Multicast = a.ip6Multicast ∧ (s.start σ xid r₁ r₂).1.macMulticast = a.macMulticast ∧
    (AddrNote.solicit ∈ (s.start σ xid r₁ r₂).1.out → AddrNote.solicit ∈ a.out) := by
  unfold TcpIpStack.start
  rw [h]
  dsimp only
  unfold TcpIpStack.acquireIp4
  split
  · rename_i hs
    split
    · split
      · exact ⟨rfl, rfl, rfl, rfl, id⟩
      · obtain ⟨-, -, -, b4, b5, b6, b7, b8⟩ := create4_eq σ a (o.conflict.trans h2) (o.ip4Host.trans h1) hs
        exact ⟨b4, b7, b5, b6, b8⟩
      · rename_i x _
        obtain ⟨-, -, -, b4, b5, b6, b7, b8⟩ := create4_eq σ { a with ip4Pending := a.ip4Pending ++ [x] } (o.conflict.trans h2)
          (o.ip4Host.trans h1) hs
        exact ⟨b4, b7, b5, b6, b8⟩
    · obtain ⟨-, -, -, b4, b5, b6, b7, b8⟩ := create4_eq σ a (o.conflict.trans h2) (o.ip4Host.trans h1) hs
      exact ⟨b4, b7, b5, b6, b8⟩
  · exact ⟨rfl, rfl, rfl, rfl, id⟩

/-- **C95** IPv6 address given: the constructor accepts it.  `h₀` is the link-local address of the MAC address and `h` the address given,
with its prefix length and gateway.  When `start` is done, if nobody answers to the detection of duplicates twice, or late: a given
link-local address is claimed first, then `h₀`; another one after `h₀`; those that nobody answers for are assigned.  If `h₀` is needed and
taken, IPv6 is switched off.  No router is asked.  (Not without the proviso: `C65_ip6_spurious`.) -/
theorem C95_ip6_given_partial {w : Wish} (hw : w.Proper) {x : Ip6Address × Nat × Option Ip6Address} (hx : w.ip6 = some x)
    (j4 j6 : Option Text) (mac₀ : MacAddress) :
    ∃ s h₀ h, (TcpIpStack.imported mac₀).init (w.args j4 j6) = (s, .ok ()) ∧ LinkLocalOf (w.mac.getD mac₀) h₀ ∧ Configured6 h x ∧
      ∀ (σ : Nat → List Heard) (xid : Nat) (r₁ r₂ : Py Bytes), Orderly σ 0 (if x.1.isLinkLocal then [h, h₀] else [h₀, h]) →
        let t := (s.start σ xid r₁ r₂).1
        AddrNote.solicit ∉ t.out ∧
        if x.1.isLinkLocal then t.ip6Host = winners σ 0 [h, h₀] ∧ t.ip6Support = !t.ip6Host.isEmpty
        else if Heard.advert h₀.address ∈ σ 1 ++ σ 2 then t.ip6Host = [] ∧ t.ip6Support = false
        else t.ip6Host = winners σ 0 [h₀, h] ∧ t.ip6Support = true := by
  obtain ⟨h4, h6, e, -, c6, d6⟩ := imported_wish hw j4 j6 mac₀
  rw [hx] at c6 d6
  obtain ⟨h, rfl⟩ := Option.isSome_iff_exists.1 c6
  obtain ⟨h₀, hl, hr⟩ := given6 (w.mac.getD mac₀) h4.toList h
  have hc := d6 x rfl h rfl
  refine ⟨_, h₀, h, e, hl, hc, fun σ xid r₁ r₂ ho => ?_⟩
  rw [← hc.1] at ho ⊢
  obtain ⟨a, ea, o, -, -, hh⟩ := hr σ ho
  dsimp only
  obtain ⟨t1, t2, -, -, t5⟩ := start_ip6 (s := ⟨made (w.mac.getD mac₀) h4.toList (some h).toList, w.ip4.isNone, true, w.ip6.isNone⟩)
    (σ := σ) (a := a) xid r₁ r₂ (by dsimp only [Option.toList_some]; rw [hx]; exact ea) o rfl rfl
  rw [t1, t2]
  refine ⟨fun q => ?_, hh⟩
  have := o.quiet rfl (t5 q)
  cases this

/-- **C95** no IPv6 address given (a gateway alone is ignored): automatic configuration, as in C76, with the MAC address asked for. -/
theorem C95_ip6_auto_partial {w : Wish} (hw : w.Proper) (hx : w.ip6 = none) (j4 j6 : Option Text) (mac₀ : MacAddress) {σ : Nat → List Heard}
    (hσ : FromFrames σ) :
    let l := routerPrefixes [] (σ 0 ++ σ 1 ++ σ 2 ++ σ 3 ++ σ 4 ++ σ 5)
    ∃ s h₀ hs, (TcpIpStack.imported mac₀).init (w.args j4 j6) = (s, .ok ()) ∧ LinkLocalOf (w.mac.getD mac₀) h₀ ∧
      hs.length = l.length ∧ (∀ (k : Nat) p h, l[k]? = some p → hs[k]? = some h → HostOf (w.mac.getD mac₀) p h) ∧
      (Orderly σ 0 [h₀] → Orderly σ 6 hs → ∀ (xid : Nat) (r₁ r₂ : Py Bytes),
        let t := (s.start σ xid r₁ r₂).1
        if Heard.advert h₀.address ∈ σ 1 ++ σ 2 then t.ip6Host = [] ∧ t.ip6Support = false
        else t.ip6Host = h₀ :: winners σ 6 hs) := by
  intro l
  obtain ⟨h4, h6, e, -, c6, -⟩ := imported_wish hw j4 j6 mac₀
  rw [hx] at c6
  cases h6 with
  | some => cases c6
  | none =>
    obtain ⟨h₀, hs, l1, l2, l3, l4, l5, l6⟩ := autoconfiguration_of_64 (w.mac.getD mac₀) h4.toList σ
      (usable_routerPrefixes (by intro x hx; cases hx) fun q hq => by
        simp only [List.mem_append] at hq
        rcases hq with ((((hq | hq) | hq) | hq) | hq) | hq <;> exact usable_of_frames hσ hq)
    refine ⟨_, h₀, hs, e, ⟨l1, l2, l3⟩, l4, l5, fun o1 o2 xid r₁ r₂ => ?_⟩
    obtain ⟨a, ea, hh⟩ := l6 o1 o2
    obtain ⟨v, o⟩ := Addrs.only6_acquire σ true true (made (w.mac.getD mac₀) h4.toList [])
    rw [show (made (w.mac.getD mac₀) h4.toList []).acquireIp6 σ true true = (a, .ok ()) from ea] at o
    dsimp only
    obtain ⟨t1, t2, -⟩ := start_ip6 (s := ⟨made (w.mac.getD mac₀) h4.toList (none : Option Ip6Host).toList, w.ip4.isNone, true, w.ip6.isNone⟩)
      (σ := σ) (a := a) xid r₁ r₂ (by dsimp only [Option.toList_none]; rw [hx]; exact ea) o rfl rfl
    rw [t1, t2]
    exact hh

/-! ### What the stack then listens to -/

/-- **C95** both addresses given and nobody has them: the frames, IPv4 packets and IPv6 packets that the stack then takes are exactly
those for its MAC address, the two addresses and the link-local one, the broadcast addresses, the all-nodes group and the solicited-node
groups of its addresses. -/
theorem C95_listens {w : Wish} (hw : w.Proper) {x4 : Ip4Address × Nat × Option Ip4Address} {x6 : Ip6Address × Nat × Option Ip6Address}
    (h4 : w.ip4 = some x4) (h6 : w.ip6 = some x6) (j4 j6 : Option Text) (mac₀ : MacAddress) :
    ∃ (s : TcpIpStack) (l : Ip6Address), (TcpIpStack.imported mac₀).init (w.args j4 j6) = (s, .ok ()) ∧
      l.toBytes = [0xFE, 0x80, 0, 0, 0, 0, 0, 0] ++ modifiedEui64 (w.mac.getD mac₀).toBytes ∧
      ∀ (σ : Nat → List Heard) (xid : Nat) (r₁ r₂ : Py Bytes), FromFrames σ → (∀ k, Heard.advert l ∉ σ k ∧ Heard.advert x6.1 ∉ σ k) →
        ∃ t, s.start σ xid r₁ r₂ = (t, .ok ()) ∧ t.ip4Support = true ∧ t.ip6Support = true ∧
        (∀ b, Listens4 (TcpIpStack.node t) b ↔
          b = x4.1 ∨ b.int = x4.1.int / 2 ^ (32 - x4.2.1) * 2 ^ (32 - x4.2.1) + (2 ^ (32 - x4.2.1) - 1) ∨ b.int = 2 ^ 32 - 1) ∧
        (∀ b, Listens6 (TcpIpStack.node t) b ↔
          b ∈ [l, x6.1, Icmp6.allNodes, solicitedNode l, solicitedNode x6.1]) ∧
        (∀ m, MacForUs (TcpIpStack.node t) m ↔ m = w.mac.getD mac₀ ∨ m.int = 2 ^ 48 - 1 ∨
          m ∈ [groupMac Icmp6.allNodes, groupMac (solicitedNode l), groupMac (solicitedNode x6.1)]) := by
  obtain ⟨g4, g6, e, ⟨c4, d4⟩, c6, d6⟩ := imported_wish hw j4 j6 mac₀
  rw [h4] at c4 d4
  rw [h6] at c6 d6
  obtain ⟨k4, rfl⟩ := Option.isSome_iff_exists.1 c4
  obtain ⟨k6, rfl⟩ := Option.isSome_iff_exists.1 c6
  have q4 := d4 x4 rfl k4 rfl
  have q6 := d6 x6 rfl k6 rfl
  obtain ⟨h₀, hl, hr⟩ := given6 (w.mac.getD mac₀) [k4] k6
  refine ⟨_, h₀.address, e, hl.1, fun σ xid r₁ r₂ hσ hn => ?_⟩
  have none0 : ∀ i j, Heard.advert h₀.address ∉ σ i ++ σ j := fun i j w => by
    rcases List.mem_append.1 w with w | w
    · exact (hn i).1 w
    · exact (hn j).1 w
  have none6 : ∀ i j, Heard.advert k6.address ∉ σ i ++ σ j := fun i j w => by
    rw [q6.1] at w
    rcases List.mem_append.1 w with w | w
    · exact (hn i).2 w
    · exact (hn j).2 w
  have cnt : ∀ x l, Heard.advert x ∉ l → adverts x l ≤ 1 := fun x l h => by
    rw [adverts, List.countP_eq_zero.2]
    · omega
    · intro y hy
      split
      · rename_i t
        intro q
        exact h (of_decide_eq_true q ▸ hy)
      · exact Bool.false_ne_true
  have late6 : ∀ i, Heard.advert k6.address ∉ σ i := fun i => by rw [q6.1]; exact (hn i).2
  have ord : Orderly σ 0 (if k6.address.isLinkLocal then [k6, h₀] else [h₀, k6]) := by
    split
    · exact ⟨cnt _ _ (none6 _ _), late6 _, cnt _ _ (none0 _ _), (hn _).1, trivial⟩
    · exact ⟨cnt _ _ (none0 _ _), (hn _).1, cnt _ _ (none6 _ _), late6 _, trivial⟩
  obtain ⟨a, ea, o, ig, im, hh⟩ := hr σ ord
  have hs : (∀ b, (∃ x ∈ a.ip6Host, x.address = b) ↔ b = h₀.address ∨ b = x6.1) ∧ a.ip6Support = true := by
    by_cases c : k6.address.isLinkLocal = true
    · rw [if_pos c] at hh
      obtain ⟨hh, hv⟩ := hh
      simp only [winners, if_neg (none0 _ _), if_neg (none6 _ _)] at hh
      rw [hh] at hv ⊢
      refine ⟨fun b => ?_, hv⟩
      simp only [List.cons_append, List.nil_append, List.mem_cons, List.not_mem_nil, or_false, exists_eq_or_imp, exists_eq_left, q6.1]
      constructor <;> rintro (h | h) <;> simp [h]
    · rw [if_neg c, if_neg (none0 _ _)] at hh
      obtain ⟨hh, hv⟩ := hh
      simp only [winners, if_neg (none0 _ _), if_neg (none6 _ _)] at hh
      rw [hh]
      refine ⟨fun b => ?_, hv⟩
      simp only [List.cons_append, List.nil_append, List.mem_cons, List.not_mem_nil, or_false, exists_eq_or_imp, exists_eq_left, q6.1]
      constructor <;> rintro (h | h) <;> simp [h]
  obtain ⟨hs, hv⟩ := hs
  have ig' : ∀ g, g ∈ a.ip6Multicast ↔ g ∈ [Icmp6.allNodes, solicitedNode h₀.address, solicitedNode x6.1] := by
    intro g
    rw [ig]
    simp only [List.mem_cons, List.not_mem_nil, or_false]
    refine or_congr Iff.rfl ?_
    constructor
    · rintro ⟨x, hx, rfl⟩
      rcases (hs x.address).1 ⟨x, hx, rfl⟩ with h | h
      · exact .inl (by rw [h])
      · exact .inr (by rw [h])
    · rintro (rfl | rfl)
      · obtain ⟨x, hx, e⟩ := (hs h₀.address).2 (.inl rfl)
        exact ⟨x, hx, by rw [e]⟩
      · obtain ⟨x, hx, e⟩ := (hs x6.1).2 (.inr rfl)
        exact ⟨x, hx, by rw [e]⟩
  obtain ⟨b1, b2, b3, b4, b5, b6, b7, -⟩ := create4_eq σ a o.conflict o.ip4Host o.ip4Support
  rw [show a.ip4Pending = [k4] from o.ip4Pending] at b1 b2
  refine ⟨a.createIp4 σ, ?_, b2, b7.trans hv, fun b => ?_, fun b => ?_, fun m => ?_⟩
  · unfold TcpIpStack.start
    dsimp only [Option.toList_some]
    rw [h6]
    dsimp only [Option.isNone_some]
    rw [ea]
    dsimp only
    unfold TcpIpStack.acquireIp4
    rw [if_pos (show a.ip4Support = true from o.ip4Support), if_neg (by rw [show a.ip4Pending = [k4] from o.ip4Pending]; simp)]
  · have hb : k4.network.broadcast = .ok b ↔
        b.int = x4.1.int / 2 ^ (32 - x4.2.1) * 2 ^ (32 - x4.2.1) + (2 ^ (32 - x4.2.1) - 1) := by
      rw [Ip4Network.broadcast_ok, ← (cidr_ends (hw.1 x4 h4).1 q4.2.2.1).2]
      constructor
      · intro q
        cases q
        rfl
      · intro q
        exact congrArg _ (Ip4Address.ext' q.symm)
    simp only [Listens4, Owns4, TcpIpStack.node, b1, List.mem_cons, List.not_mem_nil, or_false, exists_eq_left, false_or, q4.1, hb]
    rw [eq_comm (a := x4.1)]
    exact Iff.rfl
  · simp only [Listens6, Owns6, TcpIpStack.node, b4, b5, hs, ig', List.mem_cons, List.not_mem_nil, or_false, or_assoc]
  · simp only [MacForUs, TcpIpStack.node, b3, b6, im, ig', List.mem_cons, List.not_mem_nil, or_false, exists_eq_or_imp, exists_eq_left]
    rw [show a.mac = w.mac.getD mac₀ from o.mac]
    constructor
    · rintro (h | h | h)
      · exact .inl h
      · exact .inr (.inr h)
      · exact .inr (.inl h)
    · rintro (h | h | h)
      · exact .inl h
      · exact .inr (.inr h)
      · exact .inr (.inl h)

/-! ### What the constructor accepts -/

theorem ofText_host4 {t : Text} {h : Ip4Host} (e : Ip4Host.ofText t = .ok h) : ∃ a m, h = Ip4Host.ofMask a m := by
  unfold Ip4Host.ofText at e
  unfold Ip4Network.ofText at e
  split at e
  · rename_i a n hs
    dsimp only at e
    cases ha : Ip4Address.ofText a with
    | error => rw [ha] at e; cases e
    | ok a =>
      rw [ha] at e
      dsimp only at e
      cases hn : pyInt n with
      | error => rw [hn] at e; cases e
      | ok n =>
        rw [hn] at e
        dsimp only at e
        cases hm : Ip4Mask.ofInt (onesZeros32 n : Int) with
        | error => rw [hm] at e; cases e
        | ok m => rw [hm] at e; cases e; exact ⟨a, m, rfl⟩
  · cases e

theorem readable4 (t : Text) (gw : Option Text) :
    match TcpIpStack.host4 t gw with
    | .ok _ => ∃ h, Ip4Host.ofText t = .ok h ∧
        ∀ u ∈ gw, u ≠ [] → ∃ g, Ip4Address.ofText u = .ok g ∧ Usable4 h.address h.network.mask.len g
    | .error _ => ¬ ∃ h, Ip4Host.ofText t = .ok h ∧
        ∀ u ∈ gw, u ≠ [] → ∃ g, Ip4Address.ofText u = .ok g ∧ Usable4 h.address h.network.mask.len g := by
  unfold TcpIpStack.host4
  cases e : Ip4Host.ofText t with
  | error => rintro ⟨h, w, -⟩; cases w
  | ok h =>
    obtain ⟨a, m, rfl⟩ := ofText_host4 e
    rw [py_ok_bind]
    match gw with
    | none => exact ⟨_, rfl, nofun⟩
    | some [] => exact ⟨_, rfl, fun u hu hn => by cases hu; exact absurd rfl hn⟩
    | some (c :: u) =>
      dsimp only
      cases eg : Ip4Address.ofText (c :: u) with
      | error e =>
        rintro ⟨h, -, w⟩
        obtain ⟨g, w, -⟩ := w _ rfl (by simp)
        rw [eg] at w
        cases w
      | ok g =>
        rw [py_ok_bind, gateway4]
        by_cases c : Usable4 a m.len g
        · rw [if_pos c]
          exact ⟨_, rfl, fun u hu hn => by cases hu; exact ⟨g, eg, c⟩⟩
        · rw [if_neg c]
          rintro ⟨h, w, q⟩
          cases w
          obtain ⟨g', w, k⟩ := q _ rfl (by simp)
          rw [eg] at w
          cases w
          exact c k

theorem readable6 (t : Text) (gw : Option Text) :
    match TcpIpStack.host6 t gw with
    | .ok _ => ∃ h, Ip6Host.ofText t = .ok h ∧ ∀ u ∈ gw, u ≠ [] → ∃ g, Ip6Address.ofText u = .ok g ∧ Usable6 g
    | .error _ => ¬ ∃ h, Ip6Host.ofText t = .ok h ∧ ∀ u ∈ gw, u ≠ [] → ∃ g, Ip6Address.ofText u = .ok g ∧ Usable6 g := by
  unfold TcpIpStack.host6
  cases e : Ip6Host.ofText t with
  | error => rintro ⟨h, w, -⟩; cases w
  | ok h =>
    rw [py_ok_bind]
    match gw with
    | none => exact ⟨_, rfl, nofun⟩
    | some [] => exact ⟨_, rfl, fun u hu hn => by cases hu; exact absurd rfl hn⟩
    | some (c :: u) =>
      dsimp only
      cases eg : Ip6Address.ofText (c :: u) with
      | error e =>
        rintro ⟨h, -, w⟩
        obtain ⟨g, w, -⟩ := w _ rfl (by simp)
        rw [eg] at w
        cases w
      | ok g =>
        rw [py_ok_bind, gateway6]
        by_cases c : Usable6 g
        · rw [if_pos c]
          exact ⟨_, rfl, fun u hu hn => by cases hu; exact ⟨g, eg, c⟩⟩
        · rw [if_neg c]
          rintro ⟨h, w, q⟩
          obtain ⟨g', w, k⟩ := q _ rfl (by simp)
          rw [eg] at w
          cases w
          exact c k

/-- **C95** the constructor accepts exactly the arguments that can be read and have gateways that can be gateways, whatever the state, and
then both protocols are switched on, automatic configuration is on exactly for those for which no address is given, whatever the
configuration says, and the link-local address is always made. -/
theorem C95_accepts (x : InitArgs) (s : TcpIpStack) : ((s.init x).2 = .ok () ↔ Readable x) ∧
    (Readable x → (s.init x).1.addrs.ip4Support = true ∧ (s.init x).1.addrs.ip6Support = true ∧ (s.init x).1.dhcp = x.ip4.isNone ∧
      (s.init x).1.lla = true ∧ (s.init x).1.gua = x.ip6.isNone) := by
  obtain ⟨m, i4, g4, i6, g6⟩ := x
  unfold TcpIpStack.init Readable
  dsimp only
  have h1 : (∃ s', s.initMac m = (s', .ok ()) ∧ ∀ t ∈ m, ∃ a, MacAddress.ofText t = .ok a) ∨
      ∃ e, s.initMac m = (s, .error e) ∧ ¬ ∀ t ∈ m, ∃ a, MacAddress.ofText t = .ok a := by
    cases m with
    | none => exact .inl ⟨_, rfl, nofun⟩
    | some t =>
      unfold TcpIpStack.initMac
      dsimp only
      cases e : MacAddress.ofText t with
      | error => exact .inr ⟨_, rfl, fun w => by obtain ⟨a, w⟩ := w t rfl; rw [e] at w; cases w⟩
      | ok a => exact .inl ⟨_, rfl, fun u hu => by cases hu; exact ⟨a, e⟩⟩
  rcases h1 with ⟨s', e, h1⟩ | ⟨err, e, h1⟩
  · rw [e]
    dsimp only
    clear e
    have h2 : (∃ s₂, s'.initIp4 i4 g4 = (s₂, .ok ()) ∧ s₂.addrs.ip4Support = true ∧ s₂.dhcp = i4.isNone ∧
          ∀ t ∈ i4, ∃ h, Ip4Host.ofText t = .ok h ∧
            ∀ u ∈ g4, u ≠ [] → ∃ g, Ip4Address.ofText u = .ok g ∧ Usable4 h.address h.network.mask.len g) ∨
        ∃ e, s'.initIp4 i4 g4 = (s', .error e) ∧
          ¬ ∀ t ∈ i4, ∃ h, Ip4Host.ofText t = .ok h ∧
            ∀ u ∈ g4, u ≠ [] → ∃ g, Ip4Address.ofText u = .ok g ∧ Usable4 h.address h.network.mask.len g := by
      cases i4 with
      | none => exact .inl ⟨_, rfl, rfl, rfl, nofun⟩
      | some t =>
        have r := readable4 t g4
        unfold TcpIpStack.initIp4
        dsimp only
        generalize TcpIpStack.host4 t g4 = v at r
        cases v with
        | error => exact .inr ⟨_, rfl, fun w => r (w t rfl)⟩
        | ok h => exact .inl ⟨_, rfl, rfl, rfl, fun u hu => by cases hu; exact r⟩
    rcases h2 with ⟨s₂, e, k1, k2, h2⟩ | ⟨err, e, h2⟩
    · rw [e]
      dsimp only
      clear e
      cases i6 with
      | none =>
        refine ⟨⟨fun _ => ⟨h1, h2, nofun⟩, fun _ => rfl⟩, fun _ => ⟨k1, rfl, k2, rfl, rfl⟩⟩
      | some t =>
        have r := readable6 t g6
        unfold TcpIpStack.initIp6
        dsimp only
        generalize TcpIpStack.host6 t g6 = v at r
        cases v with
        | error =>
          exact ⟨⟨fun q => (nomatch q), fun w => absurd (w.2.2 t rfl) r⟩, fun w => absurd (w.2.2 t rfl) r⟩
        | ok h =>
          exact ⟨⟨fun _ => ⟨h1, h2, fun u hu => by cases hu; exact r⟩, fun _ => rfl⟩, fun _ => ⟨k1, rfl, k2, rfl, rfl⟩⟩
    · rw [e]
      exact ⟨⟨fun q => (nomatch q), fun w => absurd w.2.1 h2⟩, fun w => absurd w.2.1 h2⟩
  · rw [e]
    exact ⟨⟨fun q => (nomatch q), fun w => absurd w.1 h1⟩, fun w => absurd w.1 h1⟩

/-! ### Where the code falls short -/

namespace Example.Init

def mac : MacAddress := ⟨0x020000000007, by decide⟩
def a4 : Ip4Address := ⟨0x0A000107, by decide⟩
def r4 : Ip4Address := ⟨0x0A000101, by decide⟩
def a6 : Ip6Address := ⟨0x20010DB8000000000000000000000007, by decide⟩
def r6 : Ip6Address := ⟨0xFE800000000000000000000000000001, by decide⟩

/-- 10.0.1.7/24 by way of 10.0.1.1, 2001:db8::7/64 by way of fe80::1, a MAC address of its own. -/
def wish : Wish := ⟨some ⟨0x020000000009, by decide⟩, some (a4, 24, some r4), some (a6, 64, some r6)⟩

theorem wish_proper : wish.Proper := by
  refine ⟨fun x hx => ?_, fun x hx => ?_⟩
  · cases hx
    exact ⟨by decide, fun g hg => by cases hg; decide⟩
  · cases hx
    exact ⟨by decide, fun g hg => by cases hg; decide +kernel⟩

end Example.Init

open Example.Init

/-- **C95** a constructor that raises has not done nothing: with a good IPv4 address and an IPv6 address without prefix length
it raises, but the IPv4 address stays; after a second call that gets it right the stack has the address twice. -/
theorem C95_leftover_witness : ∃ (x y : InitArgs) (s t : TcpIpStack) (e : PyErr), x.ip4 = y.ip4 ∧ x.mac = y.mac ∧
    (TcpIpStack.imported mac).init x = (s, .error e) ∧ s.init y = (t, .ok ()) ∧
    ∀ (xid : Nat) (r₁ r₂ : Py Bytes), ∃ u, t.start (fun _ => []) xid r₁ r₂ = (u, .ok ()) ∧ u.ip4Host.map (·.address) = [a4, a4] := by
  have hp : Wish.Proper ⟨none, some (a4, 24, none), none⟩ := ⟨fun x hx => by cases hx; exact ⟨by decide, nofun⟩, nofun⟩
  obtain ⟨h, eh, hc⟩ := host4_given (x := (a4, 24, none)) (by decide) nofun
  let s : TcpIpStack := ⟨made mac [h] [], false, true, true⟩
  have e1 : (TcpIpStack.imported mac).init { Wish.args ⟨none, some (a4, 24, none), none⟩ none none with ip6 := some "2001:db8::7".toList } =
      (s, .error .formatError) := by
    have e6 : TcpIpStack.host6 "2001:db8::7".toList none = .error .formatError := by decide +kernel
    unfold TcpIpStack.init
    simp only [Wish.args, TcpIpStack.initMac, TcpIpStack.initIp4, TcpIpStack.initIp6, Option.map_none, Option.map_some] at eh ⊢
    simp only [eh, e6]
    rfl
  obtain ⟨h4, h6, e2, ⟨c4, d4⟩, c6, -⟩ := init_wish hp none none s
  obtain ⟨h', rfl⟩ := Option.isSome_iff_exists.1 c4
  cases h6 with
  | some => cases c6
  | none =>
    have hc' := d4 _ rfl h' rfl
    have e2 : s.init (Wish.args ⟨none, some (a4, 24, none), none⟩ none none) = (⟨made mac [h, h'] [], false, true, true⟩, .ok ()) := e2
    refine ⟨{ Wish.args ⟨none, some (a4, 24, none), none⟩ none none with ip6 := some "2001:db8::7".toList },
      Wish.args ⟨none, some (a4, 24, none), none⟩ none none, s, _, _, rfl, rfl, e1, e2, fun xid r₁ r₂ => ?_⟩
    obtain ⟨a, v, ea, o⟩ := made_ok (σ := fun _ => []) (fun k q hq => by cases hq) mac [h, h'] [] true true
    obtain ⟨b1, b2, b3, -⟩ := create4_eq (fun _ => []) a o.conflict o.ip4Host o.ip4Support
    rw [o.ip4Pending] at b1
    refine ⟨a.createIp4 fun _ => [], ?_, ?_⟩
    · unfold TcpIpStack.start
      dsimp only
      rw [ea]
      dsimp only
      unfold TcpIpStack.acquireIp4
      rw [if_pos (show a.ip4Support = true from o.ip4Support), if_neg (by rw [show a.ip4Pending = [h, h'] from o.ip4Pending]; simp)]
    · rw [b1]
      show [h.address, h'.address] = _
      rw [hc.1, hc'.1]

/-- The gateway cannot be set for an address that is its own, or outside the network. -/
example : ¬ Usable4 a4 24 a4 ∧ ¬ Usable4 a4 24 ⟨0x0A000201, by decide⟩ ∧ ¬ Usable4 a4 24 ⟨0x0A0001FF, by decide⟩ ∧ Usable4 a4 24 r4 := by
  decide

/-- The wish of the example is read, and a silent network meets what `C95_listens` asks of it. -/
example : ∃ (s : TcpIpStack) (l : Ip6Address), (TcpIpStack.imported mac).init (wish.args none none) = (s, .ok ()) ∧
    l.toBytes = [0xFE, 0x80, 0, 0, 0, 0, 0, 0, 0, 0, 0, 0xFF, 0xFE, 0, 0, 9] ∧
    ∃ t, s.start (fun _ => []) 1 (.ok []) (.ok []) = (t, .ok ()) ∧ Listens4 (TcpIpStack.node t) a4 ∧ ¬ Listens4 (TcpIpStack.node t) r4 ∧
      Listens6 (TcpIpStack.node t) a6 ∧ Listens6 (TcpIpStack.node t) l ∧ ¬ Listens6 (TcpIpStack.node t) r6 := by
  obtain ⟨s, l, e, hl, h⟩ := C95_listens wish_proper rfl rfl none none mac
  have hl' : l.toBytes = [0xFE, 0x80, 0, 0, 0, 0, 0, 0, 0, 0, 0, 0xFF, 0xFE, 0, 0, 9] := by rw [hl]; decide +kernel
  obtain ⟨t, et, -, -, h4, h6, -⟩ := h (fun _ => []) 1 (.ok []) (.ok []) (fun k q hq => by cases hq) (by simp)
  refine ⟨s, l, e, hl', t, et, ?_, ?_, ?_, ?_, ?_⟩
  · rw [h4]; exact .inl rfl
  · rw [h4]; decide
  · rw [h6]; simp
  · rw [h6]; simp
  · rw [h6]
    intro w
    simp only [List.mem_cons, List.not_mem_nil, or_false] at w
    rcases w with w | w | w | w | w
    · rw [← w] at hl'
      exact absurd hl' (by decide +kernel)
    · exact absurd w (by decide)
    · exact absurd w (by decide)
    · exact absurd (congrArg Ip6Address.int w) (by show (0xFE800000000000000000000000000001 : Nat) ≠ 0xFF0200000000000000000001FF000000 + _; omega)
    · exact absurd w (by decide)

end Verif
