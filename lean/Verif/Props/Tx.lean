import Verif.Lemmas.Tx
import Verif.Props.Addr
/-! C33, C34 (source and destination validation), C35 (next hop), C72 (local address choice). -/
namespace Verif
open Spec (cidr)

/-- `x` is on the network configured for host `h`. -/
def Ip4Host.OnLink (h : Ip4Host) (x : Ip4Address) : Prop := cidr 32 h.network.address.int h.network.mask.len x.int
def Ip6Host.OnLink (h : Ip6Host) (x : Ip6Address) : Prop := cidr 128 h.network.address.int h.network.mask.len x.int

theorem Ip4Host.contains_iff (h : Ip4Host) (x : Ip4Address) : h.network.contains x = true ↔ h.OnLink x :=
  (C11_ip4_membership h.network).1 x
theorem Ip6Host.contains_iff (h : Ip6Host) (x : Ip6Address) : h.network.contains x = true ↔ h.OnLink x :=
  (C11_ip6_membership h.network).1 x

/-! ### C33 -/

theorem Ip4Address.isUnspecified_iff (a : Ip4Address) : a.isUnspecified = true ↔ a = .zero := by
  rw [Ip4Address.isUnspecified, beq_iff_eq]
  constructor
  · intro h; cases a; simp at h; subst h; rfl
  · rintro rfl; rfl

theorem Ip4Address.isLimitedBroadcast_iff (a : Ip4Address) : a.isLimitedBroadcast = true ↔ a = .limitedBroadcast := by
  rw [Ip4Address.isLimitedBroadcast, beq_iff_eq]
  constructor
  · intro h; cases a; simp at h; subst h; rfl
  · rintro rfl; rfl

theorem Ip6Address.isUnspecified_iff (a : Ip6Address) : a.isUnspecified = true ↔ a = .zero := by
  rw [Ip6Address.isUnspecified, beq_iff_eq]
  constructor
  · intro h; cases a; simp at h; subst h; rfl
  · rintro rfl; rfl

theorem firstAddr4_mem {hosts : List Ip4Host} {p : Ip4Host → Bool} {a : Ip4Address} (h : firstAddr4 hosts p = some a) :
    a ∈ hosts.map (·.address) := by
  rw [firstAddr4, Option.map_eq_some_iff] at h
  obtain ⟨x, hx, rfl⟩ := h
  exact List.mem_map_of_mem (List.mem_of_find?_eq_some hx)

theorem firstAddr6_mem {hosts : List Ip6Host} {p : Ip6Host → Bool} {a : Ip6Address} (h : firstAddr6 hosts p = some a) :
    a ∈ hosts.map (·.address) := by
  rw [firstAddr6, Option.map_eq_some_iff] at h
  obtain ⟨x, hx, rfl⟩ := h
  exact List.mem_map_of_mem (List.mem_of_find?_eq_some hx)

theorem firstAddr4_none {hosts : List Ip4Host} {p : Ip4Host → Bool} :
    firstAddr4 hosts p = none ↔ ∀ h ∈ hosts, p h = false := by
  simp [firstAddr4, List.find?_eq_none]

theorem firstAddr6_none {hosts : List Ip6Host} {p : Ip6Host → Bool} :
    firstAddr6 hosts p = none ↔ ∀ h ∈ hosts, p h = false := by
  simp [firstAddr6, List.find?_eq_none]

/-- The source that validation lets through is owned, or unspecified on a DHCP client packet. -/
theorem validateSrcIp4_owned {s : Stack} {src dst a : Ip4Address} {k : L4Kind} (h : validateSrcIp4 s src dst k = .ok a) :
    a ∈ s.ip4Unicast ∨ (a = .zero ∧ src = .zero ∧ k = .udp 68 67) := by
  rw [validateSrcIp4] at h
  split at h
  · cases h
  rename_i hown
  split at h
  · split at h
    · rename_i hu; injection h with h; left; rw [hu, ← h]; simp
    · cases h
  rename_i hnm
  split at h
  · split at h
    · rename_i hu; injection h with h; left; rw [hu, ← h]; simp
    · cases h
  rename_i hnl
  simp only [] at h
  split at h
  · rename_i b hb
    injection h with h
    subst h
    split at hb
    · left; exact firstAddr4_mem hb
    · cases hb
  · rename_i hb
    split at h
    · rename_i hz
      split at h
      · rename_i b hb'; injection h with h; subst h; left; exact firstAddr4_mem hb'
      · split at h
        · rename_i b hb'; injection h with h; subst h; left; exact firstAddr4_mem hb'
        · split at h
          · rename_i hk
            injection h with h; subst h
            have := (Ip4Address.isUnspecified_iff _).mp hz
            exact Or.inr ⟨this, this, hk⟩
          · cases h
    · rename_i hz
      injection h with h
      subst h
      left
      rw [Classical.not_not] at hown
      rcases hown with h1 | h1 | h1 | h1
      · exact h1
      · exact absurd h1 hnm
      · exfalso
        rw [if_pos h1, firstAddr4_none] at hb
        rw [Stack.ip4Broadcast, List.mem_append, List.mem_map] at h1
        rcases h1 with ⟨x, hx, hxe⟩ | h1
        · have := hb x hx; simp [hxe] at this
        · rw [List.mem_singleton] at h1
          exact hnl ((Ip4Address.isLimitedBroadcast_iff _).mpr h1)
      · exact absurd ((Ip4Address.isUnspecified_iff _).mpr h1) hz

/-- The IPv4 header of a packet handed to the link layer. -/
def Pkt.ip4Hdr : Pkt → Option Ip4.Tx
  | .ip4 h _ => some h
  | .ip4Frag h _ => some h
  | _ => none

/-- The IPv6 header of a packet handed to the link layer. -/
def Pkt.ip6Hdr : Pkt → Option Ip6.Tx
  | .ip6 h _ => some h
  | _ => none

/-- The link layer queues the packet it was given or nothing. -/
theorem phtxEther_pkt {s : Stack} {arp : ArpLookup} {nd : NdLookup} {es ed : MacAddress} {p : Pkt} {st : TxStatus}
    {outs : List Outgoing} (h : phtxEther s arp nd es ed p = .ok (st, outs)) :
    (st = .passedEtherToTxRing ∧ ∃ m, outs = [⟨if es.isUnspecified then s.mac else es, m, p⟩]) ∨
      (st ≠ .passedEtherToTxRing ∧ outs = []) := by
  rw [phtxEther] at h
  split at h
  · simp only [Except.ok.injEq, Prod.mk.injEq] at h
    exact Or.inl ⟨h.1.symm, _, h.2.symm⟩
  · split at h
    · cases h
    · simp only [Except.ok.injEq, Prod.mk.injEq] at h
      exact Or.inl ⟨h.1.symm, _, h.2.symm⟩
    · rename_i e he
      simp only [Except.ok.injEq, Prod.mk.injEq] at h
      refine Or.inr ⟨?_, h.2.symm⟩
      rw [← h.1]
      clear h
      have h4 : ∀ arp src dst, etherDstIp4 s arp src dst = .ok (.error e) → e ≠ .passedEtherToTxRing := by
        intro arp src dst he
        rw [etherDstIp4] at he
        split at he
        · simp only [bind, Except.bind, pure, Except.pure] at he
          split at he <;> simp at he
        · (repeat' split at he) <;> simp at he <;> subst he <;> simp
      have h6 : ∀ nd src dst, etherDstIp6 s nd src dst = .ok (.error e) → e ≠ .passedEtherToTxRing := by
        intro nd src dst he
        rw [etherDstIp6] at he
        split at he
        · simp only [bind, Except.bind, pure, Except.pure] at he
          split at he <;> simp at he
        · (repeat' split at he) <;> simp at he <;> subst he <;> simp
      cases p with
      | ip4 h c => exact h4 _ _ _ he
      | ip4Frag h c => exact h4 _ _ _ he
      | ip6 h c => exact h6 _ _ _ he
      | arp => simp [etherDst] at he; subst he; simp
      | raw => simp [etherDst] at he; subst he; simp

/-- The header fields of everything queued. -/
theorem phtxIp4_hdr {s s' : Stack} {arp : Nat → ArpLookup} {src dst : Ip4Address} {ttl : Nat} {c : L4}
    {st : TxStatus} {outs : List Outgoing} (h : phtxIp4 s arp src dst ttl c = (s', .ok (st, outs))) :
    ∀ o ∈ outs, ∃ a hd, validateSrcIp4 s src dst c.kind = .ok a ∧ o.pkt.ip4Hdr = some hd ∧ hd.src = a ∧ hd.dst = dst ∧
      dst ≠ .zero ∧ o.src = s.mac := by
  intro o ho
  rw [phtxIp4] at h
  split at h
  · simp at h
  split at h
  · simp only [Prod.mk.injEq, Except.ok.injEq] at h; rw [← h.2.2] at ho; cases ho
  rename_i a ha
  rw [validateDstIp4] at h
  by_cases hz : dst.isUnspecified = true
  · simp only [hz, if_true, Prod.mk.injEq, Except.ok.injEq] at h; rw [← h.2.2] at ho; cases ho
  have hz' : dst ≠ .zero := fun e => hz ((Ip4Address.isUnspecified_iff _).mpr e)
  rw [if_neg hz] at h
  simp only [] at h
  split at h
  · simp at h
  split at h
  · simp only [Prod.mk.injEq] at h
    rcases phtxEther_pkt h.2 with ⟨-, m, hm⟩ | ⟨-, hm⟩
    · rw [hm, List.mem_singleton] at ho
      subst ho
      exact ⟨a, _, ha, rfl, rfl, rfl, hz', rfl⟩
    · rw [hm] at ho; cases ho
  · split at h
    · simp at h
    · rename_i frags hfr
      simp only [Prod.mk.injEq] at h
      obtain ⟨-, h⟩ := h
      cases hs : sendFrags (sendFragIp4 { s with ip4Id := s.ip4Id + 1 } arp a dst ttl c.proto (s.ip4Id + 1)) 0 frags with
      | error e => rw [hs] at h; simp at h
      | ok r =>
        obtain ⟨sts, outs'⟩ := r
        rw [hs] at h
        simp only [py_ok_bind, py_pure, Except.ok.injEq, Prod.mk.injEq] at h
        obtain ⟨g, hg, -, hout⟩ := sendFrags_inv hs
        rw [← h.2, hout, List.mem_flatMap] at ho
        obtain ⟨f, hf, hof⟩ := ho
        have h1 := hg f hf
        rw [sendFragIp4] at h1
        cases hA : (fragTx a dst ttl (s.ip4Id + 1) c.proto f.offset f.mf).asserts with
        | error e => rw [hA] at h1; simp at h1
        | ok u =>
          rw [hA, py_ok_bind] at h1
          rcases phtxEther_pkt h1 with ⟨-, m, hm⟩ | ⟨-, hm⟩
          · rw [hm, List.mem_singleton] at hof
            subst hof
            exact ⟨a, _, ha, rfl, rfl, rfl, hz', rfl⟩
          · rw [hm] at hof; cases hof


/-- C33: every IPv4 packet queued for sending has one of the stack's own addresses as source, or 0.0.0.0 on a DHCP client
packet for which 0.0.0.0 was asked for, the requested destination, which is specified, and the stack's MAC as source. -/
theorem C33_ip4_source_owned {s s' : Stack} {arp : Nat → ArpLookup} {src dst : Ip4Address} {ttl : Nat} {c : L4}
    {st : TxStatus} {outs : List Outgoing} (h : phtxIp4 s arp src dst ttl c = (s', .ok (st, outs))) :
    ∀ o ∈ outs, ∃ hd, o.pkt.ip4Hdr = some hd ∧ hd.dst = dst ∧ dst ≠ .zero ∧ o.src = s.mac ∧
      (hd.src ∈ s.ip4Host.map (·.address) ∨ (hd.src = .zero ∧ src = .zero ∧ c.kind = .udp 68 67)) := by
  intro o ho
  obtain ⟨a, hd, ha, h1, h2, h3, h4, h5⟩ := phtxIp4_hdr h o ho
  exact ⟨hd, h1, h3, h4, h5, h2 ▸ validateSrcIp4_owned ha⟩

/-- Sending is refused: the given status, nothing queued, no change. -/
def RefusedIp4 (s : Stack) (src dst : Ip4Address) (k : L4Kind) (e : TxStatus) : Prop :=
  ∀ arp ttl c, 0 < ttl → ttl < 256 → c.kind = k → phtxIp4 s arp src dst ttl c = (s, .ok (e, []))

/-- The packet is accepted with source `a`: one that fits the MTU is handed to the link layer in a header from `a` to
`dst`, and whatever is queued, fragmented or not, has that source and destination. -/
def SentFromIp4 (s : Stack) (src dst : Ip4Address) (k : L4Kind) (a : Ip4Address) : Prop :=
  ∀ arp ttl c, 0 < ttl → ttl < 256 → c.kind = k → (c.proto = 1 ∨ c.proto = 17 ∨ c.proto = 6 ∨ c.proto = 255) →
    (20 + c.len ≤ s.mtu → phtxIp4 s arp src dst ttl c =
      (s, phtxEther s (arp 0) (fun _ => none) .zero .zero (.ip4 {
        src := a, dst := dst, ttl := ttl, dscp := 0, ecn := 0, id := 0, df := false, mf := false, offset := 0,
        options := [], proto := c.proto } c.toCarried))) ∧
    ∀ s' st outs, phtxIp4 s arp src dst ttl c = (s', .ok (st, outs)) →
      ∀ o ∈ outs, ∃ hd, o.pkt.ip4Hdr = some hd ∧ hd.src = a ∧ hd.dst = dst

theorem refusedIp4 {s : Stack} {src dst : Ip4Address} {k : L4Kind} {e : TxStatus}
    (h : validateSrcIp4 s src dst k = .error e) : RefusedIp4 s src dst k e := by
  intro arp ttl c h1 h2 hk
  subst hk
  rw [phtxIp4, if_neg (by omega), h]


theorem packetTx_asserts (src dst : Ip4Address) (ttl proto : Nat) (ht : ttl < 256)
    (hp : proto = 1 ∨ proto = 17 ∨ proto = 6 ∨ proto = 255) : (packetTx src dst ttl proto).asserts = .ok () := by
  have : (proto == 1 || proto == 17 || proto == 6 || proto == 255) = true := by simp; omega
  simp [packetTx, Ip4.Tx.asserts, this, show ttl ≤ 255 by omega]

theorem sentFromIp4 {s : Stack} {src dst : Ip4Address} {k : L4Kind} {a : Ip4Address} (hdst : dst ≠ .zero)
    (h : validateSrcIp4 s src dst k = .ok a) : SentFromIp4 s src dst k a := by
  intro arp ttl c h1 h2 hk hp
  subst hk
  constructor
  · intro hl
    have hz : ¬ dst.isUnspecified = true := fun e => hdst ((Ip4Address.isUnspecified_iff _).mp e)
    rw [phtxIp4, if_neg (by omega), h]
    simp only [validateDstIp4, if_neg hz, packetTx_asserts a dst ttl c.proto h2 hp]
    rw [if_pos (by rw [Ip4.Tx.hlen_eq]; exact hl)]
    rfl
  · intro s' st outs hs o ho
    obtain ⟨b, hd, hb, e1, e2, e3, -, -⟩ := phtxIp4_hdr hs o ho
    rw [h] at hb
    injection hb with hb
    exact ⟨hd, e1, by rw [e2, hb], e3⟩

/-- `h` is the first host of the list that satisfies `P`. -/
def FirstHost {α : Type} (hosts : List α) (P : α → Prop) (h : α) : Prop :=
  ∃ before after, hosts = before ++ h :: after ∧ P h ∧ ∀ x ∈ before, ¬ P x

theorem firstAddr4_first {hosts : List Ip4Host} {p : Ip4Host → Bool} {P : Ip4Host → Prop} {h : Ip4Host}
    (hp : ∀ x, p x = true ↔ P x) (hf : FirstHost hosts P h) : firstAddr4 hosts p = some h.address := by
  obtain ⟨b, a, rfl, h1, h2⟩ := hf
  have : (b ++ h :: a).find? p = some h := by
    rw [List.find?_append, List.find?_eq_none.mpr (fun x hx => by rw [hp]; exact h2 x hx)]
    simp [(hp h).mpr h1]
  rw [firstAddr4, this]; rfl

theorem firstAddr6_first {hosts : List Ip6Host} {p : Ip6Host → Bool} {P : Ip6Host → Prop} {h : Ip6Host}
    (hp : ∀ x, p x = true ↔ P x) (hf : FirstHost hosts P h) : firstAddr6 hosts p = some h.address := by
  obtain ⟨b, a, rfl, h1, h2⟩ := hf
  have : (b ++ h :: a).find? p = some h := by
    rw [List.find?_append, List.find?_eq_none.mpr (fun x hx => by rw [hp]; exact h2 x hx)]
    simp [(hp h).mpr h1]
  rw [firstAddr6, this]; rfl

theorem mem_ip4Broadcast (s : Stack) (a : Ip4Address) :
    a ∈ s.ip4Broadcast ↔ a = .limitedBroadcast ∨ ∃ h ∈ s.ip4Host, h.network.broadcast = .ok a := by
  simp only [Stack.ip4Broadcast, List.mem_append, List.mem_map, List.mem_singleton, Ip4Network.broadcast_ok,
    Except.ok.injEq, Ip4Network.bcast]
  exact or_comm

/-- C33: which requests are refused and which source the others get.  `uni` is the stack's own addresses, `mc` the
joined groups, `bc` the directed broadcast addresses of its networks. -/
theorem C33_ip4_source_choice (s : Stack) (src dst : Ip4Address) (k : L4Kind) (hdst : dst ≠ .zero) :
    let uni := s.ip4Host.map (·.address)
    let mc := s.ip4Multicast
    let bc := fun a => ∃ h ∈ s.ip4Host, h.network.broadcast = .ok a
    -- not one of the stack's addresses of any kind
    (src ∉ uni → src ∉ mc → ¬ bc src → src ≠ .limitedBroadcast → src ≠ .zero →
      RefusedIp4 s src dst k .dropIp4SrcNotOwned) ∧
    -- an ordinary address of the stack is kept
    (src ∈ uni → src ∉ mc → ¬ bc src → src ≠ .limitedBroadcast → src ≠ .zero → SentFromIp4 s src dst k src) ∧
    -- multicast and limited broadcast: the stack's first address, if it has one
    (src ∈ mc → ∀ h hs, s.ip4Host = h :: hs → SentFromIp4 s src dst k h.address) ∧
    (src ∈ mc → s.ip4Host = [] → RefusedIp4 s src dst k .dropIp4SrcMulticast) ∧
    (src ∉ mc → src = .limitedBroadcast → ∀ h hs, s.ip4Host = h :: hs → SentFromIp4 s src dst k h.address) ∧
    (src ∉ mc → src = .limitedBroadcast → s.ip4Host = [] → RefusedIp4 s src dst k .dropIp4SrcLimitedBroadcast) ∧
    -- directed broadcast: the address on that network
    (src ∉ mc → src ≠ .limitedBroadcast →
      ∀ h, FirstHost s.ip4Host (fun h => h.network.broadcast = .ok src) h → SentFromIp4 s src dst k h.address) ∧
    -- unspecified: the address on the destination's network, else the first one with a gateway, else DHCP only
    (src ∉ mc → ¬ bc src → src = .zero →
      (∀ h, FirstHost s.ip4Host (·.OnLink dst) h → SentFromIp4 s src dst k h.address) ∧
      ((∀ h ∈ s.ip4Host, ¬ h.OnLink dst) →
        (∀ h, FirstHost s.ip4Host (·.gateway ≠ none) h → SentFromIp4 s src dst k h.address) ∧
        ((∀ h ∈ s.ip4Host, h.gateway = none) →
          (k = .udp 68 67 → SentFromIp4 s src dst k .zero) ∧
          (k ≠ .udp 68 67 → RefusedIp4 s src dst k .dropIp4SrcUnspecified)))) := by
  intro uni mc bc
  have hbc : ∀ a, a ∈ s.ip4Broadcast ↔ a = .limitedBroadcast ∨ bc a := mem_ip4Broadcast s
  have hb1 : ∀ (a : Ip4Address) (h : Ip4Host), (decide (h.network.bcast = a)) = true ↔ h.network.broadcast = .ok a := by
    intro a h; rw [decide_eq_true_eq, Ip4Network.broadcast_ok, Except.ok.injEq]; rfl
  have hl : ∀ a : Ip4Address, a ≠ .limitedBroadcast → ¬ a.isLimitedBroadcast = true :=
    fun a h e => h ((Ip4Address.isLimitedBroadcast_iff _).mp e)
  have hz : ∀ a : Ip4Address, a ≠ .zero → ¬ a.isUnspecified = true :=
    fun a h e => h ((Ip4Address.isUnspecified_iff _).mp e)
  refine ⟨?_, ?_, ?_, ?_, ?_, ?_, ?_, ?_⟩
  · intro h1 h2 h3 h4 h5
    apply refusedIp4
    rw [validateSrcIp4, if_pos]
    rw [hbc]
    rintro (h | h | (h | h) | h) <;> contradiction
  · intro h1 h2 h3 h4 h5
    apply sentFromIp4 hdst
    have : ¬ src ∈ s.ip4Broadcast := by rw [hbc]; rintro (h | h) <;> contradiction
    rw [validateSrcIp4, if_neg (fun h => h (Or.inl h1)), if_neg h2, if_neg (hl _ h4)]
    simp only [if_neg this, if_neg (hz _ h5)]
  · intro h1 h hs hh
    apply sentFromIp4 hdst
    rw [validateSrcIp4, if_neg (fun h => h (Or.inr (Or.inl h1))), if_pos h1]
    simp only [Stack.ip4Unicast, hh, List.map_cons]
  · intro h1 hh
    apply refusedIp4
    rw [validateSrcIp4, if_neg (fun h => h (Or.inr (Or.inl h1))), if_pos h1]
    simp only [Stack.ip4Unicast, hh, List.map_nil]
  · intro h1 h2 h hs hh
    apply sentFromIp4 hdst
    rw [validateSrcIp4, if_neg (fun h => h (Or.inr (Or.inr (Or.inl ((hbc _).mpr (Or.inl h2)))))), if_neg h1,
      if_pos ((Ip4Address.isLimitedBroadcast_iff _).mpr h2)]
    simp only [Stack.ip4Unicast, hh, List.map_cons]
  · intro h1 h2 hh
    apply refusedIp4
    rw [validateSrcIp4, if_neg (fun h => h (Or.inr (Or.inr (Or.inl ((hbc _).mpr (Or.inl h2)))))), if_neg h1,
      if_pos ((Ip4Address.isLimitedBroadcast_iff _).mpr h2)]
    simp only [Stack.ip4Unicast, hh, List.map_nil]
  · intro h1 h2 h hf
    apply sentFromIp4 hdst
    have hb : src ∈ s.ip4Broadcast := by
      rw [hbc]
      obtain ⟨b, a, e, p, -⟩ := hf
      exact Or.inr ⟨h, by rw [e]; simp, p⟩
    rw [validateSrcIp4, if_neg (fun h => h (Or.inr (Or.inr (Or.inl hb)))), if_neg h1, if_neg (hl _ h2)]
    simp only [if_pos hb, firstAddr4_first (hb1 src) hf]
  · intro h1 h2 h3
    have hn : src ≠ .limitedBroadcast := by rw [h3]; decide
    have hb : ¬ src ∈ s.ip4Broadcast := by rw [hbc]; rintro (h | h) <;> contradiction
    have hzz := (Ip4Address.isUnspecified_iff _).mpr h3
    have key : validateSrcIp4 s src dst k =
        match firstAddr4 s.ip4Host (·.network.contains dst) with
        | some a => .ok a
        | none =>
          match firstAddr4 s.ip4Host (·.gateway.isSome) with
          | some a => .ok a
          | none => if k = .udp 68 67 then .ok src else .error .dropIp4SrcUnspecified := by
      rw [validateSrcIp4, if_neg (fun h => h (Or.inr (Or.inr (Or.inr h3)))), if_neg h1, if_neg (hl _ hn)]
      simp only [if_neg hb, if_pos hzz]
      rfl
    have hg : ∀ h : Ip4Host, h.gateway.isSome = true ↔ h.gateway ≠ none := by
      intro h; cases h.gateway <;> simp
    refine ⟨?_, fun hno => ⟨?_, fun hng => ⟨?_, ?_⟩⟩⟩
    · intro h hf
      apply sentFromIp4 hdst
      rw [key, firstAddr4_first (fun x => x.contains_iff dst) hf]
    · intro h hf
      apply sentFromIp4 hdst
      rw [key, firstAddr4_none.mpr (fun h hh => by rw [Bool.eq_false_iff, ne_eq, h.contains_iff]; exact hno h hh),
        firstAddr4_first hg hf]
    · intro hk
      apply sentFromIp4 hdst
      rw [key, firstAddr4_none.mpr (fun h hh => by rw [Bool.eq_false_iff, ne_eq, h.contains_iff]; exact hno h hh),
        firstAddr4_none.mpr (fun h hh => by rw [hng h hh]; rfl)]
      simp only [if_pos hk, h3]
    · intro hk
      apply refusedIp4
      rw [key, firstAddr4_none.mpr (fun h hh => by rw [Bool.eq_false_iff, ne_eq, h.contains_iff]; exact hno h hh),
        firstAddr4_none.mpr (fun h hh => by rw [hng h hh]; rfl)]
      simp only [if_neg hk]

/-- What source validation can refuse with, and that it accepts the stack's own addresses. -/
theorem validateSrcIp4_error {s : Stack} {src dst : Ip4Address} {k : L4Kind} {e : TxStatus}
    (h : validateSrcIp4 s src dst k = .error e) :
    (e = .dropIp4SrcNotOwned ∨ e = .dropIp4SrcMulticast ∨ e = .dropIp4SrcLimitedBroadcast ∨ e = .dropIp4SrcUnspecified) ∧
      (src ∈ s.ip4Host.map (·.address) → src = .zero) := by
  rw [validateSrcIp4] at h
  split at h
  · rename_i hn
    injection h with h
    exact ⟨Or.inl h.symm, fun hu => absurd (Or.inl hu) hn⟩
  split at h
  · split at h
    · cases h
    · rename_i hu
      injection h with h
      exact ⟨Or.inr (Or.inl h.symm), fun hx => by change src ∈ s.ip4Unicast at hx; rw [hu] at hx; cases hx⟩
  split at h
  · split at h
    · cases h
    · rename_i hu
      injection h with h
      exact ⟨Or.inr (Or.inr (Or.inl h.symm)), fun hx => by change src ∈ s.ip4Unicast at hx; rw [hu] at hx; cases hx⟩
  simp only [] at h
  generalize (if src ∈ s.ip4Broadcast then firstAddr4 s.ip4Host (·.network.bcast = src) else none) = fb at h
  split at h
  · cases h
  · split at h
    · rename_i hz
      have hz := (Ip4Address.isUnspecified_iff _).mp hz
      split at h
      · cases h
      · split at h
        · cases h
        · split at h
          · cases h
          · injection h with h
            exact ⟨Or.inr (Or.inr (Or.inr h.symm)), fun _ => hz⟩
    · cases h

/-- C33: an unspecified destination is refused whenever the source is not already refused. -/
theorem C33_ip4_unspecified_destination (s : Stack) (arp : Nat → ArpLookup) (src : Ip4Address) (ttl : Nat) (c : L4)
    (h1 : 0 < ttl) (h2 : ttl < 256) :
    ∃ e, phtxIp4 s arp src .zero ttl c = (s, .ok (e, [])) ∧ (e = .dropIp4DstUnspecified ∨ e = .dropIp4SrcNotOwned ∨
      e = .dropIp4SrcMulticast ∨ e = .dropIp4SrcLimitedBroadcast ∨ e = .dropIp4SrcUnspecified) ∧
      (src ∈ s.ip4Host.map (·.address) → src ≠ .zero → e = .dropIp4DstUnspecified) := by
  rw [phtxIp4, if_neg (by omega)]
  cases h : validateSrcIp4 s src .zero c.kind with
  | ok a => exact ⟨.dropIp4DstUnspecified, rfl, Or.inl rfl, fun _ _ => rfl⟩
  | error e =>
    obtain ⟨he, hu⟩ := validateSrcIp4_error h
    exact ⟨e, rfl, Or.inr he, fun a b => absurd (hu a) b⟩

/-! ### C34 -/

theorem maySendUnspecified6_iff (k : L4Kind) :
    k.maySendUnspecified6 = true ↔ k = .icmp6 135 0 ∨ ∃ n, k = .icmp6 143 n := by
  constructor
  · intro h
    rw [L4Kind.maySendUnspecified6.eq_def] at h
    split at h
    · exact Or.inl rfl
    · exact Or.inr ⟨_, rfl⟩
    · cases h
  · rintro (rfl | ⟨n, rfl⟩) <;> rfl

theorem validateSrcIp6_owned {s : Stack} {src dst a : Ip6Address} {k : L4Kind} (h : validateSrcIp6 s src dst k = .ok a) :
    a ∈ s.ip6Unicast ∨ (a = .zero ∧ src = .zero ∧ (k = .icmp6 135 0 ∨ ∃ n, k = .icmp6 143 n)) := by
  rw [validateSrcIp6] at h
  split at h
  · cases h
  rename_i hown
  split at h
  · split at h
    · rename_i hu; injection h with h; left; rw [hu, ← h]; simp
    · cases h
  rename_i hnm
  split at h
  · rename_i hz
    have hz := (Ip6Address.isUnspecified_iff _).mp hz
    split at h
    · rename_i b hb'; injection h with h; subst h; left; exact firstAddr6_mem hb'
    · split at h
      · rename_i b hb'; injection h with h; subst h; left; exact firstAddr6_mem hb'
      · split at h
        · rename_i hk
          injection h with h; subst h
          exact Or.inr ⟨hz, hz, (maySendUnspecified6_iff k).mp hk⟩
        · cases h
  · rename_i hz
    injection h with h
    subst h
    left
    rw [Classical.not_not] at hown
    rcases hown with h1 | h1 | h1
    · exact h1
    · exact absurd h1 hnm
    · exact absurd ((Ip6Address.isUnspecified_iff _).mpr h1) hz

theorem phtxIp6Small_hdr {s : Stack} {nd : NdLookup} {src dst : Ip6Address} {hop : Nat} {c : L4} {st : TxStatus}
    {outs : List Outgoing} (h : phtxIp6Small s nd src dst hop c = .ok (.inl (st, outs))) :
    ∀ o ∈ outs, ∃ a hd, validateSrcIp6 s src dst c.kind = .ok a ∧ o.pkt = .ip6 hd c.toCarried ∧ hd = packetTx6 a dst hop ∧
      dst ≠ .zero ∧ o.src = s.mac ∧ 40 + c.len ≤ s.mtu := by
  intro o ho
  rw [phtxIp6Small] at h
  cases hA : pyAssert (decide (0 < hop) && decide (hop < 256)) with
  | error e => rw [hA] at h; simp at h
  | ok u =>
    rw [hA, py_ok_bind] at h
    split at h
    · simp only [py_pure, Except.ok.injEq, Sum.inl.injEq, Prod.mk.injEq] at h; rw [← h.2] at ho; cases ho
    rename_i a ha
    rw [validateDstIp6] at h
    by_cases hz : dst.isUnspecified = true
    · simp only [hz, if_true, py_pure, Except.ok.injEq, Sum.inl.injEq, Prod.mk.injEq] at h; rw [← h.2] at ho; cases ho
    have hz' : dst ≠ .zero := fun e => hz ((Ip6Address.isUnspecified_iff _).mpr e)
    rw [if_neg hz] at h
    simp only [] at h
    cases hB : ip6Asserts (packetTx6 a dst hop) c.proto with
    | error e => rw [hB] at h; simp at h
    | ok u =>
      rw [hB, py_ok_bind] at h
      split at h
      · rename_i hl
        cases hE : phtxEther s (fun _ => none) nd .zero .zero (.ip6 (packetTx6 a dst hop) c.toCarried) with
        | error e => rw [hE] at h; simp at h
        | ok r =>
          obtain ⟨st', outs'⟩ := r
          rw [hE] at h
          simp only [py_ok_bind, py_pure, Except.ok.injEq, Sum.inl.injEq, Prod.mk.injEq] at h
          rcases phtxEther_pkt hE with ⟨-, m, hm⟩ | ⟨-, hm⟩
          · rw [← h.2, hm, List.mem_singleton] at ho
            subst ho
            exact ⟨a, _, ha, rfl, rfl, hz', rfl, hl⟩
          · rw [← h.2, hm] at ho; cases ho
      · simp at h

theorem phtxIp6Small_inr {s : Stack} {nd : NdLookup} {src dst a b : Ip6Address} {hop : Nat} {c : L4}
    (h : phtxIp6Small s nd src dst hop c = .ok (.inr (a, b))) :
    validateSrcIp6 s src dst c.kind = .ok a ∧ b = dst ∧ dst ≠ .zero ∧ s.mtu < 40 + c.len := by
  rw [phtxIp6Small] at h
  cases hA : pyAssert (decide (0 < hop) && decide (hop < 256)) with
  | error e => rw [hA] at h; simp at h
  | ok u =>
    rw [hA, py_ok_bind] at h
    split at h
    · simp at h
    rename_i a' ha
    rw [validateDstIp6] at h
    by_cases hz : dst.isUnspecified = true
    · simp [hz] at h
    have hz' : dst ≠ .zero := fun e => hz ((Ip6Address.isUnspecified_iff _).mpr e)
    rw [if_neg hz] at h
    simp only [] at h
    cases hB : ip6Asserts (packetTx6 a' dst hop) c.proto with
    | error e => rw [hB] at h; simp at h
    | ok u =>
      rw [hB, py_ok_bind] at h
      split at h
      · cases hE : phtxEther s (fun _ => none) nd .zero .zero (.ip6 (packetTx6 a' dst hop) c.toCarried) with
        | error e => rw [hE] at h; simp at h
        | ok r => rw [hE] at h; simp at h
      · simp only [py_pure, Except.ok.injEq, Sum.inr.injEq, Prod.mk.injEq] at h
        exact ⟨h.1 ▸ ha, h.2.symm, hz', by omega⟩

/-- C34: every IPv6 packet queued for sending has one of the stack's own addresses as source, or `::` on a duplicate
address detection solicitation or MLDv2 report for which `::` was asked for, the requested destination, which is
specified, and the stack's MAC as source. -/
theorem C34_ip6_source_owned {s s' : Stack} {nd : Nat → NdLookup} {src dst : Ip6Address} {hop : Nat} {c : L4}
    {st : TxStatus} {outs : List Outgoing} (h : phtxIp6 s nd src dst hop c = (s', .ok (st, outs))) :
    ∀ o ∈ outs, ∃ hd, o.pkt.ip6Hdr = some hd ∧ hd.dst = dst ∧ dst ≠ .zero ∧ o.src = s.mac ∧
      (hd.src ∈ s.ip6Host.map (·.address) ∨
        (hd.src = .zero ∧ src = .zero ∧ (c.kind = .icmp6 135 0 ∨ ∃ n, c.kind = .icmp6 143 n))) := by
  intro o ho
  rw [phtxIp6] at h
  split at h
  · simp at h
  · rename_i r hr
    simp only [Prod.mk.injEq, Except.ok.injEq] at h
    rw [h.2] at hr
    obtain ⟨a, hd, ha, e1, e2, e3, e4, -⟩ := phtxIp6Small_hdr hr o ho
    refine ⟨hd, by rw [e1]; rfl, by rw [e2]; rfl, e3, e4, ?_⟩
    rw [e2]
    exact validateSrcIp6_owned ha
  · rename_i a b hr
    obtain ⟨ha, rfl, hz, -⟩ := phtxIp6Small_inr hr
    split at h
    · simp at h
    · rename_i frags hfr
      simp only [Prod.mk.injEq] at h
      obtain ⟨-, h⟩ := h
      cases hs : sendFrags (sendFragIp6 { s with ip6Id := s.ip6Id + 1 } nd a b c.proto (s.ip6Id + 1)) 0 frags with
      | error e => rw [hs] at h; simp at h
      | ok r =>
        obtain ⟨sts, outs'⟩ := r
        rw [hs] at h
        simp only [py_ok_bind, py_pure, Except.ok.injEq, Prod.mk.injEq] at h
        obtain ⟨g, hg, -, hout⟩ := sendFrags_inv hs
        rw [← h.2, hout, List.mem_flatMap] at ho
        obtain ⟨f, hf, hof⟩ := ho
        have h1 := hg f hf
        rw [sendFragIp6] at h1
        cases hA : pyAssert (c.proto == 58 || c.proto == 17 || c.proto == 6 || c.proto == 255) with
        | error e => rw [hA] at h1; simp at h1
        | ok u =>
          rw [hA, py_ok_bind] at h1
          cases hB : phtxIp6Small { s with ip6Id := s.ip6Id + 1 } (nd f.offset) a b 64
              { Ip6Frag.carried c.proto f.offset f.mf (s.ip6Id + 1) f.data with kind := .other } with
          | error e => rw [hB] at h1; simp at h1
          | ok r =>
            rw [hB, py_ok_bind] at h1
            cases r with
            | inr x => simp at h1
            | inl r =>
              simp only [py_pure, Except.ok.injEq] at h1
              subst h1
              obtain ⟨a', hd, ha', e1, e2, e3, e4, -⟩ := phtxIp6Small_hdr hB o hof
              refine ⟨hd, by rw [e1]; rfl, by rw [e2]; rfl, e3, e4, ?_⟩
              rw [e2]
              rcases validateSrcIp6_owned ha' with h | ⟨-, -, h | ⟨n, h⟩⟩
              · exact Or.inl h
              · cases h
              · cases h


/-- Sending is refused: the given status, nothing queued, no change. -/
def RefusedIp6 (s : Stack) (src dst : Ip6Address) (k : L4Kind) (e : TxStatus) : Prop :=
  ∀ nd hop c, 0 < hop → hop < 256 → c.kind = k → phtxIp6 s nd src dst hop c = (s, .ok (e, []))

/-- The packet is accepted with source `a`: one that fits the MTU is handed to the link layer in a header from `a` to
`dst`. -/
def SentFromIp6 (s : Stack) (src dst : Ip6Address) (k : L4Kind) (a : Ip6Address) : Prop :=
  ∀ nd hop c, 0 < hop → hop < 256 → c.kind = k →
    (c.proto = 58 ∨ c.proto = 17 ∨ c.proto = 6 ∨ c.proto = 44 ∨ c.proto = 255) → 40 + c.len ≤ s.mtu →
    phtxIp6 s nd src dst hop c = (s, phtxEther s (fun _ => none) (nd 0) .zero .zero
      (.ip6 { src := a, dst := dst, hop := hop, dscp := 0, ecn := 0, flow := 0 } c.toCarried))

theorem refusedIp6 {s : Stack} {src dst : Ip6Address} {k : L4Kind} {e : TxStatus}
    (h : validateSrcIp6 s src dst k = .error e) : RefusedIp6 s src dst k e := by
  intro nd hop c h1 h2 hk
  subst hk
  simp [phtxIp6, phtxIp6Small, h1, h2, h]

theorem packetTx6_asserts (src dst : Ip6Address) (hop proto : Nat) (ht : hop < 256)
    (hp : proto = 58 ∨ proto = 17 ∨ proto = 6 ∨ proto = 44 ∨ proto = 255) :
    ip6Asserts (packetTx6 src dst hop) proto = .ok () := by
  have : (proto == 58 || proto == 17 || proto == 6 || proto == 44 || proto == 255) = true := by simp; omega
  simp [packetTx6, ip6Asserts, this, show hop ≤ 255 by omega]

theorem sentFromIp6 {s : Stack} {src dst : Ip6Address} {k : L4Kind} {a : Ip6Address} (hdst : dst ≠ .zero)
    (h : validateSrcIp6 s src dst k = .ok a) : SentFromIp6 s src dst k a := by
  intro nd hop c h1 h2 hk hp hl
  subst hk
  have hz : ¬ dst.isUnspecified = true := fun e => hdst ((Ip6Address.isUnspecified_iff _).mp e)
  simp only [phtxIp6, phtxIp6Small, h1, h2, h, validateDstIp6, if_neg hz, packetTx6_asserts a dst hop c.proto h2 hp,
    if_pos hl, decide_true, Bool.and_self, pyAssert_true, py_ok_bind]
  show _ = (s, phtxEther s (fun _ => none) (nd 0) .zero .zero (.ip6 (packetTx6 a dst hop) c.toCarried))
  cases phtxEther s (fun _ => none) (nd 0) .zero .zero (.ip6 (packetTx6 a dst hop) c.toCarried) with
  | error e => simp
  | ok r => simp

/-- C34: which requests are refused and which source the others get. -/
theorem C34_ip6_source_choice (s : Stack) (src dst : Ip6Address) (k : L4Kind) (hdst : dst ≠ .zero) :
    let uni := s.ip6Host.map (·.address)
    let mc := s.ip6Multicast
    let dadOrReport := k = .icmp6 135 0 ∨ ∃ n, k = .icmp6 143 n
    (src ∉ uni → src ∉ mc → src ≠ .zero → RefusedIp6 s src dst k .dropIp6SrcNotOwned) ∧
    (src ∈ uni → src ∉ mc → src ≠ .zero → SentFromIp6 s src dst k src) ∧
    (src ∈ mc → ∀ h hs, s.ip6Host = h :: hs → SentFromIp6 s src dst k h.address) ∧
    (src ∈ mc → s.ip6Host = [] → RefusedIp6 s src dst k .dropIp6SrcMulticast) ∧
    (src ∉ mc → src = .zero →
      (∀ h, FirstHost s.ip6Host (·.OnLink dst) h → SentFromIp6 s src dst k h.address) ∧
      ((∀ h ∈ s.ip6Host, ¬ h.OnLink dst) →
        (∀ h, FirstHost s.ip6Host (·.gateway ≠ none) h → SentFromIp6 s src dst k h.address) ∧
        ((∀ h ∈ s.ip6Host, h.gateway = none) →
          (dadOrReport → SentFromIp6 s src dst k .zero) ∧
          (¬ dadOrReport → RefusedIp6 s src dst k .dropIp6SrcUnspecified)))) := by
  intro uni mc dadOrReport
  have hz : ∀ a : Ip6Address, a ≠ .zero → ¬ a.isUnspecified = true :=
    fun a h e => h ((Ip6Address.isUnspecified_iff _).mp e)
  refine ⟨?_, ?_, ?_, ?_, ?_⟩
  · intro h1 h2 h3
    apply refusedIp6
    rw [validateSrcIp6, if_pos]
    rintro (h | h | h) <;> contradiction
  · intro h1 h2 h3
    apply sentFromIp6 hdst
    rw [validateSrcIp6, if_neg (fun h => h (Or.inl h1)), if_neg h2, if_neg (hz _ h3)]
  · intro h1 h hs hh
    apply sentFromIp6 hdst
    rw [validateSrcIp6, if_neg (fun h => h (Or.inr (Or.inl h1))), if_pos h1]
    simp only [Stack.ip6Unicast, hh, List.map_cons]
  · intro h1 hh
    apply refusedIp6
    rw [validateSrcIp6, if_neg (fun h => h (Or.inr (Or.inl h1))), if_pos h1]
    simp only [Stack.ip6Unicast, hh, List.map_nil]
  · intro h1 h3
    have hzz := (Ip6Address.isUnspecified_iff _).mpr h3
    have key : validateSrcIp6 s src dst k =
        match firstAddr6 s.ip6Host (·.network.contains dst) with
        | some a => .ok a
        | none =>
          match firstAddr6 s.ip6Host (·.gateway.isSome) with
          | some a => .ok a
          | none => if k.maySendUnspecified6 then .ok src else .error .dropIp6SrcUnspecified := by
      rw [validateSrcIp6, if_neg (fun h => h (Or.inr (Or.inr h3))), if_neg h1]
      simp only [if_pos hzz]
      rfl
    have hg : ∀ h : Ip6Host, h.gateway.isSome = true ↔ h.gateway ≠ none := by
      intro h; cases h.gateway <;> simp
    refine ⟨?_, fun hno => ⟨?_, fun hng => ⟨?_, ?_⟩⟩⟩
    · intro h hf
      apply sentFromIp6 hdst
      rw [key, firstAddr6_first (fun x => x.contains_iff dst) hf]
    · intro h hf
      apply sentFromIp6 hdst
      rw [key, firstAddr6_none.mpr (fun h hh => by rw [Bool.eq_false_iff, ne_eq, h.contains_iff]; exact hno h hh),
        firstAddr6_first hg hf]
    · intro hk
      apply sentFromIp6 hdst
      rw [key, firstAddr6_none.mpr (fun h hh => by rw [Bool.eq_false_iff, ne_eq, h.contains_iff]; exact hno h hh),
        firstAddr6_none.mpr (fun h hh => by rw [hng h hh]; rfl)]
      simp only [if_pos ((maySendUnspecified6_iff k).mpr hk), h3]
    · intro hk
      apply refusedIp6
      rw [key, firstAddr6_none.mpr (fun h hh => by rw [Bool.eq_false_iff, ne_eq, h.contains_iff]; exact hno h hh),
        firstAddr6_none.mpr (fun h hh => by rw [hng h hh]; rfl)]
      simp only [if_neg (fun h => hk ((maySendUnspecified6_iff k).mp h))]

/-! ### C35 -/

/-- The link layer queues exactly this packet, to `m`. -/
def SentTo (s : Stack) (p : Pkt) (r : Py (TxStatus × List Outgoing)) (m : MacAddress) : Prop :=
  r = .ok (.passedEtherToTxRing, [{ src := s.mac, dst := m, pkt := p }])

/-- The link layer drops the packet with status `e` and queues nothing. -/
def DroppedWith (r : Py (TxStatus × List Outgoing)) (e : TxStatus) : Prop := r = .ok (e, [])

theorem phtxEther_ip4 (s : Stack) (arp : ArpLookup) (nd : NdLookup) (p : Pkt) (hd : Ip4.Tx) (hp : p.ip4Hdr = some hd) :
    phtxEther s arp nd .zero .zero p = match etherDstIp4 s arp hd.src hd.dst with
      | .error e => .error e
      | .ok (.ok m) => .ok (.passedEtherToTxRing, [⟨s.mac, m, p⟩])
      | .ok (.error st) => .ok (st, []) := by
  cases p <;> simp [Pkt.ip4Hdr] at hp <;> subst hp <;> rfl

theorem phtxEther_ip6 (s : Stack) (arp : ArpLookup) (nd : NdLookup) (p : Pkt) (hd : Ip6.Tx) (hp : p.ip6Hdr = some hd) :
    phtxEther s arp nd .zero .zero p = match etherDstIp6 s nd hd.src hd.dst with
      | .error e => .error e
      | .ok (.ok m) => .ok (.passedEtherToTxRing, [⟨s.mac, m, p⟩])
      | .ok (.error st) => .ok (st, []) := by
  cases p <;> simp [Pkt.ip6Hdr] at hp <;> subst hp <;> rfl

/-- C35 for IPv4: where a packet with the given header goes.  (Its source belongs to at most one configured host, `h`.) -/
theorem C35_ip4_next_hop (s : Stack) (arp : ArpLookup) (nd : NdLookup) (p : Pkt) (hd : Ip4.Tx)
    (hp : p.ip4Hdr = some hd) :
    let r := phtxEther s arp nd .zero .zero p
    let dst := hd.dst
    -- 224.0.0.0/4
    (cidr 32 (Spec.dot 224 0 0 0) 4 dst.int → ∃ m, m.int = 0x01005E000000 + dst.int % 2 ^ 23 ∧ SentTo s p r m) ∧
    (dst = .limitedBroadcast → SentTo s p r .broadcast) ∧
    (¬ cidr 32 (Spec.dot 224 0 0 0) 4 dst.int → dst ≠ .limitedBroadcast →
      -- the source is the address of the host entry h only
      (∀ h ∈ s.ip4Host, h.address = hd.src → (∀ h' ∈ s.ip4Host, h'.address = hd.src → h' = h) →
        (dst = h.network.address ∨ h.network.broadcast = .ok dst → SentTo s p r .broadcast) ∧
        (dst ≠ h.network.address → h.network.broadcast ≠ .ok dst →
          (h.OnLink dst → (∀ m, arp dst = some m → SentTo s p r m) ∧
            (arp dst = none → DroppedWith r .dropEtherArpCacheFail)) ∧
          (¬ h.OnLink dst →
            (h.gateway = none → DroppedWith r .dropEtherNoGatewayIp4) ∧
            (∀ g, h.gateway = some g → (∀ m, arp g = some m → SentTo s p r m) ∧
              (arp g = none → DroppedWith r .dropEtherGatewayArpCacheFail))))) ∧
      -- the source is no configured address
      ((∀ h ∈ s.ip4Host, h.address ≠ hd.src) → (∀ m, arp dst = some m → SentTo s p r m) ∧
            (arp dst = none → DroppedWith r .dropEtherArpCacheFail))) := by
  intro r dst
  have hr : r = _ := phtxEther_ip4 s arp nd p hd hp
  have hmc : dst.isMulticast = true ↔ cidr 32 (Spec.dot 224 0 0 0) 4 dst.int :=
    (C08_ip4_classes_partial dst).2.2.2.2.1
  have hlb : ∀ {a : Ip4Address}, cidr 32 (Spec.dot 224 0 0 0) 4 a.int → a ≠ .limitedBroadcast := by
    rintro a h rfl; revert h; decide
  refine ⟨?_, ?_, ?_⟩
  · intro h
    obtain ⟨m, h1, h2, -⟩ := (C13_ip4_multicast_mac dst).1 (hmc.mpr h)
    refine ⟨m, h2, ?_⟩
    rw [SentTo, hr, etherDstIp4, if_pos (hmc.mpr h), h1]
    rfl
  · intro h
    have : ¬ dst.isMulticast = true := by rw [hmc]; intro h'; exact hlb h' h
    rw [SentTo, hr, etherDstIp4, if_neg this, if_pos ((Ip4Address.isLimitedBroadcast_iff _).mpr h)]
  · intro h1 h2
    have n1 : ¬ dst.isMulticast = true := by rw [hmc]; exact h1
    have n2 : ¬ dst.isLimitedBroadcast = true := fun e => h2 ((Ip4Address.isLimitedBroadcast_iff _).mp e)
    constructor
    · intro h hh ha huniq
      constructor
      · intro hb
        have : s.ip4Host.any (fun h => h.address = hd.src && (dst = h.network.address || dst = h.network.bcast)) = true := by
          rw [List.any_eq_true]
          refine ⟨h, hh, ?_⟩
          simp only [ha, decide_true, Bool.true_and, Bool.or_eq_true, decide_eq_true_eq]
          rcases hb with hb | hb
          · exact Or.inl hb
          · rw [Ip4Network.broadcast_ok, Except.ok.injEq] at hb; exact Or.inr hb.symm
        rw [SentTo, hr, etherDstIp4, if_neg n1, if_neg n2, if_pos this]
      · intro b1 b2
        have hb : ¬ s.ip4Host.any (fun h => h.address = hd.src && (dst = h.network.address || dst = h.network.bcast)) = true := by
          rw [List.any_eq_true]
          rintro ⟨h', hh', hx⟩
          simp only [Bool.and_eq_true, Bool.or_eq_true, decide_eq_true_eq] at hx
          have := huniq h' hh' hx.1
          subst this
          rcases hx.2 with hx | hx
          · exact b1 hx
          · exact b2 (by rw [Ip4Network.broadcast_ok, hx]; rfl)
        constructor
        · intro hon
          have hfind : s.ip4Host.find? (fun h => h.address = hd.src && !h.network.contains dst) = none := by
            rw [List.find?_eq_none]
            intro h' hh' hx
            simp only [Bool.and_eq_true, decide_eq_true_eq, Bool.not_eq_true'] at hx
            have := huniq h' hh' hx.1
            subst this
            rw [(h'.contains_iff dst).mpr hon] at hx
            simp at hx
          constructor
          · intro m hm
            rw [SentTo, hr, etherDstIp4, if_neg n1, if_neg n2, if_neg hb, hfind]
            simp only [dst] at hm ⊢
            simp only [hm]
          · intro hm
            rw [DroppedWith, hr, etherDstIp4, if_neg n1, if_neg n2, if_neg hb, hfind]
            simp only [dst] at hm ⊢
            simp only [hm]
        · intro hon
          have hfind : s.ip4Host.find? (fun h => h.address = hd.src && !h.network.contains dst) = some h := by
            cases hf : s.ip4Host.find? (fun h => h.address = hd.src && !h.network.contains dst) with
            | none =>
              rw [List.find?_eq_none] at hf
              have := hf h hh
              rw [← h.contains_iff, Bool.not_eq_true] at hon
              simp [ha, hon] at this
            | some h' =>
              have hx := List.find?_some hf
              simp only [Bool.and_eq_true, decide_eq_true_eq] at hx
              rw [huniq h' (List.mem_of_find?_eq_some hf) hx.1]
          constructor
          · intro hg
            rw [DroppedWith, hr, etherDstIp4, if_neg n1, if_neg n2, if_neg hb, hfind]
            simp only [hg]
          · intro g hg
            constructor
            · intro m hm
              rw [SentTo, hr, etherDstIp4, if_neg n1, if_neg n2, if_neg hb, hfind]
              simp only [hg, hm]
            · intro hm
              rw [DroppedWith, hr, etherDstIp4, if_neg n1, if_neg n2, if_neg hb, hfind]
              simp only [hg, hm]
    · intro hno
      have hb : ¬ s.ip4Host.any (fun h => h.address = hd.src && (dst = h.network.address || dst = h.network.bcast)) = true := by
        rw [List.any_eq_true]
        rintro ⟨h', hh', hx⟩
        simp only [Bool.and_eq_true, decide_eq_true_eq] at hx
        exact hno h' hh' hx.1
      have hfind : s.ip4Host.find? (fun h => h.address = hd.src && !h.network.contains dst) = none := by
        rw [List.find?_eq_none]
        intro h' hh' hx
        simp only [Bool.and_eq_true, decide_eq_true_eq, Bool.not_eq_true'] at hx
        exact hno h' hh' hx.1
      constructor
      · intro m hm
        rw [SentTo, hr, etherDstIp4, if_neg n1, if_neg n2, if_neg hb, hfind]
        simp only [dst] at hm ⊢
        simp only [hm]
      · intro hm
        rw [DroppedWith, hr, etherDstIp4, if_neg n1, if_neg n2, if_neg hb, hfind]
        simp only [dst] at hm ⊢
        simp only [hm]


/-- C35 for IPv6. -/
theorem C35_ip6_next_hop (s : Stack) (arp : ArpLookup) (nd : NdLookup) (p : Pkt) (hd : Ip6.Tx)
    (hp : p.ip6Hdr = some hd) :
    let r := phtxEther s arp nd .zero .zero p
    let dst := hd.dst
    -- ff00::/8
    (cidr 128 (Spec.hextet 0xFF00) 8 dst.int → ∃ m, m.int = 0x333300000000 + dst.int % 2 ^ 32 ∧ SentTo s p r m) ∧
    (¬ cidr 128 (Spec.hextet 0xFF00) 8 dst.int →
      -- the source is the address of the host entry h only
      (∀ h ∈ s.ip6Host, h.address = hd.src → (∀ h' ∈ s.ip6Host, h'.address = hd.src → h' = h) →
        (h.OnLink dst → (∀ m, nd dst = some m → SentTo s p r m) ∧
          (nd dst = none → DroppedWith r .dropEtherNdCacheFail)) ∧
        (¬ h.OnLink dst →
          (h.gateway = none → DroppedWith r .dropEtherNoGatewayIp6) ∧
          (∀ g, h.gateway = some g → (∀ m, nd g = some m → SentTo s p r m) ∧
            (nd g = none → DroppedWith r .dropEtherGatewayNdCacheFail)))) ∧
      -- the source is no configured address
      ((∀ h ∈ s.ip6Host, h.address ≠ hd.src) → (∀ m, nd dst = some m → SentTo s p r m) ∧
            (nd dst = none → DroppedWith r .dropEtherNdCacheFail))) := by
  intro r dst
  have hr : r = _ := phtxEther_ip6 s arp nd p hd hp
  have hmc : dst.isMulticast = true ↔ cidr 128 (Spec.hextet 0xFF00) 8 dst.int := (C09_ip6_classes dst).2.2.2.2.2.1
  refine ⟨?_, ?_⟩
  · intro h
    obtain ⟨m, h1, h2, -⟩ := (C13_ip6_multicast_mac dst).1 (hmc.mpr h)
    refine ⟨m, h2, ?_⟩
    rw [SentTo, hr, etherDstIp6, if_pos (hmc.mpr h), h1]
    rfl
  · intro h1
    have n1 : ¬ dst.isMulticast = true := by rw [hmc]; exact h1
    constructor
    · intro h hh ha huniq
      constructor
      · intro hon
        have hfind : s.ip6Host.find? (fun h => h.address = hd.src && !h.network.contains dst) = none := by
          rw [List.find?_eq_none]
          intro h' hh' hx
          simp only [Bool.and_eq_true, decide_eq_true_eq, Bool.not_eq_true'] at hx
          have := huniq h' hh' hx.1
          subst this
          rw [(h'.contains_iff dst).mpr hon] at hx
          simp at hx
        constructor
        · intro m hm
          rw [SentTo, hr, etherDstIp6, if_neg n1, hfind]
          simp only [dst] at hm ⊢
          simp only [hm]
        · intro hm
          rw [DroppedWith, hr, etherDstIp6, if_neg n1, hfind]
          simp only [dst] at hm ⊢
          simp only [hm]
      · intro hon
        have hfind : s.ip6Host.find? (fun h => h.address = hd.src && !h.network.contains dst) = some h := by
          cases hf : s.ip6Host.find? (fun h => h.address = hd.src && !h.network.contains dst) with
          | none =>
            rw [List.find?_eq_none] at hf
            have := hf h hh
            rw [← h.contains_iff, Bool.not_eq_true] at hon
            simp [ha, hon] at this
          | some h' =>
            have hx := List.find?_some hf
            simp only [Bool.and_eq_true, decide_eq_true_eq] at hx
            rw [huniq h' (List.mem_of_find?_eq_some hf) hx.1]
        constructor
        · intro hg
          rw [DroppedWith, hr, etherDstIp6, if_neg n1, hfind]
          simp only [hg]
        · intro g hg
          constructor
          · intro m hm
            rw [SentTo, hr, etherDstIp6, if_neg n1, hfind]
            simp only [hg, hm]
          · intro hm
            rw [DroppedWith, hr, etherDstIp6, if_neg n1, hfind]
            simp only [hg, hm]
    · intro hno
      have hfind : s.ip6Host.find? (fun h => h.address = hd.src && !h.network.contains dst) = none := by
        rw [List.find?_eq_none]
        intro h' hh' hx
        simp only [Bool.and_eq_true, decide_eq_true_eq, Bool.not_eq_true'] at hx
        exact hno h' hh' hx.1
      constructor
      · intro m hm
        rw [SentTo, hr, etherDstIp6, if_neg n1, hfind]
        simp only [dst] at hm ⊢
        simp only [hm]
      · intro hm
        rw [DroppedWith, hr, etherDstIp6, if_neg n1, hfind]
        simp only [dst] at hm ⊢
        simp only [hm]

/-- C35: explicit link-layer addresses are used as given, and a non-IP packet without one is dropped; in every case the
packet is either queued once, unchanged, with the right source MAC, or dropped with nothing queued. -/
theorem C35_ether (s : Stack) (arp : ArpLookup) (nd : NdLookup) (es ed : MacAddress) (p : Pkt) :
    (ed.int ≠ 0 → phtxEther s arp nd es ed p =
      .ok (.passedEtherToTxRing, [{ src := if es.int = 0 then s.mac else es, dst := ed, pkt := p }])) ∧
    (ed.int = 0 → p.ip4Hdr = none → p.ip6Hdr = none →
      phtxEther s arp nd es ed p = .ok (.dropEtherResolutionFail, [])) ∧
    (∃ st outs, phtxEther s arp nd es ed p = .ok (st, outs) ∧
      ((st = .passedEtherToTxRing ∧ ∃ m, outs = [{ src := if es.int = 0 then s.mac else es, dst := m, pkt := p }]) ∨
        (st ≠ .passedEtherToTxRing ∧ outs = []))) := by
  have he : (if es.isUnspecified = true then s.mac else es) = if es.int = 0 then s.mac else es := by
    simp only [MacAddress.isUnspecified, beq_iff_eq]
  refine ⟨?_, ?_, ?_⟩
  · intro h
    rw [phtxEther, if_pos (by simp [MacAddress.isUnspecified, h]), he]
  · intro h h4 h6
    rw [phtxEther, if_neg (by simp [MacAddress.isUnspecified, h])]
    cases p <;> simp [Pkt.ip4Hdr, Pkt.ip6Hdr] at h4 h6 <;> rfl
  · have h4 : ∀ src dst, ∃ r, etherDstIp4 s arp src dst = .ok r := by
      intro src dst
      rw [etherDstIp4]
      split
      · rename_i hm
        obtain ⟨m, h1, -⟩ := (C13_ip4_multicast_mac dst).1 hm
        exact ⟨_, by rw [h1]; rfl⟩
      · (repeat' split) <;> exact ⟨_, rfl⟩
    have h6 : ∀ src dst, ∃ r, etherDstIp6 s nd src dst = .ok r := by
      intro src dst
      rw [etherDstIp6]
      split
      · rename_i hm
        obtain ⟨m, h1, -⟩ := (C13_ip6_multicast_mac dst).1 hm
        exact ⟨_, by rw [h1]; rfl⟩
      · (repeat' split) <;> exact ⟨_, rfl⟩
    have hd : ∃ r, etherDst s arp nd p = .ok r := by
      cases p with
      | ip4 h c => exact h4 _ _
      | ip4Frag h c => exact h4 _ _
      | ip6 h c => exact h6 _ _
      | arp => exact ⟨_, rfl⟩
      | raw => exact ⟨_, rfl⟩
    have hex : ∃ st outs, phtxEther s arp nd es ed p = .ok (st, outs) := by
      obtain ⟨r, hr⟩ := hd
      rw [phtxEther]
      split
      · exact ⟨_, _, rfl⟩
      · rw [hr]
        cases r <;> exact ⟨_, _, rfl⟩
    obtain ⟨st, outs, h⟩ := hex
    refine ⟨st, outs, h, ?_⟩
    have := phtxEther_pkt h
    rwa [he] at this

/-! ### C72 -/

/-- C72: the local address picked for a remote one. -/
theorem C72_pick_local_ip4 (s : Stack) (remote : Ip4Address) :
    (∀ h, FirstHost s.ip4Host (·.OnLink remote) h → pickLocalIp4 s remote = h.address) ∧
    ((∀ h ∈ s.ip4Host, ¬ h.OnLink remote) →
      (∀ h, FirstHost s.ip4Host (·.gateway ≠ none) h → pickLocalIp4 s remote = h.address) ∧
      ((∀ h ∈ s.ip4Host, h.gateway = none) → pickLocalIp4 s remote = .zero)) ∧
    (pickLocalIp4 s remote ∈ s.ip4Host.map (·.address) ∨ pickLocalIp4 s remote = .zero) := by
  have hg : ∀ h : Ip4Host, h.gateway.isSome = true ↔ h.gateway ≠ none := by
    intro h; cases h.gateway <;> simp
  have hn : (∀ h ∈ s.ip4Host, ¬ h.OnLink remote) → firstAddr4 s.ip4Host (·.network.contains remote) = none := fun hno =>
    firstAddr4_none.mpr (fun h hh => by rw [Bool.eq_false_iff, ne_eq, h.contains_iff]; exact hno h hh)
  refine ⟨?_, fun hno => ⟨?_, ?_⟩, ?_⟩
  · intro h hf
    rw [pickLocalIp4, firstAddr4_first (fun x => x.contains_iff remote) hf]
  · intro h hf
    rw [pickLocalIp4, hn hno, firstAddr4_first hg hf]; rfl
  · intro hng
    rw [pickLocalIp4, hn hno, firstAddr4_none.mpr (fun h hh => by rw [hng h hh]; rfl)]; rfl
  · rw [pickLocalIp4]
    split
    · rename_i h; exact Or.inl (firstAddr4_mem h)
    · cases h : firstAddr4 s.ip4Host (·.gateway.isSome) with
      | none => exact Or.inr rfl
      | some a => exact Or.inl (firstAddr4_mem h)

/-- C72 for IPv6. -/
theorem C72_pick_local_ip6 (s : Stack) (remote : Ip6Address) :
    (∀ h, FirstHost s.ip6Host (·.OnLink remote) h → pickLocalIp6 s remote = h.address) ∧
    ((∀ h ∈ s.ip6Host, ¬ h.OnLink remote) →
      (∀ h, FirstHost s.ip6Host (·.gateway ≠ none) h → pickLocalIp6 s remote = h.address) ∧
      ((∀ h ∈ s.ip6Host, h.gateway = none) → pickLocalIp6 s remote = .zero)) ∧
    (pickLocalIp6 s remote ∈ s.ip6Host.map (·.address) ∨ pickLocalIp6 s remote = .zero) := by
  have hg : ∀ h : Ip6Host, h.gateway.isSome = true ↔ h.gateway ≠ none := by
    intro h; cases h.gateway <;> simp
  have hn : (∀ h ∈ s.ip6Host, ¬ h.OnLink remote) → firstAddr6 s.ip6Host (·.network.contains remote) = none := fun hno =>
    firstAddr6_none.mpr (fun h hh => by rw [Bool.eq_false_iff, ne_eq, h.contains_iff]; exact hno h hh)
  refine ⟨?_, fun hno => ⟨?_, ?_⟩, ?_⟩
  · intro h hf
    rw [pickLocalIp6, firstAddr6_first (fun x => x.contains_iff remote) hf]
  · intro h hf
    rw [pickLocalIp6, hn hno, firstAddr6_first hg hf]; rfl
  · intro hng
    rw [pickLocalIp6, hn hno, firstAddr6_none.mpr (fun h hh => by rw [hng h hh]; rfl)]; rfl
  · rw [pickLocalIp6]
    split
    · rename_i h; exact Or.inl (firstAddr6_mem h)
    · cases h : firstAddr6 s.ip6Host (·.gateway.isSome) with
      | none => exact Or.inr rfl
      | some a => exact Or.inl (firstAddr6_mem h)

/-! ### Concrete cases -/

namespace Example

/-- 255.255.255.0 -/
def mask24 : Ip4Mask := ⟨0xFFFFFF00, by decide, (validateBits_iff _ _ (by decide)).mpr ⟨24, by decide, by decide⟩⟩
/-- 10.0.1.7/24 with gateway 10.0.1.1 -/
def host4 : Ip4Host :=
  ⟨⟨0x0A000107, by decide⟩, Ip4Network.ofMask ⟨0x0A000107, by decide⟩ mask24, some ⟨0x0A000101, by decide⟩⟩
/-- 192.168.5.7/24 without gateway -/
def host4' : Ip4Host := ⟨⟨0xC0A80507, by decide⟩, Ip4Network.ofMask ⟨0xC0A80507, by decide⟩ mask24, none⟩
/-- ffff:ffff:ffff:ffff:: -/
def mask64 : Ip6Mask := ⟨0xFFFFFFFFFFFFFFFF0000000000000000, by decide,
  (validateBits_iff _ _ (by decide)).mpr ⟨64, by decide, by decide⟩⟩
/-- 2001:db8::7/64 with gateway fe80::1 -/
def host6 : Ip6Host :=
  ⟨⟨0x20010DB8000000000000000000000007, by decide⟩, Ip6Network.ofMask ⟨0x20010DB8000000000000000000000007, by decide⟩ mask64,
    some ⟨0xFE800000000000000000000000000001, by decide⟩⟩
/-- A stack with two IPv4 addresses and one IPv6 address and an MTU of 1500. -/
def stack : Stack :=
  { mac := ⟨0x020000000007, by decide⟩, ip4Host := [host4', host4], ip4Multicast := [⟨0xE0000001, by decide⟩],
    ip6Host := [host6], ip6Multicast := [⟨0xFF020000000000000000000000000001, by decide⟩], ip4Id := 0, ip6Id := 0, mtu := 1500 }

/-- An off-network destination: 8.8.8.8 goes to the gateway. -/
example : host4 ∈ stack.ip4Host ∧ (∀ h' ∈ stack.ip4Host, h'.address = host4.address → h' = host4) ∧
    ¬ host4.OnLink ⟨0x08080808, by decide⟩ ∧ host4.OnLink ⟨0x0A0001FE, by decide⟩ ∧
    host4.network.broadcast = .ok ⟨0x0A0001FF, by decide⟩ ∧ host4.gateway = some ⟨0x0A000101, by decide⟩ := by
  refine ⟨by decide, by decide, ?_, ?_, by decide, rfl⟩
  · rw [← host4.contains_iff]; decide
  · rw [← host4.contains_iff]; decide

/-- 8.8.8.8 is reached from the second address, which has the gateway; 192.168.5.0/24 from the first. -/
example : pickLocalIp4 stack ⟨0x08080808, by decide⟩ = host4.address ∧
    pickLocalIp4 stack ⟨0xC0A80501, by decide⟩ = host4'.address := by decide
example : FirstHost stack.ip4Host (·.gateway ≠ none) host4 :=
  ⟨[host4'], [], rfl, by decide, by simp [host4']⟩

end Example

end Verif
