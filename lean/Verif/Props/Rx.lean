import Verif.Spec.Rx
import Verif.Model.Wire
import Verif.Lemmas.Socket
import Verif.Props.CodecLink
import Verif.Props.CodecUdp
import Verif.Props.CodecIp4
import Verif.Props.CodecIp6
import Verif.Props.CodecTcp
import Verif.Props.CodecIcmp6
import Verif.Props.Tx
/-! C36 (filtering), C37 (ARP), C38 (neighbour discovery), C39 (ping), C47 (UDP delivery), C50 (ICMP unreachable), C63
(resets): what received frames make the stack do. -/
namespace Verif
open Spec

/-! ### Helpers -/

theorem slice_eq (f : Bytes) (i k : Nat) : slice f i (i + k) = (f.drop i).take k := by
  rw [slice, List.drop_take, Nat.add_sub_cancel_left]

theorem mac_be {f : Bytes} {i : Nat} (h : i + 6 ≤ f.length) :
    ∃ m, MacAddress.ofBytes (slice f i (i + 6)) = .ok m ∧ m.int = be f i 6 := by
  have hl : (slice f i (i + 6)).length = 6 := by simp; omega
  exact ⟨_, MacAddress.ofBytes_ok _ hl, by rw [be, ← slice_eq]⟩
theorem ip4_be {f : Bytes} {i : Nat} (h : i + 4 ≤ f.length) :
    ∃ m, Ip4Address.ofBytes (slice f i (i + 4)) = .ok m ∧ m.int = be f i 4 := by
  have hl : (slice f i (i + 4)).length = 4 := by simp; omega
  exact ⟨_, Ip4Address.ofBytes_ok _ hl, by rw [be, ← slice_eq]⟩
theorem ip6_be {f : Bytes} {i : Nat} (h : i + 16 ≤ f.length) :
    ∃ m, Ip6Address.ofBytes (slice f i (i + 16)) = .ok m ∧ m.int = be f i 16 := by
  have hl : (slice f i (i + 16)).length = 16 := by simp; omega
  exact ⟨_, Ip6Address.ofBytes_ok _ hl, by rw [be, ← slice_eq]⟩
theorem u16_be {f : Bytes} {i : Nat} (h : i + 2 ≤ f.length) : u16 f i = .ok (be f i 2) := by
  rw [u16_ok h, be, ← slice_eq]
theorem idx_be {f : Bytes} {i : Nat} (h : i < f.length) : idx f i = .ok (be f i 1) := by
  rw [idx_ok h, be, List.drop_eq_getElem_cons h, List.take_succ_cons, List.take_zero]
  simp [beNat]
theorem be_drop (f : Bytes) (i j k : Nat) : be (f.drop i) j k = be f (i + j) k := by
  rw [be, be, List.drop_drop]

theorem etherForUs_iff (n : Node) (d : MacAddress) : Rx.etherForUs n d = true ↔ MacForUs n d := by
  have : d = MacAddress.broadcast ↔ d.int = 0xFFFFFFFFFFFF := ⟨fun h => h ▸ rfl, fun h => MacAddress.ext' h⟩
  simp only [Rx.etherForUs, MacForUs, Bool.or_eq_true, decide_eq_true_eq, this, or_assoc]

theorem mem_ip4Unicast (n : Node) (a : Ip4Address) : a ∈ n.stack.ip4Unicast ↔ Owns4 n a := by
  simp [Stack.ip4Unicast, Owns4]
theorem mem_ip6Unicast (n : Node) (a : Ip6Address) : a ∈ n.stack.ip6Unicast ↔ Owns6 n a := by
  simp [Stack.ip6Unicast, Owns6]

theorem ip4ForUs_iff (n : Node) (a : Ip4Address) :
    Rx.ip4ForUs n.stack a = true ↔ n.stack.ip4Host = [] ∨ Listens4 n a := by
  have : a = Ip4Address.limitedBroadcast ↔ a.int = 0xFFFFFFFF :=
    ⟨fun h => h ▸ rfl, fun h => by cases a; simp at h; subst h; rfl⟩
  have e : n.stack.ip4Unicast.isEmpty = true ↔ n.stack.ip4Host = [] := by simp [Stack.ip4Unicast]
  simp only [Rx.ip4ForUs, Bool.or_eq_true, decide_eq_true_eq, mem_ip4Unicast, mem_ip4Broadcast, this, e, Listens4]
  constructor
  · rintro (((h | h) | h) | h | h)
    · exact .inl h
    · exact .inr (.inl h)
    · exact .inr (.inr (.inl h))
    · exact .inr (.inr (.inr (.inr h)))
    · exact .inr (.inr (.inr (.inl h)))
  · rintro (h | h | h | h | h)
    · exact .inl (.inl (.inl h))
    · exact .inl (.inl (.inr h))
    · exact .inl (.inr h)
    · exact .inr (.inr h)
    · exact .inr (.inl h)

theorem ip6ForUs_iff (n : Node) (a : Ip6Address) :
    (decide (a ∈ n.stack.ip6Unicast) || decide (a ∈ n.stack.ip6Multicast)) = true ↔ Listens6 n a := by
  simp only [Bool.or_eq_true, decide_eq_true_eq, mem_ip6Unicast, Listens6]

/-- The Ethernet handler on a frame that is for the stack. -/
theorem ether_holds {n : Node} {F : Bytes} {e : Ether.Hdr} (h : HoldsEther n F e) (t₀ t₁ : Int) (d : Nat) :
    Rx.ether n t₀ t₁ d F =
      if e.type = 0x0806 then (n, Rx.arp n e.dst e.data)
      else if e.type = 0x0800 then Rx.ip4 n t₀ t₁ e.data
      else if e.type = 0x86DD then Rx.ip6 n t₀ t₁ d e.data
      else (n, .ok []) := by
  obtain ⟨h1, h2, h3⟩ := h
  have h3 := (etherForUs_iff n e.dst).mpr h3
  simp [Rx.ether, h1, h2, h3, Ether.typeArp, Ether.typeIp4, Ether.typeIp6]
  rfl

/-- Any other frame has no effect. -/
theorem ether_other {n : Node} {F : Bytes} (h : ∀ e, ¬ HoldsEther n F e) (t₀ t₁ : Int) (d : Nat) :
    Rx.ether n t₀ t₁ d F = (n, .ok []) := by
  obtain ⟨r, hr, hr'⟩ := C22_ether_total F
  cases r with
  | some m => simp [Rx.ether, hr]
  | none =>
    obtain ⟨e, he⟩ := hr' rfl
    have : ¬ MacForUs n e.dst := fun hm => h e ⟨hr, he, hm⟩
    rw [← etherForUs_iff, Bool.not_eq_true] at this
    simp [Rx.ether, hr, he, this]

theorem ip4_holds {n : Node} {F : Bytes} {h : Ip4.Hdr} (H : HoldsIp4 n F h) (t₀ t₁ : Int) (d : Nat) :
    Rx.ether n t₀ t₁ d F = (n, Rx.ip4Dispatch n h h.rest) := by
  obtain ⟨e, he, ht, h1, h2, h3, h4, h5⟩ := H
  rw [ether_holds he, ht]
  have h3 := (ip4ForUs_iff n h.dst).mpr (.inr h3)
  simp [Rx.ip4, h1, h2, h3, h4, h5]

theorem ip6_holds {n : Node} {F : Bytes} {h : Ip6.Hdr} (H : HoldsIp6 n F h) (hx : h.next ≠ 44) (t₀ t₁ : Int) (d : Nat) :
    Rx.ether n t₀ t₁ d F =
      if h.next = 58 then (n, Rx.icmp6 n h.src h.dst h.hop h.dlen h.pshdrSum h.rest)
      else if h.next = 17 then (n, Rx.udp n (Rx.ofIp6 h) h.rest)
      else if h.next = 6 then (n, Rx.tcp n (Rx.ofIp6 h) h.rest)
      else (n, .ok []) := by
  obtain ⟨e, he, ht, h1, h2, h3⟩ := H
  rw [ether_holds he, ht]
  have h3 := (ip6ForUs_iff n h.dst).mpr h3
  rw [Rx.ip6.eq_def]
  simp only [h1, h2, h3, hx, py_ok_bind, py_pure, Bool.not_true, Bool.false_eq_true, if_false]
  simp

/-! ### C36 -/

/-- C36: a frame whose destination (its first six bytes) is neither the stack's address, nor a joined group, nor broadcast, has
no effect. -/
theorem C36_foreign_mac (n : Node) (t₀ t₁ : Int) (d : Nat) (F : Bytes) (h1 : be F 0 6 ≠ n.stack.mac.int)
    (h2 : ∀ m ∈ n.macMulticast, be F 0 6 ≠ m.int) (h3 : be F 0 6 ≠ 0xFFFFFFFFFFFF) :
    Rx.ether n t₀ t₁ d F = (n, .ok []) := by
  refine ether_other (fun e he => ?_) t₀ t₁ d
  obtain ⟨r, hr, hl, -⟩ := C14_ether_accepted F he.1
  obtain ⟨m, hm, hb⟩ := mac_be (f := F) (i := 0) (by omega)
  have hd : e.dst = m := by
    have h := he.2.1
    simp only [Ether.read, Ether.dst] at h
    rw [hm] at h
    simp only [py_ok_bind] at h
    cases hs : Ether.src F <;> simp [hs] at h
    cases ht : Ether.type F <;> simp [ht] at h
    rw [← h]
  rcases he.2.2 with h | h | h
  · exact h1 (by rw [← hb, ← hd, h])
  · exact h2 _ h (by rw [hd, hb])
  · exact h3 (by rw [← hb, ← hd, h])

theorem ether_fields {F : Bytes} {e : Ether.Hdr} (h : Ether.parse F = .ok none) (h' : Ether.read F = .ok e) :
    14 ≤ F.length ∧ e.type = be F 12 2 ∧ e.data = F.drop 14 := by
  obtain ⟨r, hr, hl, -⟩ := C14_ether_accepted F h
  obtain ⟨d, hd, -⟩ := mac_ok (f := F) (i := 0) (j := 6) rfl (by omega)
  obtain ⟨s, hs, -⟩ := mac_ok (f := F) (i := 6) (j := 12) rfl (by omega)
  have ht := u16_be (f := F) (i := 12) (by omega)
  simp only [Ether.read, Ether.dst, hd, Ether.src, hs, Ether.type, ht, py_ok_bind, py_pure, Ether.data] at h'
  cases h'
  exact ⟨hl, rfl, rfl⟩

/-- C36: an IPv4 packet (bytes 12, 13 of the frame are 0x0800) whose destination (bytes 30 to 33) is not one the stack listens
to has no effect, once the stack has an address.  (The parser can raise on it, which is C23's concern.) -/
theorem C36_foreign_ip4 (n : Node) (t₀ t₁ : Int) (d : Nat) (F : Bytes) (hn : n.stack.ip4Host ≠ []) (ht : be F 12 2 = 0x0800)
    (hd : ∀ a, a.int = be F 30 4 → ¬ Listens4 n a) :
    Rx.ether n t₀ t₁ d F = (n, .ok []) ∨
      (Rx.ether n t₀ t₁ d F = (n, .error .indexError) ∧ Ip4.parse (F.drop 14) = .error .indexError) := by
  by_cases hh : ∃ e, HoldsEther n F e
  · obtain ⟨e, he⟩ := hh
    obtain ⟨hl, het, hed⟩ := ether_fields he.1 he.2.1
    rw [ether_holds he, het, ht, hed]
    rw [if_neg (by decide), if_pos rfl]
    rcases C23_ip4_total_partial (F.drop 14) with ⟨r, hr, hr'⟩ | ⟨hr, -⟩
    · left
      cases r with
      | some m => simp [Rx.ip4, hr]
      | none =>
        obtain ⟨h, hh⟩ := hr' rfl
        have hlen : 20 ≤ (F.drop 14).length := by
          apply Ip4.integrity_length
          cases hi : Ip4.integrity (F.drop 14) with
          | error e => simp [Ip4.parse, hi] at hr
          | ok r =>
            cases r with
            | none => rfl
            | some e => simp [Ip4.parse, hi] at hr
        obtain ⟨m, hm, hb⟩ := ip4_be (f := F.drop 14) (i := 16) (by omega)
        have hdst : h.dst = m := by
          obtain ⟨ve, hn', dscp, ecn, pl', id, df, mf, off, ttl, proto, src, dst, k1, k2, k3, k4, k5, k6, k7, k8, k9, k10, k11,
            k12, k13, b1, b2, -⟩ := Ip4.cut (F.drop 14) hlen
          rw [Ip4.dst, hm] at k13; cases k13
          simp only [Ip4.read, k2, k3, k4, k5, k6, k7, k8, k9, k10, k11, k12, Ip4.dst, hm, py_ok_bind] at hh
          cases ho : Ip4.options (F.drop 14) with
          | error e => simp [ho] at hh
          | ok o =>
            simp only [ho, py_ok_bind] at hh
            cases hp : Ip4.pshdrSum src m proto (pl' - hn') with
            | error e => simp [hp] at hh
            | ok p => simp only [hp, py_ok_bind, py_pure] at hh; cases hh; rfl
        have hno : Rx.ip4ForUs n.stack h.dst = false := by
          rw [Bool.eq_false_iff, ne_eq, ip4ForUs_iff]
          rintro (h' | h')
          · exact hn h'
          · exact hd _ (by rw [hdst, hb, be_drop]) h'
        simp [Rx.ip4, hr, hh, hno]
    · right
      exact ⟨by simp [Rx.ip4, hr], hr⟩
  · left
    exact ether_other (fun e he => hh ⟨e, he⟩) t₀ t₁ d

/-- C36: an IPv6 packet (type 0x86DD) whose destination (bytes 38 to 53 of the frame) is not one the stack listens to has no
effect. -/
theorem C36_foreign_ip6 (n : Node) (t₀ t₁ : Int) (d : Nat) (F : Bytes) (ht : be F 12 2 = 0x86DD)
    (hd : ∀ a, a.int = be F 38 16 → ¬ Listens6 n a) : Rx.ether n t₀ t₁ d F = (n, .ok []) := by
  by_cases hh : ∃ e, HoldsEther n F e
  · obtain ⟨e, he⟩ := hh
    obtain ⟨hl, het, hed⟩ := ether_fields he.1 he.2.1
    rw [ether_holds he, het, ht, hed]
    rw [if_neg (by decide), if_neg (by decide), if_pos rfl, Rx.ip6.eq_def]
    obtain ⟨r, hr, hr'⟩ := C22_ip6_total (F.drop 14)
    cases r with
    | some m => simp [hr]
    | none =>
      obtain ⟨r, hr2, h40, -, -, -, -, -, -, -, hdst, -⟩ := C26_ip6_accepted _ hr
      obtain ⟨m, hm, hb⟩ := ip6_be (f := F.drop 14) (i := 24) (by omega)
      have hdst : r.dst = m := by
        apply Ip6Address.ext'
        have h1 := Ip6Address.ofBytes_ok (m.toBytes) (by simp)
        rw [hb, be, ← hdst, Ip6Address.toBytes_eq, beNat_bePack]
        exact (Nat.mod_eq_of_lt r.dst.lt).symm
      have hno : ¬ (decide (r.dst ∈ n.stack.ip6Unicast) || decide (r.dst ∈ n.stack.ip6Multicast)) = true := by
        rw [ip6ForUs_iff]
        exact hd _ (by rw [hdst, hb, be_drop])
      rw [Bool.not_eq_true] at hno
      simp only [hr, hr2, py_ok_bind, py_pure, hno, Bool.not_false, if_true]
  · exact ether_other (fun e he => hh ⟨e, he⟩) t₀ t₁ d

/-! ### What else a frame can do -/

theorem Ip4.read_dlen {f : Bytes} {h : Ip4.Hdr} (H : Ip4.read f = .ok h) : h.dlen < 65536 := by
  simp only [Ip4.read] at H
  cases h1 : Ip4.hlen f with
  | error e => simp [h1] at H
  | ok hl =>
    cases h2 : Ip4.plen f with
    | error e => simp [h1, h2] at H
    | ok pl =>
      have := u16_lt h2
      simp only [h1, h2, py_ok_bind] at H
      cases h3 : Ip4.src f with
      | error e => simp [h3] at H
      | ok a =>
      cases h4 : Ip4.dst f with
      | error e => simp [h3, h4] at H
      | ok b =>
      cases h5 : Ip4.proto f with
      | error e => simp [h3, h4, h5] at H
      | ok c =>
      cases h6 : Ip4.dscp f with
      | error e => simp [h3, h4, h5, h6] at H
      | ok c1 =>
      cases h7 : Ip4.ecn f with
      | error e => simp [h3, h4, h5, h6, h7] at H
      | ok c2 =>
      cases h8 : Ip4.id f with
      | error e => simp [h3, h4, h5, h6, h7, h8] at H
      | ok c3 =>
      cases h9 : Ip4.flagDf f with
      | error e => simp [h3, h4, h5, h6, h7, h8, h9] at H
      | ok c4 =>
      cases h10 : Ip4.flagMf f with
      | error e => simp [h3, h4, h5, h6, h7, h8, h9, h10] at H
      | ok c5 =>
      cases h11 : Ip4.offset f with
      | error e => simp [h3, h4, h5, h6, h7, h8, h9, h10, h11] at H
      | ok c6 =>
      cases h12 : Ip4.ttl f with
      | error e => simp [h3, h4, h5, h6, h7, h8, h9, h10, h11, h12] at H
      | ok c7 =>
      cases h13 : Ip4.options f with
      | error e => simp [h3, h4, h5, h6, h7, h8, h9, h10, h11, h12, h13] at H
      | ok c8 =>
      cases h14 : Ip4.pshdrSum a b c (pl - hl) with
      | error e => simp [h3, h4, h5, h6, h7, h8, h9, h10, h11, h12, h13, h14] at H
      | ok c9 =>
      simp only [h3, h4, h5, h6, h7, h8, h9, h10, h11, h12, h13, h14, py_ok_bind, py_pure] at H
      cases H
      show pl - hl < 65536
      omega

theorem parsed_some {α : Type} {p : Py (Option String)} {r : Py α} {h : α}
    (H : (do match ← p with
            | some _ => return none
            | none => return some (← r)) = (.ok (some h) : Py (Option α))) : p = .ok none ∧ r = .ok h := by
  cases p with
  | error e => cases H
  | ok o =>
    cases o with
    | some m => cases H
    | none =>
      cases r with
      | error e => cases H
      | ok a => cases H; exact ⟨rfl, rfl⟩

theorem ip6_inv (t₀ t₁ : Int) (d : Nat) : ∀ (n n' : Node) (f : Bytes) (l : List Eff), Rx.ip6 n t₀ t₁ d f = (n', .ok l) →
    l = [] ∨
      (∃ m h, m.stack = n.stack ∧ m.socks = n.socks ∧ m.ip6Candidate = n.ip6Candidate ∧
        (∃ g, Gives6 t₀ t₁ n f g ∧ Ip6.parse g = .ok none ∧ Ip6.read g = .ok h) ∧ Listens6 n h.dst ∧
        ((h.next = 58 ∧ Rx.icmp6 m h.src h.dst h.hop h.dlen h.pshdrSum h.rest = .ok l) ∨
          (h.next = 17 ∧ Rx.udp m (Rx.ofIp6 h) h.rest = .ok l) ∨ (h.next = 6 ∧ Rx.tcp m (Rx.ofIp6 h) h.rest = .ok l))) := by
  induction d with
  | zero =>
    intro n n' f l h
    rw [Rx.ip6.eq_def] at h
    dsimp only at h
    split at h
    · cases h
    · cases h; exact .inl rfl
    · rename_i r hr
      have hdl : ∃ g, Gives6 t₀ t₁ n f g ∧ Ip6.parse g = .ok none ∧ Ip6.read g = .ok r := ⟨f, .whole n f, parsed_some hr⟩
      split at h
      · cases h; exact .inl rfl
      · rename_i hu
        have hu := (ip6ForUs_iff n r.dst).mp (by rw [← Bool.not_eq_false]; intro h0; rw [h0] at hu; exact hu rfl)
        split at h
        · split at h
          · cases h
          · cases h; exact .inl rfl
          · split at h
            · cases h
            · cases h; exact .inl rfl
            · cases h
        · split at h
          · rename_i h58
            exact .inr ⟨n, r, rfl, rfl, rfl, hdl, hu, .inl ⟨h58, (Prod.mk.inj h).2⟩⟩
          · split at h
            · rename_i h17
              exact .inr ⟨n, r, rfl, rfl, rfl, hdl, hu, .inr (.inl ⟨h17, (Prod.mk.inj h).2⟩)⟩
            · split at h
              · rename_i h6
                exact .inr ⟨n, r, rfl, rfl, rfl, hdl, hu, .inr (.inr ⟨h6, (Prod.mk.inj h).2⟩)⟩
              · cases h; exact .inl rfl
  | succ d ih =>
    intro n n' f l h
    rw [Rx.ip6.eq_def] at h
    dsimp only at h
    split at h
    · cases h
    · cases h; exact .inl rfl
    · rename_i r hr
      have hdl : ∃ g, Gives6 t₀ t₁ n f g ∧ Ip6.parse g = .ok none ∧ Ip6.read g = .ok r := ⟨f, .whole n f, parsed_some hr⟩
      split at h
      · cases h; exact .inl rfl
      · rename_i hu
        have hu := (ip6ForUs_iff n r.dst).mp (by rw [← Bool.not_eq_false]; intro h0; rw [h0] at hu; exact hu rfl)
        split at h
        · rename_i h44
          split at h
          · cases h
          · cases h; exact .inl rfl
          · rename_i x hx
            split at h
            · cases h
            · cases h; exact .inl rfl
            · rename_i fl g hg
              rcases ih _ _ _ _ h with h' | ⟨m, h', a1, a2, a3, ⟨g', b1, b2, b3⟩, a4, a5⟩
              · exact .inl h'
              · exact .inr ⟨m, h', a1, a2, a3, ⟨g', .last (parsed_some hr).1 (parsed_some hr).2 hu h44 (parsed_some hx).1 (parsed_some hx).2
                  hg b1, b2, b3⟩, a4, a5⟩
        · split at h
          · rename_i h58
            exact .inr ⟨n, r, rfl, rfl, rfl, hdl, hu, .inl ⟨h58, (Prod.mk.inj h).2⟩⟩
          · split at h
            · rename_i h17
              exact .inr ⟨n, r, rfl, rfl, rfl, hdl, hu, .inr (.inl ⟨h17, (Prod.mk.inj h).2⟩)⟩
            · split at h
              · rename_i h6
                exact .inr ⟨n, r, rfl, rfl, rfl, hdl, hu, .inr (.inr ⟨h6, (Prod.mk.inj h).2⟩)⟩
              · cases h; exact .inl rfl

theorem Frag.finishIp4_first {header data g : Bytes} (h : Frag.finishIp4 header data = .ok g) : idx g 0 = .ok 0x45 := by
  have key : ∀ {b b' : Bytes} {i v : Nat}, packIntoH b i v = .ok b' → 1 ≤ i → idx b 0 = .ok 0x45 → idx b' 0 = .ok 0x45 := by
    intro b b' i v hb hi h0
    rw [packIntoH] at hb
    cases hv : packH v with
    | error e => simp [hv] at hb
    | ok w =>
      simp only [hv, py_ok_bind] at hb
      split at hb
      · cases hb
        cases b with
        | nil => simp [idx] at h0
        | cons a t =>
          obtain ⟨i, rfl⟩ : ∃ j, i = j + 1 := ⟨i - 1, by omega⟩
          simpa [idx] using h0
      · cases hb
  have key' : ∀ {b b' : Bytes} {i : Nat} {v : UInt8}, setIdx b i v = .ok b' → 1 ≤ i → idx b 0 = .ok 0x45 → idx b' 0 = .ok 0x45 := by
    intro b b' i v hb hi h0
    rw [setIdx] at hb
    split at hb
    · cases hb
      cases b with
      | nil => simp [idx] at h0
      | cons a t =>
        obtain ⟨i, rfl⟩ : ∃ j, i = j + 1 := ⟨i - 1, by omega⟩
        simpa [idx] using h0
    · cases hb
  rw [Frag.finishIp4] at h
  cases h1 : setIdx header 0 0x45 with
  | error e => simp [h1] at h
  | ok b1 =>
  simp only [h1, py_ok_bind] at h
  have k1 : idx b1 0 = .ok 0x45 := by
    rw [setIdx] at h1
    split at h1
    · cases h1
      cases header with
      | nil => simp at *
      | cons a t => simp [idx]
    · cases h1
  cases h2 : packIntoH b1 2 (20 + data.length) with
  | error e => simp [h2] at h
  | ok b2 =>
  simp only [h2, py_ok_bind] at h
  have k2 := key h2 (by omega) k1
  cases h3 : setIdx b2 6 0 with
  | error e => simp [h3] at h
  | ok b3 =>
  simp only [h3, py_ok_bind] at h
  have k3 := key' h3 (by omega) k2
  cases h4 : setIdx b3 7 0 with
  | error e => simp [h4] at h
  | ok b4 =>
  simp only [h4, py_ok_bind] at h
  have k4 := key' h4 (by omega) k3
  cases h5 : setIdx b4 10 0 with
  | error e => simp [h5] at h
  | ok b5 =>
  simp only [h5, py_ok_bind] at h
  have k5 := key' h5 (by omega) k4
  cases h6 : setIdx b5 11 0 with
  | error e => simp [h6] at h
  | ok b6 =>
  simp only [h6, py_ok_bind] at h
  have k6 := key' h6 (by omega) k5
  cases h7 : packIntoH b6 10 (inetCksum b6) with
  | error e => simp [h7] at h
  | ok b7 =>
  simp only [h7, py_ok_bind, py_pure] at h
  have k7 := key h7 (by omega) k6
  cases h
  cases b7 with
  | nil => simp [idx] at k7
  | cons a t => simpa [idx] using k7

theorem ip4_inv {n n' : Node} {t₀ t₁ : Int} {p : Bytes} {l : List Eff} (h : Rx.ip4 n t₀ t₁ p = (n', .ok l)) :
    l = [] ∨
      (∃ m g h f, m.stack = n.stack ∧ m.socks = n.socks ∧ m.ip6Candidate = n.ip6Candidate ∧ Gives4 n t₀ t₁ p g ∧ Ip4.read g = .ok h ∧
        ((Ip4.parse g = .ok none ∧ f = h.rest) ∨ ((∃ s, Ip4.parse g = .ok (some s)) ∧ idx g 0 = .ok 0x45 ∧ f = g)) ∧ Rx.ip4Dispatch m h f = .ok l) := by
  rw [Rx.ip4] at h
  split at h
  · cases h
  · cases h; exact .inl rfl
  · rename_i r hr
    obtain ⟨hr1, hr2⟩ := parsed_some hr
    split at h
    · cases h; exact .inl rfl
    · rename_i hu
      have hu := (ip4ForUs_iff n r.dst).mp (by rw [← Bool.not_eq_false]; intro h0; rw [h0] at hu; exact hu rfl)
      split at h
      · rename_i hfr
        generalize hq : Frag.defragIp4 n.flows4 t₀ t₁ r = q at h
        obtain ⟨fl, x⟩ := q
        dsimp only at h
        split at h
        · cases h
        · cases h; exact .inl rfl
        · rename_i g
          have h2 := (Prod.mk.inj h).2
          cases hp : Ip4.parse g with
          | error e => simp [hp] at h2
          | ok failed =>
            cases hd : Ip4.read g with
            | error e => simp [hp, hd] at h2
            | ok hd' =>
              simp only [hp, hd, py_ok_bind] at h2
              refine .inr ⟨_, g, hd', _, rfl, rfl, rfl, .last hr1 hr2 hu hfr hq, hd, ?_, h2⟩
              cases failed with
              | none => exact .inl ⟨hp, by simp⟩
              | some s =>
                refine .inr ⟨⟨s, hp⟩, ?_, by simp⟩
                rw [Frag.defragIp4, Frag.defrag] at hq
                split at hq
                · cases hq
                · split at hq
                  · cases hq
                  · split at hq
                    · cases hq
                    · have := (Prod.mk.inj hq).2
                      revert this
                      generalize hf : Frag.finishIp4 _ _ = y
                      intro this
                      cases y with
                      | error e => cases this
                      | ok y => cases this; exact Frag.finishIp4_first hf
      · rename_i hfr
        exact .inr ⟨n, p, r, _, rfl, rfl, rfl, .whole hr1 hr2 hu (Classical.byContradiction fun h0 => hfr (.inl h0))
          (by rw [Bool.eq_false_iff]; exact fun h0 => hfr (.inr h0)), hr2, .inl ⟨hr1, rfl⟩, (Prod.mk.inj h).2⟩

/-- Where the effects of a frame come from. -/
theorem ether_inv {n n' : Node} {t₀ t₁ : Int} {d : Nat} {F : Bytes} {l : List Eff} (h : Rx.ether n t₀ t₁ d F = (n', .ok l)) :
    l = [] ∨ (∃ e, HoldsEther n F e ∧ e.type = 0x0806 ∧ Rx.arp n e.dst e.data = .ok l) ∨
      (∃ m h f, m.stack = n.stack ∧ m.socks = n.socks ∧ m.ip6Candidate = n.ip6Candidate ∧
        (∃ e g, HoldsEther n F e ∧ e.type = 0x0800 ∧ Gives4 n t₀ t₁ e.data g ∧ Ip4.read g = .ok h ∧
          ((Ip4.parse g = .ok none ∧ f = h.rest) ∨ ((∃ s, Ip4.parse g = .ok (some s)) ∧ idx g 0 = .ok 0x45 ∧ f = g))) ∧ Rx.ip4Dispatch m h f = .ok l) ∨
      (∃ m h, m.stack = n.stack ∧ m.socks = n.socks ∧ m.ip6Candidate = n.ip6Candidate ∧
        (∃ e g, HoldsEther n F e ∧ e.type = 0x86DD ∧ Gives6 t₀ t₁ n e.data g ∧ Ip6.parse g = .ok none ∧ Ip6.read g = .ok h) ∧
        Listens6 n h.dst ∧
        ((h.next = 58 ∧ Rx.icmp6 m h.src h.dst h.hop h.dlen h.pshdrSum h.rest = .ok l) ∨
          (h.next = 17 ∧ Rx.udp m (Rx.ofIp6 h) h.rest = .ok l) ∨ (h.next = 6 ∧ Rx.tcp m (Rx.ofIp6 h) h.rest = .ok l))) := by
  by_cases hh : ∃ e, HoldsEther n F e
  · obtain ⟨e, he⟩ := hh
    rw [ether_holds he] at h
    split at h
    · rename_i ht
      exact .inr (.inl ⟨e, he, ht, (Prod.mk.inj h).2⟩)
    · split at h
      · rename_i ht
        rcases ip4_inv h with h | ⟨m, g, h, f, a1, a2, a3, a4, a5, a6, a7⟩
        · exact .inl h
        · exact .inr (.inr (.inl ⟨m, h, f, a1, a2, a3, ⟨e, g, he, ht, a4, a5, a6⟩, a7⟩))
      · split at h
        · rename_i ht
          rcases ip6_inv _ _ _ _ _ _ _ h with h | ⟨m, h, a1, a2, a3, ⟨g, b1, b2, b3⟩, a4, a5⟩
          · exact .inl h
          · exact .inr (.inr (.inr ⟨m, h, a1, a2, a3, ⟨e, g, he, ht, b1, b2, b3⟩, a4, a5⟩))
        · cases h; exact .inl rfl
  · left
    rw [ether_other (fun e he => hh ⟨e, he⟩)] at h
    cases h; rfl

/-! The effects of each of the upper handlers. -/

theorem udp_effs {n : Node} {ip : Rx.IpHdr} {f : Bytes} {l : List Eff} (h : Rx.udp n ip f = .ok l) :
    l = [] ∨ (∃ r m, l = [.udpDeliver r m]) ∨ l = Rx.portUnreachable ip := by
  rw [Rx.udp] at h
  cases hp : Udp.parse f ip.dlen ip.pshdrSum with
  | error e => simp [hp] at h
  | ok x =>
    cases x with
    | some m => simp [hp] at h; exact .inl h
    | none =>
      cases hr : Udp.read f with
      | error e => simp [hp, hr] at h
      | ok u =>
        simp only [hp, hr, py_ok_bind, py_pure] at h
        split at h
        · cases h; exact .inr (.inl ⟨_, _, rfl⟩)
        · split at h
          · cases h; exact .inl rfl
          · cases h; exact .inr (.inr rfl)

theorem tcp_effs {n : Node} {ip : Rx.IpHdr} {f : Bytes} {l : List Eff} (h : Rx.tcp n ip f = .ok l) :
    l = [] ∨ (∃ r m, l = [.tcpDeliver r m]) ∨ (∃ x, l = [.txTcp ip.dst ip.src x]) := by
  rw [Rx.tcp] at h
  cases hp : Tcp.parse f ip.dlen ip.pshdrSum with
  | error e => simp [hp] at h
  | ok x =>
    cases x with
    | some m => simp [hp] at h; exact .inl h
    | none =>
      cases hr : Tcp.read f ip.dlen with
      | error e => simp [hp, hr] at h
      | ok u =>
        simp only [hp, hr, py_ok_bind, py_pure] at h
        split at h
        · cases h; exact .inr (.inl ⟨_, _, rfl⟩)
        · cases h; exact .inr (.inr ⟨_, rfl⟩)

theorem unreachable_effs (n : Node) (q : Option UdpMd) : Rx.unreachable n q = [] ∨ ∃ r, Rx.unreachable n q = [.udpUnreachable r] := by
  rw [Rx.unreachable.eq_def]
  (repeat' split) <;> simp

theorem icmp4_effs {n : Node} {src dst : Ip4Address} {dlen : Nat} {f : Bytes} {l : List Eff}
    (h : Rx.icmp4 n src dst dlen f = .ok l) :
    l = [] ∨ (∃ r, l = [.udpUnreachable r]) ∨
      (∃ c id seq data, Icmp4.parse f dlen = .ok none ∧ Icmp4.read f dlen = .ok (.echo 8 c id seq data) ∧
        l = [.txIcmp4 dst src (.echoReply id seq data)]) := by
  rw [Rx.icmp4] at h
  cases hp : Icmp4.parse f dlen with
  | error e => simp [hp] at h
  | ok x =>
    cases x with
    | some m => simp [hp] at h; exact .inl h
    | none =>
      cases hr : Icmp4.read f dlen with
      | error e => simp [hp, hr] at h
      | ok u =>
        simp only [hp, hr, py_ok_bind, py_pure] at h
        cases u with
        | echo t c id seq data =>
          dsimp only at h
          split at h
          · rename_i ht
            subst ht
            cases h; exact .inr (.inr ⟨_, _, _, _, rfl, rfl, rfl⟩)
          · cases h; exact .inl rfl
        | unreachable c data =>
          dsimp only at h
          cases hq : Rx.quoted4 data with
          | error e => simp [hq] at h
          | ok q =>
            simp only [hq, py_ok_bind] at h
            cases h
            rcases unreachable_effs n q with h | h
            · exact .inl h
            · exact .inr (.inl h)
        | other => cases h; exact .inl rfl

theorem icmp6_effs {n : Node} {src dst : Ip6Address} {hop dlen ps : Nat} {f : Bytes} {l : List Eff}
    (h : Rx.icmp6 n src dst hop dlen ps f = .ok l) :
    l = [] ∨ (Icmp6.parse f dlen ps src dst hop = .ok none ∧
      ((∃ r, l = [.udpUnreachable r]) ∨
      (∃ a b c d e g o, Icmp6.read f dlen = .ok (.routerAdvertisement a b c d e g o) ∧ l = [.routerPrefixes ((Icmp6.piOf o).map (·, src))]) ∨
      (∃ t o, Icmp6.read f dlen = .ok (.neighborSolicitation t o) ∧ l = Rx.neighborSolicitation n src t o) ∨
      (∃ a b c t o, Icmp6.read f dlen = .ok (.neighborAdvertisement a b c t o) ∧ l = Rx.neighborAdvertisement n t o) ∨
      (∃ id seq data, Icmp6.read f dlen = .ok (.echo 128 id seq data) ∧ l = [.txIcmp6 dst src 255 (.echoReply id seq data)]))) := by
  rw [Rx.icmp6] at h
  cases hp : Icmp6.parse f dlen ps src dst hop with
  | error e => simp [hp] at h
  | ok x =>
    cases x with
    | some m => simp [hp] at h; exact .inl h
    | none =>
      cases hr : Icmp6.read f dlen with
      | error e => simp [hp, hr] at h
      | ok u =>
        simp only [hp, hr, py_ok_bind, py_pure] at h
        cases u with
        | echo t id seq data =>
          dsimp only at h
          split at h
          · rename_i ht
            subst ht
            cases h; exact .inr ⟨rfl, .inr (.inr (.inr (.inr ⟨_, _, _, rfl, rfl⟩)))⟩
          · cases h; exact .inl rfl
        | unreachable c data =>
          dsimp only at h
          cases hq : Rx.quoted6 data with
          | error e => simp [hq] at h
          | ok q =>
            simp only [hq, py_ok_bind] at h
            cases h
            rcases unreachable_effs n q with h | h
            · exact .inl h
            · exact .inr ⟨rfl, .inl h⟩
        | other => cases h; exact .inl rfl
        | routerSolicitation => cases h; exact .inl rfl
        | routerAdvertisement => cases h; exact .inr ⟨rfl, .inr (.inl ⟨_, _, _, _, _, _, _, rfl, rfl⟩)⟩
        | neighborSolicitation t o => cases h; exact .inr ⟨rfl, .inr (.inr (.inl ⟨_, _, rfl, rfl⟩))⟩
        | neighborAdvertisement a b c t o => cases h; exact .inr ⟨rfl, .inr (.inr (.inr (.inl ⟨_, _, _, _, _, rfl, rfl⟩)))⟩

theorem ip4Dispatch_effs {n : Node} {h : Ip4.Hdr} {f : Bytes} {l : List Eff} (H : Rx.ip4Dispatch n h f = .ok l) :
    l = [] ∨ (h.proto = 1 ∧ Rx.icmp4 n h.src h.dst h.dlen f = .ok l) ∨ (h.proto = 17 ∧ Rx.udp n (Rx.ofIp4 h) f = .ok l) ∨
      (h.proto = 6 ∧ Rx.tcp n (Rx.ofIp4 h) f = .ok l) := by
  rw [Rx.ip4Dispatch] at H
  split at H
  · rename_i h1; exact .inr (.inl ⟨h1, H⟩)
  · split at H
    · rename_i h1; exact .inr (.inr (.inl ⟨h1, H⟩))
    · split at H
      · rename_i h1; exact .inr (.inr (.inr ⟨h1, H⟩))
      · cases H; exact .inl rfl

/-! ### C37 -/

/-- C37: what an accepted ARP packet does.  A request is answered, and its sender learnt, iff it asks for an owned address and
does not come from one.  A direct reply and a gratuitous broadcast reply are learnt, except that a direct reply to a probe for
a candidate address is taken as a conflict. -/
theorem C37_arp {n : Node} {F : Bytes} {e : Ether.Hdr} {h : Arp.Hdr} (he : HoldsEther n F e) (ht : e.type = 0x0806)
    (hp : Arp.parse e.data = .ok none) (hr : Arp.read e.data = .ok h) (t₀ t₁ : Int) (d : Nat) :
    ∃ l, Rx.ether n t₀ t₁ d F = (n, .ok l) ∧ l.Nodup ∧ ∀ x, x ∈ l ↔
      (h.oper = 1 ∧ Owns4 n h.tpa ∧ ¬ Owns4 n h.spa ∧
        (x = .txArp n.stack.mac h.sha 2 n.stack.mac h.tpa h.sha h.spa ∨ x = .arpLearn h.spa h.sha)) ∨
      (h.oper = 2 ∧ (e.dst = n.stack.mac ∧ h.spa ∈ n.ip4Candidates ∧ h.tha = n.stack.mac ∧ h.tpa.int = 0) ∧
        x = .arpConflict h.spa) ∨
      (h.oper = 2 ∧ ¬ (e.dst = n.stack.mac ∧ h.spa ∈ n.ip4Candidates ∧ h.tha = n.stack.mac ∧ h.tpa.int = 0) ∧
        (e.dst = n.stack.mac ∨ (e.dst.int = 0xFFFFFFFFFFFF ∧ h.spa = h.tpa)) ∧ x = .arpLearn h.spa h.sha) := by
  rw [ether_holds he, if_pos ht]
  have hu : h.tpa.isUnspecified = true ↔ h.tpa.int = 0 := by simp [Ip4Address.isUnspecified]
  have hb : e.dst.isBroadcast = true ↔ e.dst.int = 0xFFFFFFFFFFFF := by simp [MacAddress.isBroadcast]
  simp only [Rx.arp, hp, hr, py_ok_bind, py_pure, ← mem_ip4Unicast, ← hu, ← hb]
  by_cases h1 : h.oper = 1
  · have h2 : ¬ h.oper = 2 := by omega
    rw [if_pos h1]
    by_cases h3 : h.spa ∈ n.stack.ip4Unicast
    · rw [if_pos h3]; exact ⟨_, rfl, by simp, by simp [h3, h2]⟩
    · rw [if_neg h3]
      by_cases h4 : h.tpa ∈ n.stack.ip4Unicast
      · rw [if_pos h4]; exact ⟨_, rfl, by simp, by simp [h1, h3, h4]⟩
      · rw [if_neg h4]; exact ⟨_, rfl, by simp, by simp [h4, h2]⟩
  · rw [if_neg h1]
    by_cases h2 : h.oper = 2
    · rw [if_pos h2]
      by_cases h3 : e.dst = n.stack.mac ∧ h.spa ∈ n.ip4Candidates ∧ h.tha = n.stack.mac ∧ h.tpa.isUnspecified = true
      · rw [if_pos h3]; exact ⟨_, rfl, by simp, fun x => by simp [h2, h3]⟩
      · rw [if_neg h3]
        by_cases h4 : e.dst = n.stack.mac
        · rw [if_pos h4]; exact ⟨_, rfl, by simp, fun x => by simp only [h4] at h3 ⊢; simp [h2, h3]⟩
        · rw [if_neg h4]
          by_cases h5 : e.dst.isBroadcast = true ∧ h.spa = h.tpa
          · rw [if_pos h5]; exact ⟨_, rfl, by simp, fun x => by simp [h2, h4, h5]⟩
          · rw [if_neg h5]; exact ⟨_, rfl, by simp, fun x => by simp only [h2, h4, h5]; simp⟩
    · rw [if_neg h2]; exact ⟨_, rfl, by simp, by simp [h1, h2]⟩

/-- C37: a frame that is not an accepted ARP packet for the stack teaches the ARP cache nothing, sends no ARP packet and marks
no conflict. -/
theorem C37_only_arp {n n' : Node} {t₀ t₁ : Int} {d : Nat} {F : Bytes} {l : List Eff} {x : Eff}
    (H : Rx.ether n t₀ t₁ d F = (n', .ok l)) (hx : x ∈ l)
    (hk : (∃ a b c d e f g, x = .txArp a b c d e f g) ∨ (∃ a b, x = .arpLearn a b) ∨ (∃ a, x = .arpConflict a)) :
    ∃ e h, HoldsEther n F e ∧ e.type = 0x0806 ∧ Arp.parse e.data = .ok none ∧ Arp.read e.data = .ok h := by
  have hudp : ∀ m ip f, Rx.udp m ip f = .ok l → False := by
    intro m ip f h
    rcases udp_effs h with rfl | ⟨r, md, rfl⟩ | rfl
    · simp at hx
    · simp at hx; subst hx; simp at hk
    · rw [Rx.portUnreachable.eq_def] at hx
      split at hx <;> simp at hx <;> subst hx <;> simp at hk
  have htcp : ∀ m ip f, Rx.tcp m ip f = .ok l → False := by
    intro m ip f h
    rcases tcp_effs h with rfl | ⟨r, md, rfl⟩ | ⟨s, rfl⟩ <;> simp at hx <;> subst hx <;> simp at hk
  rcases ether_inv H with rfl | ⟨e, he, ht, ha⟩ | ⟨m, h, f, -, -, -, hdl, hd⟩ | ⟨m, h, -, -, -, -, -, hd⟩
  · simp at hx
  · obtain ⟨r, hr, hr'⟩ := C22_arp_total e.data
    cases r with
    | some s => simp [Rx.arp, hr] at ha; subst ha; simp at hx
    | none =>
      obtain ⟨h, hh⟩ := hr' rfl
      exact ⟨e, h, he, ht, hr, hh⟩
  · rcases ip4Dispatch_effs hd with rfl | ⟨-, h1⟩ | ⟨-, h1⟩ | ⟨-, h1⟩
    · simp at hx
    · rcases icmp4_effs h1 with rfl | ⟨r, rfl⟩ | ⟨_, _, _, _, -, -, rfl⟩ <;> simp at hx <;> subst hx <;> simp at hk
    · exact (hudp _ _ _ h1).elim
    · exact (htcp _ _ _ h1).elim
  · rcases hd with ⟨-, h1⟩ | ⟨-, h1⟩ | ⟨-, h1⟩
    · rcases icmp6_effs h1 with rfl | ⟨-, ⟨r, rfl⟩ | ⟨_, _, _, _, _, _, _, -, rfl⟩ | ⟨t, o, -, rfl⟩ | ⟨a, b, c, t, o, -, rfl⟩ | ⟨_, _, _, -, rfl⟩⟩
      · simp at hx
      · simp at hx; subst hx; simp at hk
      · simp at hx; subst hx; simp at hk
      · rw [Rx.neighborSolicitation] at hx
        split at hx
        · simp at hx
        · rw [List.mem_append] at hx
          rcases hx with hx | hx
          · (repeat' split at hx) <;> simp at hx <;> subst hx <;> simp at hk
          · simp at hx; subst hx; simp at hk
      · rw [Rx.neighborAdvertisement] at hx
        (repeat' split at hx) <;> simp at hx <;> subst hx <;> simp at hk
      · simp at hx; subst hx; simp at hk
    · exact (hudp _ _ _ h1).elim
    · exact (htcp _ _ _ h1).elim

/-- C37: the reply as it goes out: one frame from the stack's MAC to the asker (unless the asker's MAC is zero), which parses
as the ARP reply that says the stack's MAC has the address asked for. -/
theorem C37_reply_on_wire (st : Stack) (l : Socks.Links) (sha : MacAddress) (tpa spa : Ip4Address) (hs : sha.int ≠ 0) :
    ∃ o F e, (Eff.txArp st.mac sha 2 st.mac tpa sha spa).transmit st l = (st, .ok (.passedEtherToTxRing, [o])) ∧
      o.frame = .ok F ∧ Ether.parse F = .ok none ∧ Ether.read F = .ok e ∧ e.src = st.mac ∧ e.dst = sha ∧ e.type = 0x0806 ∧
      Arp.parse e.data = .ok none ∧
      Arp.read e.data = .ok { oper := 2, sha := st.mac, spa := tpa, tha := sha, tpa := spa } := by
  obtain ⟨f, h1, -, h2, h3⟩ := C15_arp_roundtrip st.mac sha tpa spa 2 (.inr rfl)
  obtain ⟨F, g1, g2, g3⟩ := C14_ether_roundtrip st.mac sha 0x0806 f (.inl rfl)
  refine ⟨{ src := st.mac, dst := sha, pkt := .arp 2 st.mac tpa sha spa }, F, { dst := sha, src := st.mac, type := 0x0806, data := f },
    ?_, ?_, g2, g3, rfl, rfl, rfl, h2, h3⟩
  · rw [Eff.transmit, (C35_ether st _ _ st.mac sha _).1 hs]
    simp
  · simp [Outgoing.frame, Pkt.assemble, Pkt.etherType, Ether.typeArp, h1, g1]

/-- C37 in part: a request whose sender address is zero is not answered on the wire (the frame has nowhere to go). -/
theorem C37_zero_sender_witness (st : Stack) (l : Socks.Links) (tpa spa : Ip4Address) :
    (Eff.txArp st.mac ⟨0, by decide⟩ 2 st.mac tpa ⟨0, by decide⟩ spa).transmit st l = (st, .ok (.dropEtherResolutionFail, [])) := by
  rw [Eff.transmit, (C35_ether st _ _ st.mac _ _).2.1 rfl rfl rfl]

/-! ### C38 -/

theorem sllaOf_some {opts : List Icmp6.RxOpt} {m : MacAddress} : Icmp6.sllaOf opts = some m ↔ FirstSlla opts m := by
  induction opts with
  | nil => simp [Icmp6.sllaOf, FirstSlla]
  | cons o r ih =>
    have cons : (∀ k m', o ≠ .slla k m') → (FirstSlla (o :: r) m ↔ FirstSlla r m) := by
      intro ho
      constructor
      · rintro ⟨a, k, b, h1, h2⟩
        cases a with
        | nil => exact (ho _ _ (List.cons.inj h1).1).elim
        | cons x a => exact ⟨a, k, b, (List.cons.inj h1).2, fun k' m' h => h2 k' m' (List.mem_cons_of_mem _ h)⟩
      · rintro ⟨a, k, b, rfl, h2⟩
        exact ⟨o :: a, k, b, rfl, fun k' m' h => by
          rcases List.mem_cons.mp h with h | h
          · exact ho _ _ h.symm
          · exact h2 _ _ h⟩
    cases o with
    | slla k m' =>
      simp only [Icmp6.sllaOf, Option.some.injEq]
      constructor
      · rintro rfl; exact ⟨[], k, r, rfl, by simp⟩
      · rintro ⟨a, k', b, h1, h2⟩
        cases a with
        | nil => simpa using (Icmp6.RxOpt.slla.inj (List.cons.inj h1).1).2
        | cons x a => exact (h2 k m' (by rw [← (List.cons.inj h1).1]; simp)).elim
    | _ => rw [cons (by simp), ← ih]; rfl

theorem tllaOf_some {opts : List Icmp6.RxOpt} {m : MacAddress} : Icmp6.tllaOf opts = some m ↔ FirstTlla opts m := by
  induction opts with
  | nil => simp [Icmp6.tllaOf, FirstTlla]
  | cons o r ih =>
    have cons : (∀ k m', o ≠ .tlla k m') → (FirstTlla (o :: r) m ↔ FirstTlla r m) := by
      intro ho
      constructor
      · rintro ⟨a, k, b, h1, h2⟩
        cases a with
        | nil => exact (ho _ _ (List.cons.inj h1).1).elim
        | cons x a => exact ⟨a, k, b, (List.cons.inj h1).2, fun k' m' h => h2 k' m' (List.mem_cons_of_mem _ h)⟩
      · rintro ⟨a, k, b, rfl, h2⟩
        exact ⟨o :: a, k, b, rfl, fun k' m' h => by
          rcases List.mem_cons.mp h with h | h
          · exact ho _ _ h.symm
          · exact h2 _ _ h⟩
    cases o with
    | tlla k m' =>
      simp only [Icmp6.tllaOf, Option.some.injEq]
      constructor
      · rintro rfl; exact ⟨[], k, r, rfl, by simp⟩
      · rintro ⟨a, k', b, h1, h2⟩
        cases a with
        | nil => simpa using (Icmp6.RxOpt.tlla.inj (List.cons.inj h1).1).2
        | cons x a => exact (h2 k m' (by rw [← (List.cons.inj h1).1]; simp)).elim
    | _ => rw [cons (by simp), ← ih]; rfl

theorem icmp6_holds {n : Node} {F : Bytes} {h : Ip6.Hdr} {q : Icmp6.Hdr} (H : HoldsIp6 n F h) (hx : h.next = 58)
    (hp : Icmp6.parse h.rest h.dlen h.pshdrSum h.src h.dst h.hop = .ok none) (hr : Icmp6.read h.rest h.dlen = .ok q)
    (t₀ t₁ : Int) (d : Nat) :
    Rx.ether n t₀ t₁ d F = (n, match q with
      | .neighborSolicitation target opts => .ok (Rx.neighborSolicitation n h.src target opts)
      | .neighborAdvertisement _ _ _ target opts => .ok (Rx.neighborAdvertisement n target opts)
      | .routerSolicitation _ => .ok []
      | .routerAdvertisement _ _ _ _ _ _ opts => .ok [.routerPrefixes ((Icmp6.piOf opts).map (·, h.src))]
      | .echo t id seq data => if t = 128 then .ok [.txIcmp6 h.dst h.src 255 (.echoReply id seq data)] else .ok []
      | .unreachable _ data => (Rx.quoted6 data).map (Rx.unreachable n)
      | .other _ _ => .ok []) := by
  rw [ip6_holds H (by omega), if_pos hx]
  simp only [Rx.icmp6, hp, hr, py_ok_bind, py_pure]
  cases q <;> rfl

/-- C38: an accepted neighbour solicitation for one of the stack's addresses is answered by one advertisement of that address
with the stack's MAC, to the sender with the S flag, or, if the sender is unspecified, to all nodes without it; and the sender's
link-layer address, if it is given and the sender is a unicast address, is learnt.  Other solicitations do nothing. -/
theorem C38_solicitation {n : Node} {F : Bytes} {h : Ip6.Hdr} {target : Ip6Address} {opts : List Icmp6.RxOpt}
    (H : HoldsIp6 n F h) (hx : h.next = 58) (hp : Icmp6.parse h.rest h.dlen h.pshdrSum h.src h.dst h.hop = .ok none)
    (hr : Icmp6.read h.rest h.dlen = .ok (.neighborSolicitation target opts)) (t₀ t₁ : Int) (d : Nat) :
    (¬ Owns6 n target → Rx.ether n t₀ t₁ d F = (n, .ok [])) ∧
    (Owns6 n target → ∃ learn,
      ((∃ m, FirstSlla opts m ∧ h.src.int ≠ 0 ∧ ¬ cidr 128 (hextet 0xFF00) 8 h.src.int ∧ learn = [.ndLearn h.src m]) ∨
        (¬ (∃ m, FirstSlla opts m ∧ h.src.int ≠ 0 ∧ ¬ cidr 128 (hextet 0xFF00) 8 h.src.int) ∧ learn = [])) ∧
      (h.src.int ≠ 0 → Rx.ether n t₀ t₁ d F = (n, .ok (learn ++ [.txIcmp6 target h.src 255
        (.neighborAdvertisement (r := false) (s := true) (o := false) target [.tlla n.stack.mac])]))) ∧
      (h.src.int = 0 → Rx.ether n t₀ t₁ d F = (n, .ok (learn ++ [.txIcmp6 target ⟨0xFF020000000000000000000000000001, by decide⟩ 255
        (.neighborAdvertisement (r := false) (s := false) (o := true) target [.tlla n.stack.mac])])))) := by
  have hu : h.src.isUnspecified = true ↔ h.src.int = 0 := by simp [Ip6Address.isUnspecified]
  have hm : h.src.isMulticast = true ↔ cidr 128 (hextet 0xFF00) 8 h.src.int := (C09_ip6_classes h.src).2.2.2.2.2.1
  rw [icmp6_holds H hx hp hr]
  dsimp only
  rw [Rx.neighborSolicitation]
  simp only [← mem_ip6Unicast]
  refine ⟨fun ho => by rw [if_pos ho], fun ho => ?_⟩
  rw [if_neg (by simpa using ho)]
  refine ⟨match Icmp6.sllaOf opts with
    | some m => if h.src.isUnspecified || h.src.isMulticast then [] else [.ndLearn h.src m]
    | none => [], ?_, ?_, ?_⟩
  rotate_left
  · intro h0
    have : h.src.isUnspecified = false := by rw [Bool.eq_false_iff, ne_eq, hu]; exact h0
    simp only [Rx.naDst, this]
    rfl
  · intro h0
    have : h.src.isUnspecified = true := hu.mpr h0
    simp only [Rx.naDst, this]
    rfl
  · rw [← hm]
    simp only [ne_eq, ← hu, Bool.not_eq_true]
    cases hs : Icmp6.sllaOf opts with
    | none =>
      right
      refine ⟨?_, rfl⟩
      rintro ⟨m, hf, -⟩
      rw [← sllaOf_some, hs] at hf
      cases hf
    | some m =>
      have hf := sllaOf_some.mp hs
      dsimp only
      by_cases h0 : h.src.isUnspecified = true ∨ h.src.isMulticast = true
      · right
        rw [if_pos (by simpa using h0)]
        refine ⟨?_, rfl⟩
        rintro ⟨m', -, h1, h2⟩
        simp [h1, h2] at h0
      · left
        rw [if_neg (by simpa using h0)]
        simp only [not_or, Bool.not_eq_true] at h0
        exact ⟨m, hf, h0.1, h0.2, rfl⟩

/-- C38: an accepted neighbour advertisement for the address being tested answers the test; otherwise the target's link-layer
address is learnt if it is given, and nothing else happens. -/
theorem C38_advertisement {n : Node} {F : Bytes} {h : Ip6.Hdr} {a b c : Bool} {target : Ip6Address} {opts : List Icmp6.RxOpt}
    (H : HoldsIp6 n F h) (hx : h.next = 58) (hp : Icmp6.parse h.rest h.dlen h.pshdrSum h.src h.dst h.hop = .ok none)
    (hr : Icmp6.read h.rest h.dlen = .ok (.neighborAdvertisement a b c target opts)) (t₀ t₁ : Int) (d : Nat) :
    (n.ip6Candidate = some target → ∃ tlla, Rx.ether n t₀ t₁ d F = (n, .ok [.dadAnswer tlla]) ∧
      ∀ m, tlla = some m ↔ FirstTlla opts m) ∧
    (n.ip6Candidate ≠ some target →
      (∀ m, FirstTlla opts m → Rx.ether n t₀ t₁ d F = (n, .ok [.ndLearn target m])) ∧
      ((∀ m, ¬ FirstTlla opts m) → Rx.ether n t₀ t₁ d F = (n, .ok []))) := by
  rw [icmp6_holds H hx hp hr]
  dsimp only
  rw [Rx.neighborAdvertisement]
  constructor
  · intro hc
    rw [if_pos hc.symm]
    exact ⟨_, rfl, fun m => tllaOf_some⟩
  · intro hc
    rw [if_neg (fun h => hc h.symm)]
    constructor
    · intro m hm
      rw [tllaOf_some.mpr hm]
    · intro hm
      cases ht : Icmp6.tllaOf opts with
      | none => rfl
      | some m => exact (hm m (tllaOf_some.mp ht)).elim

/-- C38: the neighbour cache learns from nothing else: whatever frame arrives, an entry it adds is the sender of an accepted
solicitation for an owned address, with the link-layer address of its first source option, or the target of an accepted
advertisement, with that of its first target option; and the only advertisements sent answer such solicitations. -/
theorem C38_only {n n' : Node} {t₀ t₁ : Int} {d : Nat} {F : Bytes} {l : List Eff} {x : Eff}
    (H : Rx.ether n t₀ t₁ d F = (n', .ok l)) (hx : x ∈ l)
    (hk : (∃ a m, x = .ndLearn a m) ∨ (∃ t, x = .dadAnswer t) ∨ (∃ a b k r s o t opts, x = .txIcmp6 a b k (.neighborAdvertisement r s o t opts))) :
    ∃ h : Ip6.Hdr, (∃ e g, HoldsEther n F e ∧ e.type = 0x86DD ∧ Gives6 t₀ t₁ n e.data g ∧ Ip6.parse g = .ok none ∧ Ip6.read g = .ok h) ∧
      Listens6 n h.dst ∧ h.next = 58 ∧ Icmp6.parse h.rest h.dlen h.pshdrSum h.src h.dst h.hop = .ok none ∧
      ((∃ t opts, Icmp6.read h.rest h.dlen = .ok (.neighborSolicitation t opts) ∧ Owns6 n t ∧
          ((∃ m, FirstSlla opts m ∧ x = .ndLearn h.src m) ∨ ∃ b r s o, x = .txIcmp6 t b 255 (.neighborAdvertisement r s o t [.tlla n.stack.mac]))) ∨
        (∃ a b c t opts, Icmp6.read h.rest h.dlen = .ok (.neighborAdvertisement a b c t opts) ∧
          ((∃ m, FirstTlla opts m ∧ x = .ndLearn t m) ∨ (n.ip6Candidate = some t ∧ ∃ m, x = .dadAnswer m)))) := by
  have hudp : ∀ m ip f, Rx.udp m ip f = .ok l → False := by
    intro m ip f h
    rcases udp_effs h with rfl | ⟨r, md, rfl⟩ | rfl
    · simp at hx
    · simp at hx; subst hx; simp at hk
    · rw [Rx.portUnreachable.eq_def] at hx
      split at hx <;> simp at hx <;> subst hx <;> simp at hk
  have htcp : ∀ m ip f, Rx.tcp m ip f = .ok l → False := by
    intro m ip f h
    rcases tcp_effs h with rfl | ⟨r, md, rfl⟩ | ⟨s, rfl⟩ <;> simp at hx <;> subst hx <;> simp at hk
  rcases ether_inv H with rfl | ⟨e, he, ht, ha⟩ | ⟨m, h, f, -, -, -, hdl, hd⟩ | ⟨m, h, hst, -, hca, hdl, hl, hd⟩
  · simp at hx
  · obtain ⟨r, hr, hr'⟩ := C22_arp_total e.data
    cases r with
    | some s => simp [Rx.arp, hr] at ha; subst ha; simp at hx
    | none =>
      obtain ⟨h, hh⟩ := hr' rfl
      obtain ⟨l', h1, -, h3⟩ := C37_arp he ht hr hh t₀ t₁ d
      rw [ether_holds he, if_pos ht] at h1
      have := (Prod.mk.inj h1).2
      rw [ha] at this
      cases this
      rcases (h3 x).mp hx with ⟨-, -, -, rfl | rfl⟩ | ⟨-, -, rfl⟩ | ⟨-, -, -, rfl⟩ <;> simp at hk
  · rcases ip4Dispatch_effs hd with rfl | ⟨-, h1⟩ | ⟨-, h1⟩ | ⟨-, h1⟩
    · simp at hx
    · rcases icmp4_effs h1 with rfl | ⟨r, rfl⟩ | ⟨_, _, _, _, -, -, rfl⟩ <;> simp at hx <;> subst hx <;> simp at hk
    · exact (hudp _ _ _ h1).elim
    · exact (htcp _ _ _ h1).elim
  · rcases hd with ⟨hnx, h1⟩ | ⟨-, h1⟩ | ⟨-, h1⟩
    · rcases icmp6_effs h1 with rfl | ⟨hp, ⟨r, rfl⟩ | ⟨_, _, _, _, _, _, _, -, rfl⟩ | ⟨t, o, hr, rfl⟩ | ⟨a, b, c, t, o, hr, rfl⟩ | ⟨_, _, _, -, rfl⟩⟩
      · simp at hx
      · simp at hx; subst hx; simp at hk
      · simp at hx; subst hx; simp at hk
      · refine ⟨h, hdl, hl, hnx, hp, .inl ⟨t, o, hr, ?_⟩⟩
        rw [Rx.neighborSolicitation, hst] at hx
        split at hx
        · simp at hx
        · rename_i ho
          refine ⟨(mem_ip6Unicast n t).mp (Decidable.byContradiction ho), ?_⟩
          rw [List.mem_append] at hx
          rcases hx with hx | hx
          · left
            cases hs : Icmp6.sllaOf o with
            | none => simp [hs] at hx
            | some m =>
              simp only [hs] at hx
              split at hx
              · simp at hx
              · simp at hx; exact ⟨m, sllaOf_some.mp hs, hx⟩
          · simp at hx; exact .inr ⟨_, _, _, _, hx⟩
      · refine ⟨h, hdl, hl, hnx, hp, .inr ⟨a, b, c, t, o, hr, ?_⟩⟩
        rw [Rx.neighborAdvertisement, hca] at hx
        split at hx
        · rename_i hc
          simp at hx
          exact .inr ⟨hc.symm, _, hx⟩
        · cases hs : Icmp6.tllaOf o with
          | none => simp [hs] at hx
          | some m => simp [hs] at hx; exact .inl ⟨m, tllaOf_some.mp hs, hx⟩
      · simp at hx; subst hx; simp at hk
    · exact (hudp _ _ _ h1).elim
    · exact (htcp _ _ _ h1).elim

/-! ### C39 -/

/-- C39: an accepted ICMPv4 echo request is answered by exactly one echo reply with its id, sequence number and data, back to
its sender from the address it was sent to. -/
theorem C39_echo4 {n : Node} {F : Bytes} {h : Ip4.Hdr} {c id seq : Nat} {data : Bytes} (H : HoldsIp4 n F h) (hx : h.proto = 1)
    (hp : Icmp4.parse h.rest h.dlen = .ok none) (hr : Icmp4.read h.rest h.dlen = .ok (.echo 8 c id seq data)) (t₀ t₁ : Int)
    (d : Nat) : Rx.ether n t₀ t₁ d F = (n, .ok [.txIcmp4 h.dst h.src (.echoReply id seq data)]) := by
  rw [ip4_holds H, Rx.ip4Dispatch, if_pos hx]
  simp [Rx.icmp4, hp, hr]

/-- C39: the same for ICMPv6. -/
theorem C39_echo6 {n : Node} {F : Bytes} {h : Ip6.Hdr} {id seq : Nat} {data : Bytes} (H : HoldsIp6 n F h) (hx : h.next = 58)
    (hp : Icmp6.parse h.rest h.dlen h.pshdrSum h.src h.dst h.hop = .ok none)
    (hr : Icmp6.read h.rest h.dlen = .ok (.echo 128 id seq data)) (t₀ t₁ : Int) (d : Nat) :
    Rx.ether n t₀ t₁ d F = (n, .ok [.txIcmp6 h.dst h.src 255 (.echoReply id seq data)]) := by
  rw [icmp6_holds H hx hp hr]
  rfl

/-- C39: nothing else produces an echo reply: whatever frame arrives (a last fragment included), an echo reply is the only
effect, and it answers an accepted echo request with the same id, sequence number and data, with the addresses swapped. -/
theorem C39_only {n n' : Node} {t₀ t₁ : Int} {d : Nat} {F : Bytes} {l : List Eff} {x : Eff}
    (H : Rx.ether n t₀ t₁ d F = (n', .ok l)) (hx : x ∈ l) (hk : IsEchoReply x) :
    l = [x] ∧
    ((∃ (h : Ip4.Hdr) (c id seq : Nat) (data : Bytes),
        (∃ e g, HoldsEther n F e ∧ e.type = 0x0800 ∧ Gives4 n t₀ t₁ e.data g ∧ Ip4.parse g = .ok none ∧ Ip4.read g = .ok h) ∧
        h.proto = 1 ∧ Icmp4.parse h.rest h.dlen = .ok none ∧
        Icmp4.read h.rest h.dlen = .ok (.echo 8 c id seq data) ∧ x = .txIcmp4 h.dst h.src (.echoReply id seq data)) ∨
     (∃ (h : Ip6.Hdr) (id seq : Nat) (data : Bytes),
        (∃ e g, HoldsEther n F e ∧ e.type = 0x86DD ∧ Gives6 t₀ t₁ n e.data g ∧ Ip6.parse g = .ok none ∧ Ip6.read g = .ok h) ∧
        Listens6 n h.dst ∧ h.next = 58 ∧
        Icmp6.parse h.rest h.dlen h.pshdrSum h.src h.dst h.hop = .ok none ∧
        Icmp6.read h.rest h.dlen = .ok (.echo 128 id seq data) ∧ x = .txIcmp6 h.dst h.src 255 (.echoReply id seq data))) := by
  have hudp : ∀ m ip f, Rx.udp m ip f = .ok l → False := by
    intro m ip f h
    rcases udp_effs h with rfl | ⟨r, md, rfl⟩ | rfl
    · simp at hx
    · simp at hx; subst hx; simp [IsEchoReply] at hk
    · rw [Rx.portUnreachable.eq_def] at hx
      split at hx <;> simp at hx <;> subst hx <;> simp [IsEchoReply] at hk
  have htcp : ∀ m ip f, Rx.tcp m ip f = .ok l → False := by
    intro m ip f h
    rcases tcp_effs h with rfl | ⟨r, md, rfl⟩ | ⟨s, rfl⟩ <;> simp at hx <;> subst hx <;> simp [IsEchoReply] at hk
  rcases ether_inv H with rfl | ⟨e, he, ht, ha⟩ | ⟨m, h, f, -, -, -, hdl, hd⟩ | ⟨m, h, hst, -, hca, hdl, hl, hd⟩
  · simp at hx
  · obtain ⟨r, hr, hr'⟩ := C22_arp_total e.data
    cases r with
    | some s => simp [Rx.arp, hr] at ha; subst ha; simp at hx
    | none =>
      obtain ⟨h, hh⟩ := hr' rfl
      obtain ⟨l', h1, -, h3⟩ := C37_arp he ht hr hh t₀ t₁ d
      rw [ether_holds he, if_pos ht] at h1
      have := (Prod.mk.inj h1).2
      rw [ha] at this
      cases this
      rcases (h3 x).mp hx with ⟨-, -, -, rfl | rfl⟩ | ⟨-, -, rfl⟩ | ⟨-, -, -, rfl⟩ <;> simp [IsEchoReply] at hk
  · rcases ip4Dispatch_effs hd with rfl | ⟨hpr, h1⟩ | ⟨-, h1⟩ | ⟨-, h1⟩
    · simp at hx
    · rcases icmp4_effs h1 with rfl | ⟨r, rfl⟩ | ⟨c, id, seq, data, hp, hr, rfl⟩
      · simp at hx
      · simp at hx; subst hx; simp [IsEchoReply] at hk
      · simp at hx
        subst hx
        obtain ⟨e, g, b1, b2, b3, b4, ⟨b5, rfl⟩ | ⟨-, b5, rfl⟩⟩ := hdl
        · exact ⟨rfl, .inl ⟨h, c, id, seq, data, ⟨e, g, b1, b2, b3, b5, b4⟩, hpr, hp, hr, rfl⟩⟩
        · exfalso
          simp only [Icmp4.read, Icmp4.type, b5, py_ok_bind] at hr
          cases hc : Icmp4.code f with
          | error e => simp [hc] at hr
          | ok c => simp [hc] at hr
    · exact (hudp _ _ _ h1).elim
    · exact (htcp _ _ _ h1).elim
  · rcases hd with ⟨hnx, h1⟩ | ⟨-, h1⟩ | ⟨-, h1⟩
    · rcases icmp6_effs h1 with rfl | ⟨hp, ⟨r, rfl⟩ | ⟨_, _, _, _, _, _, _, -, rfl⟩ | ⟨t, o, hr, rfl⟩ | ⟨a, b, c, t, o, hr, rfl⟩ | ⟨id, seq, data, hr, rfl⟩⟩
      · simp at hx
      · simp at hx; subst hx; simp [IsEchoReply] at hk
      · simp at hx; subst hx; simp [IsEchoReply] at hk
      · rw [Rx.neighborSolicitation] at hx
        split at hx
        · simp at hx
        · rw [List.mem_append] at hx
          rcases hx with hx | hx
          · (repeat' split at hx) <;> simp at hx <;> subst hx <;> simp [IsEchoReply] at hk
          · simp at hx; subst hx; simp [IsEchoReply] at hk
      · rw [Rx.neighborAdvertisement] at hx
        (repeat' split at hx) <;> simp at hx <;> subst hx <;> simp [IsEchoReply] at hk
      · simp at hx
        subst hx
        exact ⟨rfl, .inr ⟨h, id, seq, data, hdl, hl, hnx, hp, hr, rfl⟩⟩
    · exact (hudp _ _ _ h1).elim
    · exact (htcp _ _ _ h1).elim

/-! ### C47 -/

theorem udpRank_iff {id : SockId} {m : UdpMd} (hl : id.lip.family = id.family) (hr : id.rip.family = id.family) (k : Nat) :
    udpRank id m = some k ↔ m.patterns[k]? = some id ∧ ∀ j < k, m.patterns[j]? ≠ some id := by
  obtain ⟨fam, ty, lip, lport, rip, rport⟩ := id
  simp only at hl hr
  have ul : lip.isUnspecified = true ↔ lip = fam.any := by rw [IpAddress.isUnspecified_iff, hl]
  have ur : rip.isUnspecified = true ↔ rip = fam.any := by rw [IpAddress.isUnspecified_iff, hr]
  simp only [udpRank, ul, ur]
  by_cases h0 : ty = .stream ∨ fam ≠ m.lip.family ∨ lport ≠ m.lport
  · rw [if_pos h0]
    have : ∀ j : Nat, m.patterns[j]? ≠ some ⟨fam, ty, lip, lport, rip, rport⟩ := by
      intro j hj
      have := List.mem_of_getElem? hj
      rw [UdpMd.patterns, List.mem_append] at this
      cases hm : m.lip with
      | v4 a =>
        simp [hm] at this h0
        rcases h0 with h | h | h
        · simp [h] at this
        · rcases this with (h' | h' | h') | h' <;> exact h (by simp [h', IpAddress.family])
        · rcases this with (h' | h' | h') | h' <;> exact h (by simp [h'])
      | v6 a =>
        simp [hm] at this h0
        rcases h0 with h | h | h
        · simp [h] at this
        · rcases this with (h' | h' | h') <;> exact h (by simp [h', IpAddress.family])
        · rcases this with (h' | h' | h') <;> exact h (by simp [h'])
    simp [this]
  · rw [if_neg h0]
    simp only [not_or, not_not, ne_eq] at h0
    obtain ⟨ht, hf, hp⟩ := h0
    have ht : ty = .dgram := by cases ty <;> simp_all
    subst ht hf hp
    have P : ∀ j : Nat, m.patterns[j]? = some ⟨m.lip.family, .dgram, lip, m.lport, rip, rport⟩ ↔
        (j = 0 ∧ lip = m.lip ∧ rip = m.rip ∧ rport = m.rport) ∨
        (j = 1 ∧ lip = m.lip ∧ rip = m.lip.family.any ∧ rport = 0) ∨
        (j = 2 ∧ lip = m.lip.family.any ∧ rip = m.lip.family.any ∧ rport = 0) ∨
        (j = 3 ∧ lip = m.lip.family.any ∧ rip = .v4 ⟨0xFFFFFFFF, by decide⟩ ∧ rport = m.rport) := by
      intro j
      have hfam : m.lip.family = .inet6 → rip ≠ .v4 ⟨0xFFFFFFFF, by decide⟩ := by
        rintro h rfl
        rw [h] at hr
        cases hr
      rw [UdpMd.patterns]
      simp only [IpAddress.unspecified_eq]
      rcases j with _ | _ | _ | _ | j
      · simp [eq_comm]
      · simp [eq_comm]
      · simp [eq_comm]
      · cases hm : m.lip with
        | v4 a =>
          simp only [IpAddress.family, Family.any]
          simp [eq_comm, Ip4Address.limitedBroadcast]
        | v6 a =>
          have := hfam (by rw [hm]; rfl)
          simp [this]
      · cases hm : m.lip <;> simp
    simp only [ne_eq, P]
    split
    · rename_i c
      constructor
      · intro h; cases h; simp [c]
      · rintro ⟨-, h⟩
        rcases Nat.eq_zero_or_pos k with rfl | hk
        · rfl
        · exact (h 0 hk (.inl ⟨rfl, c⟩)).elim
    · rename_i c0
      split
      · rename_i c
        constructor
        · intro h; cases h; refine ⟨.inr (.inl ⟨rfl, c⟩), fun j hj => ?_⟩
          have : j = 0 := by omega
          subst this
          simp [c0]
        · rintro ⟨h', h⟩
          rcases Nat.lt_or_ge 1 k with hk | hk
          · exact (h 1 hk (.inr (.inl ⟨rfl, c⟩))).elim
          · rcases h' with h' | h' | h' | h'
            · exact (c0 h'.2).elim
            · rw [h'.1]
            · omega
            · omega
      · rename_i c1
        split
        · rename_i c
          constructor
          · intro h; cases h; refine ⟨.inr (.inr (.inl ⟨rfl, c⟩)), fun j hj => ?_⟩
            have : j = 0 ∨ j = 1 := by omega
            rcases this with rfl | rfl <;> simp [c0, c1]
          · rintro ⟨h', h⟩
            rcases Nat.lt_or_ge 2 k with hk | hk
            · exact (h 2 hk (.inr (.inr (.inl ⟨rfl, c⟩)))).elim
            · rcases h' with h' | h' | h' | h'
              · exact (c0 h'.2).elim
              · exact (c1 h'.2).elim
              · rw [h'.1]
              · omega
        · rename_i c2
          split
          · rename_i c
            constructor
            · intro h; cases h; refine ⟨.inr (.inr (.inr ⟨rfl, c⟩)), fun j hj => ?_⟩
              have : j = 0 ∨ j = 1 ∨ j = 2 := by omega
              rcases this with rfl | rfl | rfl <;> simp [c0, c1, c2]
            · rintro ⟨h', h⟩
              rcases h' with h' | h' | h' | h'
              · exact (c0 h'.2).elim
              · exact (c1 h'.2).elim
              · exact (c2 h'.2).elim
              · rw [h'.1]
          · rename_i c3
            constructor
            · intro h; cases h
            · rintro ⟨h' | h' | h' | h', -⟩
              · exact (c0 h'.2).elim
              · exact (c1 h'.2).elim
              · exact (c2 h'.2).elim
              · exact (c3 h'.2).elim

theorem match_spec {ss : Socks} (w : ss.Wf) (m : UdpMd) :
    (∀ r, ss.match? m = some r → MostSpecific ss m r) ∧ (ss.match? m = none → NoSocket ss m) := by
  have hrank : ∀ r s k, Registered ss r s → udpRank s.id m = some k →
      m.patterns[k]? = some s.id ∧ ∀ j < k, m.patterns[j]? ≠ some s.id := by
    intro r s k hs hk
    have ha : s.accepted = false := by
      cases ha : s.accepted with
      | false => rfl
      | true =>
        have := w.child r s hs.1 ha
        simp [udpRank, this] at hk
    obtain ⟨h1, h2, -⟩ := w.own r s hs.1 ha
    exact (udpRank_iff h1 h2 k).mp hk
  have hdgram : ∀ id ∈ m.patterns, id.type = .dgram := by
    intro id hid
    rw [UdpMd.patterns, List.mem_append] at hid
    cases hm : m.lip with
    | v4 a => simp [hm] at hid; rcases hid with (h | h | h) | h <;> rw [h]
    | v6 a => simp [hm] at hid; rcases hid with (h | h | h) <;> rw [h]
  constructor
  · intro r h
    rw [Socks.match?] at h
    obtain ⟨l₁, id, l₂, hl, hid, hno⟩ := List.findSome?_eq_some_iff.mp h
    obtain ⟨s, hs, hsid⟩ := w.holds id r hid
    subst hsid
    have ha : s.accepted = false := by
      cases ha : s.accepted with
      | false => rfl
      | true =>
        have h1 := w.child r s hs ha
        rw [hdgram s.id (by rw [hl]; simp)] at h1
        cases h1
    obtain ⟨h1, h2, -⟩ := w.own r s hs ha
    have hget : m.patterns[l₁.length]? = some s.id := by rw [hl]; simp
    refine ⟨s, l₁.length, ⟨hs, hid⟩, (udpRank_iff h1 h2 _).mpr ⟨hget, ?_⟩, ?_⟩
    · intro j hj h'
      rw [hl, List.getElem?_append_left hj] at h'
      have := hno _ (List.mem_of_getElem? h')
      rw [hid] at this
      cases this
    · intro r' s' k' hr' hk'
      obtain ⟨g1, -⟩ := hrank r' s' k' hr' hk'
      rcases Nat.lt_trichotomy k' l₁.length with hlt | heq | hgt
      · rw [hl, List.getElem?_append_left hlt] at g1
        have := hno _ (List.mem_of_getElem? g1)
        rw [hr'.2] at this
        cases this
      · subst heq
        rw [hget] at g1
        have : s.id = s'.id := Option.some.inj g1
        left
        have h3 := hr'.2
        rw [← this, hid] at h3
        exact (Option.some.inj h3).symm
      · exact .inr hgt
  · intro h r s hs
    rw [Socks.match?, List.findSome?_eq_none_iff] at h
    cases hk : udpRank s.id m with
    | none => rfl
    | some k =>
      obtain ⟨g1, -⟩ := hrank r s k hs hk
      have := h _ (List.mem_of_getElem? g1)
      rw [hs.2] at this
      cases this

theorem udp_holds {n : Node} {F f : Bytes} {ip : Rx.IpHdr} (H : HoldsIp n F ip 17 f) (t₀ t₁ : Int) (d : Nat) :
    Rx.ether n t₀ t₁ d F = (n, Rx.udp n ip f) := by
  rcases H with ⟨h, H, hx, rfl, rfl⟩ | ⟨h, H, hx, rfl, rfl⟩
  · rw [ip4_holds H, Rx.ip4Dispatch, if_neg (by omega), if_pos hx]; rfl
  · rw [ip6_holds H (by omega), if_neg (by omega), if_pos hx]; rfl

theorem tcp_holds {n : Node} {F f : Bytes} {ip : Rx.IpHdr} (H : HoldsIp n F ip 6 f) (t₀ t₁ : Int) (d : Nat) :
    Rx.ether n t₀ t₁ d F = (n, Rx.tcp n ip f) := by
  rcases H with ⟨h, H, hx, rfl, rfl⟩ | ⟨h, H, hx, rfl, rfl⟩
  · rw [ip4_holds H, Rx.ip4Dispatch, if_neg (by omega), if_neg (by omega), if_pos hx]; rfl
  · rw [ip6_holds H (by omega), if_neg (by omega), if_neg (by omega), if_pos hx]; rfl

/-- C47: after any history of socket calls, an accepted UDP datagram goes to the one most specific socket, once and nowhere
else; if no socket matches, ICMP port unreachable, quoting the packet, goes back to its source, unless that is unspecified. -/
theorem C47_delivery {hist : List (Spec.Env × Spec.Op)} {n : Node} {F f : Bytes} {ip : Rx.IpHdr} {u : Udp.Hdr}
    (hn : n.socks = (Spec.run hist).1) (H : HoldsIp n F ip 17 f) (hp : Udp.parse f ip.dlen ip.pshdrSum = .ok none)
    (hr : Udp.read f = .ok u) (t₀ t₁ : Int) (d : Nat) :
    let m : UdpMd := { lip := ip.dst, lport := u.dport, rip := ip.src, rport := u.sport, data := u.data }
    (∃ r, MostSpecific n.socks m r ∧ Rx.ether n t₀ t₁ d F = (n, .ok [.udpDeliver r m])) ∨
    (NoSocket n.socks m ∧
      ((ip.src.isUnspecified = true ∧ Rx.ether n t₀ t₁ d F = (n, .ok [])) ∨
       (ip.src.isUnspecified = false ∧
        ((∃ s d', ip.src = .v4 s ∧ ip.dst = .v4 d' ∧
            Rx.ether n t₀ t₁ d F = (n, .ok [.txIcmp4 d' s (.portUnreachable ip.packetCopy)])) ∨
         (∃ s d', ip.src = .v6 s ∧ ip.dst = .v6 d' ∧
            Rx.ether n t₀ t₁ d F = (n, .ok [.txIcmp6 d' s 64 (.portUnreachable ip.packetCopy)])))))) := by
  intro m
  have w : n.socks.Wf := by rw [hn]; exact Socks.run_wf hist
  obtain ⟨m1, m2⟩ := match_spec w m
  rw [udp_holds H, Rx.udp]
  simp only [hp, hr, py_ok_bind, py_pure]
  cases hm : n.socks.match? m with
  | some r => exact .inl ⟨r, m1 r hm, rfl⟩
  | none =>
    refine .inr ⟨m2 hm, ?_⟩
    by_cases hu : ip.src.isUnspecified = true
    · exact .inl ⟨hu, by simp [hu]⟩
    · refine .inr ⟨by simpa using hu, ?_⟩
      simp only [hu, if_false]
      rcases H with ⟨h, H, hx, rfl, rfl⟩ | ⟨h, H, hx, rfl, rfl⟩
      · exact .inl ⟨_, _, rfl, rfl, rfl⟩
      · exact .inr ⟨_, _, rfl, rfl, rfl⟩

/-- C47: a datagram the parser refuses does nothing. -/
theorem C47_invalid {n : Node} {F f : Bytes} {ip : Rx.IpHdr} {e : String} (H : HoldsIp n F ip 17 f)
    (hp : Udp.parse f ip.dlen ip.pshdrSum = .ok (some e)) (t₀ t₁ : Int) (d : Nat) :
    Rx.ether n t₀ t₁ d F = (n, .ok []) := by
  rw [udp_holds H, Rx.udp]
  simp [hp]

/-! ### C50 -/

theorem idx_bound {f : Bytes} {i : Nat} : be f i 1 < 256 := by
  rw [be]
  have := beNat_lt ((f.drop i).take 1)
  have hl : ((f.drop i).take 1).length ≤ 1 := by simp; omega
  exact Nat.lt_of_lt_of_le this (Nat.pow_le_pow_right (by omega) hl)

theorem quoted4_spec (q : Bytes) :
    (∃ m, Rx.quoted4 q = .ok (some m) ∧ Quotes4 q m ∧ m.data = []) ∨ (Rx.quoted4 q = .ok none ∧ ∀ m, ¬ Quotes4 q m) := by
  rw [Rx.quoted4]
  by_cases h0 : q.length < 20
  · exact .inr ⟨by simp [h0], fun m h => by have := h.1; omega⟩
  have hb : be q 0 1 < 256 := idx_bound
  have hhl : (be q 0 1 &&& 0b00001111) <<< 2 = be q 0 1 % 16 * 4 := by
    rw [Nat.shiftLeft_eq, show 0b00001111 = 2 ^ 4 - 1 from rfl, Nat.and_two_pow_sub_one_eq_mod]
  simp only [h0, if_false, idx_be (f := q) (i := 0) (by omega), idx_be (f := q) (i := 9) (by omega), py_ok_bind, py_pure,
    Nat.shiftRight_eq_div_pow, hhl]
  by_cases h1 : be q 0 1 / 2 ^ 4 = 4
  · simp only [h1, ne_eq, not_true, if_false]
    by_cases h2 : q.length < be q 0 1 % 16 * 4
    · exact .inr ⟨by simp [h2], fun m h => by have := h.2.2.2.1; omega⟩
    simp only [h2, if_false]
    by_cases h3 : be q 9 1 = 17
    · simp only [h3, not_true, if_false]
      by_cases h4 : q.length < be q 0 1 % 16 * 4 + 8
      · exact .inr ⟨by simp [h4], fun m h => by have := h.2.2.2.1; omega⟩
      simp only [h4, if_false]
      obtain ⟨a, ha, ha'⟩ := ip4_be (f := q) (i := 12) (by omega)
      obtain ⟨b, hb1, hb'⟩ := ip4_be (f := q) (i := 16) (by omega)
      rw [ha, hb1, u16_be (i := be q 0 1 % 16 * 4) (by omega), u16_be (i := be q 0 1 % 16 * 4 + 2) (by omega)]
      exact .inl ⟨_, rfl, ⟨by omega, h1, h3, by omega, ⟨a, b, rfl, ha', rfl, hb'⟩, rfl, rfl⟩, rfl⟩
    · exact .inr ⟨by simp [h3], fun m h => h3 h.2.2.1⟩
  · exact .inr ⟨by simp [h1], fun m h => h1 h.2.1⟩

theorem quoted6_spec (q : Bytes) :
    (∃ m, Rx.quoted6 q = .ok (some m) ∧ Quotes6 q m ∧ m.data = []) ∨ (Rx.quoted6 q = .ok none ∧ ∀ m, ¬ Quotes6 q m) := by
  rw [Rx.quoted6]
  by_cases h0 : q.length < 48
  · exact .inr ⟨by simp [h0], fun m h => by have := h.1; omega⟩
  simp only [h0, if_false, idx_be (f := q) (i := 0) (by omega), idx_be (f := q) (i := 6) (by omega), py_ok_bind, py_pure,
    Nat.shiftRight_eq_div_pow]
  by_cases h1 : be q 0 1 / 2 ^ 4 = 6
  · simp only [h1, ne_eq, not_true, if_false]
    by_cases h3 : be q 6 1 = 17
    · simp only [h3, not_true, if_false]
      obtain ⟨a, ha, ha'⟩ := ip6_be (f := q) (i := 8) (by omega)
      obtain ⟨b, hb1, hb'⟩ := ip6_be (f := q) (i := 24) (by omega)
      rw [ha, hb1, u16_be (i := 40) (by omega), u16_be (i := 42) (by omega)]
      exact .inl ⟨_, rfl, ⟨by omega, h1, h3, ⟨a, b, rfl, ha', rfl, hb'⟩, rfl, rfl⟩, rfl⟩
    · exact .inr ⟨by simp [h3], fun m h => h3 h.2.2.1⟩
  · exact .inr ⟨by simp [h1], fun m h => h1 h.2.1⟩

theorem unreachable_spec {n : Node} (w : n.socks.Wf) (m : UdpMd) :
    (∃ r, MostSpecific n.socks m r ∧ Rx.unreachable n (some m) = [.udpUnreachable r]) ∨
      (NoSocket n.socks m ∧ Rx.unreachable n (some m) = []) := by
  obtain ⟨m1, m2⟩ := match_spec w m
  cases hm : n.socks.match? m with
  | some r => exact .inl ⟨r, m1 r hm, by simp [Rx.unreachable, hm]⟩
  | none => exact .inr ⟨m2 hm, by simp [Rx.unreachable, hm]⟩

/-- C50: after any history of socket calls, an accepted ICMPv4 destination-unreachable message, whatever bytes it quotes, tells
exactly the most specific socket for the datagram it quotes; if it quotes no datagram, or none of a socket's, it does nothing.
It never raises. -/
theorem C50_unreachable4 {hist : List (Spec.Env × Spec.Op)} {n : Node} {F : Bytes} {h : Ip4.Hdr} {c : Nat} {q : Bytes}
    (hn : n.socks = (Spec.run hist).1) (H : HoldsIp4 n F h) (hx : h.proto = 1) (hp : Icmp4.parse h.rest h.dlen = .ok none)
    (hr : Icmp4.read h.rest h.dlen = .ok (.unreachable c q)) (t₀ t₁ : Int) (d : Nat) :
    (∃ m, Quotes4 q m ∧
      ((∃ r, MostSpecific n.socks m r ∧ Rx.ether n t₀ t₁ d F = (n, .ok [.udpUnreachable r])) ∨
       (NoSocket n.socks m ∧ Rx.ether n t₀ t₁ d F = (n, .ok [])))) ∨
    ((∀ m, ¬ Quotes4 q m) ∧ Rx.ether n t₀ t₁ d F = (n, .ok [])) := by
  have w : n.socks.Wf := by rw [hn]; exact Socks.run_wf hist
  rw [ip4_holds H, Rx.ip4Dispatch, if_pos hx]
  simp only [Rx.icmp4, hp, hr, py_ok_bind, py_pure]
  rcases quoted4_spec q with ⟨m, h1, h2, -⟩ | ⟨h1, h2⟩
  · simp only [h1, py_ok_bind]
    refine .inl ⟨m, h2, ?_⟩
    rcases unreachable_spec w m with ⟨r, h3, h4⟩ | ⟨h3, h4⟩
    · exact .inl ⟨r, h3, by rw [h4]⟩
    · exact .inr ⟨h3, by rw [h4]⟩
  · simp only [h1, py_ok_bind]
    exact .inr ⟨h2, rfl⟩

/-- C50 for ICMPv6. -/
theorem C50_unreachable6 {hist : List (Spec.Env × Spec.Op)} {n : Node} {F : Bytes} {h : Ip6.Hdr} {c : Nat} {q : Bytes}
    (hn : n.socks = (Spec.run hist).1) (H : HoldsIp6 n F h) (hx : h.next = 58)
    (hp : Icmp6.parse h.rest h.dlen h.pshdrSum h.src h.dst h.hop = .ok none)
    (hr : Icmp6.read h.rest h.dlen = .ok (.unreachable c q)) (t₀ t₁ : Int) (d : Nat) :
    (∃ m, Quotes6 q m ∧
      ((∃ r, MostSpecific n.socks m r ∧ Rx.ether n t₀ t₁ d F = (n, .ok [.udpUnreachable r])) ∨
       (NoSocket n.socks m ∧ Rx.ether n t₀ t₁ d F = (n, .ok [])))) ∨
    ((∀ m, ¬ Quotes6 q m) ∧ Rx.ether n t₀ t₁ d F = (n, .ok [])) := by
  have w : n.socks.Wf := by rw [hn]; exact Socks.run_wf hist
  rw [icmp6_holds H hx hp hr]
  dsimp only
  rcases quoted6_spec q with ⟨m, h1, h2, -⟩ | ⟨h1, h2⟩
  · rw [h1]
    refine .inl ⟨m, h2, ?_⟩
    rcases unreachable_spec w m with ⟨r, h3, h4⟩ | ⟨h3, h4⟩
    · exact .inl ⟨r, h3, by rw [Except.map, h4]⟩
    · exact .inr ⟨h3, by rw [Except.map, h4]⟩
  · rw [h1]
    exact .inr ⟨h2, rfl⟩

/-- C50: a UDP socket that sent a datagram is the most specific one for that datagram quoted back, if it is connected: the
quoted source is its local endpoint and the quoted destination its peer. -/
theorem C50_sender {ss : Socks} (w : ss.Wf) {r : Nat} {s : Sock} (hs : Registered ss r s) (ht : s.id.type = .dgram)
    (hf : s.id.lip.family = s.id.family) (q : Bytes) :
    MostSpecific ss { lip := s.id.lip, lport := s.id.lport, rip := s.id.rip, rport := s.id.rport, data := q } r := by
  have hk : udpRank s.id { lip := s.id.lip, lport := s.id.lport, rip := s.id.rip, rport := s.id.rport, data := q } = some 0 := by
    rw [udpRank, if_neg (by simp [ht, hf]), if_pos ⟨rfl, rfl, rfl⟩]
  obtain ⟨m1, m2⟩ := match_spec w { lip := s.id.lip, lport := s.id.lport, rip := s.id.rip, rport := s.id.rport, data := q }
  cases hm : ss.match? { lip := s.id.lip, lport := s.id.lport, rip := s.id.rip, rport := s.id.rport, data := q } with
  | none => have := m2 hm r s hs; rw [hk] at this; cases this
  | some r' =>
    have h := m1 r' hm
    obtain ⟨s', k', hs', hk', hall⟩ := h
    rcases hall r s 0 hs hk with e | e
    · subst e; exact ⟨s', k', hs', hk', hall⟩
    · omega

/-! ### C63 -/

theorem tcpMatch_none {ss : Socks} (w : ss.Wf) {m : TcpMd} (h : ∀ r s, Registered ss r s → ¬ TakesSegment s.id m) :
    Rx.tcpMatch ss m = none := by
  have hact : ss.table.get? m.active = none := by
    cases hg : ss.table.get? m.active with
    | none => rfl
    | some r =>
      obtain ⟨s, hs, hid⟩ := w.holds _ _ hg
      refine (h r s ⟨hs, by rw [hid]; exact hg⟩ ?_).elim
      rw [hid]
      exact ⟨rfl, rfl, rfl, .inl ⟨rfl, rfl, rfl⟩⟩
  rw [Rx.tcpMatch, hact]
  dsimp only
  split
  · rename_i hsyn
    rw [List.findSome?_eq_none_iff]
    intro id hid
    cases hg : ss.table.get? id with
    | none => rfl
    | some r =>
      obtain ⟨s, hs, rfl⟩ := w.holds _ _ hg
      refine (h r s ⟨hs, hg⟩ ?_).elim
      simp only [TcpMd.listening, IpAddress.unspecified_eq, List.mem_cons, List.not_mem_nil, or_false] at hid
      have hsyn' : m.syn = true ∧ m.ack = false ∧ m.fin = false ∧ m.rst = false := by
        simp at hsyn; tauto
      rcases hid with hid | hid <;> rw [hid]
      · exact ⟨rfl, rfl, rfl, .inr ⟨hsyn', .inl rfl, rfl, rfl⟩⟩
      · exact ⟨rfl, rfl, rfl, .inr ⟨hsyn', .inr rfl, rfl, rfl⟩⟩
  · rfl

/-- C63 in part: an accepted segment that no TCP socket takes is answered by exactly one segment with RST and ACK, swapped
addresses and ports, sequence number 0 and acknowledging what was received.  (Missing: the sum is not reduced modulo 2^32; and
the answer is also given to segments with RST.  See the witnesses.) -/
theorem C63_reset_partial {hist : List (Spec.Env × Spec.Op)} {n : Node} {F f : Bytes} {ip : Rx.IpHdr} {h : Tcp.Hdr}
    (hn : n.socks = (Spec.run hist).1) (H : HoldsIp n F ip 6 f) (hp : Tcp.parse f ip.dlen ip.pshdrSum = .ok none)
    (hr : Tcp.read f ip.dlen = .ok h)
    (hno : ∀ r s, Registered n.socks r s → ¬ TakesSegment s.id
      { lip := ip.dst, lport := h.dport, rip := ip.src, rport := h.sport, syn := h.flags.syn, ack := h.flags.ack,
        fin := h.flags.fin, rst := h.flags.rst, seq := h.seq, ackn := h.ack, win := h.win,
        wscale := Tcp.wscaleOf h.options, mss := Tcp.mssOf h.options, data := h.data })
    (t₀ t₁ : Int) (d : Nat) :
    Rx.ether n t₀ t₁ d F = (n, .ok [.txTcp ip.dst ip.src
      { sport := h.dport, dport := h.sport, seq := 0,
        ack := h.seq + (if h.flags.syn then 1 else 0) + (if h.flags.fin then 1 else 0) + h.data.length,
        flags := { rst := true, ack := true }, win := 0, urp := 0, options := [], data := [] }]) := by
  have w : n.socks.Wf := by rw [hn]; exact Socks.run_wf hist
  have hm := tcpMatch_none (ss := n.socks) w (m := Rx.tcpMd ip h) hno
  rw [tcp_holds H, Rx.tcp]
  simp only [hp, hr, py_ok_bind, py_pure, hm, Rx.resetFor, Bool.toNat]
  cases h.flags.syn <;> cases h.flags.fin <;> rfl

/-- C63 is false at the wrap: the acknowledgement number 2^32 makes the assembler's assertion fail, whatever the addresses. -/
theorem C63_wrap_witness (st : Stack) (l : Socks.Links) (src dst : IpAddress) (h : Tcp.Hdr) (hs : h.seq = 0xFFFFFFFF)
    (hd : h.flags.syn = true) : (Eff.txTcp src dst (Rx.resetFor h)).transmit st l = (st, .error .assertionError) := by
  rw [Eff.transmit, phtxTcp, if_pos]
  simp only [Rx.resetFor, hs, hd, Bool.toNat]
  simp
  intros
  omega

/-! ### Concrete frames that meet the hypotheses -/
namespace Example.Rx

/-- Checks, by computation, that a frame holds an IPv4 packet for the stack with a property. -/
def check4 (n : Node) (F : Bytes) (P : Ip4.Hdr → Bool) : Bool :=
  match Ether.parse F, Ether.read F with
  | .ok none, .ok e => Rx.etherForUs n e.dst && e.type == 0x0800 && !n.stack.ip4Host.isEmpty &&
    (match Ip4.parse e.data, Ip4.read e.data with
      | .ok none, .ok h => Rx.ip4ForUs n.stack h.dst && h.offset == 0 && !h.mf && P h
      | _, _ => false)
  | _, _ => false

theorem check4_spec {n : Node} {F : Bytes} {P : Ip4.Hdr → Bool} (h : check4 n F P = true) : ∃ x, HoldsIp4 n F x ∧ P x = true := by
  rw [check4] at h
  split at h
  · rename_i e h1 h2
    simp only [Bool.and_eq_true, beq_iff_eq, etherForUs_iff] at h
    obtain ⟨⟨⟨a1, a2⟩, a3⟩, h⟩ := h
    split at h
    · rename_i x h3 h4
      simp only [Bool.and_eq_true, beq_iff_eq, ip4ForUs_iff] at h
      obtain ⟨⟨⟨b1, b2⟩, b3⟩, b4⟩ := h
      have b1 : Listens4 n x.dst := by
        rcases b1 with b1 | b1
        · simp [b1] at a3
        · exact b1
      exact ⟨x, ⟨e, ⟨h1, h2, a1⟩, a2, h3, h4, b1, b2, by simpa using b3⟩, b4⟩
    · cases h
  · cases h

def check6 (n : Node) (F : Bytes) (P : Ip6.Hdr → Bool) : Bool :=
  match Ether.parse F, Ether.read F with
  | .ok none, .ok e => Rx.etherForUs n e.dst && e.type == 0x86DD &&
    (match Ip6.parse e.data, Ip6.read e.data with
      | .ok none, .ok h => (decide (h.dst ∈ n.stack.ip6Unicast) || decide (h.dst ∈ n.stack.ip6Multicast)) && P h
      | _, _ => false)
  | _, _ => false

theorem check6_spec {n : Node} {F : Bytes} {P : Ip6.Hdr → Bool} (h : check6 n F P = true) : ∃ x, HoldsIp6 n F x ∧ P x = true := by
  rw [check6] at h
  split at h
  · rename_i e h1 h2
    rw [Bool.and_eq_true, Bool.and_eq_true, beq_iff_eq, etherForUs_iff] at h
    obtain ⟨⟨a1, a2⟩, h⟩ := h
    split at h
    · rename_i x h3 h4
      rw [Bool.and_eq_true, ip6ForUs_iff] at h
      exact ⟨x, ⟨e, ⟨h1, h2, a1⟩, a2, h3, h4, h.1⟩, h.2⟩
    · cases h
  · cases h

/-- 10.0.1.9, the peer, and its MAC; 2001:db8::9. -/
def peer4 : Ip4Address := ⟨0x0A000109, by decide⟩
def peer6 : Ip6Address := ⟨0x20010DB8000000000000000000000009, by decide⟩
def peerMac : MacAddress := ⟨0x020000000009, by decide⟩

/-- The stack of the other examples, with a UDP socket bound to all addresses at port 53. -/
def hist : List (Spec.Env × Spec.Op) :=
  let e : Spec.Env := ⟨Example.stack, ⟨fun _ _ => none, fun _ _ => none⟩⟩
  [(e, .socket .inet4 .dgram), (e, .bind 0 (some (.v4 .zero)) 53 0)]
def node : Node :=
  { stack := Example.stack, macMulticast := [⟨0x333300000001, by decide⟩], ip4Candidates := [⟨0x0A000120, by decide⟩], ip6Candidate := none,
    flows4 := [], flows6 := [], socks := (Spec.run hist).1 }

/-- A frame from the peer to the stack. -/
def frame (p : Pkt) : Bytes :=
  match Outgoing.frame ⟨peerMac, Example.stack.mac, p⟩ with
  | .ok f => f
  | .error _ => []
def ip4Frame (c : Carried) : Bytes :=
  frame (.ip4 { src := peer4, dst := Example.host4.address, ttl := 64, dscp := 0, ecn := 0, id := 5, df := false, mf := false, offset := 0,
                options := [], proto := c.proto } c)
def ip6Frame (c : Carried) : Bytes :=
  frame (.ip6 { src := peer6, dst := Example.host6.address, hop := 255, dscp := 0, ecn := 0, flow := 0 } c)

def checkArp (n : Node) (F : Bytes) (P : Ether.Hdr → Arp.Hdr → Bool) : Bool :=
  match Ether.parse F, Ether.read F with
  | .ok none, .ok e => Rx.etherForUs n e.dst && e.type == 0x0806 &&
    (match Arp.parse e.data, Arp.read e.data with
      | .ok none, .ok h => P e h
      | _, _ => false)
  | _, _ => false

theorem checkArp_spec {n : Node} {F : Bytes} {P : Ether.Hdr → Arp.Hdr → Bool} (h : checkArp n F P = true) :
    ∃ e x, HoldsEther n F e ∧ e.type = 0x0806 ∧ Arp.parse e.data = .ok none ∧ Arp.read e.data = .ok x ∧ P e x = true := by
  rw [checkArp] at h
  split at h
  · rename_i e h1 h2
    rw [Bool.and_eq_true, Bool.and_eq_true, beq_iff_eq, etherForUs_iff] at h
    obtain ⟨⟨a1, a2⟩, h⟩ := h
    split at h
    · rename_i x h3 h4
      exact ⟨e, x, ⟨h1, h2, a1⟩, a2, h3, h4, h⟩
    · cases h
  · cases h

/-- C37: an ARP request for 10.0.1.7, a reply to the stack, a reply to its probe for 10.0.1.32. -/
example : ∃ e h, HoldsEther node (frame (.arp 1 peerMac peer4 ⟨0, by decide⟩ Example.host4.address)) e ∧ e.type = 0x0806 ∧
    Arp.parse e.data = .ok none ∧ Arp.read e.data = .ok h ∧
    (h.oper == 1 && decide (h.tpa ∈ node.stack.ip4Unicast) && decide (h.spa ∉ node.stack.ip4Unicast)) = true :=
  checkArp_spec (by decide +kernel)
example : ∃ e h, HoldsEther node (frame (.arp 2 peerMac peer4 Example.stack.mac Example.host4.address)) e ∧ e.type = 0x0806 ∧
    Arp.parse e.data = .ok none ∧ Arp.read e.data = .ok h ∧ (h.oper == 2 && e.dst == node.stack.mac && h.tpa.int != 0) = true :=
  checkArp_spec (by decide +kernel)
example : ∃ e h, HoldsEther node (frame (.arp 2 peerMac ⟨0x0A000120, by decide⟩ Example.stack.mac .zero)) e ∧ e.type = 0x0806 ∧
    Arp.parse e.data = .ok none ∧ Arp.read e.data = .ok h ∧
    (h.oper == 2 && e.dst == node.stack.mac && decide (h.spa ∈ node.ip4Candidates) && h.tha == node.stack.mac && h.tpa.int == 0) = true :=
  checkArp_spec (by decide +kernel)

/-- C38: a solicitation for 2001:db8::7 with the sender's MAC, and an advertisement. -/
example : ∃ h, HoldsIp6 node (ip6Frame (Icmp6.carried (.neighborSolicitation Example.host6.address [.slla peerMac]))) h ∧
    (h.next == 58 && Icmp6.parse h.rest h.dlen h.pshdrSum h.src h.dst h.hop == .ok none &&
      Icmp6.read h.rest h.dlen == .ok (.neighborSolicitation Example.host6.address [.slla 8 peerMac])) = true :=
  check6_spec (by decide +kernel)
example : ∃ h, HoldsIp6 node (ip6Frame (Icmp6.carried (.neighborAdvertisement false true false peer6 [.tlla peerMac]))) h ∧
    (h.next == 58 && Icmp6.parse h.rest h.dlen h.pshdrSum h.src h.dst h.hop == .ok none &&
      Icmp6.read h.rest h.dlen == .ok (.neighborAdvertisement false true false peer6 [.tlla 8 peerMac])) = true :=
  check6_spec (by decide +kernel)

/-- C39: a ping. -/
example : ∃ h, HoldsIp4 node (ip4Frame (Icmp4.carried (.echoRequest 7 1 [1, 2, 3]))) h ∧
    (h.proto == 1 && Icmp4.parse h.rest h.dlen == .ok none && Icmp4.read h.rest h.dlen == .ok (.echo 8 0 7 1 [1, 2, 3])) = true :=
  check4_spec (by decide +kernel)
example : ∃ h, HoldsIp6 node (ip6Frame (Icmp6.carried (.echoRequest 7 1 [1, 2, 3]))) h ∧
    (h.next == 58 && Icmp6.parse h.rest h.dlen h.pshdrSum h.src h.dst h.hop == .ok none &&
      Icmp6.read h.rest h.dlen == .ok (.echo 128 7 1 [1, 2, 3])) = true :=
  check6_spec (by decide +kernel)

/-- C47: a datagram to port 53, where the socket is, and one to port 54, where there is none. -/
example : ∃ h, HoldsIp4 node (ip4Frame (Udp.carried 5353 53 [9, 9])) h ∧
    (h.proto == 17 && Udp.parse h.rest h.dlen h.pshdrSum == .ok none && (Udp.read h.rest).toOption.map (·.data) == some [9, 9] &&
      node.socks.match? ⟨.v4 h.dst, 53, .v4 h.src, 5353, [9, 9]⟩ == some 0) = true :=
  check4_spec (by decide +kernel)
example : ∃ h, HoldsIp4 node (ip4Frame (Udp.carried 5353 54 [9, 9])) h ∧
    (h.proto == 17 && Udp.parse h.rest h.dlen h.pshdrSum == .ok none && (Udp.read h.rest).toOption.map (·.data) == some [9, 9] &&
      node.socks.match? ⟨.v4 h.dst, 54, .v4 h.src, 5353, [9, 9]⟩ == none) = true :=
  check4_spec (by decide +kernel)

/-- C50: a port-unreachable message that quotes a datagram sent from port 53. -/
def quoted : Bytes :=
  match Ip4.assemble { src := Example.host4.address, dst := peer4, ttl := 64, dscp := 0, ecn := 0, id := 5, df := false, mf := false,
                       offset := 0, options := [], proto := 17 } (Udp.carried 53 5353 [1]) with
  | .ok f => f
  | .error _ => []
example : ∃ h, HoldsIp4 node (ip4Frame (Icmp4.carried (.portUnreachable quoted))) h ∧
    (h.proto == 1 && Icmp4.parse h.rest h.dlen == .ok none && Icmp4.read h.rest h.dlen == .ok (.unreachable 3 quoted)) = true :=
  check4_spec (by decide +kernel)
example : (Rx.ether node 0 0 8 (ip4Frame (Icmp4.carried (.portUnreachable quoted)))).2 = .ok [.udpUnreachable 0] := by rfl

/-- C63: a SYN to a port where nothing listens; and, against C63, a RST, which is answered all the same. -/
def syn : Tcp.Tx :=
  { sport := 5000, dport := 80, seq := 77, ack := 0, flags := { syn := true }, win := 1000, urp := 0, options := [], data := [] }
example : ∃ h, HoldsIp4 node (ip4Frame (Tcp.carried syn)) h ∧
    (h.proto == 6 && Tcp.parse h.rest h.dlen h.pshdrSum == .ok none) = true :=
  check4_spec (by decide +kernel)
example : ∀ r s, Registered node.socks r s → s.id.type = .dgram := by
  intro r s hs
  have h := hs.2
  have : node.socks.table = [(⟨.inet4, .dgram, .v4 .zero, 53, .v4 .zero, 0⟩, 0)] := by decide +kernel
  rw [this] at h
  simp only [Dict.get?] at h
  simp at h
  rw [← h.1]

end Example.Rx

/-- C63 is false for resets: this segment (a RST to a port where there is no socket) is answered with a RST. -/
theorem C63_rst_witness :
    Rx.ether Example.Rx.node 0 0 8 (Example.Rx.ip4Frame (Tcp.carried { Example.Rx.syn with flags := { rst := true } })) =
      (Example.Rx.node, .ok [.txTcp (.v4 Example.host4.address) (.v4 Example.Rx.peer4)
        { sport := 80, dport := 5000, seq := 0, ack := 77, flags := { rst := true, ack := true }, win := 0, urp := 0, options := [],
          data := [] }]) := by
  rfl

end Verif
