import Verif.Spec.Socket
import Verif.Lemmas.Dict
import Verif.Lemmas.Py
import Verif.Props.Tx
import Mathlib.Data.List.Induction
/-! Helper lemmas about the sockets. -/
namespace Verif
open Spec

namespace IpAddress

theorem isUnspecified_iff (a : IpAddress) : a.isUnspecified = true ↔ a = a.family.any := by
  cases a with
  | v4 a => simp [isUnspecified, family, Family.any, Ip4Address.isUnspecified_iff]
  | v6 a => simp [isUnspecified, family, Family.any, Ip6Address.isUnspecified_iff]

theorem unspecified_eq (a : IpAddress) : a.unspecified = a.family.any := by cases a <;> rfl

end IpAddress

@[simp] theorem Family.any_family (f : Family) : f.any.family = f := by cases f <;> rfl
@[simp] theorem Family.any_unspecified (f : Family) : f.any.isUnspecified = true := by cases f <;> decide

namespace Socks

/-- What every history keeps true of the sockets. -/
structure Wf (ss : Socks) : Prop where
  nodup : (Dict.keys ss.table).Nodup
  holds : ∀ id r, ss.table.get? id = some r → ∃ s, ss.socks[r]? = some s ∧ s.id = id
  own : ∀ (r : Nat) s, ss.socks[r]? = some s → s.accepted = false →
    s.id.lip.family = s.id.family ∧ s.id.rip.family = s.id.family ∧ s.id.lport < 65536 ∧
    (s.id.lport = 0 → s.id.lip = s.id.family.any ∧ s.id.rip = s.id.family.any ∧ s.id.rport = 0)
  child : ∀ (r : Nat) s, ss.socks[r]? = some s → s.accepted = true → s.id.type = .stream

/-- No two sockets made by the application claim the same local endpoint. -/
def NoClash (ss : Socks) : Prop :=
  ∀ r r' s s', Registered ss r s → Registered ss r' s' → s.accepted = false → s'.accepted = false → r ≠ r' →
    ¬ Clash s.id s'.id

theorem get_lt {ss : Socks} {r : Nat} {s : Sock} (h : ss.socks[r]? = some s) : r < ss.socks.length :=
  (List.getElem?_eq_some_iff.mp h).1

theorem set_get {l : List Sock} {r r' : Nat} {s x : Sock} (hr : r < l.length) (h : (l.set r s)[r']? = some x) :
    (r' = r ∧ x = s) ∨ (r' ≠ r ∧ l[r']? = some x) := by
  by_cases e : r' = r
  · subst e
    rw [List.getElem?_set_self hr] at h
    exact .inl ⟨rfl, by injection h with h; exact h.symm⟩
  · rw [List.getElem?_set_ne (Ne.symm e)] at h
    exact .inr ⟨e, h⟩

theorem Wf.empty : Wf ⟨[], []⟩ :=
  ⟨List.nodup_nil, by simp, by simp, by simp⟩

/-- Changing anything but the id of a socket. -/
theorem Wf.put {ss : Socks} (w : Wf ss) {r : Nat} {s s' : Sock} (h : ss.socks[r]? = some s) (hid : s'.id = s.id)
    (ha : s'.accepted = s.accepted) : Wf (ss.put r s') := by
  have hr := get_lt h
  refine ⟨w.nodup, ?_, ?_, ?_⟩
  · intro id r' hg
    obtain ⟨x, h1, h2⟩ := w.holds id r' hg
    by_cases e : r' = r
    · subst e
      rw [h] at h1; cases h1
      exact ⟨s', by simp [Socks.put, hr], by rw [hid, h2]⟩
    · exact ⟨x, by simp [Socks.put, List.getElem?_set_ne (Ne.symm e), h1], h2⟩
  · intro r' x hx hxa
    rcases set_get hr hx with ⟨rfl, rfl⟩ | ⟨e, hx⟩
    · rw [hid]; exact w.own r' s h (by rw [← ha]; exact hxa)
    · exact w.own r' x hx hxa
  · intro r' x hx hxa
    rcases set_get hr hx with ⟨rfl, rfl⟩ | ⟨e, hx⟩
    · rw [hid]; exact w.child r' s h (by rw [← ha]; exact hxa)
    · exact w.child r' x hx hxa

theorem registered_put {ss : Socks} {r r' : Nat} {s s' x : Sock} (h : ss.socks[r]? = some s) (hid : s'.id = s.id)
    (ha : s'.accepted = s.accepted) (hx : Registered (ss.put r s') r' x) :
    ∃ y, Registered ss r' y ∧ y.id = x.id ∧ y.accepted = x.accepted := by
  obtain ⟨h1, h2⟩ := hx
  rcases set_get (get_lt h) h1 with ⟨rfl, rfl⟩ | ⟨e, h1⟩
  · exact ⟨s, ⟨h, by rw [← hid]; exact h2⟩, hid.symm, ha.symm⟩
  · exact ⟨x, ⟨h1, h2⟩, rfl, rfl⟩

/-- What `register` needs to keep the invariant. -/
def IdOk (s : SockId) : Prop := s.lip.family = s.family ∧ s.rip.family = s.family ∧ s.lport < 65536 ∧ s.lport ≠ 0

theorem Wf.register {ss : Socks} (w : Wf ss) {r : Nat} {s s₀ : Sock} {id : SockId} (h : ss.socks[r]? = some s₀)
    (hs : s.id = s₀.id) (ha : s.accepted = s₀.accepted) (ho : s.accepted = false → IdOk id)
    (ht : id.type = s.id.type) : Wf (ss.register r s id) := by
  have hr := get_lt h
  refine ⟨Dict.nodup_set _ _ (Dict.nodup_erase _ w.nodup), ?_, ?_, ?_⟩
  · intro id' r' hg
    simp only [Socks.register, Dict.get?_set, Dict.get?_erase] at hg ⊢
    by_cases e : id' = id
    · simp only [e, if_true, Option.some.injEq] at hg
      subst hg
      exact ⟨{ s with id := id }, by simp [hr], e.symm⟩
    · rw [if_neg e] at hg
      split at hg
      · cases hg
      · rename_i e2
        obtain ⟨x, h1, h2⟩ := w.holds id' r' hg
        have : r' ≠ r := by
          rintro rfl
          rw [h] at h1; cases h1
          exact e2 (h2.symm.trans hs.symm)
        exact ⟨x, by rw [List.getElem?_set_ne (Ne.symm this)]; exact h1, h2⟩
  · intro r' x hx hxa
    rcases set_get hr hx with ⟨rfl, rfl⟩ | ⟨e, hx⟩
    · obtain ⟨h1, h2, h3, h4⟩ := ho hxa
      exact ⟨h1, h2, h3, fun h => absurd h h4⟩
    · exact w.own r' x hx hxa
  · intro r' x hx hxa
    rcases set_get hr hx with ⟨rfl, rfl⟩ | ⟨e, hx⟩
    · show id.type = _
      rw [ht, hs]; exact w.child r' s₀ h (by rw [← ha]; exact hxa)
    · exact w.child r' x hx hxa

theorem Wf.erase {ss : Socks} (w : Wf ss) (id : SockId) : Wf { ss with table := ss.table.erase id } := by
  refine ⟨Dict.nodup_erase _ w.nodup, ?_, w.own, w.child⟩
  intro id' r hg
  simp only [Dict.get?_erase] at hg
  split at hg
  · cases hg
  · exact w.holds id' r hg

theorem registered_register {ss : Socks} {r r' : Nat} {s s₀ x : Sock} {id : SockId} (h : ss.socks[r]? = some s₀)
    (hx : Registered (ss.register r s id) r' x) :
    (r' = r ∧ x = { s with id := id }) ∨ (r' ≠ r ∧ Registered ss r' x) := by
  obtain ⟨h1, h2⟩ := hx
  rcases set_get (get_lt h) h1 with ⟨rfl, rfl⟩ | ⟨e, h1⟩
  · exact .inl ⟨rfl, rfl⟩
  · refine .inr ⟨e, h1, ?_⟩
    simp only [Socks.register, Dict.get?_set, Dict.get?_erase] at h2
    split at h2
    · injection h2 with h2; exact absurd h2.symm e
    · split at h2
      · cases h2
      · exact h2

theorem Clash.symm {a b : SockId} (h : Clash a b) : Clash b a := by
  obtain ⟨h1, h2, h3, h4⟩ := h
  exact ⟨h1.symm, h2.symm, h3.symm, by rcases h4 with h | h | h <;> simp [h]⟩

theorem NoClash.register {ss : Socks} (n : NoClash ss) {r : Nat} {s s₀ : Sock} {id : SockId} (h : ss.socks[r]? = some s₀)
    (hc : ∀ r' s', Registered ss r' s' → s'.accepted = false → r' ≠ r → ¬ Clash id s'.id) :
    NoClash (ss.register r s id) := by
  intro a b x y hx hy hxa hya hab
  rcases registered_register h hx with ⟨rfl, rfl⟩ | ⟨ea, hx'⟩
  · rcases registered_register h hy with ⟨rfl, -⟩ | ⟨eb, hy'⟩
    · exact absurd rfl hab
    · exact hc b y hy' hya eb
  · rcases registered_register h hy with ⟨rfl, rfl⟩ | ⟨eb, hy'⟩
    · exact fun c => hc a x hx' hxa ea (Clash.symm c)
    · exact n a b x y hx' hy' hxa hya hab

theorem NoClash.put {ss : Socks} (n : NoClash ss) {r : Nat} {s s' : Sock} (h : ss.socks[r]? = some s) (hid : s'.id = s.id)
    (ha : s'.accepted = s.accepted) : NoClash (ss.put r s') := by
  intro a b x y hx hy hxa hya hab
  obtain ⟨x', h1, h2, h3⟩ := registered_put h hid ha hx
  obtain ⟨y', h4, h5, h6⟩ := registered_put h hid ha hy
  rw [← h2, ← h5]
  exact n a b x' y' h1 h4 (by rw [h3]; exact hxa) (by rw [h6]; exact hya) hab

theorem registered_erase {ss : Socks} {id : SockId} {r : Nat} {x : Sock}
    (hx : Registered { ss with table := ss.table.erase id } r x) : Registered ss r x := by
  refine ⟨hx.1, ?_⟩
  have := hx.2
  simp only [Dict.get?_erase] at this
  split at this
  · cases this
  · exact this

theorem NoClash.erase {ss : Socks} (n : NoClash ss) (id : SockId) : NoClash { ss with table := ss.table.erase id } := by
  intro a b x y hx hy
  exact n a b x y (registered_erase hx) (registered_erase hy)

/-! ### Ports -/

theorem mem_ephemeral (p : Nat) : p ∈ ephemeral ↔ EphemeralPort p := by
  simp only [ephemeral, List.mem_map, List.mem_range, EphemeralPort]
  constructor
  · rintro ⟨i, hi, rfl⟩; omega
  · rintro ⟨h1, h2, h3⟩; exact ⟨(p - 32168) / 2, by omega, by omega⟩

theorem pickLocalPort_ok {ss : Socks} {c p : Nat} (h : pickLocalPort ss c = .ok p) :
    EphemeralPort p ∧ ∀ id ∈ Dict.keys ss.table, id.lport ≠ p := by
  unfold pickLocalPort at h
  simp only at h
  split at h
  · rename_i q hq
    injection h with h; subst h
    have := List.mem_of_getElem? hq
    rw [List.mem_filter, mem_ephemeral] at this
    refine ⟨this.1, ?_⟩
    intro id hid e
    have h2 := this.2
    simp only [List.mem_map, decide_not, Bool.not_eq_eq_eq_not, Bool.not_true, decide_eq_false_iff_not, not_exists,
      not_and] at h2
    exact of_decide_eq_true h2 id hid e
  · cases h

theorem pickLocalPort_error {ss : Socks} {c : Nat} {e : PyErr} (h : pickLocalPort ss c = .error e) :
    e = .osError ∧ ∀ p, EphemeralPort p → ∃ id ∈ Dict.keys ss.table, id.lport = p := by
  unfold pickLocalPort at h
  simp only at h
  split at h
  · cases h
  · rename_i hq
    injection h with h
    refine ⟨h.symm, ?_⟩
    intro p hp
    rw [List.getElem?_eq_none_iff] at hq
    have hz : (ephemeral.filter (fun p => ¬ p ∈ ss.table.keys.map (·.lport))).length = 0 := by
      refine Decidable.byContradiction fun hne => ?_
      have := Nat.mod_lt c (Nat.pos_of_ne_zero hne)
      omega
    rw [List.length_eq_zero_iff, List.filter_eq_nil_iff] at hz
    have := hz p ((mem_ephemeral p).mpr hp)
    simp only [decide_not, Bool.not_eq_eq_eq_not, Bool.not_true, decide_eq_false_iff_not, Classical.not_not] at this
    obtain ⟨id, h1, h2⟩ := List.mem_map.mp this
    exact ⟨id, h1, h2⟩

theorem Wf.fresh {ss : Socks} {p : Nat} (h : ∀ id ∈ Dict.keys ss.table, id.lport ≠ p) {r : Nat} {s : Sock}
    (hr : Registered ss r s) : s.id.lport ≠ p :=
  h s.id ((Dict.mem_keys_iff _ _).mpr ⟨r, hr.2⟩)

/-- `_is_address_in_use` says whether a registered socket claims the endpoint. -/
theorem inUse_iff {ss : Socks} (w : Wf ss) {s : Sock} {lip : IpAddress} {lport : Nat} :
    inUse ss s lip lport = true ↔
      ∃ r x, Registered ss r x ∧ Clash { s.id with lip := lip, lport := lport } x.id := by
  rw [inUse, List.any_eq_true]
  constructor
  · rintro ⟨⟨id, r⟩, hm, h⟩
    have hg := (Dict.mem_iff w.nodup id r).mp hm
    obtain ⟨x, h1, h2⟩ := w.holds id r hg
    simp only [h1, Bool.and_eq_true, Bool.or_eq_true, decide_eq_true_eq] at h
    refine ⟨r, x, ⟨h1, by rw [h2]; exact hg⟩, h.1.1.1.symm, h.1.1.2.symm, h.2.symm, ?_⟩
    rcases h.1.2 with (h | h) | h
    · exact .inr (.inr h)
    · exact .inl h.symm
    · exact .inr (.inl h)
  · rintro ⟨r, x, ⟨h1, h2⟩, h3, h4, h5, h6⟩
    refine ⟨(x.id, r), Dict.get?_mem h2, ?_⟩
    simp only [h1, Bool.and_eq_true, Bool.or_eq_true, decide_eq_true_eq]
    refine ⟨⟨⟨h3.symm, h4.symm⟩, ?_⟩, h5.symm⟩
    rcases h6 with h | h | h
    · exact .inl (.inr h.symm)
    · exact .inr h
    · exact .inl (.inl h)

theorem pickLocalIp_family (st : Stack) (a : IpAddress) : (pickLocalIp st a).family = a.family := by
  cases a <;> rfl

theorem setIpAddresses_ok {st : Stack} {s : Sock} {addr : Option IpAddress} {lip : IpAddress} {lport rport : Nat} {u : Bool}
    {l r : IpAddress} (h : setIpAddresses st s addr lip lport rport = (u, .ok (l, r))) (hl : lip.family = s.id.family) :
    l.family = s.id.family ∧ r.family = s.id.family ∧ (l = lip ∨ lip.isUnspecified) := by
  unfold setIpAddresses at h
  split at h
  · cases h
  · rename_i rip
    split at h
    · cases h
    · rename_i hf
      have hf : rip.family = s.id.family := Decidable.byContradiction hf
      split at h
      · cases h
      · simp only at h
        split at h
        · rename_i hu
          split at h
          · cases h
          · cases h
            exact ⟨by rw [pickLocalIp_family, hf], hf, .inr hu⟩
        · cases h
          exact ⟨hl, hf, .inl rfl⟩

/-! ### Calls -/

/-- What `bind` does. -/
theorem bind_cases (st : Stack) {ss : Socks} (w : Wf ss) (r : Nat) (addr : Option IpAddress) (port : Int) (c : Nat) :
    (∃ e, bind st ss r addr port c = (ss, .error e)) ∨
    ∃ s a p, ss.socks[r]? = some s ∧ ¬ (1 ≤ s.id.lport ∧ s.id.lport < 65536) ∧ addr = some a ∧ a.family = s.id.family ∧
      p < 65536 ∧ p ≠ 0 ∧ (∀ r' s', Registered ss r' s' → ¬ Clash { s.id with lip := a, lport := p } s'.id) ∧
      (0 < port → p = port.toNat) ∧
      bind st ss r addr port c = (ss.register r s { s.id with lip := a, lport := p }, .ok ()) := by
  unfold bind
  split
  · exact .inl ⟨_, rfl⟩
  · rename_i s hs
    split
    · exact .inl ⟨_, rfl⟩
    · rename_i hp
      split
      · exact .inl ⟨_, rfl⟩
      · rename_i a
        split
        · exact .inl ⟨_, rfl⟩
        · rename_i hf
          have hf : a.family = s.id.family := Decidable.byContradiction hf
          split
          · exact .inl ⟨_, rfl⟩
          · split
            · exact .inl ⟨_, rfl⟩
            · rename_i hport
              split
              · rename_i hpos
                split
                · exact .inl ⟨_, rfl⟩
                · rename_i hu
                  refine .inr ⟨s, a, port.toNat, hs, hp, rfl, hf, by omega, by omega, ?_, fun _ => rfl, rfl⟩
                  intro r' s' hr hc
                  exact hu ((inUse_iff w).mpr ⟨r', s', hr, hc⟩)
              · split
                · exact .inl ⟨_, rfl⟩
                · rename_i p hpk
                  obtain ⟨⟨h1, h2, -⟩, h3⟩ := pickLocalPort_ok hpk
                  refine .inr ⟨s, a, p, hs, hp, rfl, hf, by omega, by omega, ?_, fun h => by omega, rfl⟩
                  intro r' s' hr hc
                  exact Wf.fresh h3 hr hc.2.2.1.symm

/-- What `connect` does. -/
theorem connect_cases (st : Stack) (ss : Socks) (r : Nat) (addr : Option IpAddress) (port : Int) (c : Nat) :
    (∃ e, connect st ss r addr port c = (ss, .error e)) ∨
    (∃ s u e, ss.socks[r]? = some s ∧ connect st ss r addr port c = (ss.put r { s with unreachable := u }, .error e)) ∨
    ∃ s u l lp a, ss.socks[r]? = some s ∧ a.family = s.id.family ∧
      (s.id.lip.family = s.id.family → l.family = s.id.family ∧ (l = s.id.lip ∨ s.id.lip.isUnspecified)) ∧
      lp < 65536 ∧ lp ≠ 0 ∧
      (lp = s.id.lport ∨ (¬ (1 ≤ s.id.lport ∧ s.id.lport < 65536) ∧ ∀ r' s', Registered ss r' s' → s'.id.lport ≠ lp)) ∧
      connect st ss r addr port c = (ss.register r { s with unreachable := u }
        { s.id with lip := l, lport := lp, rip := a, rport := port.toNat }, .ok ()) := by
  unfold connect
  split
  · exact .inl ⟨_, rfl⟩
  · rename_i s hs
    split
    · exact .inl ⟨_, rfl⟩
    · split
      · exact .inl ⟨_, rfl⟩
      · rename_i lp hlp
        have hl : lp < 65536 ∧ lp ≠ 0 ∧ (lp = s.id.lport ∨
            (¬ (1 ≤ s.id.lport ∧ s.id.lport < 65536) ∧ ∀ r' s', Registered ss r' s' → s'.id.lport ≠ lp)) := by
          split at hlp
          · rename_i h
            cases hlp; exact ⟨h.2, by omega, .inl rfl⟩
          · rename_i h
            obtain ⟨⟨h1, h2, -⟩, h3⟩ := pickLocalPort_ok hlp
            exact ⟨by omega, by omega, .inr ⟨h, fun r' s' hr => Wf.fresh h3 hr⟩⟩
        split
        · rename_i u e h
          exact .inr (.inl ⟨s, u, e, hs, rfl⟩)
        · rename_i u l a h
          refine .inr (.inr ⟨s, u, l, lp, a, hs, ?_, ?_, hl.1, hl.2.1, hl.2.2, rfl⟩)
          · unfold setIpAddresses at h
            split at h
            · cases h
            · rename_i rip
              split at h
              · cases h
              · rename_i hf
                have hf : rip.family = s.id.family := Decidable.byContradiction hf
                split at h
                · cases h
                · simp only at h
                  split at h
                  · split at h
                    · cases h
                    · cases h; exact hf
                  · cases h; exact hf
          · intro hlf
            obtain ⟨h1, h2, h3⟩ := setIpAddresses_ok h hlf
            exact ⟨h1, h3⟩

/-- What `sendto` does to the sockets. -/
theorem sendto_cases (st : Stack) (ln : Links) (ss : Socks) (r : Nat) (data : Bytes) (addr : Option IpAddress) (port : Int)
    (c : Nat) :
    (sendto st ln ss r data addr port c).1 = ss ∨
    (∃ s, ss.socks[r]? = some s ∧ (sendto st ln ss r data addr port c).1 = { ss with table := ss.table.erase s.id }) ∨
    (∃ s u, ss.socks[r]? = some s ∧ (sendto st ln ss r data addr port c).1 = ss.put r { s with unreachable := u }) ∨
    ∃ s u p, ss.socks[r]? = some s ∧ ¬ (1 ≤ s.id.lport ∧ s.id.lport < 65536) ∧ p < 65536 ∧ p ≠ 0 ∧
      (∀ id ∈ Dict.keys (ss.table.erase s.id), id.lport ≠ p) ∧
      (sendto st ln ss r data addr port c).1 =
        (Socks.register { ss with table := ss.table.erase s.id } r s { s.id with lport := p }).put r
          { s with id := { s.id with lport := p }, unreachable := u } := by
  unfold sendto
  split
  · exact .inl rfl
  · rename_i s hs
    split
    · exact .inl rfl
    · by_cases hp : 1 ≤ s.id.lport ∧ s.id.lport < 65536
      · simp only [if_pos hp]
        split
        · exact .inr (.inr (.inl ⟨s, _, hs, rfl⟩))
        · exact .inr (.inr (.inl ⟨s, _, hs, rfl⟩))
      · simp only [if_neg hp]
        cases hpk : pickLocalPort { ss with table := ss.table.erase s.id } c with
        | error e => exact .inr (.inl ⟨s, hs, rfl⟩)
        | ok p =>
          obtain ⟨⟨h1, h2, -⟩, h3⟩ := pickLocalPort_ok hpk
          refine .inr (.inr (.inr ?_))
          simp only
          split
          · exact ⟨s, _, p, hs, hp, by omega, by omega, h3, rfl⟩
          · exact ⟨s, _, p, hs, hp, by omega, by omega, h3, rfl⟩

theorem create_wf {ss : Socks} (w : Wf ss) (x : Sock) (t : Dict SockId Nat)
    (ht : t = ss.table ∨ t = ss.table.set x.id ss.socks.length)
    (ha : x.accepted = false → x.id.lip = x.id.family.any ∧ x.id.rip = x.id.family.any ∧ x.id.lport = 0 ∧ x.id.rport = 0)
    (hb : x.accepted = true → x.id.type = .stream) : Wf { socks := ss.socks ++ [x], table := t } := by
  have key : ∀ (r : Nat) y, (ss.socks ++ [x])[r]? = some y → ss.socks[r]? = some y ∨ (r = ss.socks.length ∧ y = x) := by
    intro r y h
    rw [List.getElem?_append] at h
    split at h
    · exact .inl h
    · right
      rw [List.getElem?_singleton] at h
      split at h
      · exact ⟨by omega, by injection h with h; exact h.symm⟩
      · cases h
  refine ⟨?_, ?_, ?_, ?_⟩
  · rcases ht with rfl | rfl
    · exact w.nodup
    · exact Dict.nodup_set _ _ w.nodup
  · intro id r hg
    rcases ht with rfl | rfl
    · obtain ⟨s, h1, h2⟩ := w.holds id r hg
      exact ⟨s, by rw [List.getElem?_append_left (get_lt h1)]; exact h1, h2⟩
    · simp only [Dict.get?_set] at hg
      split at hg
      · rename_i e
        injection hg with hg; subst hg
        exact ⟨x, by simp, e.symm⟩
      · obtain ⟨s, h1, h2⟩ := w.holds id r hg
        exact ⟨s, by rw [List.getElem?_append_left (get_lt h1)]; exact h1, h2⟩
  · intro r y hy hya
    rcases key r y hy with h | ⟨rfl, rfl⟩
    · exact w.own r y h hya
    · obtain ⟨h1, h2, h3, h4⟩ := ha hya
      simp [h1, h2, h3, h4]
  · intro r y hy hya
    rcases key r y hy with h | ⟨rfl, rfl⟩
    · exact w.child r y h hya
    · exact hb hya

theorem registered_append {ss : Socks} (w : Wf ss) {x y : Sock} {t : Dict SockId Nat} {r : Nat}
    (ht : t = ss.table ∨ t = ss.table.set x.id ss.socks.length)
    (h : Registered { socks := ss.socks ++ [x], table := t } r y) (hy : y.accepted = false) (hx : t ≠ ss.table → x.accepted = true) :
    Registered ss r y := by
  obtain ⟨h1, h2⟩ := h
  simp only at h1 h2
  have hcase : ss.socks[r]? = some y ∨ (r = ss.socks.length ∧ y = x) := by
    rw [List.getElem?_append] at h1
    split at h1
    · exact .inl h1
    · right
      rw [List.getElem?_singleton] at h1
      split at h1
      · exact ⟨by omega, by injection h1 with h; exact h.symm⟩
      · cases h1
  have hnot : ∀ id, ss.table.get? id ≠ some ss.socks.length := by
    intro id hg
    obtain ⟨s, h3, -⟩ := w.holds id _ hg
    have := get_lt h3
    omega
  by_cases hte : t = ss.table
  · subst hte
    rcases hcase with h3 | ⟨rfl, rfl⟩
    · exact ⟨h3, h2⟩
    · exact absurd h2 (hnot _)
  · rcases hcase with h3 | ⟨rfl, rfl⟩
    · refine ⟨h3, ?_⟩
      rcases ht with rfl | rfl
      · exact absurd rfl hte
      · simp only [Dict.get?_set] at h2
        split at h2
        · injection h2 with h2
          have := get_lt h3
          omega
        · exact h2
    · rw [hx hte] at hy; cases hy

theorem Wf.step {ss : Socks} (w : Wf ss) (e : Env) (op : Op) : Wf (step ss e op).1 := by
  cases op with
  | socket f t =>
    exact create_wf w _ _ (.inl rfl) (fun _ => ⟨rfl, rfl, rfl, rfl⟩) (fun h => by cases h)
  | child l lp r rp =>
    exact create_wf w _ _ (.inr rfl) (fun h => by cases h) (fun _ => rfl)
  | bind r a p c =>
    rcases bind_cases e.stack w r a p c with ⟨x, h⟩ | ⟨s, a, p, hs, h0, -, hf, h1, h2, -, -, h⟩
    · simp only [Spec.step, h]; exact w
    · simp only [Spec.step, h]
      refine w.register hs rfl rfl (fun ha => ⟨hf, ?_, h1, h2⟩) rfl
      exact (w.own r s hs ha).2.1
  | connect r a p c =>
    rcases connect_cases e.stack ss r a p c with ⟨x, h⟩ | ⟨s, u, x, hs, h⟩ | ⟨s, u, l, lp, a, hs, hf, hl, h1, h2, -, h⟩
    · simp only [Spec.step, h]; exact w
    · simp only [Spec.step, h]; exact w.put hs rfl rfl
    · simp only [Spec.step, h]
      exact w.register hs rfl rfl (fun ha => ⟨(hl (w.own r s hs ha).1).1, hf, h1, h2⟩) rfl
  | listen r =>
    simp only [Spec.step, listen]
    split
    · exact w
    · rename_i s hs
      refine ⟨Dict.nodup_set _ _ w.nodup, ?_, w.own, w.child⟩
      intro id r' hg
      simp only [Dict.get?_set] at hg
      split at hg
      · rename_i h; injection hg with hg; subst hg; exact ⟨s, hs, h.symm⟩
      · exact w.holds id r' hg
  | close r =>
    simp only [Spec.step, close]
    split
    · exact w
    · exact w.erase _
  | send r d =>
    simp only [Spec.step, send]
    split
    · exact w
    · rename_i s hs
      split
      · exact w
      · split
        · exact w.put hs rfl rfl
        · exact w
  | sendto r d a p c =>
    simp only [Spec.step]
    rcases sendto_cases e.stack e.links ss r d a p c with h | ⟨s, hs, h⟩ | ⟨s, u, hs, h⟩ | ⟨s, u, p, hs, h0, h1, h2, h3, h⟩
    · rw [h]; exact w
    · rw [h]; exact w.erase _
    · rw [h]; exact w.put hs rfl rfl
    · rw [h]
      have hr := get_lt hs
      have w1 := (w.erase s.id).register (r := r) (s := s) (s₀ := s) (id := { s.id with lport := p }) hs rfl rfl
        (fun ha => ⟨(w.own r s hs ha).1, (w.own r s hs ha).2.1, h1, h2⟩) rfl
      refine w1.put (s := { s with id := { s.id with lport := p } }) ?_ rfl rfl
      simp [Socks.register, hr]
  | recv r =>
    simp only [Spec.step, recv]
    split
    · exact w
    · rename_i s hs
      split
      · exact w.put hs rfl rfl
      · split
        · exact w
        · exact w.put hs rfl rfl
  | recvfrom r =>
    simp only [Spec.step, recvfrom]
    split
    · exact w
    · rename_i s hs
      split
      · exact w
      · exact w.put hs rfl rfl
  | arrive m =>
    simp only [Spec.step]
    split
    · simp only [deliver]
      split
      · exact w
      · rename_i hs; exact w.put hs rfl rfl
    · exact w
  | refuse m =>
    simp only [Spec.step]
    split
    · simp only [notify]
      split
      · exact w
      · rename_i hs; exact w.put hs rfl rfl
    · exact w

theorem NoClash.step {ss : Socks} (w : Wf ss) (n : NoClash ss) (e : Env) (op : Op) (hok : useOk ss op) :
    NoClash (step ss e op).1 := by
  cases op with
  | socket f t =>
    intro a b x y hx hy hxa hya hab
    exact n a b x y (registered_append w (.inl rfl) hx hxa (fun h => absurd rfl h))
      (registered_append w (.inl rfl) hy hya (fun h => absurd rfl h)) hxa hya hab
  | child l lp r rp =>
    intro a b x y hx hy hxa hya hab
    exact n a b x y (registered_append w (.inr rfl) hx hxa (fun _ => rfl))
      (registered_append w (.inr rfl) hy hya (fun _ => rfl)) hxa hya hab
  | bind r a p c =>
    rcases bind_cases e.stack w r a p c with ⟨x, h⟩ | ⟨s, a, p, hs, h0, -, hf, h1, h2, hc, -, h⟩
    · simp only [Spec.step, h]; exact n
    · simp only [Spec.step, h]
      exact n.register hs (fun r' s' hr _ _ => hc r' s' hr)
  | connect r a p c =>
    rcases connect_cases e.stack ss r a p c with ⟨x, h⟩ | ⟨s, u, x, hs, h⟩ | ⟨s, u, l, lp, a, hs, hf, hl, h1, h2, hp, h⟩
    · simp only [Spec.step, h]; exact n
    · simp only [Spec.step, h]; exact n.put hs rfl rfl
    · simp only [Spec.step, h]
      by_cases hacc : s.accepted = true
      · -- a socket made by a listener: its own claim does not count
        intro i j x y hx hy hxa hya hij
        rcases registered_register hs hx with ⟨rfl, rfl⟩ | ⟨ea, hx'⟩
        · rw [show ({ s with unreachable := u, id := { s.id with lip := l, lport := lp, rip := a, rport := p.toNat } } : Sock).accepted = s.accepted from rfl, hacc] at hxa
          cases hxa
        · rcases registered_register hs hy with ⟨rfl, rfl⟩ | ⟨eb, hy'⟩
          · rw [show ({ s with unreachable := u, id := { s.id with lip := l, lport := lp, rip := a, rport := p.toNat } } : Sock).accepted = s.accepted from rfl, hacc] at hya
            cases hya
          · exact n i j x y hx' hy' hxa hya hij
      · have hacc : s.accepted = false := by simpa using hacc
        refine n.register hs ?_
        intro r' s' hr' ha' hne hc
        have hown := w.own r s hs hacc
        rcases hp with hp | ⟨hp0, hfresh⟩
        · have hreg : Registered ss r s := ⟨hs, hok s hs (by omega)⟩
          refine n r r' s s' hreg hr' hacc ha' (Ne.symm hne) ⟨hc.1, hc.2.1, ?_, ?_⟩
          · rw [← hp]; exact hc.2.2.1
          · rcases (hl hown.1).2 with hl | hl
            · rw [← hl]; exact hc.2.2.2
            · exact .inr (.inl hl)
        · exact hfresh r' s' hr' hc.2.2.1.symm
  | listen r =>
    simp only [Spec.step, listen]
    split
    · exact n
    · rename_i s hs
      by_cases hacc : s.accepted = true
      · intro i j x y hx hy hxa hya hij
        have hkey : ∀ i x, Registered { ss with table := ss.table.set s.id r } i x → x.accepted = false → Registered ss i x := by
          intro i x hx hxa
          refine ⟨hx.1, ?_⟩
          have h2 := hx.2
          simp only [Dict.get?_set] at h2
          split at h2
          · injection h2 with h2
            subst h2
            have h1 := hx.1
            simp only at h1
            rw [hs] at h1; cases h1
            rw [hacc] at hxa; cases hxa
          · exact h2
        exact n i j x y (hkey i x hx hxa) (hkey j y hy hya) hxa hya hij
      · have hacc : s.accepted = false := by simpa using hacc
        by_cases h0 : s.id.lport = 0
        · -- never bound: its id is determined by family and type
          have hs0 := w.own r s hs hacc
          intro i j x y hx hy hxa hya hij hc
          have hkey : ∀ i x, Registered { ss with table := ss.table.set s.id r } i x →
              (i = r ∧ x = s) ∨ (i ≠ r ∧ x.id ≠ s.id ∧ Registered ss i x) := by
            intro i x hx
            by_cases hi : i = r
            · subst hi
              have h1 := hx.1
              simp only at h1
              rw [hs] at h1; cases h1; exact .inl ⟨rfl, rfl⟩
            · have h2 := hx.2
              simp only [Dict.get?_set] at h2
              split at h2
              · injection h2 with h2; exact absurd h2.symm hi
              · rename_i hne; exact .inr ⟨hi, hne, hx.1, h2⟩
          have zero : ∀ (i : Nat) (x : Sock), ss.socks[i]? = some x → x.accepted = false → Clash s.id x.id → x.id = s.id := by
            intro i x hx hxa hc
            have h1 := hs0.2.2.2 h0
            have hx0 : x.id.lport = 0 := by rw [← hc.2.2.1]; exact h0
            have h2 := (w.own i x hx hxa).2.2.2 hx0
            have e1 := hc.1
            have e2 := hc.2.1
            cases hsid : s.id
            cases hxid : x.id
            rw [hsid] at h1 h0 e1 e2
            rw [hxid] at h2 hx0 e1 e2
            simp only at h1 h2 h0 hx0 e1 e2
            simp [h1, h2, h0, hx0, e1, e2]
          rcases hkey i x hx with ⟨rfl, rfl⟩ | ⟨hi, hix, hx'⟩
          · rcases hkey j y hy with ⟨rfl, rfl⟩ | ⟨hj, hjy, hy'⟩
            · exact hij rfl
            · exact hjy (zero j y hy'.1 hya hc)
          · rcases hkey j y hy with ⟨rfl, rfl⟩ | ⟨hj, hjy, hy'⟩
            · exact hix (zero i x hx'.1 hxa (Clash.symm hc))
            · exact n i j x y hx' hy' hxa hya hij hc
        · have hreg : ss.table.get? s.id = some r := hok s hs h0
          intro i j x y hx hy
          have hkey : ∀ i x, Registered { ss with table := ss.table.set s.id r } i x → Registered ss i x := by
            intro i x hx
            refine ⟨hx.1, ?_⟩
            have h2 := hx.2
            simp only [Dict.get?_set] at h2
            split at h2
            · rename_i he; rw [he, hreg]; exact h2
            · exact h2
          exact n i j x y (hkey i x hx) (hkey j y hy)
  | close r =>
    simp only [Spec.step, close]
    split
    · exact n
    · exact n.erase _
  | send r d =>
    simp only [Spec.step, send]
    split
    · exact n
    · rename_i s hs
      split
      · exact n
      · split
        · exact n.put hs rfl rfl
        · exact n
  | sendto r d a p c =>
    simp only [Spec.step]
    rcases sendto_cases e.stack e.links ss r d a p c with h | ⟨s, hs, h⟩ | ⟨s, u, hs, h⟩ | ⟨s, u, p, hs, h0, h1, h2, h3, h⟩
    · rw [h]; exact n
    · rw [h]; exact n.erase _
    · rw [h]; exact n.put hs rfl rfl
    · rw [h]
      have hr := get_lt hs
      have n1 := (n.erase s.id).register (r := r) (s := s) (s₀ := s) (id := { s.id with lport := p }) hs
        (fun r' s' hr' _ _ hc => Wf.fresh h3 hr' hc.2.2.1.symm)
      refine n1.put (s := { s with id := { s.id with lport := p } }) ?_ rfl rfl
      simp [Socks.register, hr]
  | recv r =>
    simp only [Spec.step, recv]
    split
    · exact n
    · rename_i s hs
      split
      · exact n.put hs rfl rfl
      · split
        · exact n
        · exact n.put hs rfl rfl
  | recvfrom r =>
    simp only [Spec.step, recvfrom]
    split
    · exact n
    · rename_i s hs
      split
      · exact n
      · exact n.put hs rfl rfl
  | arrive m =>
    simp only [Spec.step]
    split
    · simp only [deliver]
      split
      · exact n
      · rename_i hs; exact n.put hs rfl rfl
    · exact n
  | refuse m =>
    simp only [Spec.step]
    split
    · simp only [notify]
      split
      · exact n
      · rename_i hs; exact n.put hs rfl rfl
    · exact n

end Socks

theorem Spec.run_snoc (h : List (Spec.Env × Spec.Op)) (e : Spec.Env × Spec.Op) :
    Spec.run (h ++ [e]) = ((Spec.step (Spec.run h).1 e.1 e.2).1,
      (Spec.run h).2 ++ [(e.2, (Spec.step (Spec.run h).1 e.1 e.2).2)]) := by
  simp [Spec.run]

theorem Socks.run_wf (h : List (Spec.Env × Spec.Op)) : Socks.Wf (Spec.run h).1 := by
  induction h using List.reverseRecOn with
  | nil => exact Socks.Wf.empty
  | append_singleton h e ih => rw [Spec.run_snoc]; exact ih.step e.1 e.2

theorem Socks.run_noClash (h : List (Spec.Env × Spec.Op)) (hu : Spec.NoUseAfterClose h) : Socks.NoClash (Spec.run h).1 := by
  induction h using List.reverseRecOn with
  | nil =>
    intro r r' s s' hr
    have := hr.1
    simp [Spec.run] at this
  | append_singleton h e ih =>
    rw [Spec.run_snoc]
    refine Socks.NoClash.step (Socks.run_wf h) (ih ?_) e.1 e.2 (hu h e [] rfl)
    intro h₁ x h₂ hx
    exact hu h₁ x (h₂ ++ [e]) (by rw [hx]; simp)

end Verif
