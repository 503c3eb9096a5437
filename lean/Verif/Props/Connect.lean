import Verif.Props.Socket
/-! Property C79: what `connect` does, and the local address it and `sendto` choose (with C72). -/
namespace Verif
open Spec

/-- The address a stack uses towards `remote` (C72): that of its first host on the network of `remote`; if there is none, that of the
first host with a gateway; if there is none, the unspecified one. -/
def LocalFor (st : Stack) : IpAddress → IpAddress → Prop
  | .v4 a, l =>
    (∃ h, FirstHost st.ip4Host (·.OnLink a) h ∧ l = .v4 h.address) ∨
    (∀ h ∈ st.ip4Host, ¬ h.OnLink a) ∧
      ((∃ h, FirstHost st.ip4Host (·.gateway ≠ none) h ∧ l = .v4 h.address) ∨ (∀ h ∈ st.ip4Host, h.gateway = none) ∧ l = .v4 .zero)
  | .v6 a, l =>
    (∃ h, FirstHost st.ip6Host (·.OnLink a) h ∧ l = .v6 h.address) ∨
    (∀ h ∈ st.ip6Host, ¬ h.OnLink a) ∧
      ((∃ h, FirstHost st.ip6Host (·.gateway ≠ none) h ∧ l = .v6 h.address) ∨ (∀ h ∈ st.ip6Host, h.gateway = none) ∧ l = .v6 .zero)

theorem firstHost_or {α : Type} (hosts : List α) (P : α → Prop) : (∃ h, FirstHost hosts P h) ∨ ∀ h ∈ hosts, ¬ P h := by
  induction hosts with
  | nil => exact .inr (by simp)
  | cons x l ih =>
    by_cases hx : P x
    · exact .inl ⟨x, [], l, rfl, hx, by simp⟩
    · rcases ih with ⟨h, l₁, l₂, rfl, h1, h2⟩ | h
      · exact .inl ⟨h, x :: l₁, l₂, rfl, h1, by
          intro y hy
          rcases List.mem_cons.1 hy with rfl | hy
          · exact hx
          · exact h2 y hy⟩
      · exact .inr (by
          intro y hy
          rcases List.mem_cons.1 hy with rfl | hy
          · exact hx
          · exact h y hy)

theorem localFor_iff (st : Stack) (a l : IpAddress) : LocalFor st a l ↔ l = Socks.pickLocalIp st a := by
  cases a with
  | v4 a =>
    obtain ⟨h1, h2, -⟩ := C72_pick_local_ip4 st a
    simp only [LocalFor, Socks.pickLocalIp]
    constructor
    · rintro (⟨h, hf, rfl⟩ | ⟨hn, ⟨h, hf, rfl⟩ | ⟨hg, rfl⟩⟩)
      · rw [h1 h hf]
      · rw [(h2 hn).1 h hf]
      · rw [(h2 hn).2 hg]
    · rintro rfl
      rcases firstHost_or st.ip4Host (·.OnLink a) with ⟨h, hf⟩ | hn
      · exact .inl ⟨h, hf, by rw [h1 h hf]⟩
      · refine .inr ⟨hn, ?_⟩
        rcases firstHost_or st.ip4Host (·.gateway ≠ none) with ⟨h, hf⟩ | hg
        · exact .inl ⟨h, hf, by rw [(h2 hn).1 h hf]⟩
        · have hg : ∀ h ∈ st.ip4Host, h.gateway = none := fun h hh => Classical.byContradiction fun c => hg h hh c
          exact .inr ⟨hg, by rw [(h2 hn).2 hg]⟩
  | v6 a =>
    obtain ⟨h1, h2, -⟩ := C72_pick_local_ip6 st a
    simp only [LocalFor, Socks.pickLocalIp]
    constructor
    · rintro (⟨h, hf, rfl⟩ | ⟨hn, ⟨h, hf, rfl⟩ | ⟨hg, rfl⟩⟩)
      · rw [h1 h hf]
      · rw [(h2 hn).1 h hf]
      · rw [(h2 hn).2 hg]
    · rintro rfl
      rcases firstHost_or st.ip6Host (·.OnLink a) with ⟨h, hf⟩ | hn
      · exact .inl ⟨h, hf, by rw [h1 h hf]⟩
      · refine .inr ⟨hn, ?_⟩
        rcases firstHost_or st.ip6Host (·.gateway ≠ none) with ⟨h, hf⟩ | hg
        · exact .inl ⟨h, hf, by rw [(h2 hn).1 h hf]⟩
        · have hg : ∀ h ∈ st.ip6Host, h.gateway = none := fun h hh => Classical.byContradiction fun c => hg h hh c
          exact .inr ⟨hg, by rw [(h2 hn).2 hg]⟩

/-- The socket can use this address towards `a`: its own, if it has one; if not, the one for `a`.  Without an address only a DHCP
client (ports 68 and 67) may speak. -/
def Reaches (st : Stack) (s : Sock) (a : IpAddress) (lport rport : Nat) (l : IpAddress) : Prop :=
  if s.id.lip.isUnspecified then LocalFor st a l ∧ (l.isUnspecified → lport = 68 ∧ rport = 67) else l = s.id.lip

/-- The peer may be named: an address of the socket's family, and for TCP not the unspecified one. -/
def PeerOk (s : Sock) (addr : Option IpAddress) (a : IpAddress) : Prop :=
  addr = some a ∧ a.family = s.id.family ∧ (a.isUnspecified → s.id.type ≠ .stream)

theorem setIpAddresses_iff (st : Stack) (s : Sock) (addr : Option IpAddress) (lport rport : Nat) :
    (∃ u a l, Socks.setIpAddresses st s addr s.id.lip lport rport = (u, .ok (l, a)) ∧ PeerOk s addr a ∧ Reaches st s a lport rport l) ∨
    (∃ u e, Socks.setIpAddresses st s addr s.id.lip lport rport = (u, .error e) ∧ (e = .gaiError ∨ e = .connectionRefused) ∧
      ∀ a l, PeerOk s addr a → ¬ Reaches st s a lport rport l) := by
  cases addr with
  | none => exact .inr ⟨_, _, rfl, .inl rfl, fun a l h => by cases h.1⟩
  | some a =>
    unfold Socks.setIpAddresses
    dsimp only
    by_cases hf : a.family = s.id.family
    · rw [if_neg (not_not.2 hf)]
      by_cases ht : a.isUnspecified = true ∧ s.id.type = .stream
      · rw [if_pos ht]
        refine .inr ⟨_, _, rfl, .inr rfl, fun b l h => ?_⟩
        obtain ⟨h1, h2, h3⟩ := h
        cases h1
        exact (h3 ht.1 ht.2).elim
      · rw [if_neg ht]
        have hp : PeerOk s (some a) a := ⟨rfl, hf, fun h h' => ht ⟨h, h'⟩⟩
        by_cases hl : s.id.lip.isUnspecified = true
        · rw [if_pos hl]
          have hlf := (localFor_iff st a (Socks.pickLocalIp st a)).mpr rfl
          by_cases hc : (Socks.pickLocalIp st a).isUnspecified = true ∧ ¬ (lport = 68 ∧ rport = 67)
          · rw [if_pos hc]
            refine .inr ⟨_, _, rfl, .inl rfl, fun b l h => ?_⟩
            cases h.1
            rw [Reaches, if_pos hl, localFor_iff]
            rintro ⟨rfl, h2⟩
            exact hc.2 (h2 hc.1)
          · rw [if_neg hc]
            refine .inl ⟨_, a, _, rfl, hp, ?_⟩
            rw [Reaches, if_pos hl]
            exact ⟨hlf, fun h => Classical.byContradiction fun h' => hc ⟨h, h'⟩⟩
        · rw [if_neg hl]
          refine .inl ⟨_, a, _, rfl, hp, ?_⟩
          rw [Reaches, if_neg hl]
    · rw [if_pos hf]
      exact .inr ⟨_, _, rfl, .inl rfl, fun b l h => by cases h.1; exact (hf h.2.1).elim⟩

/-- **C79**: after any history of socket calls, `connect` on a socket the application made fails exactly if the port is out of range,
the socket has no port and none is left, the peer cannot be named, or the socket has no address and none leads to the peer; a
failed call leaves all addresses and registrations as they were. -/
theorem C79_connect_iff (h : List (Env × Op)) (st : Stack) (r : Nat) (s : Sock) (addr : Option IpAddress) (port : Int) (c : Nat)
    (hs : (run h).1.socks[r]? = some s) (hacc : s.accepted = false) :
    (((run h).1.connect st r addr port c).2 = .ok () ↔
      0 ≤ port ∧ port < 65536 ∧ (s.id.lport = 0 → PortLeft (run h).1) ∧
        ∃ a l, PeerOk s addr a ∧ Reaches st s a s.id.lport port.toNat l) ∧
    (∀ e, ((run h).1.connect st r addr port c).2 = .error e → ((run h).1.connect st r addr port c).1.table = (run h).1.table ∧
      ∀ r' : Nat, (((run h).1.connect st r addr port c).1.socks[r']?).map (·.id) = ((run h).1.socks[r']?).map (·.id)) := by
  have w := Socks.run_wf h
  have hown := w.own r s hs hacc
  generalize (run h).1 = ss at *
  have hput : ∀ (u : Bool) (r' : Nat), ((ss.put r { s with unreachable := u }).socks[r']?).map (·.id) = (ss.socks[r']?).map (·.id) := by
    intro u r'
    by_cases hr : r' = r
    · subst hr; rw [get_put _ hs, hs]; rfl
    · rw [get_put_ne _ (Ne.symm hr)]
  have dhcp : ∀ {lp : Nat}, ¬ (1 ≤ s.id.lport ∧ s.id.lport < 65536) → EphemeralPort lp →
      ∀ a l, Reaches st s a lp port.toNat l ↔ Reaches st s a s.id.lport port.toNat l := by
    intro lp h1 h2 a l
    have := h2.1
    unfold Reaches
    split
    · constructor
      · rintro ⟨x, y⟩; exact ⟨x, fun z => by have := y z; omega⟩
      · rintro ⟨x, y⟩; exact ⟨x, fun z => by have := y z; omega⟩
    · rfl
  unfold Socks.connect
  rw [hs]
  dsimp only
  by_cases hp : 0 ≤ port ∧ port < 65536
  · rw [if_neg (not_not.2 hp)]
    simp only [hp.1, hp.2, true_and]
    have key : ∀ lp, (∀ a l, Reaches st s a lp port.toNat l ↔ Reaches st s a s.id.lport port.toNat l) →
        ((match Socks.setIpAddresses st s addr s.id.lip lp port.toNat with
          | (u, .error e) => (ss.put r { s with unreachable := u }, .error e)
          | (u, .ok (lip, rip)) =>
            (ss.register r { s with unreachable := u } { s.id with lip := lip, lport := lp, rip := rip, rport := port.toNat }, .ok ()) :
              Socks × Py Unit).2 = .ok () ↔ ∃ a l, PeerOk s addr a ∧ Reaches st s a s.id.lport port.toNat l) ∧
        (∀ e, (match Socks.setIpAddresses st s addr s.id.lip lp port.toNat with
          | (u, .error e) => (ss.put r { s with unreachable := u }, .error e)
          | (u, .ok (lip, rip)) =>
            (ss.register r { s with unreachable := u } { s.id with lip := lip, lport := lp, rip := rip, rport := port.toNat }, .ok ()) :
              Socks × Py Unit).2 = .error e →
          (match Socks.setIpAddresses st s addr s.id.lip lp port.toNat with
          | (u, .error e) => (ss.put r { s with unreachable := u }, .error e)
          | (u, .ok (lip, rip)) =>
            (ss.register r { s with unreachable := u } { s.id with lip := lip, lport := lp, rip := rip, rport := port.toNat }, .ok ()) :
              Socks × Py Unit).1.table = ss.table ∧
          ∀ r' : Nat, ((match Socks.setIpAddresses st s addr s.id.lip lp port.toNat with
          | (u, .error e) => (ss.put r { s with unreachable := u }, .error e)
          | (u, .ok (lip, rip)) =>
            (ss.register r { s with unreachable := u } { s.id with lip := lip, lport := lp, rip := rip, rport := port.toNat }, .ok ()) :
              Socks × Py Unit).1.socks[r']?).map (·.id) = (ss.socks[r']?).map (·.id)) := by
      intro lp hlp
      rcases setIpAddresses_iff st s addr lp port.toNat with ⟨u, a, l, e, h1, h2⟩ | ⟨u, x, e, h1, h2⟩
      · rw [e]
        dsimp only
        exact ⟨⟨fun _ => ⟨a, l, h1, (hlp a l).mp h2⟩, fun _ => rfl⟩, fun e h => by cases h⟩
      · rw [e]
        dsimp only
        refine ⟨⟨fun h => by (cases h), ?_⟩, fun e _ => ⟨rfl, hput u⟩⟩
        rintro ⟨a, l, h3, h4⟩
        exact (h2 a l h3 ((hlp a l).mpr h4)).elim
    by_cases hl : 1 ≤ s.id.lport ∧ s.id.lport < 65536
    · rw [if_pos hl]
      simp only [show s.id.lport ≠ 0 by omega, false_imp_iff, true_and]
      exact key s.id.lport fun a l => Iff.rfl
    · rw [if_neg hl]
      have h0 : s.id.lport = 0 := by omega
      have hiff := pickLocalPort_iff w c
      cases hpk : ss.pickLocalPort c with
      | error x =>
        dsimp only
        refine ⟨⟨fun h => by (cases h), ?_⟩, fun e _ => ⟨rfl, fun _ => rfl⟩⟩
        rintro ⟨h1, -⟩
        obtain ⟨q, hq⟩ := hiff.mpr (h1 h0)
        rw [hpk] at hq
        cases hq
      | ok lp =>
        have hpl : PortLeft ss := hiff.mp ⟨lp, hpk⟩
        simp only [hpl, implies_true, true_and]
        exact key lp (dhcp hl (Socks.pickLocalPort_ok hpk).1)
  · rw [if_pos hp]
    exact ⟨⟨fun h => by (cases h), fun h => (hp ⟨h.1, h.2.1⟩).elim⟩, fun e _ => ⟨rfl, fun _ => rfl⟩⟩

/-- **C79**: a successful `connect` registers the socket with the peer named, its own port or an automatic one (C45), and its own address
or the one for the peer; nothing else about it changes, nor any other socket; and whatever other socket is registered stays so,
unless it has exactly the same four. -/
theorem C79_connect_effect (h : List (Env × Op)) (st : Stack) (r : Nat) (s : Sock) (addr : Option IpAddress) (port : Int) (c : Nat)
    (hs : (run h).1.socks[r]? = some s) (hacc : s.accepted = false) {ss' : Socks} (hok : (run h).1.connect st r addr port c = (ss', .ok ())) :
    ∃ a l lp u, PeerOk s addr a ∧ Reaches st s a s.id.lport port.toNat l ∧ (s.id.lport ≠ 0 → lp = s.id.lport) ∧
      (s.id.lport = 0 → EphemeralPort lp ∧ ∀ r' s', Registered (run h).1 r' s' → s'.id.lport ≠ lp) ∧
      Registered ss' r { s with id := { s.id with lip := l, lport := lp, rip := a, rport := port.toNat }, unreachable := u } ∧
      (∀ r' : Nat, r' ≠ r → ss'.socks[r']? = (run h).1.socks[r']?) ∧
      (∀ r' s', r' ≠ r → Registered (run h).1 r' s' → s'.id ≠ { s.id with lip := l, lport := lp, rip := a, rport := port.toNat } →
        s'.id ≠ s.id → Registered ss' r' s') := by
  have w := Socks.run_wf h
  have hown := w.own r s hs hacc
  generalize (run h).1 = ss at *
  have hr := Socks.get_lt hs
  have dhcp : ∀ {lp : Nat}, s.id.lport = 0 → EphemeralPort lp →
      ∀ a l, Reaches st s a lp port.toNat l → Reaches st s a s.id.lport port.toNat l := by
    intro lp h1 h2 a l
    have := h2.1
    unfold Reaches
    split
    · rintro ⟨x, y⟩; exact ⟨x, fun z => by have := y z; omega⟩
    · exact id
  have fin : ∀ (lp : Nat) u a l, ss' = ss.register r { s with unreachable := u } { s.id with lip := l, lport := lp, rip := a, rport := port.toNat } →
      Registered ss' r { s with id := { s.id with lip := l, lport := lp, rip := a, rport := port.toNat }, unreachable := u } ∧
      (∀ r' : Nat, r' ≠ r → ss'.socks[r']? = ss.socks[r']?) ∧
      (∀ r' s', r' ≠ r → Registered ss r' s' → s'.id ≠ { s.id with lip := l, lport := lp, rip := a, rport := port.toNat } →
        s'.id ≠ s.id → Registered ss' r' s') := by
    rintro lp u a l rfl
    refine ⟨⟨by simp [Socks.register, hr], by simp [Socks.register]⟩, ?_, ?_⟩
    · intro r' hne
      simp only [Socks.register, List.getElem?_set_ne (Ne.symm hne)]
    · intro r' s' hne hr' e1 e2
      refine ⟨?_, ?_⟩
      · simp only [Socks.register, List.getElem?_set_ne (Ne.symm hne)]; exact hr'.1
      · simp only [Socks.register, Dict.get?_set_ne _ _ e1, Dict.get?_erase_ne _ e2]
        exact hr'.2
  unfold Socks.connect at hok
  rw [hs] at hok
  dsimp only at hok
  split at hok
  · cases hok
  · by_cases hl : 1 ≤ s.id.lport ∧ s.id.lport < 65536
    · rw [if_pos hl] at hok
      dsimp only at hok
      rcases setIpAddresses_iff st s addr s.id.lport port.toNat with ⟨u, a, l, e, h1, h2⟩ | ⟨u, x, e, h1, h2⟩
      · rw [e] at hok
        cases hok
        exact ⟨a, l, s.id.lport, u, h1, h2, fun _ => rfl, fun h => by omega, fin _ _ _ _ rfl⟩
      · rw [e] at hok
        cases hok
    · rw [if_neg hl] at hok
      have h0 : s.id.lport = 0 := by omega
      cases hpk : ss.pickLocalPort c with
      | error x => rw [hpk] at hok; cases hok
      | ok lp =>
        rw [hpk] at hok
        dsimp only at hok
        obtain ⟨p1, p2⟩ := Socks.pickLocalPort_ok hpk
        rcases setIpAddresses_iff st s addr lp port.toNat with ⟨u, a, l, e, h1, h2⟩ | ⟨u, x, e, h1, h2⟩
        · rw [e] at hok
          cases hok
          exact ⟨a, l, lp, u, h1, dhcp h0 p1 a l h2, fun h => (h h0).elim, fun _ => ⟨p1, fun r' s' hr => Socks.Wf.fresh p2 hr⟩,
            fin _ _ _ _ rfl⟩
        · rw [e] at hok
          cases hok

/-- **C79**: `sendto` to a port out of range, to a peer that cannot be named, or to one the socket has no address for raises an exception
and sends nothing: the stack is as it was. -/
theorem C79_sendto (h : List (Env × Op)) (st : Stack) (ln : Socks.Links) (r : Nat) (s : Sock) (data : Bytes) (addr : Option IpAddress)
    (port : Int) (c : Nat) (hs : (run h).1.socks[r]? = some s) (hacc : s.accepted = false)
    (hno : ¬ (0 ≤ port ∧ port < 65536 ∧ ∃ a l, PeerOk s addr a ∧ Reaches st s a s.id.lport port.toNat l)) :
    ∃ e, ((run h).1.sendto st ln r data addr port c).2 = (st, .error e) := by
  have w := Socks.run_wf h
  have hown := w.own r s hs hacc
  generalize (run h).1 = ss at *
  unfold Socks.sendto
  rw [hs]
  dsimp only
  by_cases hp : 0 ≤ port ∧ port < 65536
  · rw [if_neg (not_not.2 hp)]
    have hno : ∀ a l, PeerOk s addr a → ¬ Reaches st s a s.id.lport port.toNat l :=
      fun a l h1 h2 => hno ⟨hp.1, hp.2, a, l, h1, h2⟩
    by_cases hl : 1 ≤ s.id.lport ∧ s.id.lport < 65536
    · rw [if_pos hl]
      dsimp only
      rcases setIpAddresses_iff st s addr s.id.lport port.toNat with ⟨u, a, l, e, h1, h2⟩ | ⟨u, x, e, h1, h2⟩
      · exact (hno a l h1 h2).elim
      · rw [e]; exact ⟨x, rfl⟩
    · rw [if_neg hl]
      cases hpk : Socks.pickLocalPort { ss with table := ss.table.erase s.id } c with
      | error x => exact ⟨x, rfl⟩
      | ok lp =>
        dsimp only
        have hp1 := (Socks.pickLocalPort_ok hpk).1
        rcases setIpAddresses_iff st { s with id := { s.id with lport := lp } } addr lp port.toNat with ⟨u, a, l, e, h1, h2⟩ | ⟨u, x, e, h1, h2⟩
        · refine (hno a l h1 ?_).elim
          have := hp1.1
          unfold Reaches at h2 ⊢
          dsimp only at h2
          split at h2
          · rename_i hc; rw [if_pos hc]; exact ⟨h2.1, fun z => by have := h2.2 z; omega⟩
          · rename_i hc; rw [if_neg hc]; exact h2
        · dsimp only at e
          rw [e]; exact ⟨x, rfl⟩
  · rw [if_pos hp]; exact ⟨_, rfl⟩

/-! ### Concrete cases -/

namespace Example.Connect

/-- A stack without hosts, and the one of the other examples, which has 10.0.1.7/24 and a gateway. -/
def bare : Stack := { stack with ip4Host := [], ip6Host := [] }
def peer : IpAddress := .v4 ⟨0x0a000109, by decide⟩
def hist : List (Env × Op) := [(Sockets.env, .socket .inet4 .dgram), (Sockets.env, .socket .inet4 .stream)]

example : ((run hist).1.socks[0]?).map (·.accepted) = some false ∧ ((run hist).1.socks[1]?).map (·.accepted) = some false := by
  decide +kernel
/-- With a host on the peer's network both connect, from its address; without one they do not, and nothing is sent. -/
example : ((run hist).1.connect stack 0 (some peer) 53 0).2 = .ok () ∧ ((run hist).1.connect stack 1 (some peer) 53 0).2 = .ok () := by
  decide +kernel
example : ((((run hist).1.connect stack 0 (some peer) 53 0).1.socks[0]?).map (·.id.lip)) = some (.v4 host4.address) := by
  decide +kernel
example : ((run hist).1.connect bare 0 (some peer) 53 0).2 = .error .gaiError ∧
    ((run hist).1.connect stack 1 (some (.v4 .zero)) 53 0).2 = .error .connectionRefused ∧
    ((run hist).1.connect stack 0 (some peer) 65536 0).2 = .error .overflowError := by
  decide +kernel
example : (match ((run hist).1.sendto bare Sockets.env.links 0 [1] (some peer) 53 0).2.2 with | .error .gaiError => true | _ => false) =
    true := by decide +kernel
/-- The case C79_sendto is about is met. -/
example (s : Sock) (hs : (run hist).1.socks[0]? = some s) :
    ¬ ((0 : Int) ≤ 53 ∧ (53 : Int) < 65536 ∧ ∃ a l, PeerOk s (some peer) a ∧ Reaches bare s a s.id.lport (53 : Int).toNat l) := by
  have : s = ⟨⟨.inet4, .dgram, .v4 .zero, 0, .v4 .zero, 0⟩, false, [], false⟩ := by
    have h : (run hist).1.socks[0]? = some ⟨⟨.inet4, .dgram, .v4 .zero, 0, .v4 .zero, 0⟩, false, [], false⟩ := by rfl
    rw [h] at hs; cases hs; rfl
  subst this
  rintro ⟨-, -, a, l, ⟨h1, -, -⟩, h2⟩
  cases h1
  rw [Reaches, if_pos (by decide), localFor_iff] at h2
  obtain ⟨rfl, h2⟩ := h2
  exact absurd (h2 (by decide)).1 (by decide)

end Example.Connect

end Verif
