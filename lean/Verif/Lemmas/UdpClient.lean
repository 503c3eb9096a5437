import Mathlib.Data.List.Induction
import Verif.Lemmas.Discard
import Verif.Lemmas.Big
import Verif.Lemmas.TcpClient
import Verif.Lemmas.Ping
import Verif.Spec.UdpClient
/-! The UDP echo client. -/
namespace Verif
open Spec

theorem applyAll_table {t : Int} : ∀ (es : List Eff) (h : Host), (h.applyAll t es).1.node.socks.table = h.node.socks.table := by
  intro es
  induction es with
  | nil => intro h; rfl
  | cons e es ih =>
    intro h
    have a1 : (h.apply t e).1.node.socks.table = h.node.socks.table := by rw [Host.apply_socks, onSocks_table]
    rw [Host.applyAll]
    revert a1
    generalize h.apply t e = x
    obtain ⟨h', x⟩ := x
    intro a1
    cases x with
    | error _ => exact a1
    | ok out =>
      have b1 := ih h'
      dsimp only
      revert b1
      generalize h'.applyAll t es = y
      obtain ⟨h'', y⟩ := y
      intro b1
      cases y <;> exact b1.trans a1

theorem receive_table (h : Host) (t₀ t₁ t : Int) (d : Nat) (F : Bytes) : (h.receive t₀ t₁ t d F).1.node.socks.table = h.node.socks.table := by
  have e := Rx.ether_socks h.node t₀ t₁ d F
  rw [Host.receive]
  revert e
  generalize Rx.ether h.node t₀ t₁ d F = x
  obtain ⟨n, x⟩ := x
  intro e
  dsimp only at e
  cases x with
  | error _ => dsimp only; rw [e]
  | ok effs => dsimp only; rw [applyAll_table]; dsimp only; rw [e]

namespace UdpClient

variable {size count : Int} {r lport rport : Nat} {lip rip : IpAddress}

theorem run_snoc (s : Client) (evs : List Ev) (e : Ev) : run size r s (evs ++ [e]) = step size r (run size r s evs) e := by
  rw [run, List.foldl_append]; rfl

/-- What `send` does on the socket of the client. -/
theorem send_dials {h : Host} (hd : Dials h r lip lport rip rport) (data : Bytes) :
    Dials (send h r data).1 r lip lport rip rport ∧
    ((rip.isUnspecified ∨ rport = 0) → send h r data = (h, .error .osError)) ∧
    (¬ (rip.isUnspecified ∨ rport = 0) → TurnedAway h r → (send h r data).2 = .error .connectionRefused) ∧
    (¬ (rip.isUnspecified ∨ rport = 0) → ¬ TurnedAway h r →
      send h r data = ((h.udp lip rip lport rport data).1, Socks.sentLen data (h.udp lip rip lport rport data).2)) := by
  obtain ⟨⟨s, h1, h2⟩, h3⟩ := hd
  have ht : TurnedAway h r ↔ s.unreachable = true :=
    ⟨fun ⟨s', x, y⟩ => by rw [h1] at x; cases x; exact y, fun x => ⟨s, h1, x⟩⟩
  rw [send, h1]
  dsimp only
  rw [h2]
  dsimp only
  by_cases c1 : rip.isUnspecified = true ∨ rport = 0
  · rw [if_pos c1]
    exact ⟨⟨⟨s, h1, h2⟩, h3⟩, fun _ => rfl, fun x => absurd c1 x, fun x => absurd c1 x⟩
  · rw [if_neg c1]
    by_cases c2 : s.unreachable = true
    · rw [if_pos c2]
      refine ⟨⟨⟨_, get_put _ h1, rfl⟩, h3⟩, fun x => absurd x c1, fun _ _ => rfl, fun _ x => absurd (ht.2 c2) x⟩
    · rw [if_neg c2]
      have e := Host.udp_socks h lip rip lport rport data
      refine ⟨⟨⟨s, ?_, h2⟩, ?_⟩, fun x => absurd x c1, fun _ x => absurd (ht.1 x) c2, fun _ _ => rfl⟩
      · dsimp only; rw [e]; exact h1
      · dsimp only; rw [e]; exact h3

theorem close_dials {h : Host} (hd : Dials h r lip lport rip rport) :
    (h.withSocks (h.node.socks.close r)).node.socks.table.get? ⟨lip.family, .dgram, lip, lport, rip, rport⟩ = none := by
  obtain ⟨⟨s, h1, h2⟩, h3⟩ := hd
  rw [Host.withSocks, Socks.close, h1]
  dsimp only
  rw [h2]
  exact Dict.get?_erase_self _ _

/-- What is the same at all times. -/
structure Inv (size count : Int) (r : Nat) (lip : IpAddress) (lport : Nat) (rip : IpAddress) (rport : Nat) (s : Client) : Prop where
  left : s.left = count - s.log.length
  most : 0 ≤ count → (s.log.length : Int) ≤ count
  each : s.log.map (·.data) = List.replicate s.log.length (TcpClient.message size)
  sock : s.pc = .test → Dials s.host r lip lport rip rport
  gone : s.pc = .ended → s.host.node.socks.table.get? ⟨lip.family, .dgram, lip, lport, rip, rport⟩ = none

theorem inv_finish {s : Client} {h : Host} (i : Inv size count r lip lport rip rport s) (hd : Dials h r lip lport rip rport) :
    Inv size count r lip lport rip rport (finish h r s) :=
  ⟨i.left, i.most, i.each, (fun x => nomatch x), fun _ => close_dials hd⟩

theorem inv_step {s : Client} (i : Inv size count r lip lport rip rport s) (e : Ev) : Inv size count r lip lport rip rport (step size r s e) := by
  cases e with
  | caches a n => exact ⟨i.left, i.most, i.each, fun x => ⟨(i.sock x).sock, (i.sock x).listed⟩, i.gone⟩
  | frame t₀ t₁ t d F =>
    refine ⟨i.left, i.most, i.each, fun x => ?_, fun x => ?_⟩
    · obtain ⟨⟨s', h1, h2⟩, h3⟩ := i.sock x
      obtain ⟨s'', g1, -, g2⟩ := Echo.receive_queue h1 t₀ t₁ t d F
      refine ⟨⟨s'', g1, g2.trans h2⟩, ?_⟩
      rw [step, receive_table]; exact h3
    · rw [step, receive_table]; exact i.gone x
  | turn running =>
    rw [step, turn]
    split
    · next ht =>
      have hd := i.sock ht
      split
      · next hc =>
        have hs := (send_dials hd (TcpClient.message size)).1
        revert hs
        generalize send s.host r (TcpClient.message size) = x
        obtain ⟨h', x⟩ := x
        intro hs
        cases x with
        | error e =>
          dsimp only
          split
          · exact inv_finish i hs
          · exact ⟨i.left, i.most, i.each, (fun x => nomatch x), (fun x => nomatch x)⟩
        | ok y =>
          obtain ⟨n, outs⟩ := y
          have h1 := i.left
          have h2 := i.most
          have hc := hc.2
          refine ⟨?_, ?_, ?_, fun _ => hs, fun x => ?_⟩
          · simp only [List.length_append, List.length_singleton]; omega
          · simp only [List.length_append, List.length_singleton]
            intro h0; have := h2 h0; omega
          · simp only [List.map_append, List.map_cons, List.map_nil, List.length_append, List.length_singleton, i.each, List.replicate_succ']
          · dsimp only at x; rw [ht] at x; cases x
      · exact inv_finish i hd
    · exact i

theorem inv_run {s : Client} (i : Inv size count r lip lport rip rport s) (evs : List Ev) : Inv size count r lip lport rip rport (run size r s evs) := by
  induction evs using List.reverseRecOn with
  | nil => exact i
  | append_singleton evs e ih => rw [run_snoc]; exact inv_step ih e

/-! ### The start -/

theorem bind_ok {st : Stack} {ss ss' : Socks} {s : Sock} {a : IpAddress} {port : Int} {c : Nat} (hs : ss.socks[r]? = some s)
    (h : Socks.bind st ss r (some a) port c = (ss', .ok ())) :
    ∃ p, ss' = ss.register r s { s.id with lip := a, lport := p } ∧ (1 ≤ p ∧ p < 65536) ∧ (0 < port → (p : Int) = port) := by
  rw [Socks.bind, hs] at h
  dsimp only at h
  split at h
  · cases h
  split at h
  · cases h
  split at h
  · cases h
  split at h
  · cases h
  next hp =>
  split at h
  · next h0 =>
    split at h
    · cases h
    · cases h
      exact ⟨port.toNat, rfl, by omega, fun _ => by omega⟩
  · next h0 =>
    revert h
    cases hk : Socks.pickLocalPort ss c with
    | error e => intro h; cases h
    | ok p =>
      intro h
      cases h
      have := (Socks.pickLocalPort_ok hk).1
      unfold EphemeralPort at this
      exact ⟨p, rfl, by omega, fun x => absurd x h0⟩

theorem connect_ok {st : Stack} {ss ss' : Socks} {s : Sock} {addr : Option IpAddress} {port : Int} {c : Nat} (hs : ss.socks[r]? = some s)
    (hl : 1 ≤ s.id.lport ∧ s.id.lport < 65536) (h : Socks.connect st ss r addr port c = (ss', .ok ())) :
    ∃ dst u, addr = some dst ∧ (0 ≤ port ∧ port < 65536) ∧ dst.family = s.id.family ∧
      ss' = ss.register r { s with unreachable := u } { s.id with
        lip := if s.id.lip.isUnspecified then Socks.pickLocalIp st dst else s.id.lip, rip := dst, rport := port.toNat } := by
  rw [Socks.connect, hs] at h
  dsimp only at h
  by_cases hp : ¬ (0 ≤ port ∧ port < 65536)
  · rw [if_pos hp] at h; cases h
  rw [if_neg hp, if_pos hl] at h
  dsimp only at h
  cases addr with
  | none => rw [Socks.setIpAddresses] at h; cases h
  | some dst =>
    rw [Socks.setIpAddresses] at h
    dsimp only at h
    by_cases h1 : dst.family ≠ s.id.family
    · rw [if_pos h1] at h; cases h
    rw [if_neg h1] at h
    by_cases h2 : dst.isUnspecified = true ∧ s.id.type = .stream
    · rw [if_pos h2] at h; cases h
    rw [if_neg h2] at h
    generalize (if dst.isUnspecified then true else s.unreachable) = u at h
    refine ⟨dst, u, rfl, by omega, not_not.1 h1, ?_⟩
    by_cases h3 : s.id.lip.isUnspecified = true
    · rw [if_pos h3] at h ⊢
      by_cases h4 : (Socks.pickLocalIp st dst).isUnspecified = true ∧ ¬ (s.id.lport = 68 ∧ port.toNat = 67)
      · rw [if_pos h4] at h; cases h
      · rw [if_neg h4] at h; cases h; rfl
    · rw [if_neg h3] at h ⊢
      cases h; rfl

theorem start_ok {h : Host} {lip : IpAddress} {lport rport : Int} {rip : Option IpAddress} {choice : Nat}
    (hp : (start h lip lport rip rport count choice).1.pc = .test) :
    ∃ dst p, Dials (start h lip lport rip rport count choice).1.host (start h lip lport rip rport count choice).2
        (if lip.isUnspecified then Socks.pickLocalIp h.stack dst else lip) p dst rport.toNat ∧
      rip = some dst ∧ dst.family = lip.family ∧ (0 ≤ rport ∧ rport < 65536) ∧ (1 ≤ p ∧ p < 65536) ∧ (0 < lport → (p : Int) = lport) ∧
      (start h lip lport rip rport count choice).1.log = [] ∧ (start h lip lport rip rport count choice).1.left = count := by
  have nof : ∀ (x : Host) (e : PyErr), (failed x count e).pc ≠ .test := by
    intro x e; rw [failed]; dsimp only; split <;> simp
  rw [start, Socks.create] at hp ⊢
  dsimp only at hp ⊢
  have hg : (h.node.socks.socks ++ [(⟨⟨lip.family, .dgram, lip.family.any, 0, lip.family.any, 0⟩, false, [], false⟩ : Sock)])[h.node.socks.socks.length]? =
      some ⟨⟨lip.family, .dgram, lip.family.any, 0, lip.family.any, 0⟩, false, [], false⟩ := by simp
  revert hp
  generalize hb : Socks.bind h.stack _ _ _ _ _ = x
  obtain ⟨ss, x⟩ := x
  cases x with
  | error e => intro hp; exact absurd hp (nof _ _)
  | ok u =>
    cases u
    obtain ⟨p, b1, b2, b3⟩ := bind_ok (r := h.node.socks.socks.length) hg hb
    dsimp only
    generalize hc : Socks.connect h.stack ss _ _ _ _ = y
    obtain ⟨ss', y⟩ := y
    cases y with
    | error e => intro hp; exact absurd hp (nof _ _)
    | ok u =>
      cases u
      intro _
      have hg' : ss.socks[h.node.socks.socks.length]? = some ⟨⟨lip.family, .dgram, lip, p, lip.family.any, 0⟩, false, [], false⟩ := by
        rw [b1]; simp [Socks.register]
      obtain ⟨dst, u, c1, c2, c3, c4⟩ := connect_ok hg' b2 hc
      dsimp only at c3 c4 ⊢
      have hf : (if lip.isUnspecified then Socks.pickLocalIp h.stack dst else lip).family = lip.family := by
        split
        · rw [Socks.pickLocalIp_family, c3]
        · rfl
      have hlt : h.node.socks.socks.length < ss.socks.length := (List.getElem?_eq_some_iff.1 hg').1
      refine ⟨dst, p, ⟨⟨⟨⟨lip.family, .dgram, if lip.isUnspecified then Socks.pickLocalIp h.stack dst else lip, p, dst, rport.toNat⟩, u, [], false⟩, ?_, ?_⟩, ?_⟩,
        c1, c3, c2, b2, b3, rfl, rfl⟩
      · rw [c4, Host.withSocks]; dsimp only [Socks.register]; exact List.getElem?_set_self hlt
      · rw [hf]
      · rw [c4, Host.withSocks, hf]; dsimp only [Socks.register]; exact Dict.get?_set_self _ _ _

end UdpClient
end Verif
