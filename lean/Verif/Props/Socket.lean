import Verif.Props.Tx
import Verif.Lemmas.Socket
import Verif.Lemmas.Tame
/-! Properties of the socket layer: ports (C45), binding (C46), receiving (C48), unreachable peers (C49).  The vocabulary is in
`Spec/Socket.lean`; the histories range over every sequence of socket calls and arriving datagrams, each with an arbitrary
state of the rest of the stack. -/
namespace Verif
open Spec

/-- One of the stack's own addresses. -/
def Owns (st : Stack) : IpAddress → Prop
  | .v4 a => ∃ h ∈ st.ip4Host, h.address = a
  | .v6 a => ∃ h ∈ st.ip6Host, h.address = a

theorem owned_iff (st : Stack) (a : IpAddress) : Socks.owned st a = true ↔ Owns st a := by
  cases a <;> simp [Socks.owned, Owns, Stack.ip4Unicast, Stack.ip6Unicast]

/-! ### C45 -/

/-- Some automatic port is free: no registered socket has it. -/
def PortLeft (ss : Socks) : Prop := ∃ p, EphemeralPort p ∧ ∀ r s, Registered ss r s → s.id.lport ≠ p

theorem pickLocalPort_iff {ss : Socks} (w : ss.Wf) (c : Nat) : (∃ p, ss.pickLocalPort c = .ok p) ↔ PortLeft ss := by
  constructor
  · rintro ⟨p, h⟩
    obtain ⟨h1, h2⟩ := Socks.pickLocalPort_ok h
    exact ⟨p, h1, fun r s hr => Socks.Wf.fresh h2 hr⟩
  · rintro ⟨p, h1, h2⟩
    cases h : ss.pickLocalPort c with
    | ok q => exact ⟨q, rfl⟩
    | error e =>
      obtain ⟨id, hid, he⟩ := (Socks.pickLocalPort_error h).2 p h1
      obtain ⟨r, hr⟩ := (Dict.mem_keys_iff _ _).mp hid
      obtain ⟨s, hs, hsi⟩ := w.holds id r hr
      exact absurd (hsi ▸ he) (h2 r s ⟨hs, hsi ▸ hr⟩)

/-- C45: when a call gives a socket a port that the application did not name, the port is in the configured range and no
registered socket had it. -/
theorem C45_automatic_port (h : List (Env × Op)) (e : Env) (op : Op) (r : Nat) (s s' : Sock)
    (hop : (∃ a c, op = .bind r a 0 c) ∨ (∃ a p c, op = .connect r a p c) ∨ (∃ d a p c, op = .sendto r d a p c))
    (hs : (run h).1.socks[r]? = some s) (h0 : s.id.lport = 0)
    (hs' : (step (run h).1 e op).1.socks[r]? = some s') (h1 : s'.id.lport ≠ 0) :
    EphemeralPort s'.id.lport ∧ ∀ r₂ s₂, Registered (run h).1 r₂ s₂ → s₂.id.lport ≠ s'.id.lport := by
  have w := Socks.run_wf h
  generalize (run h).1 = ss at *
  have hr := Socks.get_lt hs
  have hnp : ¬ (1 ≤ s.id.lport ∧ s.id.lport < 65536) := by omega
  rcases hop with ⟨a, c, rfl⟩ | ⟨a, p, c, rfl⟩ | ⟨d, a, p, c, rfl⟩
  · simp only [step, Socks.bind, hs, if_neg hnp] at hs'
    cases a with
    | none => simp only [hs] at hs'; cases hs'; exact absurd h0 h1
    | some a =>
      simp only [Std.le_refl, Int.ofNat_eq_natCast] at hs'
      split at hs'
      · rw [hs] at hs'; cases hs'; exact absurd h0 h1
      · split at hs'
        · rw [hs] at hs'; cases hs'; exact absurd h0 h1
        · split at hs'
          · rw [hs] at hs'; cases hs'; exact absurd h0 h1
          · rw [if_neg (by omega)] at hs'
            cases hp : ss.pickLocalPort c with
            | error x => simp only [hp, hs] at hs'; cases hs'; exact absurd h0 h1
            | ok q =>
              simp only [hp, Socks.register, List.getElem?_set_self hr] at hs'
              cases hs'
              obtain ⟨h2, h3⟩ := Socks.pickLocalPort_ok hp
              exact ⟨h2, fun r₂ s₂ hr₂ => Socks.Wf.fresh h3 hr₂⟩
  · simp only [step, Socks.connect, hs, if_neg hnp] at hs'
    split at hs'
    · simp only [hs] at hs'; cases hs'; exact absurd h0 h1
    · cases hp : ss.pickLocalPort c with
      | error x => simp only [hp, hs] at hs'; cases hs'; exact absurd h0 h1
      | ok q =>
        simp only [hp] at hs'
        obtain ⟨h2, h3⟩ := Socks.pickLocalPort_ok hp
        split at hs'
        · simp only [Socks.put, List.getElem?_set_self hr] at hs'; cases hs'; exact absurd h0 h1
        · simp only [Socks.register, List.getElem?_set_self hr] at hs'
          cases hs'
          exact ⟨h2, fun r₂ s₂ hr₂ => Socks.Wf.fresh h3 hr₂⟩
  · simp only [step, Socks.sendto, hs, if_neg hnp] at hs'
    split at hs'
    · simp only [hs] at hs'; cases hs'; exact absurd h0 h1
    · cases hp : Socks.pickLocalPort { ss with table := ss.table.erase s.id } c with
      | error x => simp only [hp, hs] at hs'; cases hs'; exact absurd h0 h1
      | ok q =>
        obtain ⟨h2, h3⟩ := Socks.pickLocalPort_ok hp
        have goal : ∀ r₂ s₂, Registered ss r₂ s₂ → s₂.id.lport ≠ q := by
          intro r₂ s₂ hr₂
          by_cases hi : s₂.id = s.id
          · rw [hi, h0]; have := h2.1; omega
          · exact h3 s₂.id ((Dict.mem_keys_iff _ _).mpr ⟨r₂, by rw [Dict.get?_erase_ne _ hi]; exact hr₂.2⟩)
        simp only [hp] at hs'
        split at hs'
        · simp only [Socks.put, Socks.register, List.length_set, List.getElem?_set_self, hr] at hs'
          cases hs'; exact ⟨h2, goal⟩
        · simp only [Socks.put, Socks.register, List.length_set, List.getElem?_set_self, hr] at hs'
          cases hs'; exact ⟨h2, goal⟩

/-- C45: with everything else in order, asking for any port fails exactly when no automatic port is left, whichever one the set
would give. -/
theorem C45_fails_only_when_full (h : List (Env × Op)) (st : Stack) (r : Nat) (s : Sock) (a : IpAddress) (c : Nat)
    (hs : (run h).1.socks[r]? = some s) (h0 : s.id.lport = 0) (hf : a.family = s.id.family)
    (ha : Owns st a ∨ a.isUnspecified) :
    (PortLeft (run h).1 → ((run h).1.bind st r (some a) 0 c).2 = .ok ()) ∧
    (¬ PortLeft (run h).1 → ((run h).1.bind st r (some a) 0 c).2 = .error .osError) := by
  have w := Socks.run_wf h
  generalize (run h).1 = ss at *
  have hnp : ¬ (1 ≤ s.id.lport ∧ s.id.lport < 65536) := by omega
  have hown : (Socks.owned st a || a.isUnspecified) = true := by
    rw [Bool.or_eq_true, owned_iff]; exact ha
  simp only [Socks.bind, hs, if_neg hnp, hf, ne_eq, not_true_eq_false, if_false, hown, Bool.not_true, Bool.false_eq_true]
  rw [if_neg (show ¬ ¬ ((0 : Int) ≤ 0 ∧ (0 : Int) < 65536) by decide), if_neg (show ¬ (0 : Int) > 0 by decide)]
  have := pickLocalPort_iff w c
  cases hp : ss.pickLocalPort c with
  | ok q => exact ⟨fun _ => rfl, fun hn => absurd (this.mp ⟨q, hp⟩) hn⟩
  | error x =>
    refine ⟨fun hc => ?_, fun _ => ?_⟩
    · obtain ⟨q, hq⟩ := this.mpr hc; rw [hp] at hq; cases hq
    · rw [(Socks.pickLocalPort_error hp).1]

/-! ### C46 -/

/-- C46: after any history of calls in which no closed socket is connected or made to listen again, no two registered sockets
that the application made claim the same local endpoint.  (Sockets made for inbound TCP connections share their listener's
endpoint by design.) -/
theorem C46_exclusive (h : List (Env × Op)) (hu : NoUseAfterClose h) (r r' : Nat) (s s' : Sock)
    (hr : Registered (run h).1 r s) (hr' : Registered (run h).1 r' s') (ha : s.accepted = false) (ha' : s'.accepted = false)
    (hne : r ≠ r') : ¬ Clash s.id s'.id :=
  Socks.run_noClash h hu r r' s s' hr hr' ha ha' hne

/-- The calls of the property's statement. -/
def BindHistory (h : List (Env × Op)) : Prop :=
  ∀ e ∈ h, (∃ f t, e.2 = .socket f t) ∨ (∃ r a p c, e.2 = .bind r a p c) ∨ (∃ r, e.2 = .close r)

theorem BindHistory.noUse {h : List (Env × Op)} (hb : BindHistory h) : NoUseAfterClose h := by
  rintro h₁ e h₂ rfl
  rcases hb e (by simp) with ⟨f, t, h⟩ | ⟨r, a, p, c, h⟩ | ⟨r, h⟩ <;> rw [h] <;> trivial

theorem BindHistory.notAccepted (h : List (Env × Op)) (hb : BindHistory h) :
    ∀ (r : Nat) s, (run h).1.socks[r]? = some s → s.accepted = false := by
  induction h using List.reverseRecOn with
  | nil => intro r s hs; simp [run] at hs
  | append_singleton h e ih =>
    have ih := ih (fun x hx => hb x (by simp [hx]))
    have w := Socks.run_wf h
    rw [run_snoc]
    generalize (run h).1 = ss at *
    intro r s hs
    rcases hb e (by simp) with ⟨f, t, he⟩ | ⟨r', a, p, c, he⟩ | ⟨r', he⟩
    · rw [he] at hs
      simp only [step, Socks.create] at hs
      rw [List.getElem?_append] at hs
      split at hs
      · exact ih r s hs
      · rw [List.getElem?_singleton] at hs
        split at hs
        · cases hs; rfl
        · cases hs
    · rw [he] at hs
      rcases Socks.bind_cases e.1.stack w r' a p c with ⟨x, hx⟩ | ⟨s₀, b, q, h0, -, -, -, -, -, -, -, hx⟩
      · simp only [step, hx] at hs; exact ih r s hs
      · simp only [step, hx, Socks.register] at hs
        rcases Socks.set_get (Socks.get_lt h0) hs with ⟨rfl, rfl⟩ | ⟨-, hs⟩
        · exact ih r s₀ h0
        · exact ih r s hs
    · rw [he] at hs
      simp only [step, Socks.close] at hs
      split at hs <;> exact ih r s hs

/-- C46: after any history of socket, bind and close calls, no two registered sockets claim the same local endpoint. -/
theorem C46_exclusive_bind_close (h : List (Env × Op)) (hb : BindHistory h) (r r' : Nat) (s s' : Sock)
    (hr : Registered (run h).1 r s) (hr' : Registered (run h).1 r' s') (hne : r ≠ r') : ¬ Clash s.id s'.id :=
  C46_exclusive h hb.noUse r r' s s' hr hr' (hb.notAccepted h r s hr.1) (hb.notAccepted h r' s' hr'.1) hne

/-- C46: when `bind` succeeds. -/
theorem C46_bind_iff (h : List (Env × Op)) (st : Stack) (r : Nat) (s : Sock) (addr : Option IpAddress) (port : Int) (c : Nat)
    (hs : (run h).1.socks[r]? = some s) (hacc : s.accepted = false) :
    ((run h).1.bind st r addr port c).2 = .ok () ↔
      s.id.lport = 0 ∧ ∃ a, addr = some a ∧ a.family = s.id.family ∧ (Owns st a ∨ a.isUnspecified) ∧
        0 ≤ port ∧ port < 65536 ∧
        (port ≠ 0 → ∀ r' s', Registered (run h).1 r' s' → ¬ Clash { s.id with lip := a, lport := port.toNat } s'.id) ∧
        (port = 0 → PortLeft (run h).1) := by
  have w := Socks.run_wf h
  have hown := w.own r s hs hacc
  generalize (run h).1 = ss at *
  by_cases h0 : s.id.lport = 0
  · have hnp : ¬ (1 ≤ s.id.lport ∧ s.id.lport < 65536) := by omega
    simp only [Socks.bind, hs, if_neg hnp]
    simp only [h0, true_and]
    cases addr with
    | none => simp
    | some a =>
      simp only [Option.some.injEq, exists_eq_left']
      by_cases hf : a.family = s.id.family
      · simp only [hf, ne_eq, not_true_eq_false, if_false, true_and]
        by_cases ho : Owns st a ∨ a.isUnspecified
        · have ho' : (Socks.owned st a || a.isUnspecified) = true := by rw [Bool.or_eq_true, owned_iff]; exact ho
          simp only [ho', Bool.not_true, Bool.false_eq_true, if_false, ho, true_and]
          by_cases hp : 0 ≤ port ∧ port < 65536
          · rw [if_neg (show ¬ ¬ (0 ≤ port ∧ port < 65536) from fun h => h hp)]
            simp only [hp.1, hp.2, true_and]
            by_cases hz : port = 0
            · subst hz
              rw [if_neg (show ¬ (0 : Int) > 0 by decide)]
              have := pickLocalPort_iff w c
              cases hpk : ss.pickLocalPort c with
              | ok q => simp [this.mp ⟨q, hpk⟩]
              | error x =>
                have hn : ¬ PortLeft ss := fun hc => by obtain ⟨q, hq⟩ := this.mpr hc; rw [hpk] at hq; cases hq
                simp [hn]
            · rw [if_pos (show port > 0 by omega)]
              by_cases hu : ss.inUse s a port.toNat = true
              · simp only [hu, if_true]
                have := (Socks.inUse_iff w).mp hu
                obtain ⟨r', s', h1, h2⟩ := this
                constructor
                · intro h; cases h
                · intro h; exact absurd h2 (h.1 hz r' s' h1)
              · simp only [hu, Bool.false_eq_true, if_false, true_iff]
                refine ⟨fun _ r' s' h1 h2 => hu ((Socks.inUse_iff w).mpr ⟨r', s', h1, h2⟩), fun h => absurd h hz⟩
          · rw [if_pos hp]
            constructor
            · intro h; cases h
            · intro h; exact absurd ⟨h.1, h.2.1⟩ hp
        · have ho' : (Socks.owned st a || a.isUnspecified) = false := by
            rw [← Bool.not_eq_true, Bool.or_eq_true, owned_iff]; exact ho
          simp [ho', ho]
      · simp [hf]
  · have hnp : 1 ≤ s.id.lport ∧ s.id.lport < 65536 := ⟨by omega, hown.2.2.1⟩
    simp only [Socks.bind, hs, if_pos hnp, h0, false_and, iff_false]
    intro h; cases h

/-- C46: what `bind` does.  A failed call changes nothing; a successful one registers the socket at the address and port asked
for, and takes nothing from any other socket that has a port. -/
theorem C46_bind_effect (h : List (Env × Op)) (st : Stack) (r : Nat) (addr : Option IpAddress) (port : Int) (c : Nat) :
    (∃ e, (run h).1.bind st r addr port c = ((run h).1, .error e)) ∨
    ∃ ss' s a, ∃ p : Nat, (run h).1.bind st r addr port c = (ss', .ok ()) ∧ (run h).1.socks[r]? = some s ∧ addr = some a ∧
      (0 < port → (p : Int) = port) ∧ Registered ss' r { s with id := { s.id with lip := a, lport := p } } ∧
      ∀ r' s', r' ≠ r → Registered (run h).1 r' s' → s'.id.lport ≠ 0 → s.accepted = false → Registered ss' r' s' := by
  have w := Socks.run_wf h
  generalize (run h).1 = ss at *
  rcases Socks.bind_cases st w r addr port c with ⟨x, hx⟩ | ⟨s, a, p, hs, h0, ha, hf, h1, h2, hc, hp, hx⟩
  · exact .inl ⟨x, hx⟩
  · refine .inr ⟨_, s, a, p, hx, hs, ha, fun hpos => ?_, ⟨?_, ?_⟩, ?_⟩
    · rw [hp hpos]; omega
    · simp [Socks.register, Socks.get_lt hs]
    · simp [Socks.register]
    · intro r' s' hne hr' hl hacc
      refine ⟨?_, ?_⟩
      · simp only [Socks.register, List.getElem?_set_ne (Ne.symm hne)]; exact hr'.1
      · have hown := w.own r s hs hacc
        have e1 : s'.id ≠ { s.id with lip := a, lport := p } := fun he => hc r' s' hr' ⟨by rw [he], by rw [he], by rw [he], .inl (by rw [he])⟩
        have e2 : s'.id ≠ s.id := fun he => hl (by rw [he]; omega)
        simp only [Socks.register, Dict.get?_set_ne _ _ e1, Dict.get?_erase_ne _ e2]
        exact hr'.2

/-- The full claim does not extend to sockets that are used after `close`: closing does not unbind, so `connect` registers the
old endpoint again although another socket has it by now. -/
theorem C46_use_after_close_witness :
    ∃ (h : List (Env × Op)) (r r' : Nat) (s s' : Sock), Registered (run h).1 r s ∧ Registered (run h).1 r' s' ∧
      s.accepted = false ∧ s'.accepted = false ∧ r ≠ r' ∧ Clash s.id s'.id ∧ ¬ NoUseAfterClose h := by
  let e : Env := ⟨Example.stack, ⟨fun _ _ => none, fun _ _ => none⟩⟩
  let any : IpAddress := .v4 .zero
  let peer : IpAddress := .v4 ⟨0x08080808, by decide⟩
  let h : List (Env × Op) := [(e, .socket .inet4 .dgram), (e, .socket .inet4 .dgram), (e, .bind 0 (some any) 5000 0),
    (e, .close 0), (e, .bind 1 (some (.v4 Example.host4.address)) 5000 0), (e, .connect 0 (some peer) 53 0)]
  have key : ∃ s s', Registered (run h).1 0 s ∧ Registered (run h).1 1 s' ∧
      s.accepted = false ∧ s'.accepted = false ∧ Clash s.id s'.id := by
    refine ⟨⟨⟨.inet4, .dgram, .v4 Example.host4.address, 5000, peer, 53⟩, false, [], false⟩,
      ⟨⟨.inet4, .dgram, .v4 Example.host4.address, 5000, any, 0⟩, false, [], false⟩, ?_, ?_, rfl, rfl, ?_⟩
    · exact ⟨by decide +kernel, by decide +kernel⟩
    · exact ⟨by decide +kernel, by decide +kernel⟩
    · decide +kernel
  obtain ⟨s, s', h1, h2, h3, h4, h5⟩ := key
  exact ⟨h, 0, 1, s, s', h1, h2, h3, h4, by decide, h5, fun hu => C46_exclusive h hu 0 1 s s' h1 h2 h3 h4 (by decide) h5⟩

/-! ### C48 -/

/-- The datagrams waiting at a socket. -/
def queueOf (ss : Socks) (r : Nat) : Option (List UdpMd) := (ss.socks[r]?).map (·.queue)

theorem queueOf_put {ss : Socks} {r r' : Nat} {s s' : Sock} (h : ss.socks[r]? = some s) (hq : s'.queue = s.queue) :
    queueOf (ss.put r s') r' = queueOf ss r' := by
  by_cases e : r' = r
  · subst e; rw [queueOf, queueOf, h]; simp [Socks.put, Socks.get_lt h, hq]
  · simp [queueOf, Socks.put, List.getElem?_set_ne (Ne.symm e)]

theorem queueOf_register {ss : Socks} {r r' : Nat} {s s' : Sock} {id : SockId} (h : ss.socks[r]? = some s)
    (hq : s'.queue = s.queue) : queueOf (ss.register r s' id) r' = queueOf ss r' := by
  by_cases e : r' = r
  · subst e; rw [queueOf, queueOf, h]; simp [Socks.register, Socks.get_lt h, hq]
  · simp [queueOf, Socks.register, List.getElem?_set_ne (Ne.symm e)]

/-- What an event does to the queue of a socket. -/
theorem queueOf_step {ss : Socks} (w : ss.Wf) (e : Env) (op : Op) (r : Nat) :
    queueOf (step ss e op).1 r = match op, (step ss e op).2 with
      | .arrive m, .to (some r') => if r' = r then (queueOf ss r).map (· ++ [m]) else queueOf ss r
      | .recv r', .data (.ok _) => if r' = r then (queueOf ss r).map List.tail else queueOf ss r
      | .recvfrom r', .dataFrom (.ok _) => if r' = r then (queueOf ss r).map List.tail else queueOf ss r
      | .socket _ _, _ => if r = ss.socks.length then some [] else queueOf ss r
      | .child _ _ _ _, _ => if r = ss.socks.length then some [] else queueOf ss r
      | _, _ => queueOf ss r := by
  cases op with
  | socket f t =>
    simp only [step, Socks.create, queueOf, List.getElem?_append]
    by_cases h : r < ss.socks.length
    · simp [h, Nat.ne_of_lt h]
    · by_cases h2 : r = ss.socks.length
      · simp [h2]
      · simp only [h, if_false, h2, List.getElem?_singleton]
        rw [if_neg (by omega), List.getElem?_eq_none (by omega)]
  | child a b c d =>
    simp only [step, Socks.accepted, queueOf, List.getElem?_append]
    by_cases h : r < ss.socks.length
    · simp [h, Nat.ne_of_lt h]
    · by_cases h2 : r = ss.socks.length
      · simp [h2]
      · simp only [h, if_false, h2, List.getElem?_singleton]
        rw [if_neg (by omega), List.getElem?_eq_none (by omega)]
  | bind r' a p c =>
    rcases Socks.bind_cases e.stack w r' a p c with ⟨x, h⟩ | ⟨s, a, p, hs, h0, -, -, -, -, -, -, h⟩
    · simp only [step, h]
    · simp only [step, h]; exact queueOf_register hs rfl
  | connect r' a p c =>
    rcases Socks.connect_cases e.stack ss r' a p c with ⟨x, h⟩ | ⟨s, u, x, hs, h⟩ | ⟨s, u, l, lp, a, hs, -, -, -, -, -, h⟩
    · simp only [step, h]
    · simp only [step, h]; exact queueOf_put hs rfl
    · simp only [step, h]; exact queueOf_register hs rfl
  | listen r' =>
    simp only [step, Socks.listen]
    split <;> rfl
  | close r' =>
    simp only [step, Socks.close]
    split <;> rfl
  | send r' d =>
    simp only [step, Socks.send]
    split
    · rfl
    · rename_i s hs
      split
      · rfl
      · split
        · exact queueOf_put hs rfl
        · rfl
  | sendto r' d a p c =>
    simp only [step]
    rcases Socks.sendto_cases e.stack e.links ss r' d a p c with h | ⟨s, hs, h⟩ | ⟨s, u, hs, h⟩ | ⟨s, u, p, hs, h0, h1, h2, h3, h⟩
    · rw [h]
    · rw [h]; rfl
    · rw [h]; exact queueOf_put hs rfl
    · rw [h]
      refine (queueOf_put (s := { s with id := { s.id with lport := p } }) (s' := { s with id := { s.id with lport := p }, unreachable := u }) ?_ rfl).trans ?_
      · simp [Socks.register, Socks.get_lt hs]
      · exact queueOf_register (ss := { ss with table := ss.table.erase s.id }) hs rfl
  | recv r' =>
    simp only [step, Socks.recv]
    cases hs : ss.socks[r']? with
    | none => rfl
    | some s =>
      simp only
      by_cases hu : s.unreachable = true
      · simp only [hu, if_true]; exact queueOf_put hs rfl
      · simp only [hu, if_false, Bool.false_eq_true]
        cases hq : s.queue with
        | nil => rfl
        | cons m q =>
          simp only
          by_cases hr : r' = r
          · subst hr; rw [queueOf, queueOf, hs]; simp [Socks.put, Socks.get_lt hs, hq]
          · rw [if_neg hr]; simp [queueOf, Socks.put, List.getElem?_set_ne hr]
  | recvfrom r' =>
    simp only [step, Socks.recvfrom]
    cases hs : ss.socks[r']? with
    | none => rfl
    | some s =>
      simp only
      cases hq : s.queue with
      | nil => rfl
      | cons m q =>
        simp only
        by_cases hr : r' = r
        · subst hr; rw [queueOf, queueOf, hs]; simp [Socks.put, Socks.get_lt hs, hq]
        · rw [if_neg hr]; simp [queueOf, Socks.put, List.getElem?_set_ne hr]
  | arrive m =>
    simp only [step]
    cases hm : ss.match? m with
    | none => rfl
    | some r' =>
      simp only [Socks.deliver]
      cases hs : ss.socks[r']? with
      | none =>
        simp only
        split
        · rename_i hr; subst hr; simp [queueOf, hs]
        · rfl
      | some s =>
        simp only
        by_cases hr : r' = r
        · subst hr; rw [queueOf, queueOf, hs]; simp [Socks.put, Socks.get_lt hs]
        · rw [if_neg hr]; simp [queueOf, Socks.put, List.getElem?_set_ne hr]
  | refuse m =>
    simp only [step]
    cases hm : ss.match? m with
    | none => rfl
    | some r' =>
      simp only [Socks.notify]
      cases hs : ss.socks[r']? with
      | none => rfl
      | some s => exact queueOf_put hs rfl

theorem match?_lt {ss : Socks} (w : ss.Wf) {m : UdpMd} {r : Nat} (h : ss.match? m = some r) : r < ss.socks.length := by
  rw [Socks.match?] at h
  obtain ⟨id, -, hg⟩ := List.exists_of_findSome?_eq_some h
  obtain ⟨s, hs, -⟩ := w.holds id r hg
  exact Socks.get_lt hs

theorem delivered_snoc (r : Nat) (tr : List (Op × Res)) (x : Op × Res) :
    delivered r (tr ++ [x]) = delivered r tr ++ delivered r [x] := by simp [delivered]

theorem receipts_snoc (r : Nat) (tr : List (Op × Res)) (x : Op × Res) :
    receipts r (tr ++ [x]) = receipts r tr + if isReceipt r x then 1 else 0 := by simp [receipts, List.countP_append, List.countP_cons]

/-- The socket's queue holds what was delivered and not received yet. -/
theorem queue_is (h : List (Env × Op)) (r : Nat) :
    match queueOf (run h).1 r with
    | none => delivered r (run h).2 = [] ∧ receipts r (run h).2 = 0
    | some q => q = (delivered r (run h).2).drop (receipts r (run h).2) ∧
        receipts r (run h).2 ≤ (delivered r (run h).2).length := by
  induction h using List.reverseRecOn with
  | nil => simp [run, queueOf, delivered, receipts]
  | append_singleton h e ih =>
    have w := Socks.run_wf h
    rw [run_snoc]
    generalize (run h).1 = ss at *
    generalize (run h).2 = tr at *
    simp only [delivered_snoc, receipts_snoc]
    obtain ⟨e, op⟩ := e
    have hstep := queueOf_step w e op r
    rw [hstep]
    have keep : delivered r [(op, (step ss e op).2)] = [] → isReceipt r (op, (step ss e op).2) = false →
        match queueOf ss r with
        | none => delivered r tr ++ delivered r [(op, (step ss e op).2)] = [] ∧
            receipts r tr + (if isReceipt r (op, (step ss e op).2) = true then 1 else 0) = 0
        | some q => q = (delivered r tr ++ delivered r [(op, (step ss e op).2)]).drop
              (receipts r tr + (if isReceipt r (op, (step ss e op).2) = true then 1 else 0)) ∧
            receipts r tr + (if isReceipt r (op, (step ss e op).2) = true then 1 else 0) ≤
              (delivered r tr ++ delivered r [(op, (step ss e op).2)]).length := by
      intro h1 h2
      rw [h1, h2]
      simpa using ih
    have hlen : queueOf ss r = none ↔ ss.socks.length ≤ r := by simp [queueOf]
    cases op with
    | socket f t =>
      simp only
      by_cases hr : r = ss.socks.length
      · rw [if_pos hr]
        rw [hlen.mpr (by omega)] at ih
        simp only at ih
        rw [ih.1, ih.2]
        exact ⟨rfl, Nat.le_refl _⟩
      · rw [if_neg hr]; exact keep rfl rfl
    | child a b c d =>
      simp only
      by_cases hr : r = ss.socks.length
      · rw [if_pos hr]
        rw [hlen.mpr (by omega)] at ih
        simp only at ih
        rw [ih.1, ih.2]
        exact ⟨rfl, Nat.le_refl _⟩
      · rw [if_neg hr]; exact keep rfl rfl
    | bind r' a p c => exact keep rfl rfl
    | connect r' a p c => exact keep rfl rfl
    | listen r' => exact keep rfl rfl
    | close r' => exact keep rfl rfl
    | send r' d => exact keep rfl rfl
    | sendto r' d a p c => exact keep rfl rfl
    | refuse m =>
      have h1 : delivered r [((Op.refuse m), (step ss e (.refuse m)).2)] = [] := rfl
      exact keep h1 rfl
    | arrive m =>
      simp only [step] at keep ⊢
      cases hm : ss.match? m with
      | none =>
        simp only [hm] at keep ⊢
        exact keep rfl rfl
      | some r' =>
        simp only [hm] at keep ⊢
        by_cases hr : r' = r
        · subst hr
          have hlt := match?_lt w hm
          cases hq : queueOf ss r' with
          | none => have := hlen.mp hq; omega
          | some q =>
            rw [hq] at ih
            simp only at ih
            have e1 : delivered r' [(Op.arrive m, Res.to (some r'))] = [m] := by simp [delivered]
            have e2 : isReceipt r' (Op.arrive m, Res.to (some r')) = false := rfl
            simp only [if_true, Option.map_some, e1, e2, Bool.false_eq_true, if_false, Nat.add_zero]
            refine ⟨?_, ?_⟩
            · rw [List.drop_append_of_le_length ih.2, ← ih.1]
            · rw [List.length_append]; exact Nat.le_trans ih.2 (Nat.le_add_right _ _)
        · rw [if_neg hr]
          exact keep (by simp [delivered, hr]) rfl
    | recv r' =>
      cases hres : (step ss e (.recv r')).2 with
      | data x =>
        cases x with
        | error x => simp only [hres] at keep ⊢; exact keep rfl rfl
        | ok d =>
          simp only [hres] at keep ⊢
          by_cases hr : r' = r
          · subst hr
            simp only [if_true]
            cases hs : ss.socks[r']? with
            | none => simp [step, Socks.recv, hs] at hres
            | some s =>
              have hq : queueOf ss r' = some s.queue := by simp [queueOf, hs]
              rw [hq] at ih ⊢
              simp only at ih
              have hne : s.queue ≠ [] := by
                intro h0
                simp only [step, Socks.recv, hs, h0] at hres
                split at hres <;> cases hres
              have e1 : ∀ x, delivered r' [(Op.recv r', x)] = [] := fun x => rfl
              simp only [Option.map_some, e1, isReceipt, decide_true, if_true, List.append_nil]
              refine ⟨by rw [ih.1, List.tail_drop], ?_⟩
              have : s.queue.length ≠ 0 := fun h => hne (List.length_eq_zero_iff.mp h)
              rw [ih.1, List.length_drop] at this
              omega
          · rw [if_neg hr]; exact keep rfl (by simp [isReceipt, hr])
      | _ => simp only [hres] at keep ⊢; exact keep rfl rfl
    | recvfrom r' =>
      cases hres : (step ss e (.recvfrom r')).2 with
      | dataFrom x =>
        cases x with
        | error x => simp only [hres] at keep ⊢; exact keep rfl rfl
        | ok d =>
          simp only [hres] at keep ⊢
          by_cases hr : r' = r
          · subst hr
            simp only [if_true]
            cases hs : ss.socks[r']? with
            | none => simp [step, Socks.recvfrom, hs] at hres
            | some s =>
              have hq : queueOf ss r' = some s.queue := by simp [queueOf, hs]
              rw [hq] at ih ⊢
              simp only at ih
              have hne : s.queue ≠ [] := by
                intro h0
                simp only [step, Socks.recvfrom, hs, h0] at hres
                cases hres
              have e1 : ∀ x, delivered r' [(Op.recvfrom r', x)] = [] := fun x => rfl
              simp only [Option.map_some, e1, isReceipt, decide_true, if_true, List.append_nil]
              refine ⟨by rw [ih.1, List.tail_drop], ?_⟩
              have : s.queue.length ≠ 0 := fun h => hne (List.length_eq_zero_iff.mp h)
              rw [ih.1, List.length_drop] at this
              omega
          · rw [if_neg hr]; exact keep rfl (by simp [isReceipt, hr])
      | _ => simp only [hres] at keep ⊢; exact keep rfl rfl

theorem head_drop {α : Type} (l : List α) (n : Nat) : (l.drop n).head? = l[n]? := by rw [List.head?_drop]

/-- C48: after any history, `recvfrom` returns the first datagram delivered to the socket that no earlier `recv` or `recvfrom`
returned, unmodified and with its sender; if there is none it times out and changes nothing. -/
theorem C48_recvfrom_fifo (h : List (Env × Op)) (e : Env) (r : Nat) (hr : r < (run h).1.socks.length) :
    match (delivered r (run h).2)[receipts r (run h).2]? with
    | some m => (step (run h).1 e (.recvfrom r)).2 = .dataFrom (.ok (m.data, m.rip, m.rport))
    | none => step (run h).1 e (.recvfrom r) = ((run h).1, .dataFrom (.error .receiveTimeout)) := by
  have hq := queue_is h r
  generalize (run h).1 = ss at *
  obtain ⟨s, hs⟩ : ∃ s, ss.socks[r]? = some s := ⟨_, List.getElem?_eq_getElem hr⟩
  simp only [queueOf, hs, Option.map_some] at hq
  rw [← head_drop, ← hq.1]
  simp only [step, Socks.recvfrom, hs]
  cases s.queue <;> rfl

/-- C48: no datagram is received twice or made up: there are never more receipts than deliveries. -/
theorem C48_no_more_than_delivered (h : List (Env × Op)) (r : Nat) :
    receipts r (run h).2 ≤ (delivered r (run h).2).length := by
  have hq := queue_is h r
  split at hq
  · omega
  · exact hq.2

/-! ### C49 -/

theorem Pending_snoc (f : Family) (r : Nat) (tr : List (Op × Res)) (x : Op × Res) :
    Pending f r (tr ++ [x]) ↔ Marks f r x ∨ (Pending f r tr ∧ ¬ Raises r x) := by
  constructor
  · rintro ⟨tr₁, e, tr₂, h1, h2, h3⟩
    rcases List.eq_nil_or_concat tr₂ with rfl | ⟨tr₂', y, rfl⟩
    · have := List.append_inj' h1 rfl
      simp at this
      exact .inl (this.2 ▸ h2)
    · rw [List.concat_eq_append, ← List.cons_append, ← List.append_assoc] at h1
      have := List.append_inj' h1 rfl
      simp only [List.cons.injEq, and_true] at this
      obtain ⟨rfl, rfl⟩ := this
      exact .inr ⟨⟨tr₁, e, tr₂', rfl, h2, fun z hz => h3 z (by simp [hz])⟩, h3 x (by simp)⟩
  · rintro (h | ⟨⟨tr₁, e, tr₂, rfl, h2, h3⟩, h4⟩)
    · exact ⟨tr, x, [], rfl, h, by simp⟩
    · refine ⟨tr₁, e, tr₂ ++ [x], by simp, h2, ?_⟩
      intro z hz
      rcases List.mem_append.mp hz with hz | hz
      · exact h3 z hz
      · rw [List.mem_singleton.mp hz]; exact h4

/-- Sending does not raise the exceptions that the socket layer gives a meaning. -/
theorem not_internal {α : Type} {x : Py α} (h : Tame x) : x ≠ .error .connectionRefused ∧ x ≠ .error .overflowError ∧
    x ≠ .error .osError ∧ x ≠ .error .keyError ∧ x ≠ .error .gaiError := by
  refine ⟨?_, ?_, ?_, ?_, ?_⟩ <;> (intro he; have := h _ he; simp [PyErr.internal] at this)

theorem setIpAddresses_mark {st : Stack} {s : Sock} {addr : Option IpAddress} {lip : IpAddress} {lp rp : Nat}
    (ht : s.id.type = .dgram) :
    ((Socks.setIpAddresses st s addr lip lp rp).1 = true ↔
      (∃ a, addr = some a ∧ a.isUnspecified ∧ a.family = s.id.family) ∨ s.unreachable = true) ∧
    (∀ e, (Socks.setIpAddresses st s addr lip lp rp).2 = .error e → e = .gaiError) := by
  unfold Socks.setIpAddresses
  cases addr with
  | none => simp
  | some a =>
    simp only [Option.some.injEq, exists_eq_left']
    by_cases hf : a.family = s.id.family
    · simp only [hf, ne_eq, not_true_eq_false, if_false, ht, reduceCtorEq, and_false, and_true]
      by_cases hu : a.isUnspecified = true
      · simp only [hu, if_true, true_or, iff_true]
        split
        · split <;> simp
        · simp
      · simp only [hu, if_false, Bool.false_eq_true, false_or]
        split
        · split <;> simp
        · simp
    · simp [hf]

theorem get_put_ne {ss : Socks} {r r' : Nat} (s : Sock) (h : r' ≠ r) : (ss.put r' s).socks[r]? = ss.socks[r]? := by
  simp [Socks.put, List.getElem?_set_ne h]
theorem get_put {ss : Socks} {r : Nat} {s : Sock} (s' : Sock) (h : ss.socks[r]? = some s) : (ss.put r s').socks[r]? = some s' := by
  simp [Socks.put, Socks.get_lt h]
theorem get_register_ne {ss : Socks} {r r' : Nat} (s : Sock) (id : SockId) (h : r' ≠ r) :
    (ss.register r' s id).socks[r]? = ss.socks[r]? := by
  simp [Socks.register, List.getElem?_set_ne h]
theorem get_register {ss : Socks} {r : Nat} {s : Sock} (s' : Sock) (id : SockId) (h : ss.socks[r]? = some s) :
    (ss.register r s' id).socks[r]? = some { s' with id := id } := by
  simp [Socks.register, Socks.get_lt h]

/-- What `connect` does to the mark. -/
theorem connect_mark {st : Stack} {ss : Socks} {r : Nat} {s : Sock} {addr : Option IpAddress} {port : Int} {c : Nat}
    (hs : ss.socks[r]? = some s) (ht : s.id.type = .dgram) :
    ∃ s', (ss.connect st r addr port c).1.socks[r]? = some s' ∧ s'.id.family = s.id.family ∧ s'.id.type = s.id.type ∧
      (s'.unreachable = true ↔ Marks s.id.family r (.connect r addr port c, .unit (ss.connect st r addr port c).2) ∨
        s.unreachable = true) := by
  have key : ∀ (x : Py Unit), x = .error .overflowError ∨ x = .error .osError →
      ¬ Marks s.id.family r (.connect r addr port c, .unit x) := by
    intro x hx hm
    cases addr with
    | none => exact hm
    | some a => rcases hx with rfl | rfl <;> simp [Marks] at hm
  simp only [Socks.connect, hs]
  split
  · exact ⟨s, hs, rfl, rfl, ⟨.inr, fun h => h.resolve_left (key _ (.inl rfl))⟩⟩
  · split
    · rename_i e he
      have : e = .osError := by
        split at he
        · cases he
        · exact (Socks.pickLocalPort_error he).1
      subst this
      exact ⟨s, hs, rfl, rfl, ⟨.inr, fun h => h.resolve_left (key _ (.inr rfl))⟩⟩
    · rename_i lp hlp
      obtain ⟨h1, h2⟩ := setIpAddresses_mark (st := st) (addr := addr) (lip := s.id.lip) (lp := lp) (rp := port.toNat) ht
      have key2 : ∀ (x : Py Unit), x = .ok () ∨ x = .error .gaiError →
          (Marks s.id.family r (.connect r addr port c, .unit x) ↔ ∃ a, addr = some a ∧ a.isUnspecified ∧ a.family = s.id.family) := by
        intro x hx
        cases addr with
        | none => simp [Marks]
        | some a => rcases hx with rfl | rfl <;> simp [Marks]
      split
      · rename_i u e he
        rw [he] at h1 h2
        have := h2 e rfl
        subst this
        exact ⟨_, get_put _ hs, rfl, rfl, by rw [key2 _ (.inr rfl)]; exact h1⟩
      · rename_i u l a he
        rw [he] at h1
        exact ⟨_, get_register _ _ hs, rfl, rfl, by rw [key2 _ (.inl rfl)]; exact h1⟩

/-- What `sendto` does to the mark. -/
theorem sendto_mark {st : Stack} {l : Socks.Links} {ss : Socks} {r : Nat} {s : Sock} {d : Bytes} {addr : Option IpAddress}
    {port : Int} {c : Nat} (hs : ss.socks[r]? = some s) (ht : s.id.type = .dgram) :
    ∃ s', (ss.sendto st l r d addr port c).1.socks[r]? = some s' ∧ s'.id.family = s.id.family ∧ s'.id.type = s.id.type ∧
      (s'.unreachable = true ↔ Marks s.id.family r (.sendto r d addr port c, .sent (ss.sendto st l r d addr port c).2.2) ∨
        s.unreachable = true) := by
  have key : ∀ (x : Py (Nat × List Outgoing)), x = .error .overflowError ∨ x = .error .osError →
      ¬ Marks s.id.family r (.sendto r d addr port c, .sent x) := by
    intro x hx hm
    cases addr with
    | none => exact hm
    | some a => rcases hx with rfl | rfl <;> simp [Marks] at hm
  have key2 : ∀ (x : Py (Nat × List Outgoing)), (x ≠ .error .overflowError ∧ x ≠ .error .osError ∧ x ≠ .error .keyError) →
      (Marks s.id.family r (.sendto r d addr port c, .sent x) ↔ ∃ a, addr = some a ∧ a.isUnspecified ∧ a.family = s.id.family) := by
    intro x hx
    cases addr with
    | none => simp [Marks]
    | some a => simp [Marks, hx.1, hx.2.1, hx.2.2]
  -- the part after a port is there
  have rest : ∀ (ss₁ : Socks) (s₁ : Sock), ss₁.socks[r]? = some s₁ → s₁.id.family = s.id.family → s₁.id.type = s.id.type →
      s₁.unreachable = s.unreachable →
      let res : Socks × Stack × Py (Nat × List Outgoing) :=
        match Socks.setIpAddresses st s₁ addr s₁.id.lip s₁.id.lport port.toNat with
        | (u, .error e) => (ss₁.put r { s₁ with unreachable := u }, st, .error e)
        | (u, .ok (lip, rip)) =>
          let (st', res) := phtxUdp st l lip rip s₁.id.lport port.toNat d
          (ss₁.put r { s₁ with unreachable := u }, st', Socks.sentLen d res)
      ∃ s', res.1.socks[r]? = some s' ∧ s'.id.family = s.id.family ∧ s'.id.type = s.id.type ∧
        (s'.unreachable = true ↔ Marks s.id.family r (.sendto r d addr port c, .sent res.2.2) ∨ s.unreachable = true) := by
    intro ss₁ s₁ hs₁ hf₁ ht₁ hu₁
    obtain ⟨h1, h2⟩ := setIpAddresses_mark (st := st) (addr := addr) (lip := s₁.id.lip) (lp := s₁.id.lport)
      (rp := port.toNat) (ht₁.trans ht)
    rw [hf₁, hu₁] at h1
    simp only
    split
    · rename_i u e he
      rw [he] at h1 h2
      have := h2 e rfl
      subst this
      exact ⟨_, get_put _ hs₁, hf₁, ht₁, by rw [key2 _ (by simp)]; exact h1⟩
    · rename_i u lip rip he
      rw [he] at h1
      have := not_internal (Tame.sentLen (data := d) (Tame.phtxUdp st l lip rip s₁.id.lport port.toNat d))
      exact ⟨_, get_put _ hs₁, hf₁, ht₁, by rw [key2 _ ⟨this.2.1, this.2.2.1, this.2.2.2.1⟩]; exact h1⟩
  simp only [Socks.sendto, hs]
  split
  · exact ⟨s, hs, rfl, rfl, ⟨.inr, fun h => h.resolve_left (key _ (.inl rfl))⟩⟩
  · by_cases hp : 1 ≤ s.id.lport ∧ s.id.lport < 65536
    · simp only [if_pos hp]
      exact rest ss s hs rfl rfl rfl
    · simp only [if_neg hp]
      cases hpk : Socks.pickLocalPort { ss with table := ss.table.erase s.id } c with
      | error e =>
        rw [(Socks.pickLocalPort_error hpk).1]
        exact ⟨s, hs, rfl, rfl, ⟨.inr, fun h => h.resolve_left (key _ (.inr rfl))⟩⟩
      | ok q =>
        refine rest (Socks.register { ss with table := ss.table.erase s.id } r s { s.id with lport := q })
          { s with id := { s.id with lport := q } } ?_ rfl rfl rfl
        exact get_register (ss := { ss with table := ss.table.erase s.id }) s _ hs

/-- An event's effect on the mark of an existing UDP socket. -/
theorem mark_step {ss : Socks} (w : ss.Wf) (e : Env) (op : Op) {r : Nat} {s : Sock} (hs : ss.socks[r]? = some s)
    (ht : s.id.type = .dgram) :
    ∃ s', (step ss e op).1.socks[r]? = some s' ∧ s'.id.family = s.id.family ∧ s'.id.type = s.id.type ∧
      (s'.unreachable = true ↔ Marks s.id.family r (op, (step ss e op).2) ∨
        (s.unreachable = true ∧ ¬ Raises r (op, (step ss e op).2))) := by
  have same : ¬ Marks s.id.family r (op, (step ss e op).2) → ¬ Raises r (op, (step ss e op).2) →
      (s.unreachable = true ↔ Marks s.id.family r (op, (step ss e op).2) ∨
        (s.unreachable = true ∧ ¬ Raises r (op, (step ss e op).2))) := by
    intro h1 h2; simp [h1, h2]
  have hr := Socks.get_lt hs
  cases op with
  | socket f t =>
    refine ⟨s, ?_, rfl, rfl, same (by simp [Marks]) (by simp [Raises])⟩
    simp only [step, Socks.create]; rw [List.getElem?_append_left hr]; exact hs
  | child a b c d =>
    refine ⟨s, ?_, rfl, rfl, same (by simp [Marks]) (by simp [Raises])⟩
    simp only [step, Socks.accepted]; rw [List.getElem?_append_left hr]; exact hs
  | bind r' a p c =>
    have sm := same (by simp [Marks]) (by simp [Raises])
    rcases Socks.bind_cases e.stack w r' a p c with ⟨x, h⟩ | ⟨s₀, a', p', hs₀, h0, -, -, -, -, -, -, h⟩
    · exact ⟨s, by simp only [step, h]; exact hs, rfl, rfl, sm⟩
    · by_cases hr' : r' = r
      · subst hr'
        rw [hs] at hs₀; cases hs₀
        refine ⟨{ s with id := { s.id with lip := a', lport := p' } }, ?_, rfl, rfl, sm⟩
        simp only [step, h]; exact get_register _ _ hs
      · exact ⟨s, by simp only [step, h]; rw [get_register_ne _ _ hr']; exact hs, rfl, rfl, sm⟩
  | connect r' a p c =>
    by_cases hr' : r' = r
    · subst hr'
      obtain ⟨s', h1, h2, h3, h4⟩ := connect_mark (st := e.stack) (addr := a) (port := p) (c := c) hs ht
      refine ⟨s', h1, h2, h3, ?_⟩
      rw [h4]
      simp [step, Raises]
    · have sm : ¬ Marks s.id.family r (.connect r' a p c, (step ss e (.connect r' a p c)).2) := by
        intro h; cases a with
        | none => exact h
        | some a => exact hr' h.1
      have sm := same sm (by simp [Raises])
      rcases Socks.connect_cases e.stack ss r' a p c with ⟨x, h⟩ | ⟨s₀, u, x, hs₀, h⟩ | ⟨s₀, u, l, lp, a', hs₀, -, -, -, -, -, h⟩
      · exact ⟨s, by simp only [step, h]; exact hs, rfl, rfl, sm⟩
      · exact ⟨s, by simp only [step, h]; rw [get_put_ne _ hr']; exact hs, rfl, rfl, sm⟩
      · exact ⟨s, by simp only [step, h]; rw [get_register_ne _ _ hr']; exact hs, rfl, rfl, sm⟩
  | listen r' =>
    refine ⟨s, ?_, rfl, rfl, same (by simp [Marks]) (by simp [Raises])⟩
    simp only [step, Socks.listen]; split <;> exact hs
  | close r' =>
    refine ⟨s, ?_, rfl, rfl, same (by simp [Marks]) (by simp [Raises])⟩
    simp only [step, Socks.close]; split <;> exact hs
  | send r' d =>
    by_cases hr' : r' = r
    · subst hr'
      simp only [step, Socks.send, hs]
      split
      · exact ⟨s, hs, rfl, rfl, by simp [Marks, Raises]⟩
      · split
        · exact ⟨_, get_put _ hs, rfl, rfl, by simp [Marks, Raises]⟩
        · rename_i hu
          refine ⟨s, hs, rfl, rfl, ?_⟩
          have := (not_internal (Tame.sentLen (data := d) (Tame.phtxUdp e.stack e.links s.id.lip s.id.rip s.id.lport s.id.rport d))).1
          constructor
          · intro h; exact absurd h hu
          · rintro (h | h)
            · exact absurd h (by simp [Marks])
            · exact absurd h.1 hu
    · have hR : ¬ Raises r (.send r' d, (step ss e (.send r' d)).2) := by
        intro h
        generalize (step ss e (.send r' d)).2 = x at h
        unfold Raises at h
        split at h
        · simp_all
        · simp_all
        · exact h
      have sm := same (by simp [Marks]) hR
      refine ⟨s, ?_, rfl, rfl, sm⟩
      simp only [step, Socks.send]
      split
      · exact hs
      · split
        · exact hs
        · split
          · rw [get_put_ne _ hr']; exact hs
          · exact hs
  | sendto r' d a p c =>
    by_cases hr' : r' = r
    · subst hr'
      obtain ⟨s', h1, h2, h3, h4⟩ := sendto_mark (st := e.stack) (l := e.links) (d := d) (addr := a) (port := p) (c := c) hs ht
      refine ⟨s', h1, h2, h3, ?_⟩
      rw [h4]
      simp [step, Raises]
    · have sm : ¬ Marks s.id.family r (.sendto r' d a p c, (step ss e (.sendto r' d a p c)).2) := by
        intro h; cases a with
        | none => exact h
        | some a => exact hr' h.1
      have sm := same sm (by simp [Raises])
      refine ⟨s, ?_, rfl, rfl, sm⟩
      simp only [step]
      rcases Socks.sendto_cases e.stack e.links ss r' d a p c with h | ⟨s₀, hs₀, h⟩ | ⟨s₀, u, hs₀, h⟩ | ⟨s₀, u, p', hs₀, h0, h1, h2, h3, h⟩
      · rw [h]; exact hs
      · rw [h]; exact hs
      · rw [h, get_put_ne _ hr']; exact hs
      · rw [h, get_put_ne _ hr', get_register_ne _ _ hr']; exact hs
  | recv r' =>
    by_cases hr' : r' = r
    · subst hr'
      simp only [step, Socks.recv, hs]
      split
      · exact ⟨_, get_put _ hs, rfl, rfl, by simp [Marks, Raises]⟩
      · rename_i hu
        split
        · exact ⟨s, hs, rfl, rfl, by simp [Marks, Raises]⟩
        · exact ⟨_, get_put _ hs, rfl, rfl, by simp [Marks, Raises]⟩
    · have hR : ¬ Raises r (.recv r', (step ss e (.recv r')).2) := by
        intro h
        generalize (step ss e (.recv r')).2 = x at h
        unfold Raises at h
        split at h
        · simp_all
        · simp_all
        · exact h
      refine ⟨s, ?_, rfl, rfl, same (by simp [Marks]) hR⟩
      simp only [step, Socks.recv]
      split
      · exact hs
      · split
        · rw [get_put_ne _ hr']; exact hs
        · split
          · exact hs
          · rw [get_put_ne _ hr']; exact hs
  | recvfrom r' =>
    have sm := same (by simp [Marks]) (by simp [Raises])
    by_cases hr' : r' = r
    · subst hr'
      simp only [step, Socks.recvfrom, hs] at sm ⊢
      cases hq : s.queue with
      | nil => simp only [hq] at sm ⊢; exact ⟨s, hs, rfl, rfl, sm⟩
      | cons m q => simp only [hq] at sm ⊢; exact ⟨_, get_put _ hs, rfl, rfl, sm⟩
    · refine ⟨s, ?_, rfl, rfl, sm⟩
      simp only [step, Socks.recvfrom]
      split
      · exact hs
      · split
        · exact hs
        · rw [get_put_ne _ hr']; exact hs
  | arrive m =>
    have sm := same (by simp [Marks]) (by simp [Raises])
    simp only [step] at sm ⊢
    cases hm : ss.match? m with
    | none => simp only [hm] at sm ⊢; exact ⟨s, hs, rfl, rfl, sm⟩
    | some r' =>
      simp only [hm] at sm ⊢
      by_cases hr' : r' = r
      · subst hr'
        simp only [Socks.deliver, hs]
        exact ⟨_, get_put _ hs, rfl, rfl, sm⟩
      · refine ⟨s, ?_, rfl, rfl, sm⟩
        simp only [Socks.deliver]
        split
        · exact hs
        · rw [get_put_ne _ hr']; exact hs
  | refuse m =>
    simp only [step] at same ⊢
    cases hm : ss.match? m with
    | none => simp only [hm] at same ⊢; exact ⟨s, hs, rfl, rfl, same (by simp [Marks]) (by simp [Raises])⟩
    | some r' =>
      simp only [hm] at same ⊢
      by_cases hr' : r' = r
      · subst hr'
        simp only [Socks.notify, hs]
        exact ⟨_, get_put _ hs, rfl, rfl, by simp [Marks]⟩
      · refine ⟨s, ?_, rfl, rfl, same (by simp [Marks, hr']) (by simp [Raises])⟩
        simp only [Socks.notify]
        split
        · exact hs
        · rw [get_put_ne _ hr']; exact hs

/-- An event before a socket exists does not mark it. -/
theorem mark_before {ss : Socks} (w : ss.Wf) (e : Env) (op : Op) {r : Nat} (hs : ss.socks[r]? = none) (f : Family) :
    ¬ Marks f r (op, (step ss e op).2) ∧ ∀ s', (step ss e op).1.socks[r]? = some s' → s'.unreachable = false := by
  have keep : ∀ {r' : Nat} {s₀ : Sock}, ss.socks[r']? = some s₀ → r' ≠ r := by
    rintro r' s₀ h rfl; rw [hs] at h; cases h
  have none' : ∀ {l : List Sock} {s' : Sock}, l = ss.socks → l[r]? = some s' → s'.unreachable = false := by
    rintro l s' rfl h; rw [hs] at h; cases h
  have one : ∀ {x s' : Sock}, x.unreachable = false → (ss.socks ++ [x])[r]? = some s' → s'.unreachable = false := by
    intro x s' hx h
    rw [List.getElem?_append] at h
    split at h
    · rw [hs] at h; cases h
    · rw [List.getElem?_singleton] at h
      split at h
      · cases h; exact hx
      · cases h
  cases op with
  | socket f t => exact ⟨by simp [Marks], fun s' h => one rfl h⟩
  | child a b c d => exact ⟨by simp [Marks], fun s' h => one rfl h⟩
  | bind r' a p c =>
    refine ⟨by simp [Marks], fun s' h => ?_⟩
    rcases Socks.bind_cases e.stack w r' a p c with ⟨x, hx⟩ | ⟨s₀, a', p', hs₀, h0, -, -, -, -, -, -, hx⟩
    · simp only [step, hx] at h; exact none' rfl h
    · simp only [step, hx] at h; rw [get_register_ne _ _ (keep hs₀)] at h; exact none' rfl h
  | connect r' a p c =>
    refine ⟨?_, fun s' h => ?_⟩
    · intro hm
      cases a with
      | none => exact hm
      | some a =>
        obtain ⟨rfl, -, -, -, -, hk⟩ := hm
        exact hk (by simp [Socks.connect, hs])
    · rcases Socks.connect_cases e.stack ss r' a p c with ⟨x, hx⟩ | ⟨s₀, u, x, hs₀, hx⟩ | ⟨s₀, u, l, lp, a', hs₀, -, -, -, -, -, hx⟩
      · simp only [step, hx] at h; exact none' rfl h
      · simp only [step, hx] at h; rw [get_put_ne _ (keep hs₀)] at h; exact none' rfl h
      · simp only [step, hx] at h; rw [get_register_ne _ _ (keep hs₀)] at h; exact none' rfl h
  | listen r' =>
    refine ⟨by simp [Marks], fun s' h => ?_⟩
    simp only [step, Socks.listen] at h
    split at h <;> exact none' rfl h
  | close r' =>
    refine ⟨by simp [Marks], fun s' h => ?_⟩
    simp only [step, Socks.close] at h
    split at h <;> exact none' rfl h
  | send r' d =>
    refine ⟨by simp [Marks], fun s' h => ?_⟩
    simp only [step, Socks.send] at h
    split at h
    · exact none' rfl h
    · rename_i s₀ hs₀
      split at h
      · exact none' rfl h
      · split at h
        · rw [get_put_ne _ (keep hs₀)] at h; exact none' rfl h
        · exact none' rfl h
  | sendto r' d a p c =>
    refine ⟨?_, fun s' h => ?_⟩
    · intro hm
      cases a with
      | none => exact hm
      | some a =>
        obtain ⟨rfl, -, -, -, -, hk⟩ := hm
        exact hk (by simp [Socks.sendto, hs])
    · simp only [step] at h
      rcases Socks.sendto_cases e.stack e.links ss r' d a p c with hx | ⟨s₀, hs₀, hx⟩ | ⟨s₀, u, hs₀, hx⟩ | ⟨s₀, u, p', hs₀, h0, h1, h2, h3, hx⟩
      · rw [hx] at h; exact none' rfl h
      · rw [hx] at h; exact none' rfl h
      · rw [hx, get_put_ne _ (keep hs₀)] at h; exact none' rfl h
      · rw [hx, get_put_ne _ (keep hs₀), get_register_ne _ _ (keep hs₀)] at h; exact none' rfl h
  | recv r' =>
    refine ⟨by simp [Marks], fun s' h => ?_⟩
    simp only [step, Socks.recv] at h
    split at h
    · exact none' rfl h
    · rename_i s₀ hs₀
      split at h
      · rw [get_put_ne _ (keep hs₀)] at h; exact none' rfl h
      · split at h
        · exact none' rfl h
        · rw [get_put_ne _ (keep hs₀)] at h; exact none' rfl h
  | recvfrom r' =>
    refine ⟨by simp [Marks], fun s' h => ?_⟩
    simp only [step, Socks.recvfrom] at h
    split at h
    · exact none' rfl h
    · rename_i s₀ hs₀
      split at h
      · exact none' rfl h
      · rw [get_put_ne _ (keep hs₀)] at h; exact none' rfl h
  | arrive m =>
    refine ⟨by simp [Marks], fun s' h => ?_⟩
    simp only [step] at h
    split at h
    · simp only [Socks.deliver] at h
      split at h
      · exact none' rfl h
      · rename_i s₀ hs₀
        rw [get_put_ne _ (keep hs₀)] at h; exact none' rfl h
    · exact none' rfl h
  | refuse m =>
    simp only [step]
    cases hm : ss.match? m with
    | none => exact ⟨by simp [Marks], fun s' h => none' rfl h⟩
    | some r' =>
      have hlt := match?_lt w hm
      have hne : r' ≠ r := by
        rintro rfl
        rw [List.getElem?_eq_none_iff] at hs
        omega
      refine ⟨by simp [Marks, hne], fun s' h => ?_⟩
      simp only [Socks.notify] at h
      split at h
      · exact none' rfl h
      · rw [get_put_ne _ hne] at h; exact none' rfl h

/-- A socket object stays, with its family and type. -/
theorem step_kept {ss : Socks} (w : ss.Wf) (e : Env) (op : Op) {r : Nat} {s : Sock} (hs : ss.socks[r]? = some s) :
    ∃ s', (step ss e op).1.socks[r]? = some s' ∧ s'.id.family = s.id.family ∧ s'.id.type = s.id.type := by
  have hr := Socks.get_lt hs
  have same : ∀ {l : List Sock}, l = ss.socks → ∃ s', l[r]? = some s' ∧ s'.id.family = s.id.family ∧ s'.id.type = s.id.type := by
    rintro l rfl; exact ⟨s, hs, rfl, rfl⟩
  have app : ∀ (x : Sock), ∃ s', (ss.socks ++ [x])[r]? = some s' ∧ s'.id.family = s.id.family ∧ s'.id.type = s.id.type := by
    intro x; exact ⟨s, by rw [List.getElem?_append_left hr]; exact hs, rfl, rfl⟩
  have put : ∀ {r' : Nat} {s₀ : Sock} (x : Sock), ss.socks[r']? = some s₀ → x.id.family = s₀.id.family → x.id.type = s₀.id.type →
      ∃ s', (ss.put r' x).socks[r]? = some s' ∧ s'.id.family = s.id.family ∧ s'.id.type = s.id.type := by
    intro r' s₀ x h h1 h2
    by_cases hr' : r' = r
    · subst hr'; rw [hs] at h; cases h; exact ⟨x, get_put _ hs, h1, h2⟩
    · rw [get_put_ne _ hr']; exact same rfl
  have reg : ∀ {r' : Nat} {s₀ : Sock} (x : Sock) (id : SockId), ss.socks[r']? = some s₀ → id.family = s₀.id.family →
      id.type = s₀.id.type →
      ∃ s', (ss.register r' x id).socks[r]? = some s' ∧ s'.id.family = s.id.family ∧ s'.id.type = s.id.type := by
    intro r' s₀ x id h h1 h2
    by_cases hr' : r' = r
    · subst hr'; rw [hs] at h; cases h; exact ⟨_, get_register x id hs, h1, h2⟩
    · rw [get_register_ne _ _ hr']; exact same rfl
  cases op with
  | socket f t => exact app _
  | child a b c d => exact app _
  | bind r' a p c =>
    rcases Socks.bind_cases e.stack w r' a p c with ⟨x, hx⟩ | ⟨s₀, a', p', hs₀, h0, -, -, -, -, -, -, hx⟩
    · simp only [step, hx]; exact same rfl
    · simp only [step, hx]; exact reg _ _ hs₀ rfl rfl
  | connect r' a p c =>
    rcases Socks.connect_cases e.stack ss r' a p c with ⟨x, hx⟩ | ⟨s₀, u, x, hs₀, hx⟩ | ⟨s₀, u, l, lp, a', hs₀, -, -, -, -, -, hx⟩
    · simp only [step, hx]; exact same rfl
    · simp only [step, hx]; exact put _ hs₀ rfl rfl
    · simp only [step, hx]; exact reg _ _ hs₀ rfl rfl
  | listen r' => simp only [step, Socks.listen]; split <;> exact same rfl
  | close r' => simp only [step, Socks.close]; split <;> exact same rfl
  | send r' d =>
    simp only [step, Socks.send]
    split
    · exact same rfl
    · rename_i s₀ hs₀
      split
      · exact same rfl
      · split
        · exact put _ hs₀ rfl rfl
        · exact same rfl
  | sendto r' d a p c =>
    simp only [step]
    rcases Socks.sendto_cases e.stack e.links ss r' d a p c with hx | ⟨s₀, hs₀, hx⟩ | ⟨s₀, u, hs₀, hx⟩ | ⟨s₀, u, p', hs₀, h0, h1, h2, h3, hx⟩
    · rw [hx]; exact same rfl
    · rw [hx]; exact same rfl
    · rw [hx]; exact put _ hs₀ rfl rfl
    · rw [hx]
      by_cases hr' : r' = r
      · subst hr'; rw [hs] at hs₀; cases hs₀
        exact ⟨_, get_put _ (get_register _ _ hs), rfl, rfl⟩
      · rw [get_put_ne _ hr', get_register_ne _ _ hr']; exact same rfl
  | recv r' =>
    simp only [step, Socks.recv]
    split
    · exact same rfl
    · rename_i s₀ hs₀
      split
      · exact put _ hs₀ rfl rfl
      · split
        · exact same rfl
        · exact put _ hs₀ rfl rfl
  | recvfrom r' =>
    simp only [step, Socks.recvfrom]
    split
    · exact same rfl
    · rename_i s₀ hs₀
      split
      · exact same rfl
      · exact put _ hs₀ rfl rfl
  | arrive m =>
    simp only [step]
    split
    · simp only [Socks.deliver]
      split
      · exact same rfl
      · rename_i s₀ hs₀; exact put _ hs₀ rfl rfl
    · exact same rfl
  | refuse m =>
    simp only [step]
    split
    · simp only [Socks.notify]
      split
      · exact same rfl
      · rename_i s₀ hs₀; exact put _ hs₀ rfl rfl
    · exact same rfl

/-- A UDP socket's mark says whether there is an unreported notification. -/
theorem mark_is (h : List (Env × Op)) (r : Nat) :
    (∀ s, (run h).1.socks[r]? = some s → s.id.type = .dgram → (s.unreachable = true ↔ Pending s.id.family r (run h).2)) ∧
    ((run h).1.socks[r]? = none → ∀ f, ∀ x ∈ (run h).2, ¬ Marks f r x) := by
  induction h using List.reverseRecOn with
  | nil => simp [run]
  | append_singleton h e ih =>
    have w := Socks.run_wf h
    rw [run_snoc]
    generalize (run h).1 = ss at *
    generalize (run h).2 = tr at *
    obtain ⟨e, op⟩ := e
    cases hs : ss.socks[r]? with
    | none =>
      have hno := ih.2 hs
      refine ⟨?_, ?_⟩
      · intro s' hs' ht
        have := (mark_before w e op hs s'.id.family).2 s' hs'
        rw [Pending_snoc, this]
        simp only [Bool.false_eq_true, false_iff, not_or, not_and]
        refine ⟨(mark_before w e op hs s'.id.family).1, ?_⟩
        rintro ⟨tr₁, x, tr₂, rfl, hx, -⟩
        exact absurd hx (hno _ x (by simp))
      · intro _ f x hx
        rcases List.mem_append.mp hx with hx | hx
        · exact hno f x hx
        · rw [List.mem_singleton.mp hx]; exact (mark_before w e op hs f).1
    | some s =>
      refine ⟨?_, ?_⟩
      · intro s' hs' ht
        obtain ⟨s₁, g1, g2, g3⟩ := step_kept w e op hs
        simp only at hs'
        rw [g1] at hs'; cases hs'
        have ht0 : s.id.type = .dgram := g3.symm.trans ht
        obtain ⟨s'', h1, h2, h3, h4⟩ := mark_step w e op hs ht0
        rw [g1] at h1; cases h1
        rw [Pending_snoc, h4, h2, (ih.1 s hs ht0)]
      · intro hn
        obtain ⟨s₁, g1, -⟩ := step_kept w e op hs
        simp only at hn
        rw [g1] at hn; cases hn

/-- C49: after any history, the next `recv` on a UDP socket raises ConnectionRefusedError iff there is a notification for it
that no earlier call reported; then nothing but the notification is used up. -/
theorem C49_recv_refused_iff (h : List (Env × Op)) (e : Env) (r : Nat) (s : Sock) (hs : (run h).1.socks[r]? = some s)
    (ht : s.id.type = .dgram) :
    (step (run h).1 e (.recv r)).2 = .data (.error .connectionRefused) ↔ Pending s.id.family r (run h).2 := by
  rw [← (mark_is h r).1 s hs ht]
  simp only [step, Socks.recv, hs]
  by_cases hu : s.unreachable = true
  · simp [hu]
  · simp only [hu, Bool.false_eq_true, if_false, iff_false]
    cases s.queue <;> simp

/-- C49, for `send` on a connected socket. -/
theorem C49_send_refused_iff (h : List (Env × Op)) (e : Env) (r : Nat) (s : Sock) (d : Bytes)
    (hs : (run h).1.socks[r]? = some s) (ht : s.id.type = .dgram) (hc : ¬ s.id.rip.isUnspecified ∧ s.id.rport ≠ 0) :
    (step (run h).1 e (.send r d)).2 = .sent (.error .connectionRefused) ↔ Pending s.id.family r (run h).2 := by
  rw [← (mark_is h r).1 s hs ht]
  have hn : ¬ (s.id.rip.isUnspecified = true ∨ s.id.rport = 0) := by simp [hc]
  simp only [step, Socks.send, hs, if_neg hn]
  by_cases hu : s.unreachable = true
  · simp [hu]
  · simp only [hu, Bool.false_eq_true, if_false, iff_false]
    have := (not_internal (Tame.sentLen (data := d) (Tame.phtxUdp e.stack e.links s.id.lip s.id.rip s.id.lport s.id.rport d))).1
    simpa using this

/-- C49: the notification is reported once.  Right after a call that raised it, a `recv` does not raise it again. -/
theorem C49_once (h : List (Env × Op)) (e e' : Env) (op : Op) (r : Nat) (s : Sock)
    (hs : (run (h ++ [(e, op)])).1.socks[r]? = some s) (ht : s.id.type = .dgram)
    (hr : Raises r (op, (step (run h).1 e op).2)) :
    (step (run (h ++ [(e, op)])).1 e' (.recv r)).2 ≠ .data (.error .connectionRefused) := by
  intro hx
  have := (C49_recv_refused_iff _ e' r s hs ht).mp hx
  rw [run_snoc, Pending_snoc] at this
  rcases this with h | h
  · unfold Raises at hr
    split at hr
    · simp_all [Marks]
    · simp_all [Marks]
    · exact hr
  · exact h.2 hr

/-- C49: without any notification no `recv` or `send` raises ConnectionRefusedError. -/
theorem C49_never_without (h : List (Env × Op)) (r : Nat) (hn : ∀ f, ∀ x ∈ (run h).2, ¬ Marks f r x)
    (e : Env) (s : Sock) (hs : (run h).1.socks[r]? = some s) (ht : s.id.type = .dgram) (d : Bytes) :
    (step (run h).1 e (.recv r)).2 ≠ .data (.error .connectionRefused) ∧
    (step (run h).1 e (.send r d)).2 ≠ .sent (.error .connectionRefused) := by
  have hp : ¬ Pending s.id.family r (run h).2 := by
    rintro ⟨tr₁, x, tr₂, h1, h2, -⟩
    exact hn _ x (by rw [h1]; simp) h2
  refine ⟨fun hx => hp ((C49_recv_refused_iff h e r s hs ht).mp hx), fun hx => ?_⟩
  by_cases hc : s.id.rip.isUnspecified = true ∨ s.id.rport = 0
  · simp [step, Socks.send, hs, hc] at hx
  · exact hp ((C49_send_refused_iff h e r s d hs ht (by simpa using hc)).mp hx)

/-- C48, for `recv` on a UDP socket: the same as for `recvfrom`, unless there is an unreported unreachable notification
(C49). -/
theorem C48_recv_fifo (h : List (Env × Op)) (e : Env) (r : Nat) (s : Sock) (hs : (run h).1.socks[r]? = some s)
    (ht : s.id.type = .dgram) (hu : ¬ Pending s.id.family r (run h).2) :
    match (delivered r (run h).2)[receipts r (run h).2]? with
    | some m => (step (run h).1 e (.recv r)).2 = .data (.ok m.data)
    | none => step (run h).1 e (.recv r) = ((run h).1, .data (.error .receiveTimeout)) := by
  have hq := queue_is h r
  rw [← (mark_is h r).1 s hs ht] at hu
  generalize (run h).1 = ss at *
  simp only [queueOf, hs, Option.map_some] at hq
  rw [← head_drop, ← hq.1]
  simp only [step, Socks.recv, hs, hu, if_false]
  cases s.queue <;> rfl

namespace Example.Sockets

/-- 10.0.1.7, port 5000, is where two datagrams arrive; between them an ICMP message says that 10.0.1.9:7000 did not take one. -/
def lip : IpAddress := .v4 ⟨0x0a000107, by decide⟩
def rip : IpAddress := .v4 ⟨0x0a000109, by decide⟩
def env : Env := ⟨stack, ⟨fun _ _ => none, fun _ _ => none⟩⟩
def m1 : UdpMd := ⟨lip, 5000, rip, 7000, [1, 2]⟩
def m2 : UdpMd := ⟨lip, 5000, rip, 7001, [3]⟩
def hist : List (Env × Op) :=
  [(env, .socket .inet4 .dgram), (env, .bind 0 (some lip) 5000 0), (env, .arrive m1), (env, .refuse m1), (env, .arrive m2)]

/-- C46/C48/C49: bind succeeds, both datagrams are delivered, `recv` first reports the notification, then gives the data. -/
example : (run hist).2.map (fun x => match x.2 with | .unit (.ok _) => 1 | .to (some 0) => 2 | .ref 0 => 3 | _ => 0)
    = [3, 1, 2, 2, 2] := by decide +kernel
example : (delivered 0 (run hist).2).map (·.data) = [[1, 2], [3]] := by decide +kernel
example : (step (run hist).1 env (.recv 0)).2 = .data (.error .connectionRefused) := by rfl
example : (step (run (hist ++ [(env, .recv 0)])).1 env (.recv 0)).2 = .data (.ok [1, 2]) := by rfl
example : (step (run (hist ++ [(env, .recv 0)])).1 env (.recvfrom 0)).2 = .dataFrom (.ok ([1, 2], rip, 7000)) := by rfl
example : (step (run (hist ++ [(env, .recv 0), (env, .recvfrom 0), (env, .recv 0)])).1 env (.recv 0)).2 =
    .data (.error .receiveTimeout) := by rfl
/-- C46: a second socket cannot take the port, with the same address or the wildcard, until the first is closed. -/
example : (step (run (hist ++ [(env, .socket .inet4 .dgram)])).1 env (.bind 1 (some lip) 5000 0)).2 =
    .unit (.error .osError) := by rfl
example : (step (run (hist ++ [(env, .socket .inet4 .dgram), (env, .close 0)])).1 env (.bind 1 (some (.v4 .zero)) 5000 0)).2 =
    .unit (.ok ()) := by rfl

end Example.Sockets

end Verif
