import Verif.Lemmas.Names
/-! C108: the names of sockets and timers tell them apart. -/
namespace Verif
open Spec

/-- C108: two sockets have the same name exactly if they agree in address family, type, both addresses and both ports; the table of sockets under
these names is found, set and cleared as under the parts themselves; and the port read out of a name is the local port. -/
theorem C108_sockets :
    (∀ i j : SockId, i.toText = j.toText ↔ i = j) ∧
    (∀ (d : Dict SockId Nat) (i : SockId) (r : Nat), (named d).get? i.toText = d.get? i ∧ named (d.set i r) = (named d).set i.toText r ∧
      named (d.erase i) = (named d).erase i.toText) ∧
    (∀ d : Dict SockId Nat, (named d).keys.map portOfKey = d.keys.map fun i => .ok (i.lport : Int)) := by
  have inj : ∀ i j : SockId, i.toText = j.toText ↔ i = j := fun i j => ⟨SockId.toText_inj, fun h => by rw [h]⟩
  refine ⟨inj, fun d i r => ⟨?_, ?_, ?_⟩, fun d => ?_⟩
  · induction d with
    | nil => rfl
    | cons e d ih => simp only [named, List.map_cons, Dict.get?_cons, inj] at ih ⊢; rw [ih]
  · induction d with
    | nil => rfl
    | cons e d ih =>
      obtain ⟨k, v⟩ := e
      simp only [named, List.map_cons, Dict.set, inj] at ih ⊢
      by_cases h : k = i
      · simp [h]
      · simp [h, ih]
  · induction d with
    | nil => rfl
    | cons e d ih =>
      obtain ⟨k, v⟩ := e
      simp only [named, List.map_cons, Dict.erase, List.filter_cons, ne_eq, inj] at ih ⊢
      by_cases h : k = i
      · simp [h]; simpa using ih
      · simp [h]; simpa using ih
  · simp only [named, Dict.keys, List.map_map]
    apply List.map_congr_left
    intro e _
    exact e.1.portOfKey

/-- C108: the names under which the socket of a received segment or datagram is looked for are the names of the sockets with these parts: for a segment
the connection's own, then a listener on its address and one on any; for a datagram the connected socket, one on its address, one on any, and
over IPv4 one that waits for a DHCP server's answer. -/
theorem C108_patterns :
    (∀ m : TcpMd, m.toText = m.active.toText ∧ m.listeningTexts = m.listening.map SockId.toText) ∧
    (∀ m : UdpMd, m.patternTexts = m.patterns.map SockId.toText) := by
  have z : "/0".toList = '/' :: decText 0 := by decide +kernel
  have f : ∀ a : IpAddress, "AF_INET".toList ++ a.version = a.family.toText := by
    intro a
    cases a
    · show "AF_INET".toList ++ ['4'] = "AF_INET4".toList; decide +kernel
    · show "AF_INET".toList ++ ['6'] = "AF_INET6".toList; decide +kernel
  have st : "/SOCK_STREAM/".toList = '/' :: (SockType.stream.toText ++ ['/']) := by decide +kernel
  have dg : "/SOCK_DGRAM/".toList = '/' :: (SockType.dgram.toText ++ ['/']) := by decide +kernel
  have z4 : "AF_INET4/SOCK_DGRAM/0.0.0.0/".toList =
    Family.inet4.toText ++ '/' :: (SockType.dgram.toText ++ '/' :: (IpAddress.toText (.v4 .zero) ++ ['/'])) := by decide +kernel
  have b4 : "255.255.255.255/".toList = IpAddress.toText (.v4 .limitedBroadcast) ++ ['/'] := by decide +kernel
  refine ⟨fun m => ⟨?_, ?_⟩, fun m => ?_⟩
  · unfold TcpMd.toText TcpMd.active SockId.toText
    rw [f, st]
    simp only [List.append_assoc, List.cons_append, List.nil_append]
  · unfold TcpMd.listeningTexts TcpMd.listening
    rw [f, st, z]
    simp only [SockId.toText, List.append_assoc, List.cons_append, List.nil_append, List.map_cons, List.map_nil]
  · unfold UdpMd.patternTexts UdpMd.patterns
    rw [f, dg, z, z4, b4]
    cases h : m.lip <;>
      simp only [SockId.toText, List.append_assoc, List.cons_append, List.nil_append, List.map_cons, List.map_nil]

/-- C108: the names of timers differ whenever the connections differ in an address or a port, or the timers are different ones of a connection. -/
theorem C108_timer_names (p q : Quad) (m n : TimerName) : p.timer m = q.timer n ↔ p = q ∧ m = n :=
  ⟨Quad.timer_inj, fun h => by rw [h.1, h.2]⟩

theorem timers_sim (es : List TimerUse) (q : Quad) (s : Sess) (t : Timer) (hn : t.timers.keys.Nodup) (hs : s.timers.keys.Nodup)
    (h : ∀ n, t.timers.get? (q.timer n) = s.timers.get? n) :
    ∀ n, (t.run (es.map TimerUse.event)).timers.get? (q.timer n) = (ownTimers q s es).timers.get? n := by
  induction es generalizing s t with
  | nil => exact h
  | cons e es ih =>
    intro n
    cases e with
    | sets p m v =>
      simp only [List.map_cons, Timer.run, List.foldl_cons, Timer.step, TimerUse.event]
      unfold ownTimers
      by_cases hp : p = q
      · subst hp
        rw [List.filter_cons_of_pos (by simp [itsOwn])]
        simp only [List.foldl_cons]
        refine ih (s.setTimer m v) _ (Dict.nodup_set _ _ hn) (Dict.nodup_set _ _ hs) ?_ n
        intro n
        show Dict.get? (Dict.set _ _ _) _ = Dict.get? (Dict.set _ _ _) _
        rw [Dict.get?_set, Dict.get?_set, h n]
        by_cases e : n = m
        · rw [e]; simp
        · rw [if_neg e, if_neg (fun x => e (Quad.timer_inj x).2)]
      · rw [List.filter_cons_of_neg (by simp [itsOwn, hp])]
        refine ih s _ (Dict.nodup_set _ _ hn) hs ?_ n
        intro n
        show Dict.get? (Dict.set _ _ _) _ = _
        rw [Dict.get?_set_ne _ _ (fun x => hp (Quad.timer_inj x).1.symm), h n]
    | tick =>
      simp only [List.map_cons, Timer.run, List.foldl_cons, Timer.step, TimerUse.event]
      unfold ownTimers
      rw [List.filter_cons_of_pos (by simp [itsOwn])]
      simp only [List.foldl_cons]
      refine ih s.clock _ (Dict.nodup_down _ hn) (Dict.nodup_down _ hs) ?_ n
      intro n
      show Dict.get? (Timer.tickTimers _) _ = _
      unfold Timer.tickTimers Sess.clock
      rw [Dict.get?_down _ _ hn, Dict.get?_down _ _ hs, h n]

/-- C108: in the stack's one timer every connection finds its timers as if it had them to itself: whatever the connections with other addresses or
ports set, in any order, a timer has run out exactly when it has for a session alone, and has as long to go. -/
theorem C108_timers_apart (es : List TimerUse) (q : Quad) (n : TimerName) (s : Sess) (h : s.timers = []) :
    (allTimers es).isExpired (q.timer n) = (ownTimers q s es).expired n ∧
    (allTimers es).timers.get? (q.timer n) = (ownTimers q s es).timers.get? n := by
  have := timers_sim es q s Timer.new (by simp [Timer.new, Dict.keys]) (by simp [h, Dict.keys]) (by intro n; simp [Timer.new, h]) n
  refine ⟨?_, this⟩
  unfold Timer.isExpired Sess.expired
  unfold allTimers
  rw [this]
  cases (ownTimers q s es).timers.get? n <;> rfl

/-- C108: what other connections do with their timers makes no difference. -/
theorem C108_others (es es' : List TimerUse) (q : Quad) (h : es.filter (itsOwn q) = es'.filter (itsOwn q)) (n : TimerName) :
    (allTimers es).isExpired (q.timer n) = (allTimers es').isExpired (q.timer n) := by
  rw [(C108_timers_apart es q n (Sess.new 0 q.lip q.lport q.rip q.rport) rfl).1, (C108_timers_apart es' q n (Sess.new 0 q.lip q.lport q.rip q.rport) rfl).1]
  unfold ownTimers
  rw [h]

namespace Example.Names

def here : IpAddress := .v4 ⟨0x0a000107, by decide⟩
def there : IpAddress := .v6 ⟨0x20010db8000000000002000300000000, by decide⟩
def q1 : Quad := ⟨here, 80, .v4 ⟨0x0a000108, by decide⟩, 4000⟩
def q2 : Quad := ⟨here, 8, .v4 ⟨0x0a000108, by decide⟩, 4000⟩

/- What the names look like. -/
example : SockId.toText ⟨.inet4, .stream, here, 80, .v4 .zero, 0⟩ = "AF_INET4/SOCK_STREAM/10.0.1.7/80/0.0.0.0/0".toList := by decide +kernel
example : SockId.toText ⟨.inet6, .dgram, there, 1, there, 65535⟩ =
    "AF_INET6/SOCK_DGRAM/2001:db8::2:3:0:0/1/2001:db8::2:3:0:0/65535".toList := by decide +kernel
example : q1.timer .delayedAck = "10.0.1.7/80/10.0.1.8/4000-delayed_ack" ∧
    q1.timer (.retransmit 4294967295) = "10.0.1.7/80/10.0.1.8/4000-retransmit_seq-4294967295" ∧
    q1.timer .timeWait = "10.0.1.7/80/10.0.1.8/4000-time_wait" := by decide +kernel
example : portOfKey "AF_INET4/SOCK_STREAM/10.0.1.7/80/0.0.0.0/0".toList = .ok 80 := by decide +kernel

/-- Two connections at once: each timer runs for itself. -/
def es : List TimerUse := [.sets q1 .delayedAck 2, .sets q2 .delayedAck 3, .tick, .sets q2 (.retransmit 5) 1000, .tick]

example : (allTimers es).isExpired (q1.timer .delayedAck) = true ∧ (allTimers es).isExpired (q2.timer .delayedAck) = false ∧
    (allTimers es).timers.get? (q2.timer (.retransmit 5)) = some 999 := by decide +kernel
example : q1 ≠ q2 ∧ es.filter (itsOwn q1) ≠ es ∧ (Sess.new 7 q1.lip q1.lport q1.rip q1.rport).timers = [] := by
  refine ⟨by decide +kernel, ?_, rfl⟩
  intro h
  have := congrArg List.length h
  revert this; decide +kernel

end Example.Names

/-- C108: what a connection has set stays when it is gone: a later connection with the same addresses and ports, which has set nothing, finds the
timer running. -/
theorem C108_leftover_witness :
    ∃ (es : List TimerUse) (q : Quad), (∀ n, (Sess.new 7 q.lip q.lport q.rip q.rport).expired n = true) ∧
      (allTimers es).isExpired (q.timer .delayedAck) = false :=
  ⟨[.sets Example.Names.q1 .delayedAck 100, .tick], Example.Names.q1, fun _ => rfl, by decide +kernel⟩

end Verif
