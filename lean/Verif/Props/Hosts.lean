import Verif.Lemmas.Hosts
import Verif.Props.SessionNet
/-!
C84: C81 for a connection between two hosts with any number of sockets and sessions.  On both hosts anything may happen: sockets are
made, bound, connected and closed, segments of other connections and of other peers arrive, timers run, applications call.
-/
namespace Verif
open Spec

/-- C84: what the application at either end of the connection has been given (and what is waiting for it) is a prefix of what the
application at the other end has sent. -/
theorem C84_prefix {k : Ends} (hk : k.lport ≠ 0 ∧ k.rport ≠ 0) {xs ys : List TcpStack.Ev} (h : Hosts k xs ys) {i j : Nat} {a b : Sess}
    (ha : Only k (TcpStack.run xs) i a) (hb : Only k.flip (TcpStack.run ys) j b) :
    received (seenOf (TcpStack.run xs).log i) ++ a.rx <+: accepted (seenOf (TcpStack.run ys).log j) ∧
    received (seenOf (TcpStack.run ys).log j) ++ b.rx <+: accepted (seenOf (TcpStack.run xs).log i) := by
  obtain ⟨p, ia, l, lp, r, rp, q, ib, l', lp', r', rp', hj⟩ := TcpStack.joined_hosts hk h ha hb
  obtain ⟨_, hai⟩ := ha.1
  obtain ⟨_, hbj⟩ := hb.1
  rw [(C61_independent xs i _ hai).2, (C61_independent ys j _ hbj).2]
  exact C81_prefix p q ia ib l lp r rp l' lp' r' rp' hj

/-- C84: no byte is lost: while an end may send, what its application has sent is what has reached the other end, up to some point,
followed by what is in its own transmit buffer. -/
theorem C84_no_loss {k : Ends} (hk : k.lport ≠ 0 ∧ k.rport ≠ 0) {xs ys : List TcpStack.Ev} (h : Hosts k xs ys) {i j : Nat} {a b : Sess}
    (ha : Only k (TcpStack.run xs) i a) (hb : Only k.flip (TcpStack.run ys) j b) :
    (a.state = .established ∨ a.state = .closeWait → ∃ d, d <+: received (seenOf (TcpStack.run ys).log j) ++ b.rx ∧
      accepted (seenOf (TcpStack.run xs).log i) = d ++ a.tx) ∧
    (b.state = .established ∨ b.state = .closeWait → ∃ d, d <+: received (seenOf (TcpStack.run xs).log i) ++ a.rx ∧
      accepted (seenOf (TcpStack.run ys).log j) = d ++ b.tx) := by
  obtain ⟨p, ia, l, lp, r, rp, q, ib, l', lp', r', rp', hj⟩ := TcpStack.joined_hosts hk h ha hb
  obtain ⟨_, hai⟩ := ha.1
  obtain ⟨_, hbj⟩ := hb.1
  rw [(C61_independent xs i _ hai).2, (C61_independent ys j _ hbj).2]
  exact C81_no_loss p q ia ib l lp r rp l' lp' r' rp' hj

theorem Spec.Ends.flip_flip (k : Ends) : k.flip.flip = k := rfl

theorem Spec.Hosts.swap {k : Ends} {xs ys : List TcpStack.Ev} (h : Hosts k xs ys) : Hosts k.flip ys xs := by
  induction h with
  | start => exact .start
  | left _ he ih => exact .right ih he
  | right _ he ih => exact .left ih he

/-- C84: once the session of the first host has gone on to its FIN, everything its application has sent has reached the other end.
(The same for the second host: `Spec.Hosts.swap`.) -/
theorem C84_sent_before_fin {k : Ends} (hk : k.lport ≠ 0 ∧ k.rport ≠ 0) {xs ys : List TcpStack.Ev} (h : Hosts k xs ys) {i j : Nat}
    {a b : Sess} (ha : Only k (TcpStack.run xs) i a) (hb : Only k.flip (TcpStack.run ys) j b)
    (hst : a.state = .finWait1 ∨ a.state = .finWait2 ∨ a.state = .closing ∨ a.state = .lastAck ∨ a.state = .timeWait) :
    received (seenOf (TcpStack.run ys).log j) ++ b.rx = accepted (seenOf (TcpStack.run xs).log i) := by
  obtain ⟨p, ia, l, lp, r, rp, q, ib, l', lp', r', rp', hj⟩ := TcpStack.joined_hosts hk h ha hb
  obtain ⟨_, hai⟩ := ha.1
  obtain ⟨_, hbj⟩ := hb.1
  rw [(C61_independent xs i _ hai).2, (C61_independent ys j _ hbj).2]
  exact C81_sent_before_fin p q ia ib l lp r rp l' lp' r' rp' hj hst

/-- C84: once the session of the first host has taken the other's FIN, its application has been given everything the other has sent,
or it is waiting for it. -/
theorem C84_fin_means_all {k : Ends} (hk : k.lport ≠ 0 ∧ k.rport ≠ 0) {xs ys : List TcpStack.Ev} (h : Hosts k xs ys) {i j : Nat}
    {a b : Sess} (ha : Only k (TcpStack.run xs) i a) (hb : Only k.flip (TcpStack.run ys) j b)
    (hst : a.state = .closeWait ∨ a.state = .closing ∨ a.state = .lastAck ∨ a.state = .timeWait) :
    received (seenOf (TcpStack.run xs).log i) ++ a.rx = accepted (seenOf (TcpStack.run ys).log j) := by
  obtain ⟨p, ia, l, lp, r, rp, q, ib, l', lp', r', rp', hj⟩ := TcpStack.joined_hosts hk h ha hb
  obtain ⟨_, hai⟩ := ha.1
  obtain ⟨_, hbj⟩ := hb.1
  rw [(C61_independent xs i _ hai).2, (C61_independent ys j _ hbj).2]
  exact C81_fin_means_all p q ia ib l lp r rp l' lp' r' rp' hj hst

namespace Example.Hosts
open Example.Session (lip rip)

/-- What happens: something at a host, or the arrival there of the `n`-th segment that session `j` of the other host has sent. -/
inductive Act
  | l (e : TcpStack.Ev)
  | r (e : TcpStack.Ev)
  | toL (j n : Nat)
  | toR (j n : Nat) (iss : Nat)

/-- Not a segment of the connection. -/
def aside (k : Ends) : TcpStack.Ev → Bool
  | .segment m _ => (1 ≤ m.lport && m.lport < 65536) && (m.rport != k.rport || (m.rst && !m.syn && !m.fin && m.data.isEmpty))
  | _ => true

def arrive (k : Ends) (g : Seg) : TcpMd := ⟨k.lip, k.lport, k.rip, k.rport, g.syn, g.ack, g.fin, g.rst, g.seq, g.ackn, 65535, none, 1460, g.data⟩

/-- The segment that arrives, as the host with `k` gets it. -/
def brought (k : Ends) (t : TcpStack) (j n : Nat) : Option TcpMd :=
  match t.conns[j]?, (sent (seenOf t.log j))[n]? with
  | some d, some g =>
    if d.s.lip = k.rip ∧ d.s.lport = k.rport ∧ d.s.rip = k.lip ∧ d.s.rport = k.lport ∧ 1 ≤ k.lport ∧ k.lport < 65536 then some (arrive k g) else none
  | _, _ => none

def act (k : Ends) (x : List TcpStack.Ev × List TcpStack.Ev) : Act → List TcpStack.Ev × List TcpStack.Ev
  | .l e => if aside k e then (x.1 ++ [e], x.2) else x
  | .r e => if aside k.flip e then (x.1, x.2 ++ [e]) else x
  | .toL j n => match brought k (TcpStack.run x.2) j n with
    | some m => (x.1 ++ [.segment m 0], x.2)
    | none => x
  | .toR j n iss => match brought k.flip (TcpStack.run x.1) j n with
    | some m => (x.1, x.2 ++ [.segment m iss])
    | none => x

theorem aside_ok {k : Ends} {e : TcpStack.Ev} (h : aside k e = true) (t : TcpStack) : MayReach k t e := by
  rintro m iss rfl
  simp only [aside, Bool.and_eq_true, decide_eq_true_eq, Bool.or_eq_true, bne_iff_ne, ne_eq, Bool.not_eq_true', List.isEmpty_iff] at h
  refine ⟨h.1, fun hm => ?_⟩
  rcases h.2 with x | x
  · exact absurd hm.2.2.2 x
  · exact .inl ⟨x.1.1.1, x.1.1.2, x.1.2, x.2⟩

theorem brought_ok {k : Ends} {t : TcpStack} {j n iss : Nat} {m : TcpMd} (h : brought k t j n = some m) : MayReach k t (.segment m iss) := by
  intro m' iss' he
  cases he
  unfold brought at h
  split at h
  · rename_i d g hd hg
    split at h
    · rename_i c
      cases h
      exact ⟨c.2.2.2.2, fun _ => .inr ⟨j, d, hd, ⟨c.1, c.2.1, c.2.2.1, c.2.2.2.1⟩, g, List.mem_of_getElem? hg, ⟨rfl, rfl, rfl, rfl, rfl, rfl, rfl⟩⟩⟩
    · cases h
  · cases h

theorem hosts (k : Ends) (acts : List Act) : Hosts k (acts.foldl (act k) ([], [])).1 (acts.foldl (act k) ([], [])).2 := by
  induction acts using List.reverseRecOn with
  | nil => exact .start
  | append_singleton acts c ih =>
    rw [List.foldl_append]
    simp only [List.foldl_cons, List.foldl_nil]
    generalize acts.foldl (act k) ([], []) = z at ih
    cases c with
    | l e => simp only [act]; split; exacts [.left ih (aside_ok ‹_› _), ih]
    | r e => simp only [act]; split; exacts [.right ih (aside_ok ‹_› _), ih]
    | toL j n => simp only [act]; split; exacts [.left ih (brought_ok ‹_›), ih]
    | toR j n iss => simp only [act]; split; exacts [.right ih (brought_ok ‹_›), ih]

/-- The connection: 10.0.1.7 port 32168 with 10.0.1.9 port 80. -/
def k : Ends := ⟨lip, 32168, rip, 80⟩

/-- A segment to 10.0.1.9:80 from port 7001 of 10.0.1.7. -/
def other (syn ack : Bool) (seq ackn : Nat) (data : Bytes) : TcpMd :=
  ⟨rip, 80, lip, 7001, syn, ack, false, false, seq, ackn, 1000, none, 1000, data⟩

/-- The first host connects (its socket 0); the second listens.  The second host also gets a connection from port 7001 (which it takes
first) and data on it, and a reset for nothing; the first host sends [1, 2] on its connection, which arrive twice; the second host
sends [9]. -/
def acts : List Act :=
  [.l (.socket .inet4), .r (.socket .inet4), .r (.bind stack 0 (some (.v4 .zero)) 80 0), .r (.listen 0 500),
   .l (.connect stack 0 (some rip) 80 0 100),
   .r (.segment (other true false 700 0 []) 600), .r (.timer 0), .r (.segment (other false true 701 501 []) 0),
   .l (.timer 0), .toR 0 0 800, .r (.timer 1), .toL 1 0, .toR 0 1 0,
   .r (.segment (other false true 701 501 [7, 7]) 0),
   .l (.call 0 (.send [1, 2])), .l (.timer 0), .toR 0 2 0, .toR 0 2 0,
   .l (.segment ⟨lip, 32168, rip, 80, false, true, false, true, 0, 0, 0, none, 0, []⟩ 0),
   .r (.accept 0), .r (.accept 0), .r (.call 1 .recvAcquire), .r (.call 1 (.recvTake none)), .r (.call 1 (.send [9])), .r (.timer 1),
   .toL 1 1, .toL 1 2]

def xs : List TcpStack.Ev := (acts.foldl (act k) ([], [])).1
def ys : List TcpStack.Ev := (acts.foldl (act k) ([], [])).2

theorem ok : Hosts k xs ys := hosts k acts

/-- The session of the connection at a host, when it is the only one. -/
def only (k : Ends) (t : TcpStack) (i : Nat) : Bool :=
  (List.range t.conns.length).all fun n => match t.conns[n]? with
    | some c => (n == i) == (c.s.lip == k.lip && c.s.lport == k.lport && c.s.rip == k.rip && c.s.rport == k.rport)
    | none => true

theorem only_ok {k : Ends} {t : TcpStack} {i : Nat} {c : TcpConn} (hc : t.conns[i]? = some c) (h : only k t i = true) : Only k t i c.s := by
  simp only [only, List.all_eq_true, List.mem_range] at h
  have key : ∀ n d, t.conns[n]? = some d → (n = i ↔ k.of d.s) := by
    intro n d hd
    have := h n (List.getElem?_eq_some_iff.mp hd).1
    rw [hd] at this
    dsimp only at this
    rw [beq_iff_eq, Bool.eq_iff_iff] at this
    simp only [beq_iff_eq, Bool.and_eq_true] at this
    rw [this, Ends.of]
    tauto
  exact ⟨⟨c.2, hc⟩, (key i c hc).mp rfl, fun n d hd hk => (key n d hd).mpr hk⟩

def t : TcpStack := TcpStack.run xs
def u : TcpStack := TcpStack.run ys

theorem ends : ∃ a b, Only k t 0 a ∧ Only k.flip u 1 b ∧ a.state = .established ∧ b.state = .established ∧ a.rx = [9] := by
  have e : (match t.conns[0]?, u.conns[1]? with
      | some c, some d => only k t 0 && only k.flip u 1 && c.s.state == .established && d.s.state == .established && c.s.rx == [9]
      | _, _ => false) = true := by decide +kernel
  split at e
  · rename_i c d hc hd
    simp only [Bool.and_eq_true, beq_iff_eq] at e
    exact ⟨_, _, only_ok hc e.1.1.1.1, only_ok hd e.1.1.1.2, e.1.1.2, e.1.2, e.2⟩
  · cases e

/-- The hypotheses are met; the theorem says of this history what a run of it shows: the first host sent [1, 2] and the application of
the second has them; the second sent [9], which waits for the application of the first. -/
example : (∃ a b, Only k (TcpStack.run xs) 0 a ∧ Only k.flip (TcpStack.run ys) 1 b ∧
      received (seenOf t.log 0) ++ a.rx <+: accepted (seenOf u.log 1) ∧ received (seenOf u.log 1) ++ b.rx <+: accepted (seenOf t.log 0)) ∧
    received (seenOf u.log 1) = [1, 2] ∧ accepted (seenOf t.log 0) = [1, 2] ∧ accepted (seenOf u.log 1) = [9] := by
  refine ⟨?_, by decide +kernel⟩
  obtain ⟨a, b, ha, hb, -⟩ := ends
  exact ⟨a, b, ha, hb, C84_prefix (by decide) ok ha hb⟩

end Example.Hosts
end Verif
