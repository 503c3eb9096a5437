import Verif.Lemmas.PreemptSim
import Verif.Lemmas.PreemptConn
import Verif.Props.SessionData
/-!
C96: a connection when threads are switched at any moment.

Between any two steps of a run of `tcp_fsm` the application's threads may do any number of steps of `send`, `receive` and `connect`, and any
number of those calls may be under way (`Model/Preempt.lean`).
-/
namespace Verif
open Sess Spec

/-- C96: a run of `tcp_fsm` that no thread interrupts is the one the other properties are about. -/
theorem C96_same (n : Nat) (i : Input) (s : Sess) : (fsmP n i).run s = fsmFuel n s i := run_fsmP n i s

theorem deeds_own (l : List Out) : deeds l = l.filter own := by
  unfold deeds
  congr 1
  funext o
  cases o <;> rfl

/-- C96: every history with thread switches is like some history without them, in which the same segments arrive and the same timers run in
the same order, and in which the buffers that were accepted are sent, each at some moment: the session sends the same segments, goes through
the same states and delivers the same bytes.  (`late`: buffers that were accepted when the connection was gone.)
Partial: when the application closes, no `send` may be under way. -/
theorem C96_sequential_partial {iss : Nat} (active : Bool) (lip : IpAddress) (lport : Nat) (rip : IpAddress) (rport : Nat)
    {h : List (Work × List (List App))} (hack : ∀ m ∈ arriving h, m.ack = true → m.rst = false → m.ackn ≠ iss) (hsend : SendsFirst h) :
    ∃ (evs : List Ev) (late : List Bytes),
      let c := (Conc.opened active iss lip lport rip rport).run h
      let s := (Sess.opened active iss lip lport rip rport).run evs
      besides evs = h.map (unbroken ·.1) ∧
      acceptedOnes s.out = sends evs ∧
      acceptedOnes c.s.out = sends evs ++ late ∧
      (late ≠ [] → s.state = .closed) ∧
      deeds c.s.out = deeds s.out ∧
      received c.s.out ++ c.s.rx = received s.out ++ s.rx ∧
      c.s.tx = s.tx ++ late.flatten ∧
      (c.s.state, c.s.err, c.s.sndUna, c.s.sndNxt, c.s.sndMax, c.s.rcvNxt) = (s.state, s.err, s.sndUna, s.sndNxt, s.sndMax, s.rcvNxt) := by
  have h0 : Sim iss false (Conc.opened active iss lip lport rip rport) (Sess.opened active iss lip lport rip rport) [] := by
    refine ⟨by rw [more_nil]; rfl, (List.append_nil _).symm, (absurd rfl ·), fun _ x => absurd rfl x, fun _ => ?_, send_opened active lip lport rip rport⟩
    cases active
    · exact ⟨rfl, .inl rfl⟩
    · exact ⟨rfl, .inr (.inl rfl)⟩
  obtain ⟨evs, late, b, r1, r2, r3⟩ := sim_run h0 hack (okFrom_of hsend)
  have hs : acceptedOnes ((Sess.opened active iss lip lport rip rport).run evs).out = sends evs := by
    refine Eq.trans r3 ?_
    have : puts (Sess.opened active iss lip lport rip rport).out = [] := by cases active <;> rfl
    rw [this, List.nil_append]
  have f {α : Type} (g : Sess → α) := congrArg g r1.core
  refine ⟨evs, late, r2, hs, ?_, r1.late, ?_, f Sess.rx, f Sess.tx, ?_⟩
  · rw [← hs]; exact r1.puts
  · rw [deeds_own, deeds_own]; exact f Sess.out
  · exact f fun s => (s.state, s.err, s.sndUna, s.sndNxt, s.sndMax, s.rcvNxt)

theorem sent_deeds (l : List Out) : sent (deeds l) = sent l := by
  induction l with
  | nil => rfl
  | cons o l ih => cases o <;> first | exact congrArg (_ :: ·) ih | exact ih

theorem moves_deeds (l : List Out) : moves (deeds l) = moves l := by
  induction l with
  | nil => rfl
  | cons o l ih => cases o <;> first | exact congrArg (_ :: ·) ih | exact ih

theorem arrivals_besides (evs : List Ev) : arrivals (besides evs) = arrivals evs := by
  induction evs with
  | nil => rfl
  | cons e evs ih => cases e <;> first | exact congrArg (_ :: ·) ih | exact ih

theorem arrivals_unbroken (h : List (Work × List (List App))) : arrivals (h.map (unbroken ·.1)) = arriving h := by
  induction h with
  | nil => rfl
  | cons x h ih =>
    obtain ⟨w, l⟩ := x
    cases w <;> first | exact congrArg (_ :: ·) ih | exact ih

theorem accepted_ones (l : List Out) : accepted l = (acceptedOnes l).flatten := rfl

/-- C96: with thread switches, too, a segment carries the accepted bytes at its place, the SYN has the first number, and the FIN comes behind
everything accepted, save what was accepted when the connection was gone.  Partial: as above. -/
theorem C96_sent_partial {iss : Nat} (active : Bool) (lip : IpAddress) (lport : Nat) (rip : IpAddress) (rport : Nat)
    {h : List (Work × List (List App))} (hack : ∀ m ∈ arriving h, m.ack = true → m.rst = false → m.ackn ≠ iss) (hsend : SendsFirst h) :
    let c := (Conc.opened active iss lip lport rip rport).run h
    ∃ a b, accepted c.s.out = a ++ b ∧ (b ≠ [] → c.s.state = .closed) ∧ ∀ g ∈ sent c.s.out,
      (g.data ≠ [] → iss < g.seq ∧ (a.drop (g.seq - (iss + 1))).take g.data.length = g.data) ∧
      (g.syn = true → g.seq = iss) ∧ (g.fin = true → a = [] ∨ g.seq = iss + 1 + a.length) := by
  obtain ⟨evs, late, r1, r2, r3, r4, r5, r6, r7, r8⟩ := C96_sequential_partial active lip lport rip rport hack hsend
  intro c
  refine ⟨(sends evs).flatten, late.flatten, by rw [accepted_ones, r3, List.flatten_append], fun hb => ?_, fun g hg => ?_⟩
  · rw [show c.s.state = _ from congrArg (·.1) r8]
    exact r4 (by rintro rfl; exact hb rfl)
  · have hs : ∀ m ∈ arrivals evs, m.ack = true → m.rst = false → m.ackn ≠ iss := by
      rw [← arrivals_besides, r1, arrivals_unbroken]; exact hack
    rw [← r2, ← accepted_ones]
    refine C53_sent_partial active lip lport rip rport hs g ?_
    rw [← sent_deeds, ← r5, sent_deeds]; exact hg

/-- C96: with thread switches, too, what `receive` has returned, and what is in the buffer, make a prefix of what the peer sends, and no
acknowledgement covers more.  Partial: as above. -/
theorem C96_received_partial {iss : Nat} (active : Bool) (lip : IpAddress) (lport : Nat) (rip : IpAddress) (rport : Nat)
    {h : List (Work × List (List App))} (hack : ∀ m ∈ arriving h, m.ack = true → m.rst = false → m.ackn ≠ iss) (hsend : SendsFirst h)
    {p : Bytes} {irs : Nat} (hp : ∀ m ∈ arriving h, SegmentOf p irs m) :
    let c := (Conc.opened active iss lip lport rip rport).run h
    ∃ k, k ≤ p.length ∧ received c.s.out ++ c.s.rx = p.take k ∧
      ∀ g ∈ sent c.s.out, g.ack = true → g.ackn ≤ irs + 1 + k ∨ g.ackn ≤ irs + 2 + k ∧ k = p.length := by
  obtain ⟨evs, late, r1, r2, r3, r4, r5, r6, r7, r8⟩ := C96_sequential_partial active lip lport rip rport hack hsend
  have hs : ∀ m ∈ arrivals evs, SegmentOf p irs m := by
    rw [← arrivals_besides, r1, arrivals_unbroken]; exact hp
  obtain ⟨k, k1, k2, _, k4⟩ := C52_prefix active iss lip lport rip rport hs
  refine ⟨k, k1, r6.trans k2, fun g hg => k4 g ?_⟩
  rw [← sent_deeds, ← r5, sent_deeds]; exact hg

/-- C96: with thread switches, too, the states follow the TCP state diagram.  Partial: as above. -/
theorem C96_journey_partial {iss : Nat} (active : Bool) (lip : IpAddress) (lport : Nat) (rip : IpAddress) (rport : Nat)
    {h : List (Work × List (List App))} (hack : ∀ m ∈ arriving h, m.ack = true → m.rst = false → m.ackn ≠ iss) (hsend : SendsFirst h) :
    let c := (Conc.opened active iss lip lport rip rport).run h
    Journey .closed (moves c.s.out) c.s.state := by
  obtain ⟨evs, late, r1, r2, r3, r4, r5, r6, r7, r8⟩ := C96_sequential_partial active lip lport rip rport hack hsend
  have hs : ∀ m ∈ arrivals evs, m.ack = true → m.rst = false → m.ackn ≠ iss := by
    rw [← arrivals_besides, r1, arrivals_unbroken]; exact hack
  intro c
  rw [show c.s.state = _ from congrArg (·.1) r8, ← moves_deeds, show deeds c.s.out = _ from r5, moves_deeds]
  exact C54_journey_partial active lip lport rip rport hs

/-- C96: data never lies in the receive buffer while every call of `receive` sleeps: the semaphore is free, or a call is past it and has yet
to look at the buffer, to take from it, or to release the semaphore again.  For every history, without any hypothesis. -/
theorem C96_awake (active : Bool) (iss : Nat) (lip : IpAddress) (lport : Nat) (rip : IpAddress) (rport : Nat) (h : List (Work × List (List App))) :
    let c := (Conc.opened active iss lip lport rip rport).run h
    c.s.rx ≠ [] → 0 < c.s.evRx ∨ 0 < c.s.readers ∨ 0 < c.takers ∨ true ∈ c.taken := by
  refine wakes_run ?_ h
  intro hr
  exact absurd (by cases active <;> rfl) hr

/-- C96: `connect` succeeds only if the connection was established, whatever is switched between its looks at the state and at the error.
For every history, without any hypothesis. -/
theorem C96_connect (active : Bool) (iss : Nat) (lip : IpAddress) (lport : Nat) (rip : IpAddress) (rport : Nat) (h : List (Work × List (List App))) :
    let c := (Conc.opened active iss lip lport rip rport).run h
    ConnError.none ∈ outcomes c.s.out → ∃ a, (a, FsmState.established) ∈ moves c.s.out := by
  intro c hc
  have h0 : Truly (Conc.opened active iss lip lport rip rport) := fun _ => by
    have ho : outcomes (Conc.opened active iss lip lport rip rport).s.out = [] := by cases active <;> rfl
    have he : (Conc.opened active iss lip lport rip rport).s.evConnect = 0 := by cases active <;> rfl
    refine ⟨by rw [ho]; simp, ?_, fun x => ?_, fun x => ?_⟩
    · cases active
      · exact (by simp : FsmState.listen ≠ FsmState.established)
      · exact (by simp : FsmState.synSent ≠ FsmState.established)
    · rw [he] at x; rcases x with x | x | x <;> exact absurd x (Nat.lt_irrefl _)
    · rcases x with x | x <;> exact absurd x (Nat.lt_irrefl _)
  have h1 : Settled (Conc.opened active iss lip lport rip rport).s := fun _ => .inl (by cases active <;> rfl)
  refine Classical.byContradiction fun hw => ?_
  exact (truly_run h0 h1 h hw).out hc

namespace Example.Preempt
open Sess Example.Session

def open_ : List (Work × List (List App)) :=
  [(.timer, []), (.segment (seg true true false false 500 101 []), [])]

/-- The handshake; then two buffers are sent and a byte is received while the timer method runs: one buffer is put before it looks at the
buffer's length, one right afterwards; a segment arrives while `receive` is under way; then the application closes. -/
def hist : List (Work × List (List App)) := open_ ++
  [(.timer, [[.sendTest [7, 8]], [.sendTest [9]], [.sendPut 0], [.sendPut 0]]), (.segment (seg false true false false 501 103 [1, 2]), [[], [], [], [], [], [.recvAcquire], [.recvLook]]),
   (.clock, [[.recvTake (some 1), .recvRelease 0]]), (.timer, []), (.segment (seg false true false false 503 104 [3]), []), (.close, [[.recvAcquire]]), (.timer, []), (.timer, [])]

/-- The hypotheses of C96's theorems are met. -/
example : (∀ m ∈ arriving hist, m.ack = true → m.rst = false → m.ackn ≠ 100) := by decide +kernel

example : SendsFirst hist := by
  refine sendsFirst_of ?_
  simp [hist, open_, OkFrom, Work.isClose]

/-- C96_received: the segments are the peer's. -/
example : ∀ m ∈ arriving hist, SegmentOf [1, 2, 3] 500 m := by
  intro m hm
  simp only [hist, open_, arriving, List.cons_append, List.nil_append, List.filterMap_cons, List.filterMap_nil, List.mem_cons, List.not_mem_nil, or_false] at hm
  rcases hm with h | h | h <;> subst h <;> exact ⟨by decide, by decide, by decide⟩

/-- What happens: of the data that is left in the buffer, a reader past the semaphore is to see (C96_awake). -/
example : let c := (Conc.opened true 100 lip 5000 rip 80).run hist
    acceptedOnes c.s.out = [[7, 8], [9]] ∧ returned c.s.out = [[1]] ∧ c.s.rx = [2, 3] ∧ c.s.readers = 1 ∧ c.s.state = .finWait1 ∧
    (sent c.s.out).map (fun g => (g.syn, g.fin, g.seq, g.ackn, g.data)) =
      [(true, false, 100, 0, []), (false, false, 101, 501, []), (false, false, 101, 501, [7, 8]), (false, false, 103, 503, [9]), (false, true, 104, 504, [])] := by
  decide +kernel

/-- `connect` succeeds, though the state it first sees is not ESTABLISHED any more: a FIN has arrived; it ends without an error (C96_connect). -/
example : let c := (Conc.opened true 100 lip 5000 rip 80).run (
      [(.timer, []), (.segment (seg true true false false 500 101 []), []), (.segment (seg false true true false 501 101 []), []),
       (.clock, [[.connAcquire, .connState, .connRefused, .connState', .connTimeout]])])
    outcomes c.s.out = [.none] ∧ c.s.state = .closeWait ∧ moves c.s.out = [(.closed, .synSent), (.synSent, .established), (.established, .closeWait)] := by
  decide +kernel

/-- The peer refuses; the error is noted while `connect` is asleep. -/
example : let c := (Conc.opened true 100 lip 5000 rip 80).run (
      [(.timer, []), (.segment (seg false true false true 0 101 []), [[.connAcquire], [.connAcquire], [.connAcquire], [.connAcquire]]),
       (.clock, [[.connAcquire, .connState, .connRefused]])])
    outcomes c.s.out = [.refused] ∧ c.s.state = .closed := by
  decide +kernel

end Example.Preempt

/-- C96 fails without its hypothesis: `send` looks at the state, the application closes, the session goes to FIN_WAIT_1, and `send` puts its byte
into the buffer and succeeds; the FIN goes out without it, everything is acknowledged, and the byte is never sent. -/
theorem C96_send_race : ∃ h : List (Work × List (List App)),
    let c := (Conc.opened true 100 Example.Session.lip 5000 Example.Session.rip 80).run h
    accepted c.s.out = [7] ∧ dataSent c.s.out = [] ∧ c.s.state = .timeWait ∧ ∃ g ∈ sent c.s.out, g.fin = true ∧ g.seq = 101 := by
  refine ⟨Example.Preempt.open_ ++ [(.clock, [[.sendTest [7]]]), (.close, []), (.timer, [[], [], [], [], [], [], [], [.sendPut 0]]), (.timer, []),
    (.segment (Example.Session.seg false true true false 501 102 []), [])], ?_⟩
  decide +kernel

end Verif
