import Verif.Props.SessionState
import Verif.Lemmas.SessionAck
/-!
TCP sessions over time: the peer's window (C57) and acknowledgements (C58).
-/
namespace Verif
open Sess

/-! ### C57 -/

/-- C57: an event sends no data, or one data segment, no longer than the MSS of a SYN `y` that has arrived and not further than the
window of a segment `m` that has arrived and that acknowledges everything up to the first unacknowledged number.  Partial:

* after a retransmission timeout one segment may go beyond the window (`C57_timeout`),
* the window in the SYN|ACK itself is taken as scaled (`C57_syn_ack`),
* histories in which something acknowledges the number of the SYN are left out, as in C53. -/
theorem C57_window_partial {iss : Nat} (active : Bool) (lip : IpAddress) (lport : Nat) (rip : IpAddress) (rport : Nat) (evs : List Ev)
    (e : Ev) (h : ∀ m ∈ Spec.arrivals evs, m.ack = true → m.rst = false → m.ackn ≠ iss) :
    let s := (opened active iss lip lport rip rport).run evs
    Spec.dataSent (s.step e).out = Spec.dataSent s.out ∨
    ∃ g, ∃ y ∈ Spec.arrivals evs, ∃ m ∈ Spec.arrivals evs, Spec.dataSent (s.step e).out = Spec.dataSent s.out ++ [g] ∧
      y.syn = true ∧ m.ack = true ∧ m.ackn = s.sndUna ∧ m.ackn ≤ g.seq ∧ g.data.length ≤ y.mss ∧ g.data.length ≤ 1460 ∧
      (m.syn = false → g.seq + g.data.length ≤ m.ackn + max (Spec.advertised y m) y.mss) ∧
      g.seq + g.data.length ≤ m.ackn + max (m.win * 2 ^ (y.wscale.getD 0)) y.mss := by
  intro s
  obtain ⟨hS, hF⟩ := flow_run active lip lport rip rport h
  have hfsm : ∀ i, i ≠ .timer → Spec.dataSent (s.fsm i).done.out = Spec.dataSent s.out := by
    intro i hi
    have := still_fuel (s.ooo.length + 1) s i hi
    change Spec.dataSent (s.fsm i).s.out = _ at this
    rw [← this]
    unfold Res.done
    split
    · rfl
    · simp [Spec.dataSent, emit, Spec.sent_one (o := .raised _) rfl]
  cases e with
  | segment m => exact .inl (hfsm _ (by simp))
  | close => exact .inl (hfsm _ (by simp))
  | timer =>
    have hd : Spec.dataSent (s.step .timer).out = Spec.dataSent (s.fsm .timer).s.out := by
      show Spec.dataSent (s.fsm .timer).done.out = _
      unfold Res.done
      split
      · rfl
      · simp [Spec.dataSent, emit, Spec.sent_one (o := .raised _) rfl]
    rw [hd]
    rcases within_fsm_timer hS hF with x | ⟨g, x1, x2, x3, x4, x5, x6⟩
    · exact .inl x
    · right
      obtain ⟨m, hm, hma, hmu, hmw⟩ := hF.wnd x6
      rcases hF.peer with z | ⟨y, hy, hys, hym, hyw⟩
      · rcases x6 with x6 | x6 <;> rw [x6] at z <;> simp at z
      · have hsc : peerScale y ≤ 2 ^ (y.wscale.getD 0) := by
          unfold peerScale
          cases y.wscale with
          | none => simp
          | some w =>
            simp only [Option.getD_some]
            split
            · exact Nat.one_le_two_pow
            · exact Nat.le_of_lt Nat.lt_two_pow_self
        have hb : g.seq + g.data.length ≤ m.ackn + max (m.win * 2 ^ (y.wscale.getD 0)) y.mss := by
          rw [hmu]
          refine Nat.le_trans x5 ?_
          have := Nat.mul_le_mul_left m.win hsc
          rw [hmw, hyw, hym]
          omega
        refine ⟨g, y, hy, m, hm, x1, hys, hma, hmu, by rw [hmu]; exact x3, by omega, by omega, fun hns => ?_, hb⟩
        simp only [Spec.advertised, hns, Bool.false_eq_true, if_false]
        exact hb
  | send d =>
    left
    show Spec.dataSent (s.send d).out = _
    unfold send; split <;> simp [Spec.dataSent, Spec.sent, emit]
  | recvAcquire =>
    left
    show Spec.dataSent s.recvAcquire.out = _
    unfold recvAcquire; split <;> rfl
  | recvTake n =>
    left
    show Spec.dataSent (s.recvTake n).out = _
    rcases recvTake_cases s n with x | ⟨k, e, x⟩ <;> rw [x] <;> simp [Spec.dataSent, Spec.sent_one]
  | connectReturn =>
    left
    show Spec.dataSent s.connectReturn.out = _
    unfold connectReturn
    split
    · rfl
    · dsimp only
      split
      · simp [Spec.dataSent, emit, Spec.sent_one (o := .connected _) rfl]
      · split <;> simp [Spec.dataSent, emit, Spec.sent_one (o := .connected _) rfl]
  | clock => exact .inl rfl
  | table b => exact .inl rfl

/-! ### C58 -/

/-- C58: what has been taken is acknowledged: when 100 ms or more have passed since, and the session's timer method then runs to
its end, a segment with ACK that covers it has been sent.  Partial: only for sessions that are then ESTABLISHED or CLOSE_WAIT and
not aborted by that timer (an abort sends RST|ACK), and not when the timer method raises; see `C58_raises`. -/
theorem C58_acked_partial (active : Bool) (iss : Nat) (lip : IpAddress) (lport : Nat) (rip : IpAddress) (rport : Nat) (evs later : List Ev)
    (hst : ((opened active iss lip lport rip rport).run evs).state ∉ [.closed, .listen, .synSent])
    (ht : 100 ≤ Spec.millis later)
    (hst' : ((opened active iss lip lport rip rport).run (evs ++ later)).state ∈ [.established, .closeWait])
    (he : (((opened active iss lip lport rip rport).run (evs ++ later)).fsm .timer).exc = none)
    (hc : ((opened active iss lip lport rip rport).run (evs ++ later ++ [.timer])).state ≠ .closed) :
    ∃ g ∈ Spec.sent ((opened active iss lip lport rip rport).run (evs ++ later ++ [.timer])).out,
      g.ack = true ∧ ((opened active iss lip lport rip rport).run evs).rcvNxt ≤ g.ackn := by
  have hsplit : ∀ (s : Sess) (a b : List Ev), s.run (a ++ b) = (s.run a).run b := fun s a b => List.foldl_append
  have hq := queue_opened active iss lip lport rip rport
  have ho := ack_opened active iss lip lport rip rport
  generalize opened active iss lip lport rip rport = o at *
  have hq1 : Queue (fun _ => True) (o.run evs) := queue_run hq
  have ha1 : AckInv (o.run evs) := ack_run evs hq ho
  have ha2 : AckInv (o.run (evs ++ later)) := ack_run _ hq ho
  have ha3 : AckInv (o.run (evs ++ later ++ [.timer])) := ack_run _ hq ho
  have hd1 : Due (o.run evs).rcvNxt 100 (o.run evs) := by
    refine ⟨?_, Nat.le_refl _, .inr fun e he hk => (ha1.timer e he hk).2⟩
    simp at hst; exact hst.2
  have hd2 : Due (o.run evs).rcvNxt 0 (o.run (evs ++ later)) := by
    rw [hsplit]; exact (due_run hq1 hd1 later).mono (by omega)
  have hu := due_timer hd2 ha2 (by simpa using hst') he
  have hlast : o.run (evs ++ later ++ [.timer]) = ((o.run (evs ++ later)).fsm .timer).s := by
    rw [hsplit]
    show ((o.run (evs ++ later)).fsm .timer).done = _
    unfold Res.done
    rw [he]
  rw [← hlast] at hu
  have hd3 : Due (o.run evs).rcvNxt (0 - Spec.millis [.timer]) (o.run (evs ++ later ++ [.timer])) := by
    rw [hsplit _ (evs ++ later)]
    exact due_run (queue_run hq) hd2 [.timer]
  have h1 := (ha1.le (by simp at hst; exact hst)).2
  rcases ha3.seen ⟨hc, hd3.state⟩ with x | ⟨g, hg, hk, hn⟩
  · omega
  · refine ⟨g, ?_, hk, by omega⟩
    exact List.mem_filterMap.2 ⟨_, hg, rfl⟩

/-- C58, in terms of the peer's stream: what is delivered or buffered of it is acknowledged.  Partial: as above. -/
theorem C58_stream_partial {p : Bytes} {irs : Nat} (active : Bool) (iss : Nat) (lip : IpAddress) (lport : Nat) (rip : IpAddress)
    (rport : Nat) (evs later : List Ev) (h : ∀ m ∈ Spec.arrivals evs, Spec.SegmentOf p irs m)
    (hst : ((opened active iss lip lport rip rport).run evs).state ∉ [.closed, .listen, .synSent])
    (ht : 100 ≤ Spec.millis later)
    (hst' : ((opened active iss lip lport rip rport).run (evs ++ later)).state ∈ [.established, .closeWait])
    (he : (((opened active iss lip lport rip rport).run (evs ++ later)).fsm .timer).exc = none)
    (hc : ((opened active iss lip lport rip rport).run (evs ++ later ++ [.timer])).state ≠ .closed) :
    ∃ g ∈ Spec.sent ((opened active iss lip lport rip rport).run (evs ++ later ++ [.timer])).out, g.ack = true ∧
      irs + 1 + (Spec.received ((opened active iss lip lport rip rport).run evs).out ++
        ((opened active iss lip lport rip rport).run evs).rx).length ≤ g.ackn := by
  obtain ⟨g, hg, hk, hn⟩ := C58_acked_partial active iss lip lport rip rport evs later hst ht hst' he hc
  obtain ⟨k, h1, h2, h3, -⟩ := C52_prefix active iss lip lport rip rport h
  have h4 := ((ack_run evs (queue_opened active iss lip lport rip rport) (ack_opened active iss lip lport rip rport)).le
    (by simp at hst; exact hst)).2
  refine ⟨g, hg, hk, ?_⟩
  rw [h2, List.length_take]
  omega

/-! ### Examples -/

namespace Example.Session
open Sess

/-- A segment with a window, a window scale option and an MSS. -/
def wseg (syn ack : Bool) (seq ackn win : Nat) (sc : Option Nat) (mss : Nat) (data : Bytes) : TcpMd :=
  ⟨lip, 5000, rip, 80, syn, ack, false, false, seq, ackn, win, sc, mss, data⟩

/-- C57: the second data segment of `hist` is sent by the sixth event, and all the hypotheses hold. -/
example : (∀ m ∈ Spec.arrivals (hist.take 5), m.ack = true → m.ackn ≠ 100) ∧
    Spec.dataSent ((client.run (hist.take 5)).step .timer).out =
      Spec.dataSent (client.run (hist.take 5)).out ++ [⟨false, true, false, false, 105, 501, [11, 12]⟩] := by decide +kernel

/-- A small window stops the sender, a later segment opens it again. -/
example : (Spec.dataSent (client.run [.timer, .segment (wseg true true 500 101 3 none 10 []), .send [1, 2, 3, 4, 5], .timer, .timer]).out).map
      (fun g => (g.seq, g.data)) = [(101, [1, 2, 3])] ∧
    (Spec.dataSent (client.run [.timer, .segment (wseg true true 500 101 3 none 10 []), .send [1, 2, 3, 4, 5], .timer, .timer,
      .segment (wseg false true 501 104 4 none 0 []), .timer]).out).map (fun g => (g.seq, g.data)) = [(101, [1, 2, 3]), (104, [4, 5])] := by
  decide +kernel

/-- C58: data arrive, time passes, and the hypotheses hold; nothing is sent before. -/
example : let evs : List Ev := [.timer, .segment (seg true true false false 500 101 []), .timer, .segment (seg false true false false 501 101 [1, 2])]
    let later : List Ev := List.replicate 100 .clock
    (∀ m ∈ Spec.arrivals evs, m = seg true true false false 500 101 [] ∨ m = seg false true false false 501 101 [1, 2]) ∧
    (client.run evs).state = .established ∧ Spec.millis later = 100 ∧
    (client.run (evs ++ later)).state = .established ∧ ((client.run (evs ++ later)).fsm .timer).exc = none ∧
    (client.run (evs ++ later ++ [.timer])).state = .established ∧
    (Spec.sent (client.run (evs ++ later)).out).map (·.ackn) = [0, 501] ∧
    (Spec.sent (client.run (evs ++ later ++ [.timer])).out).map (·.ackn) = [0, 501, 503] := by
  decide +kernel

end Example.Session

/-- C57 fails after a retransmission timeout: the peer's window is one byte, and four are sent. -/
theorem C57_timeout : ∃ evs : List Ev, (∀ m ∈ Spec.arrivals evs, m.win = 1 ∧ m.ackn = 101 ∧ m.wscale = none) ∧
    ∃ g ∈ Spec.dataSent (Example.Session.client.run evs).out, g.seq = 101 ∧ g.data = [1, 2, 3, 4] := by
  refine ⟨[.timer, .segment (Example.Session.wseg true true 500 101 1 none 4 []), .send [1, 2, 3, 4], .timer] ++
    List.replicate 1000 .clock ++ [.timer], ?_, ⟨false, true, false, false, 101, 501, [1, 2, 3, 4]⟩, ?_⟩ <;> decide +kernel

/-- C57 fails for the window of the SYN|ACK: it says two bytes, and ten are sent, because the scale is applied to it. -/
theorem C57_syn_ack : ∃ evs : List Ev, ∃ y, Spec.arrivals evs = [y] ∧ Spec.advertised y y = 2 ∧
    ∃ g ∈ Spec.dataSent (Example.Session.client.run evs).out, g.seq = y.ackn ∧ g.data.length = 10 := by
  refine ⟨[.timer, .segment (Example.Session.wseg true true 500 101 2 (some 7) 10 []), .send [1, 2, 3, 4, 5, 6, 7, 8, 9, 10], .timer],
    Example.Session.wseg true true 500 101 2 (some 7) 10 [], rfl, rfl, ⟨false, true, false, false, 101, 501, [1, 2, 3, 4, 5, 6, 7, 8, 9, 10]⟩, ?_⟩
  decide +kernel

/-- C58 fails when the peer takes window back: every run of the timer method raises `AssertionError`, and the data that came with the
smaller window are not acknowledged in 300 milliseconds. -/
theorem C58_raises : ∃ evs : List Ev,
    (Example.Session.client.run evs).state = .established ∧ (Example.Session.client.run evs).rcvNxt = 502 ∧
    let t := Example.Session.client.run (evs ++ (List.replicate 300 [Ev.clock, Ev.timer]).flatten)
    t.state = .established ∧ (t.fsm .timer).exc = some .assertionError ∧ ∀ g ∈ Spec.sent t.out, g.ackn ≤ 501 := by
  refine ⟨[.timer, .segment (Example.Session.wseg true true 500 101 9 none 4 []), .send [1, 2, 3, 4], .timer,
    .segment (Example.Session.wseg false true 501 101 0 none 0 [7])], ?_⟩
  decide +kernel

end Verif
