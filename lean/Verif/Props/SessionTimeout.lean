import Verif.Lemmas.SessionTimeout
import Verif.Props.SessionEnd
/-! C56: retransmission. -/
namespace Verif
open Sess
open Verif.Spec (transmissions)

theorem bareAck_iff {q : Nat} {m : TcpMd} : Spec.BareAck q m ↔ isAck m = true ∧ m.data = [] ∧ m.ackn = q := by
  unfold Spec.BareAck isAck
  simp only [Bool.and_eq_true, Bool.not_eq_true']
  constructor
  · rintro ⟨a, b, c, d, e, f⟩; exact ⟨⟨⟨⟨a, b⟩, d⟩, c⟩, e, f⟩
  · rintro ⟨⟨⟨⟨a, b⟩, d⟩, c⟩, e, f⟩; exact ⟨a, b, c, d, e, f⟩

theorem run_append (s : Sess) (a b : List Ev) : s.run (a ++ b) = (s.run a).run b := by unfold run; rw [List.foldl_append]

theorem arrivals_append (a b : List Ev) : Spec.arrivals (a ++ b) = Spec.arrivals a ++ Spec.arrivals b := List.filterMap_append

/-- C56, the bound: a number that is the oldest one not acknowledged, and has been sent at most three times, is sent four times at
most, whatever happens - unless segments that only repeat the acknowledgement arrive, or are waiting in the reassembly queue.

Missing: such segments make the session send the number again without a bound (`C56_never_aborts`). -/
theorem C56_bounded_partial {iss q : Nat} (active : Bool) (lip : IpAddress) (lport : Nat) (rip : IpAddress) (rport : Nat)
    (evs later : List Ev) (h : ∀ m ∈ Spec.arrivals (evs ++ later), m.ack = true → m.rst = false → m.ackn ≠ iss) :
    let s := (opened active iss lip lport rip rport).run evs
    s.sndUna = q → transmissions q s.out ≤ 3 → (∀ e ∈ s.ooo, ¬ Spec.BareAck q e.2) → (∀ m ∈ Spec.arrivals later, ¬ Spec.BareAck q m) →
      transmissions q (s.run later).out ≤ 4 := by
  intro s hu ht hq hl
  rw [arrivals_append] at h
  have hS : SendInv iss s := send_run (fun m hm => h m (List.mem_append_left _ hm)) (send_opened active lip lport rip rport)
  have hC : CountInv s := count_run (fun m hm => h m (List.mem_append_left _ hm)) (send_opened active lip lport rip rport) (count_opened ..)
  have := send_keeps'' (iss := iss) (A := fun m => ¬ Spec.BareAck q m) (P := fun s => CountInv s ∧ Bound q s)
    (fun a b hS h hm => ⟨count_micro h.1 hm, bound_micro hS h.1 h.2 (fun m hm x => hm.2 (bareAck_iff.2 x)) hm⟩)
    (fun a b h hb => ⟨h.1.aside hb, h.2.same (by rw [hb.1]) (by rw [hb.1]) hb.2.2 (fun x => by rw [hb.1] at x; exact x)⟩)
    (fun s h => ⟨h.1.clock, h.2.same rfl rfl rfl id⟩)
    (s := s) (evs := later) (fun m hm => ⟨h m (List.mem_append_right _ hm), hl m hm⟩) hS
    ⟨fun e he => ⟨(hS.queue.each e he).1, (hS.queue.each e he).2.1, (hS.queue.each e he).2.2, hq e he⟩, hS.queue.early⟩
    ⟨hC, ⟨by omega, by omega, fun _ _ _ => ht⟩⟩
  exact this.2.2.four

/-- C56, the growing timeout: when the oldest number not acknowledged has just been sent for the `k`-th time, then it is not sent
again before `1000 * 2 ^ (k - 1)` milliseconds have passed, whatever happens - with the same exception.

Missing: the same as above. -/
theorem C56_spacing_partial {iss q : Nat} (active : Bool) (lip : IpAddress) (lport : Nat) (rip : IpAddress) (rport : Nat)
    (evs : List Ev) (e : Ev) (later : List Ev) (h : ∀ m ∈ Spec.arrivals (evs ++ e :: later), m.ack = true → m.rst = false → m.ackn ≠ iss) :
    let s := (opened active iss lip lport rip rport).run evs
    let k := transmissions q (s.step e).out
    s.sndUna = q → transmissions q s.out < k → (∀ e ∈ s.ooo, ¬ Spec.BareAck q e.2) →
      (∀ m ∈ Spec.arrivals (e :: later), ¬ Spec.BareAck q m) → Spec.millis later < 1000 * 2 ^ (k - 1) →
      transmissions q (s.run (e :: later)).out = k := by
  intro s k hu hk hq hl hms
  rw [arrivals_append] at h
  have hpre : ∀ m ∈ Spec.arrivals evs, AckOk iss m := fun m hm => h m (List.mem_append_left _ hm)
  have hpost : ∀ m ∈ Spec.arrivals (e :: later), AckOk iss m := fun m hm => h m (List.mem_append_right _ hm)
  have hS : SendInv iss s := send_run hpre (send_opened active lip lport rip rport)
  have hC : CountInv s := count_run hpre (send_opened active lip lport rip rport) (count_opened ..)
  have hqu : Queue (fun m => AckOk iss m ∧ ¬ Spec.BareAck q m) s :=
    ⟨fun e he => ⟨(hS.queue.each e he).1, (hS.queue.each e he).2.1, (hS.queue.each e he).2.2, hq e he⟩, hS.queue.early⟩
  have hcons : Spec.arrivals (e :: later) = Spec.arrivals [e] ++ Spec.arrivals later := arrivals_append [e] later
  rw [hcons] at hl hpost
  have hB : ∀ m, (AckOk iss m ∧ ¬ Spec.BareAck q m) → ¬ (isAck m = true ∧ m.data = [] ∧ m.ackn = q) := fun m hm x => hm.2 (bareAck_iff.2 x)
  have he : e ≠ .clock := by
    rintro rfl
    exact absurd hk (Nat.lt_irrefl _)
  obtain ⟨hS1, hQ1, hC1, hF1⟩ := step_keeps (P := fun b => CountInv b ∧ Fresh q (transmissions q s.out) b)
    (fun a b hS h hm => ⟨count_micro h.1 hm, fresh_micro hS h.1 h.2 hB hm⟩)
    (fun a b h hb => ⟨h.1.aside hb, by rw [hb.1]; exact h.2.1, by
      rcases h.2.2 with x | x
      · exact .inl (by rw [transmissions_eq hb.2.2, x])
      · exact .inr (x.aside hb)⟩)
    he (fun m hm => ⟨hpost m (List.mem_append_left _ hm), hl m (List.mem_append_left _ hm)⟩) hS hqu ⟨hC, by omega, .inl rfl⟩
  rcases hF1.2 with x | x
  · exact absurd hk (by show ¬ _ < transmissions q (s.step e).out; omega)
  · have hke : k = transmissions q s.out + 1 := x.count
    rw [hke, Nat.add_sub_cancel] at hms
    rw [hke]
    show transmissions q ((s.step e).run later).out = _
    exact hold_run (A := fun m => ¬ Spec.BareAck q m) (fun m hm y => hm (bareAck_iff.2 y))
      (fun m hm => ⟨hpost m (List.mem_append_right _ hm), hl m (List.mem_append_right _ hm)⟩) hS1 hQ1 hC1 x (by have := Int.ofNat_lt.2 hms; rw [Int.natCast_mul, Int.natCast_pow] at this; exact this)

/-- C56, the end: when nothing arrives for 15 seconds (the timeouts of the four transmissions), and the oldest number not acknowledged
has been sent at most four times, the session sends a RST and is closed.

Missing: what was sent must be in flight (`C56_never_retransmitted` is a state in which it is and has no timer); the counter must not
have been pushed past the limit (`C56_never_aborts`); the peer's MSS must not be 0; and a session closed before it was opened, with
the number 0, is left out. -/
theorem C56_silent_partial {iss q : Nat} (active : Bool) (lip : IpAddress) (lport : Nat) (rip : IpAddress) (rport : Nat)
    (evs : List Ev) (h : ∀ m ∈ Spec.arrivals evs, m.ack = true → m.rst = false → m.ackn ≠ iss) (blocks : List (List Ev))
    (hb : ∀ b ∈ blocks, Spec.Quiet b) (hn : 15000 ≤ blocks.length) :
    let s := (opened active iss lip lport rip rport).run evs
    Retransmits s.state → s.sndUna = q → q < s.sndNxt → 1 ≤ transmissions q s.out → transmissions q s.out ≤ 4 →
      s.rcvNxt ≤ 0xFFFFFFFF → (s.state = .established ∨ s.state = .closeWait → s.sndMss ≠ 0) →
      (s.state = .finWait1 ∨ s.state = .lastAck → s.sndFin ≠ q) →
      (s.run blocks.flatten).state = .closed ∧
        ∃ g ∈ Spec.sent (s.run blocks.flatten).out, g.rst = true ∧ g.ack = true ∧ g.seq = q := by
  intro s hst hu hnx h1 h4 hr hm hf
  have hS : SendInv iss s := send_run h (send_opened active lip lport rip rport)
  have hC : CountInv s := count_run h (send_opened active lip lport rip rport) (count_opened ..)
  have hT : TimerInv s := timer_run h (send_opened active lip lport rip rport) (timer_opened ..)
  have hF : Fits s := fits_run active lip lport rip rport h
  have hcnt := hC.count q (by omega)
  unfold counted at hcnt
  cases htmo : s.txTmo.get? q with
  | none => rw [htmo] at hcnt; dsimp only at hcnt; omega
  | some c =>
    rw [htmo] at hcnt
    dsimp only at hcnt
    have hq : q ≤ 0xFFFFFFFF := by
      obtain ⟨g, hg⟩ := List.exists_mem_of_length_pos (l := (Spec.sent s.out).filter fun g => g.seq = q ∧ (g.data ≠ [] ∨ g.syn ∨ g.fin))
        (by change 0 < transmissions q s.out; omega)
      obtain ⟨g1, g2⟩ := List.mem_filter.1 hg
      have := (hF g g1).1
      simp at g2
      omega
    have hw : Waits iss q c s := ⟨hS, hT, hst, hu, hnx, htmo, hm, hf, hq, hr⟩
    have hleft : s.left q ≤ 1000 * 2 ^ c := by
      unfold left
      cases hv : s.timers.get? (.retransmit q) with
      | none =>
        have : (0 : Int) < 2 ^ c := Int.pow_pos (by decide)
        simp
        omega
      | some v => exact (hT.run q c v htmo hv).2
    have := hw.silent (by omega) (n := 15000) ?_ hb hn
    · obtain ⟨k1, r, k2⟩ := this
      exact ⟨k1, _, k2, rfl, rfl, rfl⟩
    · have hc : c = 0 ∨ c = 1 ∨ c = 2 ∨ c = 3 := by omega
      rcases hc with rfl | rfl | rfl | rfl <;> simp at hleft ⊢ <;> omega

namespace Example.Session

/-- The client of `connected` has sent two bytes in one segment. -/
def sending : List Ev := [.timer, .segment (seg true true false false 500 101 []), .send [7, 8], .timer]

/-- C56: the hypotheses of `C56_bounded_partial`, `C56_spacing_partial` (for the last event) and `C56_silent_partial` hold. -/
example : (∀ m ∈ Spec.arrivals sending, m.ack = true → m.ackn ≠ 100) ∧ (client.run sending).sndUna = 101 ∧
    transmissions 101 (client.run sending).out = 1 ∧ transmissions 101 (client.run (sending.take 3)).out = 0 ∧
    (client.run (sending.take 3)).sndUna = 101 ∧ (client.run sending).ooo = [] ∧ (client.run (sending.take 3)).ooo = [] ∧
    Retransmits (client.run sending).state ∧ 101 < (client.run sending).sndNxt ∧ (client.run sending).rcvNxt ≤ 0xFFFFFFFF ∧
    (client.run sending).sndMss ≠ 0 := by
  unfold Retransmits
  decide +kernel

/-- A quiet millisecond. -/
example : Spec.Quiet [.clock, .send [1], .timer, .recvAcquire] :=
  .ms (a := [.send [1]]) (b := [.recvAcquire]) (fun e he => by simp at he; rw [he]; exact .send _)
    (fun e he => by simp at he; rw [he]; exact .recvAcquire)

/-- The peer repeats an acknowledgement, and each time the session sends the segment again. -/
def repeated : List Ev :=
  sending ++ [.segment (seg false true false false 501 101 []), .segment (seg false true false false 501 101 []), .timer,
    .segment (seg false true false false 501 101 []), .timer, .segment (seg false true false false 501 101 []), .timer,
    .segment (seg false true false false 501 101 []), .timer]

end Example.Session

/-- C56 fails: after repeated acknowledgements the segment has been sent five times, the counter has jumped over the limit, and the
session is not closed however long the peer is silent. -/
theorem C56_never_aborts : ∃ evs : List Ev, transmissions 101 (Example.Session.client.run evs).out = 5 ∧
    ∀ blocks : List (List Ev), (∀ b ∈ blocks, Spec.Quiet b) → (Example.Session.client.run (evs ++ blocks.flatten)).state ≠ .closed := by
  refine ⟨Example.Session.repeated, by decide +kernel, fun blocks hb => ?_⟩
  rw [run_append]
  have ha : ∀ m ∈ Spec.arrivals Example.Session.repeated, AckOk 100 m := by unfold AckOk; decide +kernel
  have hw : Waits 100 101 4 (Example.Session.client.run Example.Session.repeated) := by
    refine ⟨send_run ha (send_opened ..), timer_run ha (send_opened ..) (timer_opened ..), ?_, ?_, ?_, ?_, ?_, ?_, ?_⟩
    · unfold Retransmits; decide +kernel
    all_goals decide +kernel
  obtain ⟨c, _, hw⟩ := hw.forever (by decide) blocks hb
  rcases hw.state with x | x | x | x | x | x <;> rw [x] <;> decide

/-- Nothing to do. -/
structure Idle (s : Sess) : Prop where
  state : s.state = .established
  tmo : s.txTmo = []
  window : s.inWindow
  all : s.tx.length = s.txNxt
  rcv : s.rcvNxt ≤ s.rcvUna
  closes : s.closes = false

theorem Idle.round {s : Sess} (h : Idle s) : Idle (s.run [.clock, .timer]) ∧ (s.run [.clock, .timer]).sndUna = s.sndUna ∧
    Spec.sent (s.run [.clock, .timer]).out = Spec.sent s.out := by
  have hc : Idle s.clock := ⟨h.state, h.tmo, h.window, h.all, h.rcv, h.closes⟩
  have key : s.clock.fsm .timer = ok s.clock ∨ s.clock.fsm .timer = ok (s.clock.setTimer .delayedAck 100) := by
    rw [fsm_timer (by rw [hc.state]; simp [Retransmits])]
    have h1 : s.clock.retransmitTimeout = ok s.clock := by unfold retransmitTimeout; rw [hc.tmo]; rfl
    have h2 : s.clock.transmitData = ok s.clock := by
      unfold transmitData
      rw [if_neg (Classical.not_not.2 (show s.clock.sndUna ≤ s.clock.sndNxt ∧ s.clock.sndNxt ≤ s.clock.sndUna + s.clock.sndEwn from hc.window)), if_neg (by simp [hc.state]), if_neg (by simp [hc.state])]
      dsimp only
      rw [if_neg (by rw [hc.all]; simp), if_neg (by simp [hc.state])]
    rw [h1, next_ok, h2, next_ok, hc.state]
    unfold rest
    rw [if_pos (.inl rfl)]
    unfold delayedAck
    have hr : ¬ s.clock.rcvNxt > s.clock.rcvUna := by have := hc.rcv; omega
    split
    · right
      rw [next_ok, next_ok]
      simp [hc.closes, setTimer]
    · left
      rw [next_ok]
      simp [hc.closes]
  have hrun : s.run [.clock, .timer] = (s.clock.fsm .timer).done := rfl
  rw [hrun]
  rcases key with x | x <;> rw [x]
  · exact ⟨hc, rfl, rfl⟩
  · exact ⟨⟨hc.state, hc.tmo, hc.window, hc.all, hc.rcv, hc.closes⟩, rfl, rfl⟩

theorem Idle.rounds {s : Sess} (h : Idle s) (n : Nat) : Idle (s.run (List.replicate n [.clock, .timer]).flatten) ∧
    (s.run (List.replicate n [.clock, .timer]).flatten).sndUna = s.sndUna ∧
    Spec.sent (s.run (List.replicate n [.clock, .timer]).flatten).out = Spec.sent s.out := by
  induction n generalizing s with
  | zero => exact ⟨h, rfl, rfl⟩
  | succ n ih =>
    rw [List.replicate_succ, run_blocks]
    obtain ⟨h1, h2, h3⟩ := h.round
    obtain ⟨k1, k2, k3⟩ := ih h1
    exact ⟨k1, k2.trans h2, k3.trans h3⟩

/-- C56 fails: the peer acknowledges the first of the two bytes of a segment.  The second is never sent again, and the session is not
closed, however long the peer is silent. -/
theorem C56_never_retransmitted : ∃ evs : List Ev, Spec.accepted (Example.Session.client.run evs).out = [7, 8] ∧
    (Example.Session.client.run evs).sndUna = 102 ∧
    ∀ n : Nat, let s := Example.Session.client.run (evs ++ (List.replicate n [.clock, .timer]).flatten)
      s.state = .established ∧ s.sndUna = 102 ∧ (Spec.sent s.out).filter (fun g => g.data ≠ []) = [⟨false, true, false, false, 101, 501, [7, 8]⟩] := by
  refine ⟨Example.Session.sending ++ [.segment (Example.Session.seg false true false false 501 102 [])], by decide +kernel, by decide +kernel,
    fun n => ?_⟩
  intro s
  have hi : Idle (Example.Session.client.run (Example.Session.sending ++ [.segment (Example.Session.seg false true false false 501 102 [])])) := by
    refine ⟨?_, ?_, ?_, ?_, ?_, ?_⟩
    · decide +kernel
    · decide +kernel
    · unfold inWindow; decide +kernel
    all_goals decide +kernel
  have := hi.rounds n
  rw [← run_append] at this
  refine ⟨this.1.state, this.2.1.trans (by decide +kernel), ?_⟩
  rw [show Spec.sent s.out = _ from this.2.2]
  decide +kernel

end Verif
