import Verif.Lemmas.LiveTime
import Verif.Spec.Release
/-! One end of a connection that is being closed. -/
namespace Verif.Release
open Verif Spec Sess

/-- Nothing is left in the buffers that matters. -/
structure Base (s : Sess) (st : FsmState) (r : Nat) (W : Bytes) : Prop where
  state : s.state = st
  ooo : s.ooo = []
  tx : s.tx = []
  rcv : s.rcvNxt = r
  ewn : 1 ≤ s.sndEwn
  wsc : s.sndWsc = 1
  nodup : (Dict.keys s.timers).Nodup
  got : s.delivered = W

/-- Everything sent has been acknowledged; the next number is `x`. -/
structure Rest (s : Sess) (st : FsmState) (x r : Nat) (W : Bytes) : Prop where
  base : Base s st r W
  una : s.sndUna = x
  nxt : s.sndNxt = x
  max : s.sndMax = x
  mod : s.seqMod = x
  fin : s.sndFin = 0
  pos : 1 ≤ x
  tmo : ∀ q, x ≤ q → s.txTmo.get? q = none

/-- The FIN was sent at `t` and has not been acknowledged. -/
structure FinOut (s : Sess) (st : FsmState) (x r : Nat) (W : Bytes) (t now : Nat) : Prop where
  base : Base s st r W
  una : s.sndUna = x
  nxt : s.sndNxt = x + 1
  max : s.sndMax = x + 1
  mod : s.seqMod = (x : Int) + 1
  fin : s.sndFin = x + 1
  tmo : s.txTmo.get? x = some 0
  timer : s.timers.get? (.retransmit x) = some ((t : Int) + 1000 - now)

/-- The FIN has been acknowledged. -/
structure FinDone (s : Sess) (st : FsmState) (x r : Nat) (W : Bytes) : Prop where
  base : Base s st r W
  una : s.sndUna = x + 1
  nxt : s.sndNxt = x + 1
  max : s.sndMax = x + 1
  mod : s.seqMod = (x : Int) + 1

/-- The session waits out its time, since `t`. -/
structure Waits (s : Sess) (W : Bytes) (t now : Nat) : Prop where
  state : s.state = .timeWait
  got : s.delivered = W
  nodup : (Dict.keys s.timers).Nodup
  timer : s.timers.get? .timeWait = some ((t : Int) + 30000 - now)

/-- The session is over. -/
structure Gone (s : Sess) (W : Bytes) : Prop where
  state : s.state = .closed
  got : s.delivered = W
  registered : s.registered = false

/-- The delayed acknowledgement timer is in its range. -/
def DelayOk (s : Sess) : Prop := ∀ v, s.timers.get? .delayedAck = some v → 1 ≤ v ∧ v ≤ 100

/-! ### Calls -/

/-- The application looks at what is there, or closes. -/
structure Looks (s s' : Sess) : Prop where
  eq : s' = { s with rx := s'.rx, evConnect := s'.evConnect, evRx := s'.evRx, readers := s'.readers, closes := s'.closes, out := s'.out }
  sent : Spec.sent s'.out = Spec.sent s.out
  accepted : Spec.accepted s'.out = Spec.accepted s.out
  got : s'.delivered = s.delivered

theorem looks_refl (s : Sess) : Looks s s := ⟨rfl, rfl, rfl, rfl⟩

theorem looks_reads {s : Sess} {e : Ev} (h : Reads e) : Looks s (s.step e) ∧ (s.step e).closes = s.closes := by
  obtain ⟨hc, hs⟩ := h
  have := call (s := s) hc
  obtain ⟨h1, h2, h3⟩ := this
  cases hc with
  | send d => exact absurd rfl (hs d)
  | recvAcquire =>
    refine ⟨⟨?_, h1.2.2, ?_, h2⟩, ?_⟩
    · simp only [Sess.step]
      unfold recvAcquire; split <;> rfl
    · show Spec.accepted s.recvAcquire.out = _
      unfold recvAcquire; split <;> rfl
    · show s.recvAcquire.closes = _
      unfold recvAcquire; split <;> rfl
  | recvTake n =>
    refine ⟨⟨?_, h1.2.2, ?_, h2⟩, ?_⟩
    · simp only [Sess.step]
      rcases recvTake_cases s n with x | ⟨k, e, x⟩ <;> rw [x]
    · show Spec.accepted (s.recvTake n).out = _
      rcases recvTake_cases s n with x | ⟨k, e, x⟩ <;> rw [x] <;> simp
    · show (s.recvTake n).closes = _
      rcases recvTake_cases s n with x | ⟨k, e, x⟩ <;> rw [x]
  | connectReturn =>
    refine ⟨⟨?_, h1.2.2, ?_, h2⟩, ?_⟩
    · simp only [Sess.step]
      unfold connectReturn emit
      split
      · rfl
      · dsimp only; split
        · rfl
        · split <;> rfl
    · obtain ⟨d, h4, h5, -⟩ := h3
      have : d = [] := by
        have : (s.step .connectReturn).tx = s.tx := by
          simp only [Sess.step]
          unfold connectReturn emit
          split
          · rfl
          · dsimp only; split
            · rfl
            · split <;> rfl
        rw [this] at h4
        exact List.self_eq_append_right.1 h4
      rw [h5, this, List.append_nil]
    · simp only [Sess.step]
      unfold connectReturn emit
      split
      · rfl
      · dsimp only; split
        · rfl
        · split <;> rfl

theorem looks_close {s : Sess} (h : s.state = .established ∨ s.state = .finWait1 ∨ s.state = .finWait2 ∨ s.state = .closeWait ∨ s.state = .lastAck ∨
    s.state = .timeWait ∨ s.state = .closed) :
    Looks s (s.step .close) ∧ (s.step .close = { s with closes := true } ∨ s.step .close = s ∧ s.state ≠ .established ∧ s.state ≠ .closeWait) := by
  have e : s.step .close = { s with closes := true } ∨ s.step .close = s ∧ s.state ≠ .established ∧ s.state ≠ .closeWait := by
    generalize hS : ({ s with closes := true } : Sess) = S
    show (s.fsm (.sys .close)).done = _ ∨ (s.fsm (.sys .close)).done = _ ∧ _
    unfold fsm fsmFuel fsmWith
    rcases h with x | x | x | x | x | x | x <;> rw [x]
    · exact .inl hS
    · exact .inr ⟨rfl, by simp⟩
    · exact .inr ⟨rfl, by simp⟩
    · exact .inl hS
    · exact .inr ⟨rfl, by simp⟩
    · exact .inr ⟨rfl, by simp⟩
    · exact .inr ⟨rfl, by simp⟩
  refine ⟨?_, e⟩
  rcases e with e | ⟨e, -⟩ <;> rw [e]
  · exact ⟨rfl, rfl, rfl, rfl⟩
  · exact looks_refl s

section
variable {s s' : Sess} {st : FsmState} {x r : Nat} {W : Bytes} {t now : Nat}

theorem Base.looks (h : Base s st r W) (hl : Looks s s') : Base s' st r W := by
  have e := hl.eq
  exact ⟨by rw [e]; exact h.state, by rw [e]; exact h.ooo, by rw [e]; exact h.tx, by rw [e]; exact h.rcv, by rw [e]; exact h.ewn,
    by rw [e]; exact h.wsc, by rw [e]; exact h.nodup, by rw [hl.got]; exact h.got⟩

theorem Rest.looks (h : Rest s st x r W) (hl : Looks s s') : Rest s' st x r W := by
  have e := hl.eq
  exact ⟨h.base.looks hl, by rw [e]; exact h.una, by rw [e]; exact h.nxt, by rw [e]; exact h.max, by rw [e]; exact h.mod, by rw [e]; exact h.fin,
    h.pos, by rw [e]; exact h.tmo⟩

theorem FinOut.looks (h : FinOut s st x r W t now) (hl : Looks s s') : FinOut s' st x r W t now := by
  have e := hl.eq
  exact ⟨h.base.looks hl, by rw [e]; exact h.una, by rw [e]; exact h.nxt, by rw [e]; exact h.max, by rw [e]; exact h.mod, by rw [e]; exact h.fin,
    by rw [e]; exact h.tmo, by rw [e]; exact h.timer⟩

theorem FinDone.looks (h : FinDone s st x r W) (hl : Looks s s') : FinDone s' st x r W := by
  have e := hl.eq
  exact ⟨h.base.looks hl, by rw [e]; exact h.una, by rw [e]; exact h.nxt, by rw [e]; exact h.max, by rw [e]; exact h.mod⟩

theorem Waits.looks (h : Waits s W t now) (hl : Looks s s') : Waits s' W t now := by
  have e := hl.eq
  exact ⟨by rw [e]; exact h.state, by rw [hl.got]; exact h.got, by rw [e]; exact h.nodup, by rw [e]; exact h.timer⟩

theorem Gone.looks (h : Gone s W) (hl : Looks s s') : Gone s' W := by
  have e := hl.eq
  exact ⟨by rw [e]; exact h.state, by rw [hl.got]; exact h.got, by rw [e]; exact h.registered⟩

theorem DelayOk.looks (h : DelayOk s) (hl : Looks s s') : DelayOk s' := by
  have e := hl.eq
  unfold DelayOk
  rw [e]; exact h

theorem Looks.dl (hl : Looks s s') : s'.dl = s.dl := by
  have e := hl.eq
  unfold Sess.dl
  rw [e]

/-! ### Milliseconds -/

theorem Base.clock (h : Base s st r W) : Base s.clock st r W :=
  ⟨h.state, h.ooo, h.tx, h.rcv, h.ewn, h.wsc, nodup_clock h.nodup, h.got⟩

theorem Rest.clock (h : Rest s st x r W) : Rest s.clock st x r W :=
  ⟨h.base.clock, h.una, h.nxt, h.max, h.mod, h.fin, h.pos, h.tmo⟩

theorem FinOut.clock (h : FinOut s st x r W t now) (hn : now + 1 < t + 1000) : FinOut s.clock st x r W t (now + 1) := by
  refine ⟨h.base.clock, h.una, h.nxt, h.max, h.mod, h.fin, h.tmo, ?_⟩
  rw [clock_get h.base.nodup, h.timer, Option.bind_some, if_neg (by omega)]
  exact congrArg some (by omega)

theorem FinDone.clock (h : FinDone s st x r W) : FinDone s.clock st x r W := ⟨h.base.clock, h.una, h.nxt, h.max, h.mod⟩

theorem DelayOk.clock (h : DelayOk s) (hk : (Dict.keys s.timers).Nodup) : DelayOk s.clock := by
  intro v hv
  rw [clock_get hk] at hv
  cases hw : s.timers.get? .delayedAck with
  | none => rw [hw] at hv; cases hv
  | some w =>
    rw [hw] at hv
    have := h w hw
    rw [Option.bind_some] at hv
    split at hv
    · cases hv
    · cases hv; omega

theorem Rest.timeout (h : Rest s st x r W) : s.retransmitTimeout = ok s := by
  refine timeout_ok fun c hc => ?_
  rw [h.una, h.tmo x (Nat.le_refl _)] at hc
  cases hc

theorem FinOut.timeout (h : FinOut s st x r W t now) (hn : now < t + 1000) : s.retransmitTimeout = ok s := by
  refine timeout_ok fun c hc => ?_
  unfold expired
  rw [h.una, h.timer]
  simp
  omega

/-- In these states nothing is to be transmitted. -/
theorem Rest.transmit (h : Rest s st x r W) (hst : st = .established ∨ st = .closeWait) : s.transmitData = ok s := by
  have hn : s.txNxt = 0 := by unfold txNxt; rw [h.nxt, h.mod]; simp
  have := h.base.state
  unfold transmitData
  rw [if_neg (by rw [h.una, h.nxt]; simp), if_neg (by rw [this]; rcases hst with y | y <;> simp [y]),
    if_neg (by rw [this]; rcases hst with y | y <;> simp [y])]
  dsimp only
  rw [hn, h.base.tx, if_neg (by simp), if_neg (by rw [this]; rcases hst with y | y <;> simp [y])]

theorem FinOut.transmit (h : FinOut s st x r W t now) (hst : st = .finWait1 ∨ st = .lastAck) : s.transmitData = ok s := by
  have := h.base.state
  have := h.base.ewn
  unfold transmitData
  rw [if_neg (by rw [h.una, h.nxt]; simp; omega), if_neg (by rw [h.base.state]; rcases hst with y | y <;> simp [y]),
    if_neg (by rw [h.base.state]; rcases hst with y | y <;> simp [y])]
  dsimp only
  rw [if_neg (by rw [h.base.state]; rcases hst with y | y <;> simp [y]), if_neg (by rw [h.nxt, h.fin]; simp)]

/-- The acknowledgement of an end that has nothing to send. -/
def ackOf (x r : Nat) : Seg := ⟨false, true, false, false, x, r, []⟩
/-- Its FIN. -/
def finOf (x r : Nat) : Seg := ⟨false, true, true, false, x, r, []⟩

theorem fsm_timer_open (h : s.state = .established ∨ s.state = .closeWait) :
    s.fsm .timer = s.retransmitTimeout.next fun s' => s'.transmitData.next fun s' => s'.delayedAck.next fun s' =>
      if s'.closes ∧ s'.tx = [] then s'.changeState (if s.state = .established then .finWait1 else .lastAck) else ok s' := by
  unfold fsm fsmFuel fsmWith
  rcases h with y | y <;> rw [y] <;> rfl

theorem fsm_timer_fin (h : s.state = .finWait1 ∨ s.state = .lastAck) : s.fsm .timer = s.retransmitTimeout.next fun s => s.transmitData := by
  unfold fsm fsmFuel fsmWith
  rcases h with y | y <;> rw [y] <;> rfl

/-- What the delayed acknowledgement does. -/
structure Naps (s : Sess) (x r : Nat) (s' : Sess) (new : List Seg) : Prop where
  eq : s' = { s with timers := s'.timers, rcvUna := s'.rcvUna, out := s.out ++ new.map .sent }
  nodup : (Dict.keys s'.timers).Nodup
  delay : DelayOk s'
  what : (new = [] ∧ s'.rcvUna = s.rcvUna ∧ (s.rcvUna < r → 1 ≤ s'.dl ∧ s'.dl + 1 = s.dl)) ∨ (new = [ackOf x r] ∧ s'.rcvUna = r ∧ s.rcvUna < r)

theorem Rest.nap (h : Rest s st x r W) (hst : st = .established ∨ st = .closeWait) (hd : DelayOk s) (h1 : x ≤ 0xFFFFFFFF) (h2 : r ≤ 0xFFFFFFFF) :
    ∃ s' new, s.clock.delayedAck = ok s' ∧ Naps s x r s' new := by
  have hc := h.clock
  have hk := hd.clock h.base.nodup
  have hn := nodup_clock h.base.nodup
  by_cases he : s.clock.expired .delayedAck = true
  · unfold delayedAck
    rw [if_pos he]
    by_cases hr : s.clock.rcvNxt > s.clock.rcvUna
    · rw [if_pos hr]
      obtain ⟨T, hT⟩ : ∃ T, s.clock.transmitPacket none false true false false [] = ok { s.clock with
          timers := T, rcvUna := s.rcvNxt, out := s.out ++ [.sent (ackOf x r)] } ∧ (Dict.keys T).Nodup := by
        have e1 : s.clock.sndNxt = x := h.nxt
        have e2 : s.clock.rcvNxt = r := h.base.rcv
        have e3 : s.clock.sndMax = x := h.max
        have e4 : s.clock.out = s.out := rfl
        have e5 : s.rcvNxt = r := h.base.rcv
        unfold transmitPacket
        by_cases hs : s.clock.state = .established
        · refine ⟨s.clock.timers.set .delayedAck 100, ?_, Dict.nodup_set _ _ hn⟩
          simp [e1, e2, e3, e4, e5, h1, h2, hs, emit, setTimer, ok, ackOf]
        · refine ⟨s.clock.timers, ?_, hn⟩
          simp [e1, e2, e3, e4, e5, h1, h2, hs, emit, ok, ackOf]
      rw [hT.1, ok_next]
      refine ⟨_, [ackOf x r], rfl, rfl, Dict.nodup_set _ _ hT.2, ?_, .inr ⟨rfl, h.base.rcv, ?_⟩⟩
      · intro v hv
        have : (setTimer { s.clock with timers := T, rcvUna := s.rcvNxt, out := s.out ++ [.sent (ackOf x r)] } .delayedAck 100).timers.get? .delayedAck = some 100 :=
          Dict.get?_set_self ..
        rw [this] at hv
        cases hv; omega
      · have := h.base.rcv
        have hr' : s.rcvNxt > s.rcvUna := hr
        omega
    · rw [if_neg hr, ok_next]
      refine ⟨_, [], rfl, ?_, Dict.nodup_set _ _ hn, ?_, .inl ⟨rfl, rfl, fun hlt => ?_⟩⟩
      · simp [setTimer, Sess.clock]
      · intro v hv
        have : (s.clock.setTimer .delayedAck 100).timers.get? .delayedAck = some 100 := Dict.get?_set_self ..
        rw [this] at hv
        cases hv; omega
      · have := h.base.rcv
        have hr' : ¬ s.rcvNxt > s.rcvUna := hr
        omega
  · unfold delayedAck
    rw [if_neg he]
    refine ⟨s.clock, [], rfl, by simp [Sess.clock], hn, hk, .inl ⟨rfl, rfl, fun _ => ?_⟩⟩
    unfold expired at he
    unfold dl
    rw [clock_get h.base.nodup] at he ⊢
    cases hw : s.timers.get? .delayedAck with
    | none => rw [hw] at he; exact absurd rfl he
    | some w =>
      have := hd w hw
      rw [hw, Option.bind_some] at he
      rw [Option.bind_some]
      split
      · rename_i h0; rw [if_pos h0] at he; exact absurd rfl he
      · simp; omega

/-- Where a session goes that has closed. -/
def onward (st : FsmState) : FsmState := if st = .established then .finWait1 else .lastAck

theorem Rest.tick_open (h : Rest s st x r W) (hst : st = .established ∨ st = .closeWait) (hd : DelayOk s) (h1 : x ≤ 0xFFFFFFFF) (h2 : r ≤ 0xFFFFFFFF) :
    ∃ s' new, Naps s x r s' new ∧
      s.tick = if s.closes then { s' with state := onward st, out := s'.out ++ [.moved st (onward st)] } else s' := by
  obtain ⟨s', new, e, hn⟩ := h.nap hst hd h1 h2
  refine ⟨s', new, hn, ?_⟩
  have hs : s.clock.state = st := h.base.state
  show (s.clock.fsm .timer).done = _
  rw [fsm_timer_open (by rw [hs]; exact hst), h.clock.timeout, ok_next, h.clock.transmit hst, ok_next, e, ok_next, hs]
  have e1 : s'.closes = s.closes := by rw [hn.eq]
  have e2 : s'.tx = [] := by rw [hn.eq]; exact h.base.tx
  have e3 : s'.state = st := by rw [hn.eq]; exact h.base.state
  rw [e1, e2]
  by_cases hc : s.closes = true
  · rw [if_pos ⟨hc, rfl⟩, if_pos hc]
    rcases hst with y | y <;> subst y <;> simp [changeState, onward, ok, Res.done, e3, e2, e1]
  · rw [if_neg (fun k => hc k.1), if_neg hc]
    rfl

theorem delivered_more {l : List Out} (hl : Spec.received l = []) : received (s.out ++ l) ++ s.rx = s.delivered := by
  rw [received_append, hl, List.append_nil]
  rfl

theorem received_sents (l : List Seg) : received (l.map .sent) = [] := by
  induction l with
  | nil => rfl
  | cons g l ih => exact ih

theorem Naps.rest {new : List Seg} (hn : Naps s x r s' new) (h : Rest s st x r W) : Rest s' st x r W := by
  have e := hn.eq
  refine ⟨⟨by rw [e]; exact h.base.state, by rw [e]; exact h.base.ooo, by rw [e]; exact h.base.tx, by rw [e]; exact h.base.rcv,
    by rw [e]; exact h.base.ewn, by rw [e]; exact h.base.wsc, hn.nodup, ?_⟩, by rw [e]; exact h.una, by rw [e]; exact h.nxt, by rw [e]; exact h.max,
    by rw [e]; exact h.mod, by rw [e]; exact h.fin, h.pos, by rw [e]; exact h.tmo⟩
  rw [← h.base.got]
  unfold Sess.delivered
  rw [show s'.rx = s.rx by rw [e], show s'.out = s.out ++ new.map .sent by rw [e]]
  exact delivered_more (received_sents new)

theorem Naps.sent {new : List Seg} (hn : Naps s x r s' new) : Spec.sent s'.out = Spec.sent s.out ++ new := by
  rw [show s'.out = s.out ++ new.map .sent by rw [hn.eq], sent_append, sent_sents]

/-- What one millisecond does to an end that has nothing to send and has not closed. -/
theorem Rest.stays (h : Rest s st x r W) (hst : st = .established ∨ st = .closeWait) (hd : DelayOk s) (h1 : x ≤ 0xFFFFFFFF) (h2 : r ≤ 0xFFFFFFFF)
    (hc : s.closes = false) :
    Rest s.tick st x r W ∧ DelayOk s.tick ∧ s.tick.closes = false ∧ ∃ new, Spec.sent s.tick.out = Spec.sent s.out ++ new ∧
      ((new = [] ∧ s.tick.rcvUna = s.rcvUna ∧ (s.rcvUna < r → 1 ≤ s.tick.dl ∧ s.tick.dl + 1 = s.dl)) ∨
        (new = [ackOf x r] ∧ s.tick.rcvUna = r ∧ s.rcvUna < r)) := by
  obtain ⟨s', new, hn, e⟩ := h.tick_open hst hd h1 h2
  rw [hc, if_neg (by simp)] at e
  rw [e]
  exact ⟨hn.rest h, hn.delay, by rw [hn.eq]; exact hc, new, hn.sent, hn.what⟩

/-- The same for one that has closed. -/
theorem Rest.moves (h : Rest s st x r W) (hst : st = .established ∨ st = .closeWait) (hd : DelayOk s) (h1 : x ≤ 0xFFFFFFFF) (h2 : r ≤ 0xFFFFFFFF)
    (hc : s.closes = true) :
    Rest s.tick (onward st) x r W ∧ ∃ new, Spec.sent s.tick.out = Spec.sent s.out ++ new ∧ (new = [] ∨ (new = [ackOf x r] ∧ s.rcvUna < r)) := by
  obtain ⟨s', new, hn, e⟩ := h.tick_open hst hd h1 h2
  rw [hc, if_pos rfl] at e
  rw [e]
  have k := hn.rest h
  refine ⟨⟨⟨rfl, k.base.ooo, k.base.tx, k.base.rcv, k.base.ewn, k.base.wsc, k.base.nodup, ?_⟩, k.una, k.nxt, k.max, k.mod, k.fin, k.pos, k.tmo⟩, new, ?_, ?_⟩
  · rw [← k.base.got]
    exact delivered_more rfl
  · dsimp only
    rw [sent_append, hn.sent]
    exact List.append_nil _
  · rcases hn.what with y | y
    · exact .inl y.1
    · exact .inr ⟨y.1, y.2.2⟩

/-- The FIN is sent. -/
theorem Rest.fins (h : Rest s st x r W) (hst : st = .finWait1 ∨ st = .lastAck) (h1 : x ≤ 0xFFFFFFFF) (h2 : r ≤ 0xFFFFFFFF) (now : Nat) :
    FinOut s.tick st x r W (now + 1) (now + 1) ∧ Spec.sent s.tick.out = Spec.sent s.out ++ [finOf x r] := by
  have hs : s.clock.state = st := h.base.state
  have hp := h.pos
  have e : s.tick = { s.clock with
      out := s.out ++ [.sent (finOf x r)]
      rcvUna := r
      sndNxt := x + 1
      sndMax := x + 1
      seqMod := (x : Int) + 1
      sndFin := x + 1
      txTmo := s.txTmo.set x 0
      timers := s.clock.timers.set (.retransmit x) 1000 } := by
    show (s.clock.fsm .timer).done = _
    rw [fsm_timer_fin (by rw [hs]; exact hst), h.clock.timeout, ok_next]
    unfold transmitData
    rw [if_neg (by rw [h.clock.una, h.clock.nxt]; simp), if_neg (by rw [hs]; rcases hst with y | y <;> simp [y]),
      if_neg (by rw [hs]; rcases hst with y | y <;> simp [y])]
    dsimp only
    rw [if_neg (by rw [hs]; rcases hst with y | y <;> simp [y]), if_pos (by
      refine ⟨by rw [hs]; exact hst, ?_⟩
      rw [h.clock.nxt, h.clock.fin]; omega)]
    have e1 : s.clock.sndNxt = x := h.nxt
    have e2 : s.clock.rcvNxt = r := h.base.rcv
    have e3 : s.clock.sndMax = x := h.max
    have e4 : s.clock.out = s.out := rfl
    have e5 : s.clock.seqMod = x := h.mod
    have e6 : s.clock.txTmo = s.txTmo := rfl
    have e7 : s.clock.state ≠ .established := by rw [hs]; rcases hst with y | y <;> simp [y]
    unfold transmitPacket
    simp [e1, e2, e3, e4, e5, e6, e7, h1, h2, emit, ok, finOf, h.tmo x (Nat.le_refl _), Res.done]
  rw [e]
  have hn := nodup_clock h.base.nodup
  refine ⟨⟨⟨h.base.state, h.base.ooo, h.base.tx, h.base.rcv, h.base.ewn, h.base.wsc, Dict.nodup_set _ _ hn, ?_⟩, h.una, rfl, rfl, rfl, rfl, ?_, ?_⟩, ?_⟩
  · rw [← h.base.got]; exact delivered_more rfl
  · exact Dict.get?_set_self ..
  · rw [Dict.get?_set_self]; exact congrArg some (by omega)
  · simp

theorem FinOut.tick (h : FinOut s st x r W t now) (hst : st = .finWait1 ∨ st = .lastAck) (hn : now + 1 < t + 1000) :
    FinOut s.tick st x r W t (now + 1) ∧ Spec.sent s.tick.out = Spec.sent s.out ++ [] := by
  have hc := h.clock hn
  have e : s.tick = s.clock := by
    show (s.clock.fsm .timer).done = _
    rw [fsm_timer_fin (by rw [hc.base.state]; exact hst), hc.timeout hn, ok_next, hc.transmit hst]
    rfl
  rw [e]
  exact ⟨hc, (List.append_nil _).symm⟩

theorem FinDone.tick (h : FinDone s .finWait2 x r W) : FinDone s.tick .finWait2 x r W ∧ Spec.sent s.tick.out = Spec.sent s.out ++ [] := by
  have e : s.tick = s.clock := by
    show (s.clock.fsm .timer).done = _
    unfold fsm fsmFuel fsmWith
    rw [h.clock.base.state]
    rfl
  rw [e]
  exact ⟨h.clock, (List.append_nil _).symm⟩

theorem Gone.tick (h : Gone s W) : Gone s.tick W ∧ Spec.sent s.tick.out = Spec.sent s.out ++ [] := by
  have e : s.tick = s.clock := by
    show (s.clock.fsm .timer).done = _
    unfold fsm fsmFuel fsmWith
    rw [show s.clock.state = .closed from h.state]
    rfl
  rw [e]
  exact ⟨⟨h.state, h.got, h.registered⟩, (List.append_nil _).symm⟩

/-- To the end. -/
theorem gone_of (hg : s.delivered = W) : Gone (s.changeState .closed).done W ∧ Spec.sent (s.changeState .closed).done.out = Spec.sent s.out ++ [] := by
  rw [List.append_nil, ← hg]
  unfold changeState
  dsimp only
  rw [if_pos rfl]
  by_cases hr : s.registered = true
  · rw [if_pos hr]
    refine ⟨⟨rfl, ?_, rfl⟩, ?_⟩
    · show received (s.out ++ [_] ++ [_]) ++ s.rx = _
      rw [List.append_assoc]
      exact delivered_more rfl
    · show Spec.sent (s.out ++ [_] ++ [_]) = _
      rw [List.append_assoc, sent_append]
      exact List.append_nil _
  · rw [if_neg hr]
    refine ⟨⟨rfl, ?_, by show s.registered = false; simpa using hr⟩, ?_⟩
    · show received (s.out ++ [_] ++ [_]) ++ s.rx = _
      rw [List.append_assoc]
      exact delivered_more rfl
    · show Spec.sent (s.out ++ [_] ++ [_]) = _
      rw [List.append_assoc, sent_append]
      exact List.append_nil _

theorem Waits.tick (h : Waits s W t now) (hn : now < t + 30000) :
    (now + 1 < t + 30000 ∧ Waits s.tick W t (now + 1) ∨ now + 1 = t + 30000 ∧ Gone s.tick W) ∧ Spec.sent s.tick.out = Spec.sent s.out ++ [] := by
  have hs : s.clock.state = .timeWait := h.state
  have e : s.tick = (if s.clock.expired .timeWait then s.clock.changeState .closed else ok s.clock).done := by
    show (s.clock.fsm .timer).done = _
    unfold fsm fsmFuel fsmWith
    rw [hs]
    rfl
  have g : s.clock.timers.get? .timeWait = if now + 1 = t + 30000 then none else some ((t : Int) + 30000 - (now + 1 : Nat)) := by
    rw [clock_get h.nodup, h.timer, Option.bind_some]
    by_cases hz : now + 1 = t + 30000
    · rw [if_pos hz, if_pos (by omega)]
    · rw [if_neg hz, if_neg (by omega)]
      exact congrArg some (by omega)
  rw [e]
  by_cases hz : now + 1 = t + 30000
  · rw [if_pos hz] at g
    rw [show s.clock.expired .timeWait = true by unfold expired; rw [g], if_pos rfl]
    have := gone_of (s := s.clock) (W := W) h.got
    exact ⟨.inr ⟨hz, this.1⟩, this.2⟩
  · rw [if_neg hz] at g
    rw [show s.clock.expired .timeWait = false by unfold expired; rw [g]; simp; omega, if_neg (by simp)]
    exact ⟨.inl ⟨by omega, h.state, h.got, nodup_clock h.nodup, g⟩, (List.append_nil _).symm⟩

/-! ### Arrivals -/

theorem ack_quiet {m : TcpMd} (h : Base s st r W) (hu : s.sndUna ≤ m.ackn) (hn : ¬ s.sndNxt < m.ackn) (hmod : s.seqMod = m.ackn)
    (hd : m.data = []) (hw : m.win = 65535) (hs : m.syn = false) :
    s.ackUpdate m = { s with
      sndUna := m.ackn
      rcvNxt := m.seq + m.fin.toNat
      sndWnd := 65535
      sndEwn := min (s.sndEwn * 2) 65535
      txReq := s.txReq.filter (fun e => ¬ e.1 < m.ackn)
      txTmo := s.txTmo.filter (fun e => ¬ e.1 < m.ackn)
      rxReq := s.rxReq.filter (fun e => ¬ e.1 < m.seq + m.fin.toNat) } := by
  have hmax : Max.max s.sndUna m.ackn = m.ackn := by omega
  rw [ackUpdate_eq, hmax, hmod, if_neg (fun k => hn k.1), hd, hs, hw, h.wsc, h.tx]
  simp

/-- The FIN of the other end arrives. -/
theorem Rest.told {o : Sess} (h : Rest s .established x r W) :
    let s' := s.step (.segment (asSeen o (finOf r x)))
    Rest s' .closeWait x (r + 1) W ∧ s'.rcvUna = s.rcvUna ∧ s'.timers = s.timers ∧ s'.closes = s.closes ∧ Spec.sent s'.out = Spec.sent s.out ++ [] := by
  intro s'
  have hb := h.base
  have e : s' = { s with
      rcvNxt := r + 1
      sndWnd := 65535
      sndEwn := min (s.sndEwn * 2) 65535
      txReq := s.txReq.filter (fun e => ¬ e.1 < x)
      txTmo := s.txTmo.filter (fun e => ¬ e.1 < x)
      rxReq := s.rxReq.filter (fun e => ¬ e.1 < r + 1)
      evRx := s.evRx + 1
      state := .closeWait
      out := s.out ++ [.moved .established .closeWait] } := by
    show (s.fsm (.packet (asSeen o (finOf r x)))).done = _
    have hm : (asSeen o (finOf r x)).ackn = x := rfl
    unfold fsm fsmFuel fsmWith
    rw [hb.state]
    unfold fsmEstablished
    dsimp only
    rw [if_neg (by rw [hb.rcv]; simp [asSeen, heard, finOf]), if_neg (by simp [isAck, asSeen, heard, finOf]), if_pos (by simp [isFinAck, asSeen, heard, finOf]),
      if_pos (by
        refine ⟨hb.rcv.symm, ?_⟩
        unfold acceptable
        rw [h.una, h.max, hm]; simp)]
    unfold processAck
    rw [ack_quiet hb (by rw [h.una, hm]) (by rw [h.nxt, hm]; exact Nat.lt_irrefl _) (by rw [h.mod, hm]) rfl rfl rfl]
    have hu := h.una
    simp [hb.ooo, Res.next, ok, Res.done, changeState, hb.state, asSeen, heard, finOf, Dict.get?, hu]
  rw [e]
  refine ⟨⟨⟨rfl, hb.ooo, hb.tx, rfl, ?_, hb.wsc, hb.nodup, ?_⟩, h.una, h.nxt, h.max, h.mod, h.fin, h.pos, ?_⟩, rfl, rfl, rfl, ?_⟩
  · have := hb.ewn
    dsimp only; omega
  · rw [← hb.got]; exact delivered_more rfl
  · intro q hq
    dsimp only
    cases hc : Dict.get? (s.txTmo.filter fun e => ¬ e.1 < x) q with
    | none => rfl
    | some c => have := get?_of_filter _ _ _ hc; rw [h.tmo q hq] at this; cases this
  · dsimp only; rw [sent_append]; rfl

/-- Our FIN is acknowledged. -/
theorem FinOut.acked {o : Sess} (h : FinOut s .finWait1 x r W t now) :
    let s' := s.step (.segment (asSeen o (ackOf r (x + 1))))
    FinDone s' .finWait2 x r W ∧ Spec.sent s'.out = Spec.sent s.out ++ [] := by
  intro s'
  have hb := h.base
  have e : s' = { s with
      sndUna := x + 1
      sndWnd := 65535
      sndEwn := min (s.sndEwn * 2) 65535
      txReq := s.txReq.filter (fun e => ¬ e.1 < x + 1)
      txTmo := s.txTmo.filter (fun e => ¬ e.1 < x + 1)
      rxReq := s.rxReq.filter (fun e => ¬ e.1 < r)
      state := .finWait2
      out := s.out ++ [.moved .finWait1 .finWait2] } := by
    show (s.fsm (.packet (asSeen o (ackOf r (x + 1))))).done = _
    have hm : (asSeen o (ackOf r (x + 1))).ackn = x + 1 := rfl
    unfold fsm fsmFuel fsmWith
    rw [hb.state]
    unfold fsmFinWait1
    dsimp only
    rw [if_pos (by simp [isAck, asSeen, heard, ackOf]),
      if_pos (by
        refine ⟨hb.rcv.symm, ?_⟩
        unfold acceptable
        rw [h.una, h.max, hm]; simp)]
    unfold processAck
    rw [ack_quiet hb (by rw [h.una, hm]; omega) (by rw [h.nxt, hm]; exact Nat.lt_irrefl _) (by rw [h.mod, hm]; simp) rfl rfl rfl]
    have hf := h.fin
    have hr := hb.rcv
    simp [hb.ooo, Res.next, ok, Res.done, changeState, hb.state, asSeen, heard, ackOf, Dict.get?, hf, hr]
  rw [e]
  refine ⟨⟨⟨rfl, hb.ooo, hb.tx, hb.rcv, ?_, hb.wsc, hb.nodup, ?_⟩, rfl, h.nxt, h.max, h.mod⟩, ?_⟩
  · have := hb.ewn
    dsimp only; omega
  · rw [← hb.got]; exact delivered_more rfl
  · dsimp only; rw [sent_append]; rfl

/-- The FIN of the other end arrives, and acknowledges ours. -/
theorem FinOut.both {o : Sess} (h : FinOut s .finWait1 x r W t now) (h1 : x + 1 ≤ 0xFFFFFFFF) (h2 : r + 1 ≤ 0xFFFFFFFF) (k : Nat) :
    let s' := s.step (.segment (asSeen o (finOf r (x + 1))))
    Waits s' W k k ∧ Spec.sent s'.out = Spec.sent s.out ++ [ackOf (x + 1) (r + 1)] := by
  intro s'
  have hb := h.base
  have e : s' = { s with
      rcvNxt := r + 1
      rcvUna := r + 1
      sndUna := x + 1
      sndWnd := 65535
      sndEwn := min (s.sndEwn * 2) 65535
      txReq := s.txReq.filter (fun e => ¬ e.1 < x + 1)
      txTmo := s.txTmo.filter (fun e => ¬ e.1 < x + 1)
      rxReq := s.rxReq.filter (fun e => ¬ e.1 < r + 1)
      state := .timeWait
      timers := s.timers.set .timeWait 30000
      out := s.out ++ [.sent (ackOf (x + 1) (r + 1)), .moved .finWait1 .timeWait] } := by
    show (s.fsm (.packet (asSeen o (finOf r (x + 1))))).done = _
    have hm : (asSeen o (finOf r (x + 1))).ackn = x + 1 := rfl
    unfold fsm fsmFuel fsmWith
    rw [hb.state]
    unfold fsmFinWait1
    dsimp only
    rw [if_neg (by simp [isAck, asSeen, heard, finOf]), if_pos (by simp [isFinAck, asSeen, heard, finOf]),
      if_pos (by
        refine ⟨hb.rcv.symm, ?_⟩
        unfold acceptable
        rw [h.una, h.max, hm]; simp)]
    unfold processAck
    rw [ack_quiet hb (by rw [h.una, hm]; omega) (by rw [h.nxt, hm]; exact Nat.lt_irrefl _) (by rw [h.mod, hm]; simp) rfl rfl rfl]
    have hf := h.fin
    have hr := hb.rcv
    have hx := h.nxt
    have hm := h.max
    simp [hb.ooo, Res.next, ok, Res.done, changeState, hb.state, asSeen, heard, finOf, ackOf, Dict.get?, hf, hx, hm, transmitPacket, h1, h2, emit, setTimer]
  rw [e]
  refine ⟨⟨rfl, ?_, Dict.nodup_set _ _ hb.nodup, ?_⟩, ?_⟩
  · rw [← hb.got]; exact delivered_more rfl
  · rw [Dict.get?_set_self]; exact congrArg some (by omega)
  · dsimp only; rw [sent_append]; rfl

theorem FinDone.both {o : Sess} (h : FinDone s .finWait2 x r W) (h1 : x + 1 ≤ 0xFFFFFFFF) (h2 : r + 1 ≤ 0xFFFFFFFF) (k : Nat) :
    let s' := s.step (.segment (asSeen o (finOf r (x + 1))))
    Waits s' W k k ∧ Spec.sent s'.out = Spec.sent s.out ++ [ackOf (x + 1) (r + 1)] := by
  intro s'
  have hb := h.base
  have e : s' = { s with
      rcvNxt := r + 1
      rcvUna := r + 1
      sndUna := x + 1
      sndWnd := 65535
      sndEwn := min (s.sndEwn * 2) 65535
      txReq := s.txReq.filter (fun e => ¬ e.1 < x + 1)
      txTmo := s.txTmo.filter (fun e => ¬ e.1 < x + 1)
      rxReq := s.rxReq.filter (fun e => ¬ e.1 < r + 1)
      state := .timeWait
      timers := s.timers.set .timeWait 30000
      out := s.out ++ [.sent (ackOf (x + 1) (r + 1)), .moved .finWait2 .timeWait] } := by
    show (s.fsm (.packet (asSeen o (finOf r (x + 1))))).done = _
    have hm : (asSeen o (finOf r (x + 1))).ackn = x + 1 := rfl
    have ha : s.acceptable (asSeen o (finOf r (x + 1))) = true := by
      unfold acceptable
      rw [h.una, h.max, hm]; simp
    unfold fsm fsmFuel fsmWith
    rw [hb.state]
    unfold fsmFinWait2
    dsimp only
    rw [if_neg (by simp [isAck, asSeen, heard, finOf]), if_pos ⟨by simp [isFinAck, asSeen, heard, finOf], hb.rcv.symm, ha⟩]
    unfold processAck
    rw [ack_quiet hb (by rw [h.una, hm]) (by rw [h.nxt, hm]; exact Nat.lt_irrefl _) (by rw [h.mod, hm]; simp) rfl rfl rfl]
    have hr := hb.rcv
    have hx := h.nxt
    have hm := h.max
    simp [hb.ooo, Res.next, ok, Res.done, changeState, hb.state, asSeen, heard, finOf, ackOf, Dict.get?, hx, hm, transmitPacket, h1, h2, emit, setTimer]
  rw [e]
  refine ⟨⟨rfl, ?_, Dict.nodup_set _ _ hb.nodup, ?_⟩, ?_⟩
  · rw [← hb.got]; exact delivered_more rfl
  · rw [Dict.get?_set_self]; exact congrArg some (by omega)
  · dsimp only; rw [sent_append]; rfl

/-- The last acknowledgement arrives. -/
theorem FinOut.last {o : Sess} (h : FinOut s .lastAck x r W t now) :
    let s' := s.step (.segment (asSeen o (ackOf r (x + 1))))
    Gone s' W ∧ Spec.sent s'.out = Spec.sent s.out ++ [] := by
  intro s'
  have hb := h.base
  have e : s' = (s.changeState .closed).done := by
    show (s.fsm (.packet (asSeen o (ackOf r (x + 1))))).done = _
    have hm : (asSeen o (ackOf r (x + 1))).ackn = x + 1 := rfl
    unfold fsm fsmFuel fsmWith
    rw [hb.state]
    unfold fsmLastAck
    dsimp only
    rw [if_pos (by simp [isAck, asSeen, heard, ackOf]), if_pos (by
      unfold acceptable
      rw [h.una, h.max, h.nxt, hm]; simp)]
  rw [e]
  exact gone_of hb.got

end
end Verif.Release
