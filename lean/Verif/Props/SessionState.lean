import Verif.Props.SessionData
/-!
Single events of TCP sessions: the end of processing, resets (C60), closed sessions (C55), sequence numbers at the end of their
range (C62).
-/
namespace Verif
open Sess

/-! ### `tcp_fsm` returns -/

/-- The call did not run out of fuel. -/
def Sess.Res.Ends (r : Res) : Prop := r.exc ≠ some .nonTermination

theorem ends_ok (s : Sess) : (ok s).Ends := by simp [Res.Ends, ok]

theorem ends_next {r : Res} {k : Sess → Res} (h : r.Ends) (hk : ∀ s, (k s).Ends) : (r.next k).Ends := by
  unfold Res.next
  split
  · exact hk _
  · exact h

theorem ends_transmit (s : Sess) (seq : Option Nat) (syn ack fin rst : Bool) (data : Bytes) :
    (s.transmitPacket seq syn ack fin rst data).Ends := by
  rcases transmit_cases s seq syn ack fin rst data with ⟨x, _⟩ | x <;> rw [x] <;> simp [Res.Ends, ok]

theorem ends_change (s : Sess) (st : FsmState) : (s.changeState st).Ends := by
  unfold changeState
  dsimp only
  split
  · split <;> simp [Res.Ends, ok]
  · simp [Res.Ends, ok]

theorem ends_data (s : Sess) : s.transmitData.Ends := by
  unfold transmitData
  dsimp only
  repeat' split
  all_goals first | exact ends_transmit _ _ _ _ _ _ _ | exact ends_ok _ | simp [Res.Ends]

theorem ends_timeout (s : Sess) : s.retransmitTimeout.Ends := by
  unfold retransmitTimeout
  split
  · exact ends_ok _
  · split
    · split
      · exact ends_next (ends_transmit _ _ _ _ _ _ _) fun s => ends_change _ _
      · exact ends_ok _
    · exact ends_ok _

theorem ends_delayed (s : Sess) : s.delayedAck.Ends := by
  unfold delayedAck
  split
  · refine ends_next ?_ fun s => ends_ok _
    split
    · exact ends_transmit _ _ _ _ _ _ _
    · exact ends_ok _
  · exact ends_ok _

theorem ends_ooo (s : Sess) (m : TcpMd) : (s.outOfOrder m).Ends := by
  unfold outOfOrder
  dsimp only
  split
  · exact ends_transmit _ _ _ _ _ _ _
  · exact ends_ok _

theorem erase_length {V : Type} {d : Dict Nat V} {k : Nat} {v : V} (h : d.get? k = some v) : (d.erase k).length < d.length := by
  obtain ⟨e, he, hk⟩ := get?_key h
  unfold Dict.erase
  have : (List.filter (fun e => decide (e.1 ≠ k)) d).length ≠ d.length := by
    intro hl
    have := List.length_filter_eq_length_iff.1 hl e he
    simp [hk] at this
  have := List.length_filter_le (fun e : Nat × V => decide (e.1 ≠ k)) d
  omega

theorem ends_ack {n : Nat} {rec : Sess → TcpMd → Res} (hrec : ∀ s m, s.ooo.length < n → (rec s m).Ends) {s : Sess} {m : TcpMd}
    (h : s.ooo.length < n + 1) : (processAck rec s m).Ends := by
  unfold processAck
  dsimp only
  split
  · exact ends_ok _
  · rename_i p hp
    rw [ackUpdate_ooo] at hp
    refine hrec _ _ ?_
    dsimp only
    rw [ackUpdate_ooo]
    have := erase_length hp
    omega

theorem ends_fuel (n : Nat) : ∀ s i, s.ooo.length < n → (fsmFuel n s i).Ends := by
  induction n with
  | zero => intro s i h; omega
  | succ n ih =>
    intro s i h
    have hrec : ∀ s m, s.ooo.length < n → (fsmFuel n s (.packet m)).Ends := fun s m hl => ih s _ hl
    have hack : ∀ m (s' : Sess), s'.ooo = s.ooo → (processAck (fun s m => fsmFuel n s (.packet m)) s' m).Ends :=
      fun m s' e => ends_ack hrec (by rw [e]; exact h)
    have hcond : ∀ (c : Prop) [Decidable c] (s : Sess),
        (if c then s.transmitPacket none false true false false [] else ok s).Ends := by
      intro c _ s; split
      · exact ends_transmit _ _ _ _ _ _ _
      · exact ends_ok _
    have hmove : ∀ (c : Prop) [Decidable c] (s : Sess) (st : FsmState), (if c then s.changeState st else ok s).Ends := by
      intro c _ s st; split
      · exact ends_change _ _
      · exact ends_ok _
    show (fsmWith _ s i).Ends
    unfold fsmWith
    split
    · unfold fsmClosed; split <;> first | exact ends_change _ _ | exact ends_ok _
    · unfold fsmListen; split
      · split
        · exact ends_change _ _
        · exact ends_ok _
      · exact ends_change _ _
      · exact ends_ok _
    · unfold fsmSynSent; split
      · exact ends_next (ends_timeout _) fun s => ends_data _
      · split
        · exact ends_next (hack _ _ rfl) fun s => ends_next (ends_transmit _ _ _ _ _ _ _) fun s => ends_next (ends_change _ _) fun s => ends_ok _
        · split
          · exact ends_next (ends_transmit _ _ _ _ _ _ _) fun s => ends_change _ _
          · split
            · split
              · exact ends_next (ends_change _ _) fun s => ends_ok _
              · exact ends_ok _
            · exact ends_ok _
      · exact ends_change _ _
      · exact ends_ok _
    · unfold fsmSynRcvd; split
      · exact ends_next (ends_timeout _) fun s => ends_data _
      · split
        · exact ends_next (hack _ _ rfl) fun s => ends_next (ends_change _ _) fun s => ends_ok _
        · split
          · exact hmove _ _ _
          · split
            · exact hmove _ _ _
            · exact ends_ok _
      · exact ends_change _ _
      · exact ends_ok _
    · unfold fsmEstablished; split
      · exact ends_next (ends_timeout _) fun s => ends_next (ends_data _) fun s => ends_next (ends_delayed _) fun s => hmove _ _ _
      · split
        · exact ends_ok _
        · split
          · split
            · exact ends_ok _
            · split
              · exact ends_ooo _ _
              · split
                · exact hack _ _ rfl
                · exact ends_ok _
          · split
            · split
              · exact ends_next (hack _ _ rfl) fun s => ends_next (hcond _ _) fun s => ends_change _ _
              · exact ends_ok _
            · split
              · split
                · exact ends_change _ _
                · exact ends_ok _
              · exact ends_ok _
      · exact ends_ok _
      · exact ends_ok _
    · unfold fsmFinWait1; split
      · exact ends_next (ends_timeout _) fun s => ends_data _
      · split
        · split
          · exact ends_next (hack _ _ rfl) fun s => ends_next (hcond _ _) fun s => hmove _ _ _
          · exact ends_ok _
        · split
          · split
            · refine ends_next (hack _ _ rfl) fun s => ends_next (ends_transmit _ _ _ _ _ _ _) fun s => ?_
              split
              · exact ends_next (ends_change _ _) fun s => ends_ok _
              · exact ends_change _ _
            · exact ends_ok _
          · split
            · exact hmove _ _ _
            · exact ends_ok _
      · exact ends_ok _
    · unfold fsmFinWait2; split
      · split
        · exact ends_next (hack _ _ rfl) fun s => hcond _ _
        · split
          · exact ends_next (hack _ _ rfl) fun s => ends_next (ends_transmit _ _ _ _ _ _ _) fun s => ends_next (ends_change _ _) fun s => ends_ok _
          · split
            · exact hmove _ _ _
            · exact ends_ok _
      · exact ends_ok _
    · unfold fsmClosing; split
      · split
        · exact ends_next (ends_change _ _) fun s => ends_ok _
        · split
          · exact hmove _ _ _
          · exact ends_ok _
      · exact ends_ok _
    · unfold fsmCloseWait; split
      · exact ends_next (ends_timeout _) fun s => ends_next (ends_data _) fun s => ends_next (ends_delayed _) fun s => hmove _ _ _
      · split
        · split
          · exact ends_ok _
          · split
            · exact ends_ooo _ _
            · split
              · exact hack _ _ rfl
              · exact ends_ok _
        · split
          · exact hmove _ _ _
          · exact ends_ok _
      · exact ends_ok _
      · exact ends_ok _
    · unfold fsmLastAck; split
      · exact ends_next (ends_timeout _) fun s => ends_data _
      · split
        · exact hmove _ _ _
        · split
          · exact hmove _ _ _
          · exact ends_ok _
      · exact ends_ok _
    · unfold fsmTimeWait; split
      · exact hmove _ _ _
      · exact ends_ok _

/-- C75: processing a segment, a call or a timer tick ends, however many segments wait out of order: the recursion of `tcp_fsm` takes
one of them each time. -/
theorem fsm_terminates (s : Sess) (i : Input) : (s.fsm i).exc ≠ some .nonTermination := ends_fuel _ s i (Nat.lt_succ_self _)

/-! ### C60 -/

/-- C60: in every state after the peer's SYN was taken, a segment with RST changes nothing at all, unless it has exactly the next
expected sequence number and, if it has ACK, an acknowledgement within what is outstanding; then the session is closed. -/
theorem C60_reset_plausible (s : Sess) (m : TcpMd) (hr : m.rst = true)
    (hst : s.state ≠ .closed ∧ s.state ≠ .listen ∧ s.state ≠ .synSent) :
    s.step (.segment m) = s ∨
    ((s.step (.segment m)).state = .closed ∧ m.seq = s.rcvNxt ∧ (m.ack = true → s.sndUna ≤ m.ackn ∧ m.ackn ≤ s.sndMax)) := by
  have h1 : isAck m = false := by simp [isAck, hr]
  have h2 : isFinAck m = false := by simp [isFinAck, hr]
  have closed : ∀ s : Sess, (s.changeState .closed).done.state = .closed := by
    intro s
    have : (s.changeState .closed).s.state = .closed := moveAs_state s .closed
    unfold Res.done
    split
    · exact this
    · exact this
  have key : ∀ c : Prop, ∀ [Decidable c], ∀ s' : Sess, (c → m.seq = s.rcvNxt ∧ (m.ack = true → s.sndUna ≤ m.ackn ∧ m.ackn ≤ s.sndMax)) →
      (if c then s'.changeState .closed else ok s).done = s ∨
      ((if c then s'.changeState .closed else ok s).done.state = .closed ∧ m.seq = s.rcvNxt ∧
        (m.ack = true → s.sndUna ≤ m.ackn ∧ m.ackn ≤ s.sndMax)) := by
    intro c _ s' hc
    by_cases x : c
    · rw [if_pos x]; exact .inr ⟨closed s', hc x⟩
    · rw [if_neg x]; exact .inl rfl
  have acc : m.seq = s.rcvNxt ∧ s.acceptable m = true → m.seq = s.rcvNxt ∧ (m.ack = true → s.sndUna ≤ m.ackn ∧ m.ackn ≤ s.sndMax) :=
    fun x => ⟨x.1, fun _ => acceptable_iff.1 x.2⟩
  have plain : isRst m = true → m.ack = false := fun h => (isRst_flags h).1
  show (s.fsm (.packet m)).done = s ∨ ((s.fsm (.packet m)).done.state = .closed ∧ _)
  unfold fsm fsmFuel fsmWith
  cases hs : s.state with
  | closed => exact absurd hs hst.1
  | listen => exact absurd hs hst.2.1
  | synSent => exact absurd hs hst.2.2
  | synRcvd =>
    unfold fsmSynRcvd
    simp only [h1, Bool.false_eq_true, false_and, if_false]
    split
    · exact key _ s acc
    · split
      · rename_i hp
        exact key _ s fun x => ⟨x.1, fun y => by rw [plain hp] at y; cases y⟩
      · exact .inl rfl
  | established =>
    unfold fsmEstablished
    simp only [h1, h2, Bool.false_eq_true, if_false]
    split
    · exact .inl rfl
    · split
      · exact key _ { s with evRx := s.evRx + 1 } acc
      · exact .inl rfl
  | finWait1 =>
    unfold fsmFinWait1
    simp only [h1, h2, Bool.false_eq_true, if_false]
    split
    · exact key _ s acc
    · exact .inl rfl
  | finWait2 =>
    unfold fsmFinWait2
    simp only [h1, h2, Bool.false_eq_true, false_and, if_false]
    split
    · exact key _ s acc
    · exact .inl rfl
  | closing =>
    unfold fsmClosing
    simp only [h1, Bool.false_eq_true, false_and, if_false]
    split
    · exact key _ s acc
    · exact .inl rfl
  | closeWait =>
    unfold fsmCloseWait
    simp only [h1, Bool.false_eq_true, if_false]
    split
    · rename_i hp
      exact key _ s fun x => ⟨x, fun y => by rw [plain hp] at y; cases y⟩
    · exact .inl rfl
  | lastAck =>
    unfold fsmLastAck
    simp only [h1, Bool.false_eq_true, if_false]
    split
    · exact key _ s acc
    · exact .inl rfl
  | timeWait => exact .inl rfl

/-- C60: in SYN_SENT a segment with RST changes nothing, unless it is RST|ACK, numbered 0, and acknowledges the SYN; then `connect` is
refused. -/
theorem C60_reset_syn_sent (s : Sess) (m : TcpMd) (hr : m.rst = true) (hst : s.state = .synSent) :
    s.step (.segment m) = s ∨
    ((s.step (.segment m)).state = .closed ∧ m.ack = true ∧ m.seq = 0 ∧ m.ackn = s.sndNxt) := by
  have closed : ∀ s : Sess, ((s.changeState .closed).next fun s => ok { s with err := .refused, evConnect := s.evConnect + 1 }).done.state = .closed := by
    intro s
    have : (s.changeState .closed).s.state = .closed := moveAs_state s .closed
    unfold Res.done Res.next
    split
    · split at *
      · exact this
      · exact this
    · split
      · exact this
      · exact this
  show (s.fsm (.packet m)).done = s ∨ ((s.fsm (.packet m)).done.state = .closed ∧ _)
  unfold fsm fsmFuel fsmWith
  rw [hst]
  have h1 : isSynAck m = false := by simp [isSynAck, hr]
  unfold fsmSynSent
  simp only [h1, Bool.false_eq_true, false_and, if_false]
  rw [if_neg (by intro x; simp [x.1] at x)]
  split
  · rename_i hf
    split
    · rename_i hx
      exact .inr ⟨closed s, (isRstAck_flags hf).1, hx⟩
    · exact .inl rfl
  · exact .inl rfl

/-- C60: a plausible RST|ACK is honoured in ESTABLISHED, both FIN_WAIT states, CLOSING, LAST_ACK and SYN_RCVD.  (In CLOSE_WAIT it
is not; a plain RST is, there and in SYN_RCVD only: `C60_close_wait`.) -/
theorem C60_reset_honoured (s : Sess) (m : TcpMd) (hf : isRstAck m = true)
    (hst : s.state = .synRcvd ∨ s.state = .established ∨ s.state = .finWait1 ∨ s.state = .finWait2 ∨ s.state = .closing ∨ s.state = .lastAck)
    (hseq : m.seq = s.rcvNxt) (hlen : m.data.length ≤ 65535) (hack : s.sndUna ≤ m.ackn ∧ m.ackn ≤ s.sndMax) :
    (s.step (.segment m)).state = .closed := by
  obtain ⟨f1, f2, f3, f4⟩ := isRstAck_flags hf
  have h1 : isAck m = false := by simp [isAck, f3]
  have h2 : isFinAck m = false := by simp [isFinAck, f3]
  have hacc := acceptable_iff.2 hack
  have closed : ∀ s : Sess, (s.changeState .closed).done.state = .closed := by
    intro s
    have : (s.changeState .closed).s.state = .closed := moveAs_state s .closed
    unfold Res.done
    split
    · exact this
    · exact this
  have hw : ¬ ¬ (s.rcvNxt ≤ m.seq ∧ m.seq + m.data.length ≤ s.rcvNxt + 65535) := by omega
  show (s.fsm (.packet m)).done.state = .closed
  unfold fsm fsmFuel fsmWith
  rcases hst with x | x | x | x | x | x <;> rw [x] <;> dsimp only
  · unfold fsmSynRcvd
    simp only [h1, Bool.false_eq_true, false_and, if_false, hf, if_true]
    rw [if_pos ⟨hseq, hacc⟩]; exact closed _
  · unfold fsmEstablished
    simp only [h1, h2, Bool.false_eq_true, if_false, hf, if_true, if_neg hw]
    rw [if_pos ⟨hseq, hacc⟩]; exact closed _
  · unfold fsmFinWait1
    simp only [h1, h2, Bool.false_eq_true, if_false, hf, if_true]
    rw [if_pos ⟨hseq, hacc⟩]; exact closed _
  · unfold fsmFinWait2
    simp only [h1, h2, Bool.false_eq_true, false_and, if_false, hf, if_true]
    rw [if_pos ⟨hseq, hacc⟩]; exact closed _
  · unfold fsmClosing
    simp only [h1, Bool.false_eq_true, false_and, if_false, hf, if_true]
    rw [if_pos ⟨hseq, hacc⟩]; exact closed _
  · unfold fsmLastAck
    simp only [h1, Bool.false_eq_true, if_false, hf, if_true]
    rw [if_pos ⟨hseq, hacc⟩]; exact closed _

/-! ### C55 -/

/-- C55: whenever an event closes the session, its socket is no longer in the table. -/
theorem C55_unregistered (active : Bool) (iss : Nat) (lip : IpAddress) (lport : Nat) (rip : IpAddress) (rport : Nat) (evs : List Ev) (e : Ev) :
    let s := (opened active iss lip lport rip rport).run evs
    s.state ≠ .closed → (s.step e).state = .closed → (s.step e).registered = false := by
  intro s hst hc
  have hq : Queue (fun _ => True) s := queue_run (queue_opened active iss lip lport rip rport)
  have done : ∀ i, InputOk (fun _ => True) i → (s.fsm i).done.state = .closed → (s.fsm i).done.registered = false := by
    intro i hi
    have := (fsm_path hq.queueOk hi).keeps (P := fun b => b.state = .closed → b.registered = false) ?_ (fun x => absurd x hst)
    · unfold Res.done
      split
      · exact this
      · exact this
    · intro a b h hm
      cases hm with
      | abort => rw [abortAs_eq]; simp
      | abortMove hx => rcases hx with ⟨_, x⟩ | ⟨_, x⟩ <;> simp [x]
      | dup => rw [retransmitRequest_eq]; exact h
      | synAckIn hq hst => rw [ackUpdate_state]; intro x; rw [paramsAs_state, hst] at x; cases x
      | ackIn => rw [ackUpdate_state, ackUpdate_eq]; exact h
      | dataIn => rw [ackUpdate_state, ackUpdate_eq]; exact h
      | finIn => rw [ackUpdate_state, ackUpdate_eq]; exact h
      | reset => exact h
      | synOut => simpa using h
      | synAckOut => simpa using h
      | dataOut => simpa using h
      | finOut => simpa using h
      | ackOut => simpa using h
      | timerSet => exact h
      | store => exact h
      | pop => exact h
      | closes => exact h
      | _ => simp [emit, setTimer]
  cases e with
  | segment m => exact done _ trivial hc
  | close => exact done _ rfl hc
  | timer => exact done _ trivial hc
  | send d =>
    exfalso; apply hst
    change (s.send d).state = .closed at hc
    unfold send at hc
    split at hc <;> exact hc
  | recvAcquire =>
    exfalso; apply hst
    change s.recvAcquire.state = .closed at hc
    unfold recvAcquire at hc
    split at hc <;> exact hc
  | recvTake n =>
    exfalso; apply hst
    change (s.recvTake n).state = .closed at hc
    rcases recvTake_cases s n with x | ⟨k, e, x⟩ <;> rw [x] at hc <;> exact hc
  | connectReturn =>
    exfalso; apply hst
    change s.connectReturn.state = .closed at hc
    unfold connectReturn at hc
    split at hc
    · exact hc
    · dsimp only at hc
      split at hc
      · exact hc
      · split at hc <;> exact hc
  | clock => exact absurd hc hst
  | table b => exact absurd hc hst

/-- C55: a closed session ignores every segment, `close` and the timer. -/
theorem C55_closed_ignores (s : Sess) (h : s.state = .closed) (m : TcpMd) :
    s.step (.segment m) = s ∧ s.step .close = s ∧ s.step .timer = s := by
  have : ∀ i, i ≠ .sys .connect → i ≠ .sys .listen → s.fsm i = ok s := by
    intro i h1 h2
    unfold fsm fsmFuel fsmWith
    rw [h]
    show s.fsmClosed i = ok s
    unfold fsmClosed
    split
    · exact absurd rfl h1
    · exact absurd rfl h2
    · rfl
  refine ⟨?_, ?_, ?_⟩
  · show (s.fsm _).done = s; rw [this _ (by simp) (by simp)]; rfl
  · show (s.fsm _).done = s; rw [this _ (by simp) (by simp)]; rfl
  · show (s.fsm _).done = s; rw [this _ (by simp) (by simp)]; rfl

/-- C55: a closed session stays closed and transmits nothing, whatever happens. -/
theorem C55_closed_silent (s : Sess) (h : s.state = .closed) (evs : List Ev) :
    (s.run evs).state = .closed ∧ Spec.sent (s.run evs).out = Spec.sent s.out ∧ Spec.accepted (s.run evs).out = Spec.accepted s.out := by
  induction evs using List.reverseRecOn with
  | nil => exact ⟨h, rfl, rfl⟩
  | append_singleton evs e ih =>
    have hrun : s.run (evs ++ [e]) = (s.run evs).step e := by unfold run; rw [List.foldl_append]; rfl
    rw [hrun]
    obtain ⟨h1, h2, h3⟩ := ih
    generalize s.run evs = t at h1 h2 h3
    rw [← h2, ← h3]
    cases e with
    | segment m => rw [(C55_closed_ignores t h1 m).1]; exact ⟨h1, rfl, rfl⟩
    | close => rw [(C55_closed_ignores t h1 (Example.Session.seg true true true true 0 0 [])).2.1]; exact ⟨h1, rfl, rfl⟩
    | timer => rw [(C55_closed_ignores t h1 (Example.Session.seg true true true true 0 0 [])).2.2]; exact ⟨h1, rfl, rfl⟩
    | send d =>
      rw [(C51_send t d).2 (by simp [h1])]
      exact ⟨h1, by simp; rfl, by simp; rfl⟩
    | recvAcquire =>
      show t.recvAcquire.state = _ ∧ Spec.sent t.recvAcquire.out = _ ∧ Spec.accepted t.recvAcquire.out = _
      unfold recvAcquire
      split <;> exact ⟨h1, rfl, rfl⟩
    | recvTake n =>
      show (t.recvTake n).state = _ ∧ Spec.sent (t.recvTake n).out = _ ∧ Spec.accepted (t.recvTake n).out = _
      rcases recvTake_cases t n with x | ⟨k, e, x⟩ <;> rw [x]
      · exact ⟨h1, rfl, rfl⟩
      · exact ⟨h1, by simp, by simp⟩
    | connectReturn =>
      show t.connectReturn.state = _ ∧ Spec.sent t.connectReturn.out = _ ∧ Spec.accepted t.connectReturn.out = _
      unfold connectReturn
      split
      · exact ⟨h1, rfl, rfl⟩
      · dsimp only
        split
        · exact ⟨h1, by simp [emit]; rfl, by simp [emit]; rfl⟩
        · split
          · exact ⟨h1, by simp [emit]; rfl, by simp [emit]; rfl⟩
          · exact ⟨h1, by simp [emit]; rfl, by simp [emit]; rfl⟩
    | clock => exact ⟨h1, rfl, rfl⟩
    | table b => exact ⟨h1, rfl, rfl⟩

/-! ### Examples -/

namespace Example.Session
open Sess

/-- `client`, connected. -/
def connected : Sess := client.run [.timer, .segment (seg true true false false 500 101 [])]

/-- C60: the hypotheses of `C60_reset_honoured` are met, and the conclusion is not trivial: one off, and nothing happens. -/
example : connected.state = .established ∧ (seg false true false true 501 101 []).seq = connected.rcvNxt ∧
    connected.sndUna ≤ 101 ∧ 101 ≤ connected.sndMax ∧
    (connected.step (.segment (seg false true false true 501 101 []))).state = .closed ∧
    (connected.step (.segment (seg false true false true 502 101 []))).state = .established ∧
    (connected.step (.segment (seg false true false true 501 102 []))).state = .established := by decide +kernel

/-- C60: `connect` refused. -/
example : ((client.step .timer).step (.segment (seg false true false true 0 101 []))).state = .closed ∧
    ((client.step .timer).step (.segment (seg false true false true 0 100 []))).state = .synSent := by decide +kernel

/-- C55: a history that closes, and one after it. -/
example : (connected.step (.segment (seg false true false true 501 101 []))).registered = false ∧ connected.registered = true ∧
    Spec.sent ((connected.step (.segment (seg false true false true 501 101 []))).run hist).out = Spec.sent connected.out := by decide +kernel

/-- C75: two segments that were kept are taken when the gap is filled, one inside the other. -/
example : ((connected.run [.segment (seg false true false false 502 101 [2]), .segment (seg false true false false 503 101 [3])]).fsm
    (.packet (seg false true false false 501 101 [1]))).s.rx = [1, 2, 3] := by decide +kernel

end Example.Session

/-- C60: CLOSE_WAIT does not honour a reset with ACK, only one without. -/
theorem C60_close_wait (s : Sess) (m : TcpMd) (hst : s.state = .closeWait) :
    (isRstAck m = true → s.step (.segment m) = s) ∧
    (isRst m = true → m.seq = s.rcvNxt → (s.step (.segment m)).state = .closed) := by
  refine ⟨fun hf => ?_, fun hf hs => ?_⟩
  · obtain ⟨f1, f2, f3, f4⟩ := isRstAck_flags hf
    show (s.fsm (.packet m)).done = s
    unfold fsm fsmFuel fsmWith
    rw [hst]
    unfold fsmCloseWait
    simp [isAck, isRst, f1, f3, Res.done, ok]
  · obtain ⟨f1, f2, f3, f4⟩ := isRst_flags hf
    show (s.fsm (.packet m)).done.state = _
    unfold fsm fsmFuel fsmWith
    rw [hst]
    unfold fsmCloseWait
    simp only [isAck, f1, Bool.false_and, Bool.false_eq_true, if_false, hf, if_true]
    rw [if_pos hs]
    have : (s.changeState .closed).s.state = .closed := moveAs_state s .closed
    unfold Res.done
    split
    · exact this
    · exact this

end Verif
