import Verif.Props.SessionData
/-! Flow control and acknowledgement of sessions. -/
namespace Verif.Sess

open Verif.Spec (dataSent)

/-- The call has sent no data. -/
def Still (s : Sess) (r : Res) : Prop := dataSent r.s.out = dataSent s.out

theorem still_ok {s s' : Sess} (h : dataSent s'.out = dataSent s.out) : Still s (ok s') := h

theorem still_next {s : Sess} {r : Res} {k : Sess → Res} (h : Still s r) (hk : ∀ s', Still s' (k s')) : Still s (r.next k) := by
  unfold Res.next
  split
  · exact (hk r.s).trans h
  · exact h

theorem still_transmit (s : Sess) (seq : Option Nat) (syn ack fin rst : Bool) : Still s (s.transmitPacket seq syn ack fin rst []) := by
  rcases transmit_cases s seq syn ack fin rst [] with ⟨x, _⟩ | x <;> rw [x]
  · simp [Still, dataSent]
  · rfl

theorem still_change (s : Sess) (st : FsmState) : Still s (s.changeState st) := by
  show dataSent (s.moveAs st).out = _
  simp [dataSent]

theorem Still.of_out {s s' : Sess} {r : Res} (h : Still s' r) (e : dataSent s'.out = dataSent s.out) : Still s r := Eq.trans h e

theorem still_delayed (s : Sess) : Still s s.delayedAck := by
  unfold delayedAck
  split
  · refine still_next ?_ fun s => rfl
    split
    · exact still_transmit _ _ _ _ _ _
    · rfl
  · rfl

theorem still_timeout (s : Sess) : Still s s.retransmitTimeout := by
  unfold retransmitTimeout
  split
  · rfl
  · split
    · split
      · refine still_next (still_transmit _ _ _ _ _ _) fun s => ?_
        dsimp only
        refine (still_change _ _).of_out ?_
        split <;> split <;> rfl
      · rfl
    · rfl

theorem still_ooo (s : Sess) (m : TcpMd) : Still s (s.outOfOrder m) := by
  unfold outOfOrder
  dsimp only
  split
  · exact (still_transmit _ _ _ _ _ _).of_out rfl
  · rfl

theorem still_ack {rec : Sess → TcpMd → Res} (hrec : ∀ s m, Still s (rec s m)) (s : Sess) (m : TcpMd) : Still s (processAck rec s m) := by
  unfold processAck
  dsimp only
  split
  · show dataSent (s.ackUpdate m).out = _; rw [ackUpdate_out]
  · exact (hrec _ _).of_out (by show dataSent (s.ackUpdate m).out = _; rw [ackUpdate_out])

/-- Only the timer sends data. -/
theorem still_fuel (n : Nat) : ∀ s i, i ≠ .timer → Still s (fsmFuel n s i) := by
  induction n with
  | zero => intro s i _; rfl
  | succ n ih =>
    intro s i hi
    have hack : ∀ m (s : Sess), Still s (processAck (fun s m => fsmFuel n s (.packet m)) s m) :=
      fun m s' => still_ack (fun s m => ih s _ (by simp)) s' m
    have hcond : ∀ (c : Prop) [Decidable c] (s : Sess), Still s (if c then s.transmitPacket none false true false false [] else ok s) := by
      intro c _ s; split
      · exact still_transmit _ _ _ _ _ _
      · rfl
    have hmove : ∀ (c : Prop) [Decidable c] (s : Sess) (st : FsmState), Still s (if c then s.changeState st else ok s) := by
      intro c _ s st; split
      · exact still_change _ _
      · rfl
    show Still s (fsmWith _ s i)
    unfold fsmWith
    split
    · unfold fsmClosed; split <;> first | exact still_change _ _ | rfl
    · unfold fsmListen; split
      · split
        · exact (still_change _ _).of_out (by simp [dataSent, emit])
        · rfl
      · exact still_change _ _
      · rfl
    · unfold fsmSynSent; split
      · exact absurd rfl hi
      · split
        · refine still_next ((hack _ _).of_out rfl) fun s => still_next (still_transmit _ _ _ _ _ _) fun s => still_next (still_change _ _) fun s => rfl
        · split
          · exact still_next (still_transmit _ _ _ _ _ _) fun s => still_change _ _
          · split
            · split
              · exact still_next (still_change _ _) fun s => rfl
              · rfl
            · rfl
      · exact still_change _ _
      · rfl
    · unfold fsmSynRcvd; split
      · exact absurd rfl hi
      · split
        · refine still_next (hack _ _) fun s => still_next (still_change _ _) fun s => ?_
          simp [Still, ok, dataSent, emit]
        · split
          · exact hmove _ _ _
          · split
            · exact hmove _ _ _
            · rfl
      · exact still_change _ _
      · rfl
    · unfold fsmEstablished; split
      · exact absurd rfl hi
      · split
        · rfl
        · split
          · split
            · show dataSent (retransmitRequest _ _).out = _; rw [retransmitRequest_eq]
            · split
              · exact still_ooo _ _
              · split
                · exact hack _ _
                · rfl
          · split
            · split
              · exact still_next (hack _ _) fun s => still_next (hcond _ _) fun s => (still_change _ _).of_out rfl
              · rfl
            · split
              · split
                · exact (still_change _ _).of_out rfl
                · rfl
              · rfl
      · rfl
      · rfl
    · unfold fsmFinWait1; split
      · exact absurd rfl hi
      · split
        · split
          · exact still_next (hack _ _) fun s => still_next (hcond _ _) fun s => hmove _ _ _
          · rfl
        · split
          · split
            · refine still_next (hack _ _) fun s => still_next (still_transmit _ _ _ _ _ _) fun s => ?_
              split
              · exact still_next (still_change _ _) fun s => rfl
              · exact still_change _ _
            · rfl
          · split
            · exact hmove _ _ _
            · rfl
      · rfl
    · unfold fsmFinWait2; split
      · split
        · exact still_next (hack _ _) fun s => hcond _ _
        · split
          · exact still_next (hack _ _) fun s => still_next (still_transmit _ _ _ _ _ _) fun s => still_next (still_change _ _) fun s => rfl
          · split
            · exact hmove _ _ _
            · rfl
      · rfl
    · unfold fsmClosing; split
      · split
        · exact still_next ((still_change _ _).of_out rfl) fun s => rfl
        · split
          · exact hmove _ _ _
          · rfl
      · rfl
    · unfold fsmCloseWait; split
      · exact absurd rfl hi
      · split
        · split
          · show dataSent (retransmitRequest _ _).out = _; rw [retransmitRequest_eq]
          · split
            · exact still_ooo _ _
            · split
              · exact hack _ _
              · rfl
        · split
          · exact hmove _ _ _
          · rfl
      · rfl
      · rfl
    · unfold fsmLastAck; split
      · exact absurd rfl hi
      · split
        · exact hmove _ _ _
        · split
          · exact hmove _ _ _
          · rfl
      · rfl
    · unfold fsmTimeWait; split
      · exact absurd rfl hi
      · rfl

/-- Windows and segment sizes: where they come from.  `A` says which segments have arrived. -/
structure FlowInv (A : TcpMd → Prop) (s : Sess) : Prop where
  mss : s.sndMss ≤ 1460
  ewn : s.sndEwn ≤ max s.sndWnd s.sndMss
  peer : (s.state = .closed ∨ s.state = .listen ∨ s.state = .synSent) ∨
    ∃ y, A y ∧ y.syn = true ∧ s.sndMss = min y.mss 1460 ∧ s.sndWsc = peerScale y
  wnd : s.state = .established ∨ s.state = .closeWait →
    ∃ m, A m ∧ m.ack = true ∧ m.ackn = s.sndUna ∧ s.sndWnd = m.win * s.sndWsc

variable {A : TcpMd → Prop}

theorem FlowInv.same {a b : Sess} (h : FlowInv A a) (h1 : b.sndMss = a.sndMss) (h2 : b.sndEwn = a.sndEwn) (h3 : b.sndWnd = a.sndWnd)
    (h4 : b.sndWsc = a.sndWsc) (h5 : b.state = a.state) (h6 : b.sndUna = a.sndUna) : FlowInv A b :=
  ⟨h1 ▸ h.mss, by rw [h2, h3, h1]; exact h.ewn, by rw [h1, h4, h5]; exact h.peer, by rw [h3, h4, h5, h6]; exact h.wnd⟩

/-- To a state in which nothing is sent. -/
theorem FlowInv.move {a b : Sess} (h : FlowInv A a) (h1 : b.sndMss = a.sndMss) (h2 : b.sndEwn = a.sndEwn) (h3 : b.sndWnd = a.sndWnd)
    (h4 : b.sndWsc = a.sndWsc) (h5 : b.state ≠ .established ∧ b.state ≠ .closeWait)
    (h6 : b.state = .closed ∨ ¬ (a.state = .closed ∨ a.state = .listen ∨ a.state = .synSent)) : FlowInv A b := by
  refine ⟨h1 ▸ h.mss, by rw [h2, h3, h1]; exact h.ewn, ?_, fun x => absurd x (by simp [h5])⟩
  rcases h6 with x | x
  · exact .inl (.inl x)
  · rw [h1, h4]
    rcases h.peer with y | y
    · exact absurd y x
    · exact .inr y

theorem FlowInv.ack {a : Sess} {m : TcpMd} (h : FlowInv A a) (hA : A m) (hf : m.ack = true) (hu : a.sndUna ≤ m.ackn) :
    FlowInv A (a.ackUpdate m) := by
  rw [ackUpdate_eq]
  refine ⟨h.mss, ?_, h.peer, fun _ => ⟨m, hA, hf, ?_, rfl⟩⟩
  · dsimp only; omega
  · dsimp only; omega

theorem flow_micro {iss : Nat} {Q : TcpMd → Prop} (hQ : ∀ m, Q m → A m) {a b : Sess} (hs : SendInv iss a) (h : FlowInv A a)
    (hm : Micro Q True a b) : FlowInv A b := by
  cases hm with
  | reset => exact ⟨h.mss, Nat.le_max_right _ _, h.peer, h.wnd⟩
  | abort => rw [abortAs_eq]; exact h.move rfl rfl rfl rfl (by simp) (by simp)
  | abortMove hst =>
    rcases hst with ⟨x, y⟩ | ⟨x, y⟩ <;> subst y <;>
      exact h.move (by simp; rw [abortAs_eq]) (by simp; rw [abortAs_eq]) (by simp; rw [abortAs_eq]) (by simp; rw [abortAs_eq]) (by simp)
        (by simp [x])
  | synOut => exact h.same (by simp) (by simp) (by simp) (by simp) (by simp) (by simp)
  | synAckOut => exact h.same (by simp) (by simp) (by simp) (by simp) (by simp) (by simp)
  | dataOut => exact h.same (by simp) (by simp) (by simp) (by simp) (by simp) (by simp)
  | finOut => exact h.same (by simp) (by simp) (by simp) (by simp) (by simp) (by simp)
  | ackOut => exact h.same (by simp) (by simp) (by simp) (by simp) (by simp) (by simp)
  | timerSet => exact h.same rfl rfl rfl rfl rfl rfl
  | finClose hst => exact h.move (by simp) (by simp) (by simp) (by simp) (by simp) (by simp [hst])
  | lastClose hst => exact h.move (by simp) (by simp) (by simp) (by simp) (by simp) (by simp [hst])
  | dup => rw [retransmitRequest_eq]; exact h.same rfl rfl rfl rfl rfl rfl
  | store => exact h.same rfl rfl rfl rfl rfl rfl
  | pop => exact h.same rfl rfl rfl rfl rfl rfl
  | @synIn m hq hst hf =>
    refine ⟨by simp [synAs, paramsAs]; omega, by simp [synAs, paramsAs]; omega, .inr ⟨m, hQ m hq, (isSyn_flags hf).2.1, ?_, ?_⟩, by simp⟩
    · simp [synAs, paramsAs]
    · simp [synAs, paramsAs]
  | @synAckIn m hq hst hf hm =>
    rw [ackUpdate_eq]
    refine ⟨by simp [paramsAs]; omega, ?_, .inl (.inr (.inr hst)), by simp [paramsAs, hst]⟩
    simp only [paramsAs]; omega
  | @establish m hq hst hf hr ha hx hu hp =>
    refine ⟨by simpa using h.mss, by simpa using h.ewn, .inr ⟨m, hQ m hq, (isSynAck_flags hf).2.1, by simpa using hp.1, by simpa using hp.2.1⟩,
      fun _ => ⟨m, hQ m hq, (isSynAck_flags hf).1, by simpa using hx trivial, by simp [hp.2.1, hp.2.2]⟩⟩
  | @ackIn m hq hst hf hm =>
    refine h.ack (hQ m hq) (isAck_flags hf).1 ?_
    rcases (hs.synPhase (.inr hst)).num with x | x <;> omega
  | @establish' m hq hst hf ha hx hp =>
    refine ⟨by simpa [emit] using h.mss, by simpa [emit] using h.ewn, ?_,
      fun _ => ⟨m, hQ m hq, (isAck_flags hf).1, by simpa [emit] using hx trivial, by simpa [emit] using hp⟩⟩
    rcases h.peer with x | x
    · simp [hst] at x
    · exact .inr (by simpa [emit] using x)
  | refused => exact h.move (by simp) (by simp) (by simp) (by simp) (by simp) (by simp)
  | closes => exact h.same rfl rfl rfl rfl rfl rfl
  | finEarly hst => exact h.move (by simp) (by simp) (by simp) (by simp) (by simp) (by simp [hst])
  | @dataIn m hq hst hf hm => exact h.ack (hQ m hq) (isAck_flags hf).1 hm.2.1
  | @finIn m hq hst hf hm => exact h.ack (hQ m hq) (isFinAck_flags hf).1 hm.2.1
  | @toCloseWait m hq hst hf hm =>
    refine ⟨by simpa using h.mss, by simpa using h.ewn, ?_, fun _ => by simpa using h.wnd (.inl hst)⟩
    rcases h.peer with x | x
    · simp [hst] at x
    · exact .inr (by simpa using x)
  | toFinWait2 hq hst => exact h.move (by simp) (by simp) (by simp) (by simp) (by simp) (by rcases hst with x | x <;> simp [x])
  | toTimeWait hq hst =>
    exact h.move (by simp [setTimer]) (by simp [setTimer]) (by simp [setTimer]) (by simp [setTimer]) (by simp [setTimer])
      (by rcases hst with x | x <;> simp [x])
  | toClosing hq hst => exact h.move (by simp) (by simp) (by simp) (by simp) (by simp) (by rcases hst with x | ⟨x, _⟩ <;> simp [x])
  | closingAck hq hst =>
    exact h.move (by simp [setTimer]) (by simp [setTimer]) (by simp [setTimer]) (by simp [setTimer]) (by simp [setTimer]) (by simp [hst])
  | shut => exact h.move (by simp) (by simp) (by simp) (by simp) (by simp) (by simp)

/-- `b` differs from `a` only in buffers, semaphores, timers, the table and what was seen. -/
def Beside (a b : Sess) : Prop :=
  b = { a with
    rx := b.rx, tx := b.tx, evConnect := b.evConnect, evRx := b.evRx, timers := b.timers, registered := b.registered, readers := b.readers,
    out := b.out }

/-- The events that are not calls of `tcp_fsm`. -/
theorem beside_send (s : Sess) (d : Bytes) : Beside s (s.send d) := by
  unfold send Beside
  split <;> rfl

theorem beside_acquire (s : Sess) : Beside s s.recvAcquire := by
  unfold recvAcquire Beside
  split <;> rfl

theorem beside_take (s : Sess) (n : Option Nat) : Beside s (s.recvTake n) := by
  rcases recvTake_cases s n with x | ⟨k, e, x⟩ <;> rw [x] <;> rfl

theorem beside_connect (s : Sess) : Beside s s.connectReturn := by
  unfold connectReturn Beside
  split
  · rfl
  · dsimp only
    split
    · rfl
    · split <;> rfl

/-- `run_keeps` for an invariant that does not look at those. -/
theorem run_keeps' {Q : TcpMd → Prop} {G : Prop} {P : Sess → Prop} (hq : ∀ s, P s → QueueOk Q G s)
    (hmicro : ∀ a b, P a → Micro Q G a b → P b) (hside : ∀ a b, P a → Beside a b → P b) {s : Sess} {evs : List Ev}
    (hs : ∀ m ∈ Spec.arrivals evs, Q m) (h : P s) : P (s.run evs) :=
  run_keeps hq hmicro (fun _ _ h => hside _ _ h rfl) (fun s d h => hside _ _ h (beside_send s d)) (fun s h => hside _ _ h (beside_acquire s))
    (fun s n h => hside _ _ h (beside_take s n)) (fun s h => hside _ _ h (beside_connect s)) (fun _ h => hside _ _ h rfl)
    (fun _ _ h => hside _ _ h rfl) hs h

theorem FlowInv.beside {a b : Sess} (h : FlowInv A a) (hb : Beside a b) : FlowInv A b := by
  rw [hb]; exact h.same rfl rfl rfl rfl rfl rfl

theorem Queue.beside {Q : TcpMd → Prop} {a b : Sess} (h : Queue Q a) (hb : Beside a b) : Queue Q b := by
  rw [hb]; exact h.same rfl rfl

/-- An invariant of the small steps that may use `SendInv`. -/
theorem send_keeps {iss : Nat} {A : TcpMd → Prop} {P : Sess → Prop}
    (hmicro : ∀ a b, SendInv iss a → P a → Micro (fun m => AckOk iss m ∧ A m) True a b → P b)
    (hraise : ∀ s e, P s → P (s.emit (.raised e))) (hsend : ∀ s d, P s → P (s.send d)) (hacq : ∀ s, P s → P s.recvAcquire)
    (htake : ∀ s n, P s → P (s.recvTake n)) (hconn : ∀ s, P s → P s.connectReturn) (hclock : ∀ s, P s → P s.clock)
    (htable : ∀ s b, P s → P { s with registered := b }) {s : Sess} {evs : List Ev}
    (hs : ∀ m ∈ Spec.arrivals evs, AckOk iss m ∧ A m) (h0 : SendInv iss s) (hqu : Queue (fun m => AckOk iss m ∧ A m) s) (h : P s) :
    SendInv iss (s.run evs) ∧ P (s.run evs) := by
  have hone : ∀ (s : Sess) (e : Ev), (∀ m ∈ Spec.arrivals [e], AckOk iss m) → SendInv iss s → SendInv iss (s.step e) :=
    fun s e hm h => send_run (evs := [e]) hm h
  have none : ∀ e : Ev, (∀ m, e ≠ .segment m) → ∀ m ∈ Spec.arrivals [e], AckOk iss m := by
    intro e he m hm
    cases e <;> first | (simp [Spec.arrivals] at hm; done) | exact absurd rfl (he _)
  have := run_keeps (Q := fun m => AckOk iss m ∧ A m) (G := True)
    (P := fun s => SendInv iss s ∧ Queue (fun m => AckOk iss m ∧ A m) s ∧ P s)
    (fun s h => ⟨h.2.1.each, h.2.1.early, h.1.queueOk.fin, h.1.queueOk.syn⟩)
    (fun a b h hm => ⟨send_micro h.1 (hm.mono fun _ x => x.1), queue_micro h.2.1 hm, hmicro a b h.1 h.2.2 hm⟩)
    (fun s e h => ⟨?_, h.2.1.beside rfl, hraise s e h.2.2⟩)
    (fun s d h => ⟨hone s (.send d) (none _ (by simp)) h.1, h.2.1.beside (beside_send s d), hsend s d h.2.2⟩)
    (fun s h => ⟨hone s .recvAcquire (none _ (by simp)) h.1, h.2.1.beside (beside_acquire s), hacq s h.2.2⟩)
    (fun s n h => ⟨hone s (.recvTake n) (none _ (by simp)) h.1, h.2.1.beside (beside_take s n), htake s n h.2.2⟩)
    (fun s h => ⟨hone s .connectReturn (none _ (by simp)) h.1, h.2.1.beside (beside_connect s), hconn s h.2.2⟩)
    (fun s h => ⟨hone s .clock (none _ (by simp)) h.1, h.2.1.beside rfl, hclock s h.2.2⟩)
    (fun s b h => ⟨hone s (.table b) (none _ (by simp)) h.1, h.2.1.beside rfl, htable s b h.2.2⟩)
    hs ⟨h0, hqu, h⟩
  · exact ⟨this.1, this.2.2⟩
  · have h := h.1
    exact h.same (h.queue.same rfl rfl) rfl rfl (by simp [emit, Spec.sent_one (o := .raised e) rfl])
      (by simp [emit, Spec.accepted_one (o := .raised e) rfl]) rfl rfl rfl rfl rfl rfl rfl rfl

theorem send_keeps' {iss : Nat} {A : TcpMd → Prop} {P : Sess → Prop}
    (hmicro : ∀ a b, SendInv iss a → P a → Micro (fun m => AckOk iss m ∧ A m) True a b → P b) (hside : ∀ a b, P a → Beside a b → P b)
    {s : Sess} {evs : List Ev}
    (hs : ∀ m ∈ Spec.arrivals evs, AckOk iss m ∧ A m) (h0 : SendInv iss s) (hqu : Queue (fun m => AckOk iss m ∧ A m) s) (h : P s) :
    SendInv iss (s.run evs) ∧ P (s.run evs) :=
  send_keeps hmicro (fun _ _ h => hside _ _ h rfl) (fun s d h => hside _ _ h (beside_send s d)) (fun s h => hside _ _ h (beside_acquire s))
    (fun s n h => hside _ _ h (beside_take s n)) (fun s h => hside _ _ h (beside_connect s)) (fun _ h => hside _ _ h rfl)
    (fun _ _ h => hside _ _ h rfl) hs h0 hqu h

theorem queue_opened' {Q : TcpMd → Prop} (active : Bool) (iss : Nat) (lip : IpAddress) (lport : Nat) (rip : IpAddress) (rport : Nat) :
    Queue Q (opened active iss lip lport rip rport) := by
  rw [opened_eq]
  exact ⟨by simp [new], by simp [new]⟩

theorem flow_opened (active : Bool) (iss : Nat) (lip : IpAddress) (lport : Nat) (rip : IpAddress) (rport : Nat) :
    FlowInv A (opened active iss lip lport rip rport) := by
  rw [opened_eq]
  refine ⟨by simp [new], by simp [new], .inl ?_, ?_⟩
  · cases active <;> simp
  · cases active <;> simp

theorem flow_run {iss : Nat} (active : Bool) (lip : IpAddress) (lport : Nat) (rip : IpAddress) (rport : Nat) {evs : List Ev}
    (hs : ∀ m ∈ Spec.arrivals evs, AckOk iss m) :
    SendInv iss ((opened active iss lip lport rip rport).run evs) ∧
    FlowInv (· ∈ Spec.arrivals evs) ((opened active iss lip lport rip rport).run evs) :=
  send_keeps' (A := (· ∈ Spec.arrivals evs)) (fun _ _ hs h hm => flow_micro (fun _ x => x.2) hs h hm) (fun _ _ h hb => h.beside hb)
    (fun m hm => ⟨hs m hm, hm⟩) (send_opened active lip lport rip rport) (queue_opened' ..) (flow_opened ..)

/-- A retransmission timeout: back to the first unacknowledged number, with a window of one segment. -/
def resetAs (s : Sess) : Sess :=
  { s with
    sndEwn := s.sndMss
    sndNxt := s.sndUna
    seqMod := if s.sndUna = s.sndIni ∨ s.sndUna = s.sndFin then s.seqMod - 1 else s.seqMod }

theorem retransmitTimeout_forms (s : Sess) :
    (s.retransmitTimeout = ok s ∧ ¬ (∃ c, s.txTmo.get? s.sndUna = some c ∧ s.expired (.retransmit s.sndUna) = true)) ∨
    (∃ c, s.txTmo.get? s.sndUna = some c ∧ c ≠ 3 ∧ s.expired (.retransmit s.sndUna) = true ∧ s.retransmitTimeout = ok s.resetAs) ∨
    (s.txTmo.get? s.sndUna = some 3 ∧ s.expired (.retransmit s.sndUna) = true ∧
      (s.retransmitTimeout = ⟨s, some .assertionError⟩ ∨ ∃ e, s.retransmitTimeout = ⟨s.abortAs, e⟩)) := by
  unfold retransmitTimeout
  split
  · rename_i hc
    exact .inl ⟨rfl, by simp [hc]⟩
  · rename_i c hc
    by_cases he : s.expired (.retransmit s.sndUna) = true
    · rw [if_pos he]
      by_cases h3 : c = 3
      · subst h3
        rw [if_pos rfl]
        refine .inr (.inr ⟨hc, he, ?_⟩)
        rcases transmit_cases s (some s.sndUna) false true false true [] with ⟨x, _⟩ | x
        · right
          rw [x]
          simp only [Option.getD_some]
          refine ⟨((s.sentAs s.sndUna false true false true []).failAs.changeState .closed).exc, ?_⟩
          rw [next_ok]
          rfl
        · rw [x]
          exact .inl rfl
      · rw [if_neg h3]
        exact .inr (.inl ⟨c, hc, h3, he, rfl⟩)
    · rw [if_neg he]
      exact .inl ⟨rfl, by simp [he]⟩

theorem transmitData_forms (s : Sess) : Still s s.transmitData ∨
    (s.inWindow ∧ (s.state = .established ∨ s.state = .closeWait) ∧ s.sendLen ≠ 0 ∧
      s.transmitData = ok (s.sentAs s.sndNxt false true false false (pySlice s.tx s.txNxt (s.txNxt + s.sendLen)))) := by
  unfold transmitData
  split
  · exact .inl rfl
  · rename_i hw
    split
    · exact .inl (still_transmit _ _ _ _ _ _)
    · split
      · exact .inl (still_transmit _ _ _ _ _ _)
      · dsimp only
        split
        · rename_i hs
          split
          · rename_i hl
            rcases transmit_cases s none false true false false (pySlice s.tx s.txNxt (s.txNxt + s.sendLen)) with ⟨x, _⟩ | x
            · exact .inr ⟨by unfold inWindow; exact Decidable.not_not.1 hw, hs.1, hl, x⟩
            · left
              change Still s (s.transmitPacket none false true false false (pySlice s.tx s.txNxt (s.txNxt + s.sendLen)))
              rw [x]; rfl
          · exact .inl rfl
        · split
          · exact .inl (still_transmit _ _ _ _ _ _)
          · exact .inl rfl

/-- What a call sends in data: nothing, or one segment within the window. -/
def Within (s : Sess) (r : Res) : Prop :=
  Still s r ∨ ∃ g : Seg, dataSent r.s.out = dataSent s.out ++ [g] ∧ g.data ≠ [] ∧ s.sndUna ≤ g.seq ∧ g.data.length ≤ s.sndMss ∧
    g.seq + g.data.length ≤ s.sndUna + max s.sndWnd s.sndMss ∧ (s.state = .established ∨ s.state = .closeWait)

theorem within_next {s : Sess} {r : Res} {k : Sess → Res} (h : Within s r) (hk : ∀ s', Still s' (k s')) : Within s (r.next k) := by
  unfold Res.next
  split
  · rcases h with h | ⟨g, h⟩
    · exact .inl ((hk r.s).trans h)
    · exact .inr ⟨g, (hk r.s).trans h.1, h.2⟩
  · exact h

theorem within_data {iss : Nat} {s : Sess} (hI : SendInv iss s) (hF : FlowInv A s) : Within s s.transmitData := by
  rcases transmitData_forms s with x | ⟨hw, hst, hl, x⟩
  · exact .inl x
  · obtain ⟨n, h1, h2, h3, h4, h5, h6, h7, h8⟩ := (hI.openPhase hst).send hw hl
    right
    rw [x, h7]
    have hne : ((Spec.accepted s.out).drop (s.sndNxt - (iss + 1))).take n ≠ [] := by
      intro y; rw [y] at h8; exact h1 h8.symm
    have := hF.ewn
    have := (hI.openPhase hst).nxt
    refine ⟨⟨false, true, false, false, s.sndNxt, s.rcvNxt, ((Spec.accepted s.out).drop (s.sndNxt - (iss + 1))).take n⟩, ?_, hne,
      this, by rw [h8]; exact h6, ?_, hst⟩
    · simp [dataSent, Spec.sent, hne]
    · dsimp only
      rw [h8]
      omega

theorem reset_micro {s : Sess} {c : Nat} (hst : Retransmits s.state) (hc : s.txTmo.get? s.sndUna = some c) (h3 : c ≠ 3)
    (he : s.expired (.retransmit s.sndUna) = true) {Q : TcpMd → Prop} {G : Prop} : Micro Q G s s.resetAs := .reset hst hc h3 he

/-- The timer's work in the states that retransmit. -/
theorem within_timer {iss : Nat} {s : Sess} (hI : SendInv iss s) (hF : FlowInv A s) (hst : Retransmits s.state) :
    Within s (s.retransmitTimeout.next fun s => s.transmitData) := by
  rcases retransmitTimeout_forms s with ⟨x, _⟩ | ⟨c, hc, h3, he, x⟩ | ⟨_, _, x | ⟨e, x⟩⟩
  · rw [x, next_ok]; exact within_data hI hF
  · rw [x, next_ok]
    have hm : ∀ {Q : TcpMd → Prop}, Micro Q True s s.resetAs := reset_micro hst hc h3 he
    exact within_data (send_micro hI hm) (flow_micro (Q := A) (fun _ y => y) hI hF hm)
  · rw [x]; exact .inl rfl
  · rw [x]
    left
    have hs : dataSent s.abortAs.out = dataSent s.out := by
      rw [abortAs_eq]; simp [dataSent]
    cases e with
    | none =>
      change Still s (Sess.transmitData s.abortAs)
      rcases transmitData_forms s.abortAs with y | ⟨_, y, _⟩
      · exact y.of_out hs
      · rw [abortAs_eq] at y; simp at y
    | some e => exact hs

theorem within_fsm_timer {iss : Nat} {s : Sess} (hI : SendInv iss s) (hF : FlowInv A s) : Within s (s.fsm .timer) := by
  have hw := fun hst => within_timer hI hF hst
  have hmove : ∀ (c : Prop) [Decidable c] (s : Sess) (st : FsmState), Still s (if c then s.changeState st else ok s) := by
    intro c _ s st; split
    · exact still_change _ _
    · rfl
  have hassoc : ∀ (r : Res) (f g : Sess → Res), (r.next fun s => (f s).next g) = (r.next f).next g := by
    intro r f g
    rcases r with ⟨s, _ | e⟩ <;> rfl
  show Within s (fsmWith _ s .timer)
  unfold fsmWith
  cases hst : s.state with
  | synSent => exact hw (by simp [Retransmits, hst])
  | synRcvd => exact hw (by simp [Retransmits, hst])
  | finWait1 => exact hw (by simp [Retransmits, hst])
  | lastAck => exact hw (by simp [Retransmits, hst])
  | established =>
    dsimp only [fsmEstablished]
    rw [hassoc]
    exact within_next (hw (by simp [Retransmits, hst])) fun s => still_next (still_delayed s) fun s => hmove _ _ _
  | closeWait =>
    dsimp only [fsmCloseWait]
    rw [hassoc]
    exact within_next (hw (by simp [Retransmits, hst])) fun s => still_next (still_delayed s) fun s => hmove _ _ _
  | timeWait => exact .inl (hmove _ _ _)
  | closed => exact .inl rfl
  | listen => exact .inl rfl
  | finWait2 => exact .inl rfl
  | closing => exact .inl rfl

end Verif.Sess
