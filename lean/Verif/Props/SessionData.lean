import Verif.Lemmas.SessionSend
/-!
The byte streams of TCP sessions: C51 (what `send` accepts), C52 (what `receive` delivers), C53 (what is transmitted), C54 (the
states), for every history of a session that was opened by `connect` or `listen`.
-/
namespace Verif
open Sess

/-! ### C51 -/

/-- C51: `send` appends the whole buffer in ESTABLISHED and CLOSE_WAIT; in every other state it raises and changes nothing. -/
theorem C51_send (s : Sess) (d : Bytes) :
    (s.state = .established ∨ s.state = .closeWait →
      s.step (.send d) = { s with tx := s.tx ++ d, out := s.out ++ [.accepted d] }) ∧
    (¬ (s.state = .established ∨ s.state = .closeWait) → s.step (.send d) = { s with out := s.out ++ [.rejected] }) := by
  constructor
  · intro h; show s.send d = _; unfold send; rw [if_pos h]
  · intro h; show s.send d = _; unfold send; rw [if_neg h]; rfl

/-- C51: `send` is accepted exactly in ESTABLISHED and CLOSE_WAIT. -/
theorem C51_accepted_iff (s : Sess) (d : Bytes) :
    ((s.step (.send d)).out = s.out ++ [.accepted d] ↔ s.state = .established ∨ s.state = .closeWait) ∧
    ((s.step (.send d)).out = s.out ++ [.rejected] ↔ ¬ (s.state = .established ∨ s.state = .closeWait)) := by
  by_cases h : s.state = .established ∨ s.state = .closeWait
  · rw [(C51_send s d).1 h]; simp [h]
  · rw [(C51_send s d).2 h]; simp [h]

/-! ### C52 -/

/-- C52: whatever arrives of a peer's stream `p` (in any order, with losses, repetitions and overlaps), and whenever `receive`
is called, what was returned and what is buffered make a prefix of `p`; the next number expected is right behind that prefix
(or behind the FIN, when it is all of `p`); and no acknowledgement covers more. -/
theorem C52_prefix {p : Bytes} {irs : Nat} (active : Bool) (iss : Nat) (lip : IpAddress) (lport : Nat) (rip : IpAddress) (rport : Nat)
    {evs : List Ev} (h : ∀ m ∈ Spec.arrivals evs, Spec.SegmentOf p irs m) :
    let s := (opened active iss lip lport rip rport).run evs
    ∃ k, k ≤ p.length ∧ Spec.received s.out ++ s.rx = p.take k ∧
      (s.rcvNxt = 0 ∧ k = 0 ∨ s.rcvNxt = irs + 1 + k ∨ s.rcvNxt = irs + 2 + k ∧ k = p.length) ∧
      ∀ g ∈ Spec.sent s.out, g.ack = true → g.ackn ≤ irs + 1 + k ∨ g.ackn ≤ irs + 2 + k ∧ k = p.length := by
  intro s
  have hi : RecvInv p irs s := recv_run h (recv_opened active iss lip lport rip rport)
  rcases hi.data with x | ⟨k, x⟩ | x
  · refine ⟨0, by omega, by simpa [delivered] using x.2.1, .inl ⟨x.1, rfl⟩, fun g hg hk => .inl ?_⟩
    have := hi.acks g hg hk
    omega
  · refine ⟨k, x.1, x.2.1, .inr (.inl x.2.2.1), fun g hg hk => .inl ?_⟩
    have := hi.acks g hg hk
    omega
  · refine ⟨p.length, Nat.le_refl _, by rw [List.take_length]; exact x.1, .inr (.inr ⟨x.2.1, rfl⟩), fun g hg hk => .inr ⟨?_, rfl⟩⟩
    have := hi.acks g hg hk
    omega

/-- C52: what has been acknowledged has been buffered: an acknowledgement of `n` bytes of the stream is sent only when the first
`n` bytes are with the application or in its buffer. -/
theorem C52_acked_is_buffered {p : Bytes} {irs : Nat} (active : Bool) (iss : Nat) (lip : IpAddress) (lport : Nat) (rip : IpAddress)
    (rport : Nat) {evs : List Ev} (h : ∀ m ∈ Spec.arrivals evs, Spec.SegmentOf p irs m) {g : Seg} {n : Nat}
    (hg : g ∈ Spec.sent ((opened active iss lip lport rip rport).run evs).out) (hk : g.ack = true) (hn : g.ackn = irs + 1 + n)
    (hp : n ≤ p.length) :
    p.take n <+: Spec.received ((opened active iss lip lport rip rport).run evs).out ++
      ((opened active iss lip lport rip rport).run evs).rx := by
  obtain ⟨k, h1, h2, h3, h4⟩ := C52_prefix active iss lip lport rip rport h
  rw [h2]
  have : n ≤ k := by
    rcases h4 g hg hk with x | x <;> omega
  exact List.take_prefix_take_left this

/-- What is delivered only grows. -/
theorem delivered_micro {Q : TcpMd → Prop} {G : Prop} {a b : Sess} (hm : Micro Q G a b) : a.delivered <+: b.delivered := by
  have upd : ∀ (s : Sess) (m : TcpMd), s.delivered <+: (s.ackUpdate m).delivered := by
    intro s m
    rw [ackUpdate_eq]
    unfold delivered
    dsimp only
    rw [← List.append_assoc]
    exact List.prefix_append _ _
  have eqv : ∀ {x y : Bytes}, y = x → x <+: y := by
    intro x y h; rw [h]; exact List.prefix_refl _
  cases hm with
  | abort => rw [abortAs_eq]; exact eqv (by simp [delivered])
  | abortMove => refine eqv ?_; simp [delivered]; rw [abortAs_eq]; simp
  | dup => rw [retransmitRequest_eq]; exact List.prefix_refl _
  | @synAckIn m => exact upd (a.paramsAs m) m
  | ackIn => exact upd _ _
  | dataIn => exact upd _ _
  | finIn => exact upd _ _
  | synIn => exact eqv (by simp [delivered, synAs, paramsAs])
  | _ => exact eqv (by simp [delivered, emit, setTimer, storeAs])

theorem queue_run {s : Sess} {evs : List Ev} (h : Queue (fun _ => True) s) : Queue (fun _ => True) (s.run evs) := by
  refine run_keeps (Q := fun _ => True) (G := False) (P := Queue (fun _ => True)) (fun s h => h.queueOk) (fun a b h hm => queue_micro h hm)
    (fun s e h => h.same rfl rfl) ?_ ?_ ?_ ?_ ?_ ?_ (fun _ _ => trivial) h
  · intro s d h; unfold send; split <;> exact h.same rfl rfl
  · intro s h; unfold recvAcquire; split <;> exact h.same rfl rfl
  · intro s n h
    rcases recvTake_cases s n with x | ⟨k, e, x⟩ <;> rw [x] <;> exact h.same rfl rfl
  · intro s h
    unfold connectReturn
    split
    · exact h
    · dsimp only
      split
      · exact h.same rfl rfl
      · split <;> exact h.same rfl rfl
  · intro s h; exact h.same rfl rfl
  · intro s b h; exact h.same rfl rfl

theorem queue_opened (active : Bool) (iss : Nat) (lip : IpAddress) (lport : Nat) (rip : IpAddress) (rport : Nat) :
    Queue (fun _ => True) (opened active iss lip lport rip rport) := by
  rw [opened_eq]; exact ⟨by simp [new], by simp [new]⟩

/-- C52: the next segment of the stream, in ESTABLISHED, within the window and with an acceptable acknowledgement, is delivered. -/
theorem C52_in_order_delivered (active : Bool) (iss : Nat) (lip : IpAddress) (lport : Nat) (rip : IpAddress) (rport : Nat)
    (evs : List Ev) (m : TcpMd) :
    let s := (opened active iss lip lport rip rport).run evs
    let s' := s.step (.segment m)
    s.state = .established → m.ack = true ∧ m.syn = false ∧ m.rst = false → m.seq = s.rcvNxt → m.data ≠ [] → m.data.length ≤ 65535 →
    s.sndUna ≤ m.ackn ∧ m.ackn ≤ s.sndMax →
    Spec.received s.out ++ s.rx ++ m.data <+: Spec.received s'.out ++ s'.rx := by
  intro s s' hst hfl hseq hd hlen hack
  have hq : Queue (fun _ => True) s := queue_run (queue_opened active iss lip lport rip rport)
  have hq' := hq.queueOk
  have hwin : ¬ ¬ (s.rcvNxt ≤ m.seq ∧ m.seq + m.data.length ≤ s.rcvNxt + 65535) := by omega
  have hpre : (s.ackUpdate m).delivered = Spec.received s.out ++ s.rx ++ m.data := by rw [ackUpdate_eq]; simp [delivered]
  have hacc : s.acceptable m = true := acceptable_iff.2 hack
  have hin := processAck_inner (m := m) (recOk_fuel (Q := fun _ => True) (G := False) s.ooo.length) hq' (.inl hst)
  have hp : (s.ackUpdate m).delivered <+: (processAck (fun s' m => fsmFuel s.ooo.length s' (.packet m)) s m).s.delivered :=
    hin.path.keeps (P := fun b => (s.ackUpdate m).delivered <+: b.delivered) (fun a b h hm => h.trans (delivered_micro hm))
      (List.prefix_refl _)
  rw [hpre] at hp
  have hfsm : s.fsm (.packet m) = s.fsmEstablished (fun s' m => fsmFuel s.ooo.length s' (.packet m)) (.packet m) := by
    show fsmWith _ s _ = _
    unfold fsmWith
    rw [hst]
  have next : ∀ {r : Res} {k : Sess → Res} {d : Bytes}, d <+: r.s.delivered → (∀ s, s.delivered <+: (k s).s.delivered) →
      d <+: (r.next k).s.delivered := by
    intro r k d h1 h2
    rcases next_cases r k with x | x
    · rw [x]; exact h1
    · rw [x]; exact h1.trans (h2 _)
  have hsd : ∀ r : Res, r.done.delivered = r.s.delivered := by
    intro r
    unfold Res.done
    split
    · rfl
    · simp [delivered, emit]; rfl
  show _ <+: s'.delivered
  have : s' = (s.fsm (.packet m)).done := rfl
  rw [this, hsd, hfsm]
  unfold fsmEstablished
  dsimp only
  rw [if_neg hwin]
  by_cases hf : m.fin = true
  · rw [if_neg (by simp [isAck, hf]), if_pos (by simp [isFinAck, hf, hfl]), if_pos ⟨hseq, hacc⟩]
    refine next hp fun s => next ?_ fun s => ?_
    · rw [if_pos hd]
      rcases transmitAck_cases s with ⟨x, _⟩ | x <;> rw [x] <;> simp [delivered]
    · rw [changeState_ok (by simp)]; simp [delivered]
  · rw [if_pos (by simp [isAck, hf, hfl]), if_neg (by simp [hd]), if_neg (by omega), if_pos ⟨hseq, hacc⟩]
    exact hp

/-! ### C53 -/

/-- C53: every data segment carries the accepted bytes at its place, the SYN is numbered `iss`, and the FIN comes after all the
accepted bytes.  Partial: histories in which something acknowledges the number `iss` itself are left out; see
`C53_early_ack`. -/
theorem C53_sent_partial {iss : Nat} (active : Bool) (lip : IpAddress) (lport : Nat) (rip : IpAddress) (rport : Nat)
    {evs : List Ev} (h : ∀ m ∈ Spec.arrivals evs, m.ack = true → m.rst = false → m.ackn ≠ iss) :
    let s := (opened active iss lip lport rip rport).run evs
    ∀ g ∈ Spec.sent s.out,
      (g.data ≠ [] → iss < g.seq ∧ ((Spec.accepted s.out).drop (g.seq - (iss + 1))).take g.data.length = g.data) ∧
      (g.syn = true → g.seq = iss) ∧
      (g.fin = true → Spec.accepted s.out = [] ∨ g.seq = iss + 1 + (Spec.accepted s.out).length) := by
  intro s g hg
  have hi : SendInv iss s := send_run h (send_opened active lip lport rip rport)
  exact ⟨hi.sent.data g hg, hi.sent.syn g hg, fun x => (hi.sent.fin g hg x).1⟩

/-- C53: the transmit buffer is what was accepted less what was acknowledged, while the application may send; afterwards, it is
empty and everything accepted was acknowledged.  Partial: as above. -/
theorem C53_buffer_partial {iss : Nat} (active : Bool) (lip : IpAddress) (lport : Nat) (rip : IpAddress) (rport : Nat)
    {evs : List Ev} (h : ∀ m ∈ Spec.arrivals evs, m.ack = true → m.rst = false → m.ackn ≠ iss) :
    let s := (opened active iss lip lport rip rport).run evs
    (s.state = .established ∨ s.state = .closeWait →
      iss < s.sndUna ∧ s.sndUna ≤ iss + 1 + (Spec.accepted s.out).length ∧ s.tx = (Spec.accepted s.out).drop (s.sndUna - (iss + 1))) ∧
    (s.state = .finWait1 ∨ s.state = .finWait2 ∨ s.state = .closing ∨ s.state = .lastAck ∨ s.state = .timeWait →
      s.tx = [] ∧ (Spec.accepted s.out = [] ∨ iss + 1 + (Spec.accepted s.out).length ≤ s.sndUna)) := by
  intro s
  have hi : SendInv iss s := send_run h (send_opened active lip lport rip rport)
  constructor
  · intro hst
    have hp := hi.openPhase hst
    have := hp.nxt; have := hp.most; have := hp.top
    exact ⟨hp.una, by omega, hp.tx⟩
  · intro hst
    have hp := hi.finPhase hst
    refine ⟨hp.tx, ?_⟩
    rcases hp.num with x | x
    · exact .inl x.1
    · exact .inr x.1

/-! ### C54 -/

theorem journey_micro {iss : Nat} {a b : Sess} (hi : SendInv iss a) (hm : Micro (AckOk iss) True a b)
    (h : Spec.Journey .closed (Spec.moves a.out) a.state) : Spec.Journey .closed (Spec.moves b.out) b.state := by
  have move : ∀ {st}, (a.state = st ∨ Spec.Edge a.state st) → Spec.Journey .closed (Spec.moves a.out ++ [(a.state, st)]) st :=
    fun he => h.step he
  cases hm with
  | reset => exact h
  | abort hst =>
    have := move (st := .closed) (.inr (.toClosed (by rcases hst with x | x | x | x | x | x <;> simp [x])))
    rw [abortAs_eq]; simpa using this
  | @abortMove st t hst hc hcl htx =>
    have ho : OpenPhase iss a := hi.openPhase (by rcases hst with ⟨x, _⟩ | ⟨x, _⟩ <;> simp [x])
    obtain ⟨e, he1, he2⟩ := get?_key hc
    have h1 := ho.empty htx
    have h2 := ho.tmo e he1 (by omega)
    omega
  | synOut => simpa using h
  | synAckOut => simpa using h
  | dataOut => simpa using h
  | finOut => simpa using h
  | ackOut => simpa using h
  | timerSet => exact h
  | finClose hst => simpa using move (.inr (by rw [hst]; exact .close))
  | lastClose hst => simpa using move (.inr (by rw [hst]; exact .closeAfterFin))
  | dup => rw [retransmitRequest_eq]; exact h
  | store => exact h
  | pop => exact h
  | @synIn m hq hst => simpa [synAs, paramsAs] using move (st := .synRcvd) (.inr (by rw [hst]; exact .rcvSyn))
  | synAckIn => rw [ackUpdate_out, ackUpdate_state]; exact h
  | establish hq hst => simpa using move (.inr (by rw [hst]; exact .rcvSynAck))
  | ackIn => rw [ackUpdate_out, ackUpdate_state]; exact h
  | establish' hq hst => simpa [emit] using move (st := .established) (.inr (by rw [hst]; exact .rcvAckOfSyn))
  | refused hq hst => simpa using move (st := .closed) (.inr (.toClosed (by simp [hst])))
  | closes => exact h
  | finEarly hst => simpa using move (.inr (by rw [hst]; exact .closeSynRcvd))
  | dataIn => rw [ackUpdate_out, ackUpdate_state]; exact h
  | finIn => rw [ackUpdate_out, ackUpdate_state]; exact h
  | toCloseWait hq hst => simpa using move (.inr (by rw [hst]; exact .rcvFin))
  | toFinWait2 hq hst =>
    rcases hst with x | x
    · simpa using move (.inr (by rw [x]; exact .rcvAckOfFin))
    · simpa using move (.inl x)
  | toTimeWait hq hst =>
    rcases hst with x | x
    · simpa [setTimer] using move (st := .timeWait) (.inr (by rw [x]; exact .rcvFinAckOfFin))
    · simpa [setTimer] using move (st := .timeWait) (.inr (by rw [x]; exact .rcvFinLater))
  | toClosing hq hst hf ha =>
    rcases hst with x | x
    · simpa using move (.inr (by rw [x]; exact .rcvFinSimultaneous))
    · have := x.2 trivial
      omega
  | closingAck hq hst => simpa [setTimer] using move (st := .timeWait) (.inr (by rw [hst]; exact .rcvAckClosing))
  | shut hst => simpa using move (st := .closed) (.inr (.toClosed hst))

/-- C54: the states of a session, from CLOSED on, are joined by edges of the TCP state diagram.  Partial: histories in which
something acknowledges the number `iss` itself are left out. -/
theorem C54_journey_partial {iss : Nat} (active : Bool) (lip : IpAddress) (lport : Nat) (rip : IpAddress) (rport : Nat)
    {evs : List Ev} (h : ∀ m ∈ Spec.arrivals evs, m.ack = true → m.rst = false → m.ackn ≠ iss) :
    let s := (opened active iss lip lport rip rport).run evs
    Spec.Journey .closed (Spec.moves s.out) s.state := by
  intro s
  have quiet : ∀ (s : Sess) (o : Out), Spec.quiet o = true → Spec.Journey .closed (Spec.moves s.out) s.state →
      Spec.Journey .closed (Spec.moves (s.emit o).out) (s.emit o).state := by
    intro s o ho h
    simpa [emit, Spec.moves_one ho] using h
  suffices hh : ∀ n, Spec.Journey .closed (Spec.moves ((opened active iss lip lport rip rport).run (evs.take n)).out)
      ((opened active iss lip lport rip rport).run (evs.take n)).state by
    have := hh evs.length
    rwa [List.take_length] at this
  intro n
  induction n with
  | zero =>
    show Spec.Journey _ (Spec.moves (opened active iss lip lport rip rport).out) (opened active iss lip lport rip rport).state
    rw [opened_eq]
    cases active
    · simpa [new] using Spec.Journey.step (a := .closed) (b := .closed) (c := .listen) .here (.inr .passiveOpen)
    · simpa [new] using Spec.Journey.step (a := .closed) (b := .closed) (c := .synSent) .here (.inr .activeOpen)
  | succ n ih =>
    by_cases hn : n < evs.length
    · rw [List.take_succ_eq_append_getElem hn]
      unfold run at ih ⊢
      rw [List.foldl_append]
      have hpre : ∀ m ∈ Spec.arrivals (evs.take n), AckOk iss m := by
        intro m hm
        have : m ∈ Spec.arrivals (evs.take n ++ evs.drop n) := by
          rw [Spec.arrivals, List.filterMap_append]; exact List.mem_append_left _ hm
        rw [List.take_append_drop] at this
        exact h m this
      have hi : SendInv iss (List.foldl step (opened active iss lip lport rip rport) (evs.take n)) :=
        send_run hpre (send_opened active lip lport rip rport)
      generalize List.foldl step (opened active iss lip lport rip rport) (evs.take n) = t at ih hi
      have done : ∀ i, InputOk (AckOk iss) i → Spec.Journey .closed (Spec.moves (t.fsm i).done.out) (t.fsm i).done.state := by
        intro i hio
        have := (fsm_path hi.queueOk hio).keeps (P := fun s => SendInv iss s ∧ Spec.Journey .closed (Spec.moves s.out) s.state)
          (fun a b h hm => ⟨send_micro h.1 hm, journey_micro h.1 hm h.2⟩) ⟨hi, ih⟩
        unfold Res.done
        split
        · exact this.2
        · exact quiet _ _ rfl this.2
      show Spec.Journey .closed (Spec.moves (t.step evs[n]).out) (t.step evs[n]).state
      have hmem : evs[n] ∈ evs := List.getElem_mem hn
      generalize evs[n] = e at hmem
      cases e with
      | segment m =>
        refine done _ (h m ?_)
        exact List.mem_filterMap.2 ⟨_, hmem, rfl⟩
      | close => exact done _ rfl
      | timer => exact done _ trivial
      | send d =>
        show Spec.Journey .closed (Spec.moves (t.send d).out) (t.send d).state
        unfold send
        split
        · simpa using ih
        · exact quiet _ _ rfl ih
      | recvAcquire =>
        show Spec.Journey .closed (Spec.moves t.recvAcquire.out) t.recvAcquire.state
        unfold recvAcquire
        split <;> exact ih
      | recvTake k =>
        show Spec.Journey .closed (Spec.moves (t.recvTake k).out) (t.recvTake k).state
        rcases recvTake_cases t k with x | ⟨k, e, x⟩
        · rw [x]; exact ih
        · rw [x]; simpa using ih
      | connectReturn =>
        show Spec.Journey .closed (Spec.moves t.connectReturn.out) t.connectReturn.state
        unfold connectReturn
        split
        · exact ih
        · dsimp only
          split
          · exact quiet _ _ rfl ih
          · split
            · exact quiet _ _ rfl ih
            · exact quiet _ _ rfl ih
      | clock => exact ih
      | table b => exact ih
    · rw [List.take_of_length_le (by omega)]
      rw [List.take_of_length_le (by omega)] at ih
      exact ih

/-! ### Examples -/

namespace Example.Session
open Sess

def lip : IpAddress := .v4 ⟨0x0a000107, by decide⟩
def rip : IpAddress := .v4 ⟨0x0a000109, by decide⟩

/-- A segment from 10.0.1.9:80 to 10.0.1.7:5000; window 1000, MSS 4. -/
def seg (syn ack fin rst : Bool) (seq ackn : Nat) (data : Bytes) : TcpMd :=
  ⟨lip, 5000, rip, 80, syn, ack, fin, rst, seq, ackn, 1000, none, 4, data⟩

/-- `connect` with initial number 100. -/
def client : Sess := opened true 100 lip 5000 rip 80

/-- The peer numbers from 500 and sends the bytes 1 … 6 in three segments, the second of which arrives first and again later; the
application sends 7 8 9 10 11 12, which takes two segments; it reads in between, and closes. -/
def hist : List Ev :=
  [.timer, .segment (seg true true false false 500 101 []), .connectReturn, .send [7, 8, 9, 10, 11, 12], .timer, .timer,
   .segment (seg false true false false 503 101 [3, 4]), .segment (seg false true false false 501 101 [1, 2]), .recvAcquire,
   .recvTake none, .segment (seg false true false false 503 101 [3, 4]), .segment (seg false true false false 505 107 [5, 6]),
   .close, .timer, .timer, .segment (seg false true true false 507 108 []), .recvAcquire, .recvTake (some 1)]

/-- C52: the segments are the peer's. -/
example : ∀ m ∈ Spec.arrivals hist, Spec.SegmentOf [1, 2, 3, 4, 5, 6] 500 m := by
  intro m hm
  simp only [hist, Spec.arrivals, List.filterMap_cons, List.filterMap_nil, List.mem_cons, List.not_mem_nil, or_false] at hm
  rcases hm with h | h | h | h | h | h <;> subst h <;> exact ⟨by decide, by decide, by decide⟩

/-- C53, C54: nothing acknowledges 100. -/
example : ∀ m ∈ Spec.arrivals hist, m.ack = true → m.ackn ≠ 100 := by decide +kernel

/-- What is delivered and buffered, transmitted, and gone through. -/
example : Spec.received (client.run hist).out = [1, 2, 3, 4, 5] ∧ (client.run hist).rx = [6] ∧
    Spec.accepted (client.run hist).out = [7, 8, 9, 10, 11, 12] ∧
    (Spec.sent (client.run hist).out).map (fun g => (g.syn, g.fin, g.seq, g.ackn, g.data)) =
      [(true, false, 100, 0, []), (false, false, 101, 501, []), (false, false, 101, 501, [7, 8, 9, 10]),
       (false, false, 105, 501, [11, 12]), (false, false, 107, 501, []), (false, true, 107, 507, []), (false, false, 108, 508, [])] ∧
    Spec.moves (client.run hist).out =
      [(.closed, .synSent), (.synSent, .established), (.established, .finWait1), (.finWait1, .timeWait)] := by decide +kernel

/-- C51: both outcomes occur. -/
example : Spec.accepted (client.run [.send [1]]).out = [] ∧ Out.rejected ∈ (client.run [.send [1]]).out ∧
    Spec.accepted (client.run (hist.take 4)).out = [7, 8, 9, 10, 11, 12] := by decide +kernel

/-- C52_in_order_delivered: its hypotheses are met, by the segment that fills the gap. -/
example : (client.run (hist.take 7)).state = .established ∧ (client.run (hist.take 7)).rcvNxt = 501 ∧
    (client.run (hist.take 7)).sndUna ≤ 101 ∧ 101 ≤ (client.run (hist.take 7)).sndMax := by decide +kernel

end Example.Session

/-- C53 fails without its hypothesis: a SYN|ACK that acknowledges nothing, sent before the SYN was, is taken; the SYN is never sent,
the first byte goes out with the number of the SYN, and after a timeout it is skipped. -/
theorem C53_early_ack : ∃ evs : List Ev, ∃ g ∈ Spec.sent ((Example.Session.client.run evs)).out,
    g.seq = 100 ∧ g.data = [8] ∧ Spec.accepted (Example.Session.client.run evs).out = [7, 8] ∧
    ∀ g ∈ Spec.sent ((Example.Session.client.run evs)).out, g.syn = false := by
  refine ⟨[.segment (Example.Session.seg true true false false 500 100 []), .send [7, 8], .timer] ++ List.replicate 1000 .clock ++
    [.timer], ⟨false, true, false, false, 100, 501, [8]⟩, ?_⟩
  decide +kernel

end Verif
