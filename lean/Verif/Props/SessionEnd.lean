import Verif.Props.SessionFlow
import Verif.Lemmas.SessionEnd
/-!
The ends of TCP sessions: of the sequence numbers (C62), of the streams (C59), of the calls that wait (C55).
-/
namespace Verif
open Sess

/-! ### C62 -/

/-- C62 fails: a session whose initial number is the last one is never established, whatever happens: the acknowledgement of its
SYN is 0, and it is never taken.  (No arriving segment can acknowledge more than `2^32 - 1`, and none acknowledges the number of
the SYN itself.) -/
theorem C62_last_number (active : Bool) (lip : IpAddress) (lport : Nat) (rip : IpAddress) (rport : Nat) (evs : List Ev)
    (h : ∀ m ∈ Spec.arrivals evs, m.ackn ≤ 0xFFFFFFFF ∧ (m.ack = true → m.rst = false → m.ackn ≠ 0xFFFFFFFF)) :
    let s := (opened active 0xFFFFFFFF lip lport rip rport).run evs
    s.state ≠ .established ∧ s.state ≠ .closeWait ∧ ∀ d, (s.step (.send d)).out = s.out ++ [.rejected] := by
  intro s
  obtain ⟨h1, h2⟩ := lastNumber_run active lip lport rip rport (evs := evs) (fun m hm => ⟨(h m hm).2, (h m hm).1⟩)
  refine ⟨h1, h2, fun d => ?_⟩
  have := (C51_send s d).2 (by rintro (x | x); exacts [h1 x, h2 x])
  rw [this]

/-- C62 fails for sending: whatever happens, no byte beyond 1460 past the end of the numbers is ever sent, however much `send`
has accepted.  Partial: as C53. -/
theorem C62_send_partial {iss : Nat} (active : Bool) (lip : IpAddress) (lport : Nat) (rip : IpAddress) (rport : Nat) (evs : List Ev)
    (h : ∀ m ∈ Spec.arrivals evs, m.ack = true → m.rst = false → m.ackn ≠ iss) :
    let s := (opened active iss lip lport rip rport).run evs
    ∀ g ∈ Spec.sent s.out, g.data ≠ [] → iss < g.seq ∧ (g.seq - (iss + 1)) + g.data.length ≤ 0xFFFFFFFF - (iss + 1) + 1460 ∧
      ((Spec.accepted s.out).drop (g.seq - (iss + 1))).take g.data.length = g.data := by
  intro s g hg hd
  obtain ⟨h1, h2⟩ := (C53_sent_partial active lip lport rip rport h g hg).1 hd
  have h3 := fits_run active lip lport rip rport h g hg
  exact ⟨h1, by omega, h2⟩

/-- C62 fails for receiving: whatever arrives of the peer's stream, in segments of at most `L` bytes, the session takes nothing
past one segment beyond the end of the numbers. -/
theorem C62_receive {p : Bytes} {irs L : Nat} (active : Bool) (iss : Nat) (lip : IpAddress) (lport : Nat) (rip : IpAddress) (rport : Nat)
    (evs : List Ev) (h : ∀ m ∈ Spec.arrivals evs, Spec.SegmentOf p irs m ∧ m.seq ≤ 0xFFFFFFFF ∧ m.data.length ≤ L) :
    let s := (opened active iss lip lport rip rport).run evs
    Spec.received s.out ++ s.rx <+: p ∧ (Spec.received s.out ++ s.rx).length ≤ 0xFFFFFFFF + 1 + L - irs := by
  intro s
  obtain ⟨k, h1, h2, h3, -⟩ := C52_prefix active iss lip lport rip rport (p := p) (irs := irs) (evs := evs) (fun m hm => (h m hm).1)
  have h4 : RcvFits L s := rcvFits_run (fun m hm => (h m hm).2) (queue_opened' ..) (by
    rw [opened_eq]; unfold RcvFits; simp [new])
  unfold RcvFits at h4
  change Spec.received s.out ++ s.rx = _ at h2
  refine ⟨by rw [h2]; exact List.take_prefix _ _, ?_⟩
  rw [h2, List.length_take]
  change s.rcvNxt = 0 ∧ _ ∨ s.rcvNxt = _ ∨ s.rcvNxt = _ ∧ _ at h3
  omega

/-! ### C59 -/

/-- While receive calls run from beginning to end. -/
theorem eof_run {iss : Nat} (active : Bool) (lip : IpAddress) (lport : Nat) (rip : IpAddress) (rport : Nat) (blocks : List (List Ev))
    (hb : ∀ b ∈ blocks, Spec.Whole b) (h : ∀ m ∈ Spec.arrivals blocks.flatten, AckOk iss m) :
    EofInv ((opened active iss lip lport rip rport).run blocks.flatten) := by
  have key : SendInv iss ((opened active iss lip lport rip rport).run blocks.flatten) ∧
      EofInv ((opened active iss lip lport rip rport).run blocks.flatten) := by
    induction blocks using List.reverseRecOn with
    | nil =>
      refine ⟨send_opened active lip lport rip rport, ?_⟩
      show EofInv (opened active iss lip lport rip rport)
      rw [opened_eq]
      exact ⟨by simp [new], fun _ => by simp [new]⟩
    | append_singleton blocks b ih =>
      have harr : ∀ l₁ l₂ : List Ev, Spec.arrivals (l₁ ++ l₂) = Spec.arrivals l₁ ++ Spec.arrivals l₂ := fun _ _ => List.filterMap_append
      rw [List.flatten_append, harr] at h
      obtain ⟨hS, hE⟩ := ih (fun b hb' => hb b (List.mem_append_left _ hb')) (fun m hm => h m (List.mem_append_left _ hm))
      have hrun : (opened active iss lip lport rip rport).run (blocks ++ [b]).flatten =
          ((opened active iss lip lport rip rport).run blocks.flatten).run b := by
        rw [List.flatten_append]; unfold run; rw [List.foldl_append]; simp
      rw [hrun]
      have hS' := send_run (evs := b) (fun m hm => h m (List.mem_append_right _ (by simpa using hm))) hS
      refine ⟨hS', ?_⟩
      have hw := hb b (by simp)
      have hsm : ∀ m ∈ Spec.arrivals b, AckOk iss m := fun m hm => h m (List.mem_append_right _ (by simpa using hm))
      generalize (opened active iss lip lport rip rport).run blocks.flatten = s at hS hE
      have done : ∀ i, InputOk (AckOk iss) i → EofInv (s.fsm i).done := by
        intro i hi
        have := ((fsm_path hS.queueOk hi).keeps (P := fun s => SendInv iss s ∧ EofInv s)
          (fun a b h hm => ⟨send_micro h.1 hm, eof_micro h.1 h.2 hm⟩) ⟨hS, hE⟩).2
        unfold Res.done
        split
        · exact this
        · exact ⟨this.none, this.sem⟩
      cases hw with
      | @one e h1 h2 =>
        show EofInv (s.step e)
        cases e with
        | segment m => exact done _ (hsm m (by simp [Spec.arrivals]))
        | close => exact done _ rfl
        | timer => exact done _ trivial
        | send d =>
          show EofInv (s.send d)
          unfold send
          split <;> exact ⟨hE.none, hE.sem⟩
        | recvAcquire => exact absurd rfl h1
        | recvTake n => exact absurd rfl (h2 n)
        | connectReturn =>
          show EofInv s.connectReturn
          unfold connectReturn
          split
          · exact hE
          · dsimp only
            split
            · exact ⟨hE.none, hE.sem⟩
            · split <;> exact ⟨hE.none, hE.sem⟩
        | clock => exact ⟨hE.none, hE.sem⟩
        | table b => exact ⟨hE.none, hE.sem⟩
      | receive n =>
        show EofInv (s.recvAcquire.recvTake n)
        rcases receive_cases hE.none n with ⟨_, x⟩ | ⟨h0, h1, h2, x⟩ | ⟨h0, h1, k, _, x⟩
        · rw [x]; exact hE
        · rw [x]
          refine ⟨hE.none, fun y => ?_⟩
          exfalso; apply y
          rcases h2 with h2 | h2 <;> simp [Ended, h2]
        · rw [x]
          refine ⟨hE.none, fun y => ?_⟩
          have h3 := hE.sem y
          dsimp only at y ⊢
          split
          · rename_i hc
            refine ⟨h3.1, fun _ => ?_⟩
            rcases hc with hc | hc | hc
            · exact hc
            · exact absurd (by simp [Ended, hc]) y
            · exact absurd (by simp [Ended, hc]) y
          · exact ⟨by omega, fun z => by omega⟩
  exact key.2

/-- After the peer's FIN has been taken. -/
theorem finSeen_run {p : Bytes} {irs : Nat} (active : Bool) (iss : Nat) (lip : IpAddress) (lport : Nat) (rip : IpAddress) (rport : Nat)
    (evs : List Ev) (h : ∀ m ∈ Spec.arrivals evs, Spec.SegmentOf p irs m) :
    let s := (opened active iss lip lport rip rport).run evs
    s.state = .closeWait ∨ s.state = .lastAck → irs + 2 + p.length ≤ s.rcvNxt := by
  intro s
  refine (run_keeps' (Q := Spec.SegmentOf p irs) (G := False)
    (P := fun s => Queue (Spec.SegmentOf p irs) s ∧ (s.state = .closeWait ∨ s.state = .lastAck → irs + 2 + p.length ≤ s.rcvNxt))
    (fun s h => h.1.queueOk)
    (fun a b h hm => ⟨queue_micro h.1 hm, ?_⟩) (fun a b h hb => ⟨h.1.beside hb, ?_⟩) h ⟨queue_opened' .., ?_⟩).2
  · have h := h.2
    cases hm with
    | abort => simp
    | abortMove hst =>
      rcases hst with ⟨x, y⟩ | ⟨x, y⟩
      · simp [y]
      · intro _; simpa using h (.inl x)
    | dup => rw [retransmitRequest_eq]; exact h
    | synAckIn hq hst => rw [ackUpdate_state]; intro x; rw [paramsAs_state, hst] at x; simp at x
    | ackIn hq hst => rw [ackUpdate_state]; intro x; rw [hst] at x; simp at x
    | dataIn hq hst hf hm =>
      rw [ackUpdate_state, ackUpdate_rcvNxt]
      intro x
      have := h x
      omega
    | finIn hq hst hf hm =>
      rw [ackUpdate_state, ackUpdate_rcvNxt]
      intro x
      have := h x
      omega
    | reset => exact h
    | timerSet => exact h
    | store => exact h
    | pop => exact h
    | closes => exact h
    | toCloseWait hq hst hf hm =>
      intro _
      have := (hq.fin (isFinAck_flags hf).2.2.2).2
      simp only [moveAs_rcvNxt]
      omega
    | lastClose hst => intro _; simpa using h (.inl hst)
    | synOut => simpa using h
    | synAckOut => simpa using h
    | dataOut => simpa using h
    | finOut => simpa using h
    | ackOut => simpa [ackAs] using h
    | _ => simp [emit, setTimer]
  · have h1 := congrArg Sess.rcvNxt hb
    have h2 := congrArg Sess.state hb
    dsimp only at h1 h2
    rw [h1, h2]; exact h.2
  · rw [opened_eq]; cases active <;> simp

/-- C59: when receive calls run from beginning to end, a call (for more than zero bytes) returns the empty string only if all
buffered data was read and the session is closed, or the peer has closed and all of its stream has been returned.  Partial: calls
that another thread or the network interrupts are left out, see `C59_race`; and so are histories as in C53. -/
theorem C59_eof_partial {iss : Nat} (active : Bool) (lip : IpAddress) (lport : Nat) (rip : IpAddress) (rport : Nat) (blocks : List (List Ev))
    (hb : ∀ b ∈ blocks, Spec.Whole b) (h : ∀ m ∈ Spec.arrivals blocks.flatten, m.ack = true → m.rst = false → m.ackn ≠ iss) (n : Option Nat)
    (hn : n ≠ some 0) :
    let s := (opened active iss lip lport rip rport).run blocks.flatten
    (s.run [.recvAcquire, .recvTake n]).out = s.out ++ [.received []] →
    s.rx = [] ∧ (s.state = .closed ∨
      (s.state = .closeWait ∨ s.state = .lastAck) ∧
        ∀ p irs, (∀ m ∈ Spec.arrivals blocks.flatten, Spec.SegmentOf p irs m) → Spec.received s.out = p) := by
  intro s hr
  have hE : EofInv s := eof_run active lip lport rip rport blocks hb h
  have hfin : (s.state = .closeWait ∨ s.state = .lastAck) → s.rx = [] →
      ∀ p irs, (∀ m ∈ Spec.arrivals blocks.flatten, Spec.SegmentOf p irs m) → Spec.received s.out = p := by
    intro hst hrx p irs hp
    have h1 := finSeen_run active iss lip lport rip rport blocks.flatten hp hst
    obtain ⟨k, h2, h3, h4, -⟩ := C52_prefix active iss lip lport rip rport hp
    change s.rcvNxt = 0 ∧ _ ∨ s.rcvNxt = _ ∨ s.rcvNxt = _ ∧ _ at h4
    change Spec.received s.out ++ s.rx = _ at h3
    change _ ≤ s.rcvNxt at h1
    have : k = p.length := by omega
    rw [hrx, List.append_nil] at h3
    rw [h3, this, List.take_length]
  have hcase : Ended s.state → s.rx = [] → s.rx = [] ∧ (s.state = .closed ∨ (s.state = .closeWait ∨ s.state = .lastAck) ∧
      ∀ p irs, (∀ m ∈ Spec.arrivals blocks.flatten, Spec.SegmentOf p irs m) → Spec.received s.out = p) := by
    intro h1 h2
    refine ⟨h2, ?_⟩
    rcases h1 with x | x | x
    · exact .inr ⟨.inl x, hfin (.inl x) h2⟩
    · exact .inr ⟨.inr x, hfin (.inr x) h2⟩
    · exact .inl x
  change (s.recvAcquire.recvTake n).out = _ at hr
  rcases receive_cases hE.none n with ⟨_, x⟩ | ⟨h0, h1, h2, x⟩ | ⟨h0, h1, k, hk, x⟩
  · rw [x] at hr
    have := congrArg List.length hr
    simp at this
  · exact hcase (by rcases h2 with h2 | h2 <;> simp [Ended, h2]) h1
  · rw [x] at hr
    have hd : s.rx.take k = [] := by simpa using hr
    have hrx : s.rx = [] := by
      cases n with
      | none => simp only at hk; rw [hk, List.take_length] at hd; exact hd
      | some n =>
        simp only at hk
        have hn' : n ≠ 0 := fun y => hn (by rw [y])
        rcases List.take_eq_nil_iff.1 hd with y | y
        · rw [y] at hk
          have : s.rx.length = 0 := by omega
          exact List.length_eq_zero_iff.1 this
        · exact y
    refine hcase ?_ hrx
    apply Classical.byContradiction
    intro hne
    have := hE.sem hne
    have h2 : s.evRx = 1 := by omega
    exact this.2 h2 hrx

/-- C59: before a FIN is sent, every byte that `send` has accepted or ever will accept has been sent.  Partial: as C53; and that a FIN
is sent at all is not always so, see `C59_no_fin`. -/
theorem C59_data_before_fin_partial {iss : Nat} (active : Bool) (lip : IpAddress) (lport : Nat) (rip : IpAddress) (rport : Nat)
    (evs : List Ev) (h : ∀ m ∈ Spec.arrivals evs, m.ack = true → m.rst = false → m.ackn ≠ iss) :
    let s := (opened active iss lip lport rip rport).run evs
    ∀ before f after, Spec.sent s.out = before ++ f :: after → f.fin = true →
      ∀ i, i < (Spec.accepted s.out).length → ∃ g ∈ before, ∃ j, g.seq + j = iss + 1 + i ∧ g.data[j]? = (Spec.accepted s.out)[i]? ∧
        g.data[j]?.isSome := by
  intro s before f after hl hf i hi
  have hS : SendInv iss s := send_run h (send_opened active lip lport rip rport)
  obtain ⟨g, hg, h1, h2⟩ := (cov_run active lip lport rip rport h).fin before f after hl hf (iss + 1 + i) (by omega)
    (Nat.add_lt_add_left hi _) (Nat.add_lt_add_left hi _)
  have hne : g.data ≠ [] := by intro x; rw [x] at h2; simp at h2; omega
  obtain ⟨h3, h4⟩ := hS.sent.data g (by rw [hl]; exact List.mem_append_left _ hg) hne
  refine ⟨g, hg, iss + 1 + i - g.seq, by omega, ?_, ?_⟩
  · have h5 : (((Spec.accepted s.out).drop (g.seq - (iss + 1))).take g.data.length)[iss + 1 + i - g.seq]? = (Spec.accepted s.out)[i]? := by
      rw [List.getElem?_take_of_lt (by omega), List.getElem?_drop]
      congr 1
      omega
    rw [← h5, h4]
  · rw [List.getElem?_eq_getElem (by omega)]; rfl

/-! ### C55 -/

theorem fsm_synSent {s : Sess} {i : Input} (h : s.state = .synSent) :
    s.fsm i = s.fsmSynSent (fun s' m => fsmFuel s.ooo.length s' (.packet m)) i := by
  unfold fsm; rw [fsmFuel]; unfold fsmWith; rw [h]

theorem fsm_established {s : Sess} {i : Input} (h : s.state = .established) :
    s.fsm i = s.fsmEstablished (fun s' m => fsmFuel s.ooo.length s' (.packet m)) i := by
  unfold fsm; rw [fsmFuel]; unfold fsmWith; rw [h]

/-- What those who wait look at. -/
def Sess.waits (s : Sess) : FsmState × Nat × Nat × ConnError := (s.state, s.evRx, s.evConnect, s.err)

theorem waits_sentAs (s : Sess) (seq : Nat) (syn ack fin rst : Bool) (data : Bytes) : (s.sentAs seq syn ack fin rst data).waits = s.waits := by
  simp [waits]

theorem waits_transmit (s : Sess) (seq : Option Nat) (syn ack fin rst : Bool) (data : Bytes) :
    (s.transmitPacket seq syn ack fin rst data).s.waits = s.waits := by
  rcases transmit_cases s seq syn ack fin rst data with ⟨x, _⟩ | x <;> rw [x]
  exact waits_sentAs ..

theorem waits_data (s : Sess) : s.transmitData.s.waits = s.waits := by
  unfold transmitData
  dsimp only
  repeat' split
  all_goals first | exact waits_transmit .. | rfl

theorem waits_delayed (s : Sess) : s.delayedAck.s.waits = s.waits := by
  unfold delayedAck
  split
  · split
    · rcases transmit_cases s none false true false false [] with ⟨x, _⟩ | x <;> rw [x]
      · rw [next_ok]; exact waits_sentAs ..
      · rw [next_exc]
    · rfl
  · rfl

theorem waits_done (r : Res) : r.done.waits = r.s.waits := by
  unfold Res.done
  split <;> rfl

/-- After the retransmission timer has been looked at: nothing has changed, or the session is closed and those who wait are released. -/
theorem waits_timeout (s : Sess) : s.retransmitTimeout.s.waits = s.waits ∨
    s.retransmitTimeout.s.state = .closed ∧
      (s.state = .established → s.retransmitTimeout.s.evRx = s.evRx + 1 ∧ s.retransmitTimeout.s.evConnect = s.evConnect) ∧
      (s.state = .synSent → s.retransmitTimeout.s.evConnect = s.evConnect + 1 ∧ s.retransmitTimeout.s.err = .timeout) := by
  rcases retransmitTimeout_forms s with ⟨x, _⟩ | ⟨c, _, _, _, x⟩ | ⟨_, _, x | ⟨e, x⟩⟩
  · rw [x]; exact .inl rfl
  · rw [x]; exact .inl rfl
  · rw [x]; exact .inl rfl
  · rw [x]
    refine .inr ⟨by simp [abortAs], fun h => ?_, fun h => ?_⟩
    · simp [abortAs, failAs, h]
    · simp [abortAs, failAs, h]

theorem waits_eq {a b : Sess} (h : a.waits = b.waits) : a.state = b.state ∧ a.evRx = b.evRx ∧ a.evConnect = b.evConnect ∧ a.err = b.err := by
  simpa [waits, and_assoc] using h

/-- C55: when a session that is connecting is closed, by a reset or because retransmission has failed, the semaphore on which `connect`
waits is released and the error is set, so that `connect` raises.  Partial: a session that the application closes while it is
connecting is left out, see `C55_connect_stuck`; and so is a socket whose key is gone from the table (then the removal raises
`KeyError`, before the semaphore is released). -/
theorem C55_connect_released_partial (active : Bool) (iss : Nat) (lip : IpAddress) (lport : Nat) (rip : IpAddress) (rport : Nat)
    (evs : List Ev) (e : Ev) (he : e ≠ .close) :
    let s := (opened active iss lip lport rip rport).run evs
    s.state = .synSent → s.registered = true → (s.step e).state = .closed →
    (s.step e).evConnect = s.evConnect + 1 ∧
    ∃ r, (r = .refused ∨ r = .timeout) ∧ ((s.step e).step .connectReturn).out = (s.step e).out ++ [.connected r] := by
  intro s hst hreg hc
  have hq : Queue (fun _ => True) s := queue_run (queue_opened active iss lip lport rip rport)
  suffices h : (s.step e).evConnect = s.evConnect + 1 ∧ ((s.step e).err = .refused ∨ (s.step e).err = .timeout) by
    refine ⟨h.1, (s.step e).err, h.2, ?_⟩
    show ((s.step e).connectReturn).out = _
    unfold connectReturn
    rw [if_neg (by omega)]
    rcases h.2 with x | x <;> simp [hc, x, emit]
  have hooo : s.ooo = [] := hq.early (by simp [hst])
  generalize s = s at hst hreg hc hooo ⊢
  have hbeside : ∀ {b : Sess}, Beside s b → b.state = s.state := fun h => by rw [h]
  have stay : ∀ {b : Sess}, b.state = .closed → b.state = s.state → False := fun h1 h2 => by rw [h1, hst] at h2; cases h2
  cases e with
  | close => exact absurd rfl he
  | send d => exact (stay hc (hbeside (beside_send s d))).elim
  | recvAcquire => exact (stay hc (hbeside (beside_acquire s))).elim
  | recvTake n => exact (stay hc (hbeside (beside_take s n))).elim
  | connectReturn => exact (stay hc (hbeside (beside_connect s))).elim
  | clock => exact (stay hc rfl).elim
  | table b => exact (stay hc rfl).elim
  | timer =>
    have hE : s.fsm .timer = s.retransmitTimeout.next fun s => s.transmitData := by
      rw [fsm_synSent hst]; rfl
    have h1 : (s.step .timer).waits = s.retransmitTimeout.s.waits := by
      show (s.fsm .timer).done.waits = _
      rw [waits_done, hE]
      rcases next_cases s.retransmitTimeout (fun s => s.transmitData) with x | x <;> rw [x]
      exact waits_data _
    obtain ⟨w1, w2, w3, w4⟩ := waits_eq h1
    rcases waits_timeout s with h2 | ⟨-, -, h3⟩
    · rw [h2] at h1
      exact (stay hc (waits_eq h1).1).elim
    · rw [w3, w4]
      exact ⟨(h3 hst).1, .inr (h3 hst).2⟩
  | segment m =>
    change (s.fsm (.packet m)).done.state = _ at hc
    show (s.fsm (.packet m)).done.evConnect = _ ∧ ((s.fsm (.packet m)).done.err = _ ∨ _)
    have key : ∀ r : Res, r.s.state = .closed → (r.s.evConnect = s.evConnect + 1 ∧ (r.s.err = .refused ∨ r.s.err = .timeout)) →
        r.done.evConnect = s.evConnect + 1 ∧ (r.done.err = .refused ∨ r.done.err = .timeout) := by
      intro r _ h
      obtain ⟨w1, w2, w3, w4⟩ := waits_eq (waits_done r)
      rw [w3, w4]; exact h
    have hc' := hc
    rw [(waits_eq (waits_done _)).1] at hc
    refine key _ hc ?_
    clear hc' key
    rw [fsm_synSent hst] at hc ⊢
    unfold fsmSynSent at hc ⊢
    dsimp only at hc ⊢
    by_cases c1 : isSynAck m = true ∧ m.ackn = s.sndNxt ∧ m.data = []
    · rw [if_pos c1] at hc
      unfold processAck at hc
      have : ((s.paramsAs m).ackUpdate m).ooo = [] := by rw [ackUpdate_ooo]; exact hooo
      change ((match ((s.paramsAs m).ackUpdate m).ooo.get? ((s.paramsAs m).ackUpdate m).rcvNxt with
        | none => ok ((s.paramsAs m).ackUpdate m)
        | some p => _).next _).s.state = _ at hc
      rw [this] at hc
      change ((ok ((s.paramsAs m).ackUpdate m)).next _).s.state = _ at hc
      rw [next_ok] at hc
      rcases transmit_cases ((s.paramsAs m).ackUpdate m) none false true false false [] with ⟨x, _⟩ | x
      · rw [x, next_ok, changeState_ok (by simp), next_ok] at hc
        simp at hc
      · rw [x, next_exc] at hc
        simp [hst] at hc
    · rw [if_neg c1] at hc ⊢
      have c2 : ¬ (m.syn = true ∧ ¬ (m.ack = true ∨ m.fin = true ∨ m.syn = true) ∧ m.ackn = 0 ∧ m.data = []) := by
        intro x; exact x.2.1 (.inr (.inr x.1))
      rw [if_neg c2] at hc ⊢
      by_cases c3 : isRstAck m = true
      · rw [if_pos c3] at hc ⊢
        by_cases c4 : m.seq = 0 ∧ m.ackn = s.sndNxt
        · rw [if_pos c4]
          unfold changeState
          simp [hreg, ok, Res.next]
        · rw [if_neg c4] at hc
          simp [hst] at hc
      · rw [if_neg c3] at hc
        simp [hst] at hc

/-- C55: when an established session is closed, the semaphore on which `receive` waits is released.  Partial: in the other states
it may not be, see `C55_reader_stuck`. -/
theorem C55_reader_released_partial (active : Bool) (iss : Nat) (lip : IpAddress) (lport : Nat) (rip : IpAddress) (rport : Nat)
    (evs : List Ev) (e : Ev) :
    let s := (opened active iss lip lport rip rport).run evs
    s.state = .established → (s.step e).state = .closed → (s.step e).evRx = s.evRx + 1 := by
  intro s hst hc
  have hq : Queue (fun _ => True) s := queue_run (queue_opened active iss lip lport rip rport)
  generalize s = s at hst hc hq ⊢
  have hbeside : ∀ {b : Sess}, Beside s b → b.state = s.state := fun h => by rw [h]
  have stay : ∀ {b : Sess}, b.state = .closed → b.state = s.state → False := fun h1 h2 => by rw [h1, hst] at h2; cases h2
  cases e with
  | send d => exact (stay hc (hbeside (beside_send s d))).elim
  | recvAcquire => exact (stay hc (hbeside (beside_acquire s))).elim
  | recvTake n => exact (stay hc (hbeside (beside_take s n))).elim
  | connectReturn => exact (stay hc (hbeside (beside_connect s))).elim
  | clock => exact (stay hc rfl).elim
  | table b => exact (stay hc rfl).elim
  | close =>
    have hE : s.fsm (.sys .close) = ok { s with closes := true } := by rw [fsm_established hst]; rfl
    change (s.fsm (.sys .close)).done.state = _ at hc
    rw [hE] at hc
    exact (stay hc rfl).elim
  | timer =>
    have hE : s.fsm .timer = s.retransmitTimeout.next fun s =>
        s.transmitData.next fun s =>
        s.delayedAck.next fun s =>
        if s.closes ∧ s.tx = [] then s.changeState .finWait1 else ok s := by
      rw [fsm_established hst]; rfl
    have h1 : (s.fsm .timer).s.waits = s.retransmitTimeout.s.waits ∨ (s.fsm .timer).s.state = .finWait1 := by
      rw [hE]
      rcases next_cases s.retransmitTimeout (fun s => s.transmitData.next fun s =>
        s.delayedAck.next fun s =>
        if s.closes ∧ s.tx = [] then s.changeState .finWait1 else ok s) with x | x <;> rw [x]
      · exact .inl rfl
      generalize s.retransmitTimeout.s = a
      rcases next_cases a.transmitData (fun s => s.delayedAck.next fun s =>
        if s.closes ∧ s.tx = [] then s.changeState .finWait1 else ok s) with x | x <;> rw [x]
      · exact .inl (waits_data a)
      rw [← waits_data a]
      generalize a.transmitData.s = a
      rcases next_cases a.delayedAck (fun s =>
        if s.closes ∧ s.tx = [] then s.changeState .finWait1 else ok s) with x | x <;> rw [x]
      · exact .inl (waits_delayed a)
      rw [← waits_delayed a]
      generalize a.delayedAck.s = a
      split
      · rw [changeState_ok (by simp)]; exact .inr (by simp)
      · exact .inl rfl
    change (s.fsm .timer).done.state = _ at hc
    show (s.fsm .timer).done.evRx = _
    obtain ⟨w1, w2, w3, w4⟩ := waits_eq (waits_done (s.fsm .timer))
    rw [w2]
    rw [w1] at hc
    rcases h1 with h1 | h1
    · rcases waits_timeout s with h2 | ⟨-, h3, -⟩
      · rw [h2] at h1
        exact (stay hc (waits_eq h1).1).elim
      · rw [(waits_eq h1).2.1]
        exact (h3 hst).1
    · rw [h1] at hc; cases hc
  | segment m =>
    change (s.fsm (.packet m)).done.state = _ at hc
    show (s.fsm (.packet m)).done.evRx = _
    obtain ⟨w1, w2, w3, w4⟩ := waits_eq (waits_done (s.fsm (.packet m)))
    rw [w2]
    rw [w1] at hc
    have hin := processAck_inner (G := False) (recOk_fuel s.ooo.length) (m := m) hq.queueOk (.inl hst)
    have hin' : (processAck (fun s' m => fsmFuel s.ooo.length s' (.packet m)) s m).s.state = .established := by
      rcases hin.state with x | ⟨x, _⟩
      · rw [x]; simpa using hst
      · simp [hst] at x
    rw [fsm_established hst] at hc ⊢
    unfold fsmEstablished at hc ⊢
    dsimp only at hc ⊢
    generalize processAck (fun s' m => fsmFuel s.ooo.length s' (.packet m)) s m = r at hin' hc ⊢
    by_cases c1 : ¬ (s.rcvNxt ≤ m.seq ∧ m.seq + m.data.length ≤ s.rcvNxt + 65535)
    · rw [if_pos c1] at hc
      exact (stay hc rfl).elim
    rw [if_neg c1] at hc ⊢
    by_cases c2 : isAck m = true
    · rw [if_pos c2] at hc
      exfalso
      split at hc
      · rw [ok_s, retransmitRequest_eq] at hc
        exact stay hc rfl
      · split at hc
        · unfold outOfOrder at hc
          dsimp only at hc
          split at hc
          · rw [(waits_eq (waits_transmit _ _ _ _ _ _ _)).1] at hc
            exact stay hc rfl
          · exact stay hc rfl
        · split at hc
          · rw [hin'] at hc; cases hc
          · exact stay hc rfl
    rw [if_neg c2] at hc ⊢
    by_cases c3 : isFinAck m = true
    · rw [if_pos c3] at hc
      exfalso
      split at hc
      · rcases next_cases r (fun s => (if m.data ≠ [] then s.transmitPacket none false true false false [] else ok s).next fun s =>
          { s with evRx := s.evRx + 1 }.changeState .closeWait) with x | x <;> rw [x] at hc
        · rw [hin'] at hc; cases hc
        generalize r.s = a at hin' hc
        rcases next_cases (if m.data ≠ [] then a.transmitPacket none false true false false [] else ok a) (fun s =>
          { s with evRx := s.evRx + 1 }.changeState .closeWait) with x | x <;> rw [x] at hc
        · split at hc
          · rw [(waits_eq (waits_transmit _ _ _ _ _ _ _)).1, hin'] at hc; cases hc
          · rw [ok_s, hin'] at hc; cases hc
        · rw [changeState_ok (by simp)] at hc
          simp at hc
      · exact stay hc rfl
    rw [if_neg c3] at hc ⊢
    by_cases c4 : isRstAck m = true
    · rw [if_pos c4] at hc ⊢
      by_cases c5 : m.seq = s.rcvNxt ∧ s.acceptable m = true
      · rw [if_pos c5]
        exact moveAs_evRx _ _
      · rw [if_neg c5] at hc
        exact (stay hc rfl).elim
    · rw [if_neg c4] at hc
      exact (stay hc rfl).elim

/-! ### Examples -/

namespace Example.Session
open Sess

/-- C62: the last number; the SYN|ACK that acknowledges 0 is not taken. -/
example : ((opened true 0xFFFFFFFF lip 5000 rip 80).run [.timer, .segment (seg true true false false 500 0 [])]).state = .synSent ∧
    ((opened true 0xFFFFFFFE lip 5000 rip 80).run [.timer, .segment (seg true true false false 500 0xFFFFFFFF [])]).state = .established := by
  decide +kernel

/-- C59: a whole call that finds the end, and one that finds data. -/
def finHist : List (List Ev) :=
  [[.timer], [.segment (seg true true false false 500 101 [])], [.segment (seg false true true false 501 101 [1, 2])],
   [.recvAcquire, .recvTake none]]

example : (∀ b ∈ finHist, Spec.Whole b) ∧ (∀ m ∈ Spec.arrivals finHist.flatten, m.ack = true → m.ackn ≠ 100) ∧
    (∀ m ∈ Spec.arrivals finHist.flatten, Spec.SegmentOf [1, 2] 500 m) ∧
    Spec.received (client.run finHist.flatten).out = [1, 2] ∧ (client.run finHist.flatten).state = .closeWait ∧
    ((client.run finHist.flatten).run [.recvAcquire, .recvTake none]).out = (client.run finHist.flatten).out ++ [.received []] := by
  refine ⟨?_, by decide +kernel, ?_, by decide +kernel, by decide +kernel, by decide +kernel⟩
  · intro b hb
    simp only [finHist, List.mem_cons, List.not_mem_nil, or_false] at hb
    rcases hb with x | x | x | x <;> subst x <;> first | exact .one (by simp) (by simp) | exact .receive none
  · intro m hm
    simp only [finHist, Spec.arrivals, List.flatten_cons, List.flatten_nil, List.append_nil, List.cons_append, List.nil_append,
      List.filterMap_cons, List.filterMap_nil, List.mem_cons, List.not_mem_nil, or_false] at hm
    rcases hm with h | h <;> subst h <;> exact ⟨by decide, by decide, by decide⟩

/-- C59: the FIN of `hist` comes after the data. -/
example : ∃ before f after, Spec.sent (client.run hist).out = before ++ f :: after ∧ f.fin = true ∧ f.seq = 107 ∧ before.length = 5 := by
  exact ⟨(Spec.sent (client.run hist).out).take 5, ⟨false, true, true, false, 107, 507, []⟩, (Spec.sent (client.run hist).out).drop 6,
    by decide +kernel, rfl, rfl, by decide +kernel⟩

/-- C55: both ways in which `connect` is released, and a reader. -/
example : (client.step .timer).registered = true ∧ (client.step .timer).state = .synSent ∧
    ((client.step .timer).step (.segment (seg false true false true 0 101 []))).state = .closed ∧
    (((client.step .timer).step (.segment (seg false true false true 0 101 []))).step .connectReturn).out =
      ((client.step .timer).step (.segment (seg false true false true 0 101 []))).out ++ [.connected .refused] ∧
    connected.evRx = 0 ∧ (connected.step (.segment (seg false true false true 501 101 []))).evRx = 1 := by decide +kernel

end Example.Session

/-- C62 fails: with numbers that run out, the timer method raises `AssertionError` for ever after, and the second byte is not sent. -/
theorem C62_raises : ∃ evs : List Ev, (∀ m ∈ Spec.arrivals evs, m.ack = true → m.ackn = 0xFFFFFFFF) ∧
    let s := (opened true 0xFFFFFFFE Example.Session.lip 5000 Example.Session.rip 80).run evs
    s.state = .established ∧ Spec.accepted s.out = [1, 2] ∧ (s.fsm .timer).exc = some .assertionError ∧
    (Spec.dataSent s.out).map (·.data) = [[1]] := by
  refine ⟨[.timer, .segment (Example.Session.wseg true true 500 0xFFFFFFFF 1000 none 1 []), .send [1, 2], .timer], ?_⟩
  decide +kernel

/-- C59 fails when a segment arrives while a receive call runs: the call takes its bytes, and their semaphore is left for the next
call, which returns the empty string although the peer has not closed. -/
theorem C59_race : ∃ evs : List Ev, (∀ m ∈ Spec.arrivals evs, m.fin = false ∧ m.rst = false) ∧
    let s := Example.Session.client.run evs
    s.state = .established ∧ Spec.received s.out = [1, 2] ∧
    (s.run [.recvAcquire, .recvTake none]).out = s.out ++ [.received []] := by
  refine ⟨[.timer, .segment (Example.Session.seg true true false false 500 101 []),
    .segment (Example.Session.seg false true false false 501 101 [1]), .recvAcquire,
    .segment (Example.Session.seg false true false false 502 101 [2]), .recvTake none], ?_⟩
  decide +kernel

/-- C59 fails: an ACK that arrives between the move to FIN_WAIT_1 and the next run of the timer method moves the session to
FIN_WAIT_2, and no FIN was sent; nor is one after that. -/
theorem C59_no_fin : ∃ evs : List Ev,
    let s := Example.Session.client.run evs
    s.state = .finWait2 ∧ Spec.accepted s.out = [7] ∧ (∀ g ∈ Spec.sent s.out, g.fin = false) ∧
    ∀ n, (s.run (List.replicate n .timer)) = s := by
  refine ⟨[.timer, .segment (Example.Session.seg true true false false 500 101 []), .send [7], .timer,
    .segment (Example.Session.seg false true false false 501 102 []), .close, .timer,
    .segment (Example.Session.seg false true false false 501 102 [])], ?_⟩
  refine ⟨by decide +kernel, by decide +kernel, by decide +kernel, fun n => ?_⟩
  generalize hs : Example.Session.client.run _ = s
  have hst : s.state = .finWait2 := by rw [← hs]; decide +kernel
  clear hs
  have hE : s.step .timer = s := by
    show (s.fsm .timer).done = s
    unfold fsm fsmFuel fsmWith; rw [hst]; rfl
  induction n with
  | zero => rfl
  | succ n ih =>
    show (s.step .timer).run (List.replicate n .timer) = s
    rw [hE, ih]

/-- No call on a closed session returns whose semaphore is at zero. -/
theorem closed_stuck {s : Sess} (h : s.state = .closed) (later : List Ev) :
    (s.evConnect = 0 → Spec.outcomes (s.run later).out = Spec.outcomes s.out) ∧
    (s.evRx = 0 → s.readers = 0 → Spec.returned (s.run later).out = Spec.returned s.out) := by
  suffices H : (s.run later).state = .closed ∧
      (s.evConnect = 0 → (s.run later).evConnect = 0 ∧ Spec.outcomes (s.run later).out = Spec.outcomes s.out) ∧
      (s.evRx = 0 → s.readers = 0 → (s.run later).evRx = 0 ∧ (s.run later).readers = 0 ∧
        Spec.returned (s.run later).out = Spec.returned s.out) from
    ⟨fun x => (H.2.1 x).2, fun x y => (H.2.2 x y).2.2⟩
  induction later using List.reverseRecOn with
  | nil => exact ⟨h, fun x => ⟨x, rfl⟩, fun x y => ⟨x, y, rfl⟩⟩
  | append_singleton later e ih =>
    have hrun : s.run (later ++ [e]) = (s.run later).step e := by unfold run; rw [List.foldl_append]; rfl
    rw [hrun]
    obtain ⟨h1, h2, h3⟩ := ih
    generalize s.run later = t at h1 h2 h3
    have same : t.step e = t → _ := fun x => (by rw [x]; exact ⟨h1, h2, h3⟩ : (t.step e).state = .closed ∧
      (s.evConnect = 0 → (t.step e).evConnect = 0 ∧ Spec.outcomes (t.step e).out = Spec.outcomes s.out) ∧
      (s.evRx = 0 → s.readers = 0 → (t.step e).evRx = 0 ∧ (t.step e).readers = 0 ∧
        Spec.returned (t.step e).out = Spec.returned s.out))
    cases e with
    | segment m => exact same (C55_closed_ignores t h1 m).1
    | close => exact same (C55_closed_ignores t h1 (Example.Session.seg true true true true 0 0 [])).2.1
    | timer => exact same (C55_closed_ignores t h1 (Example.Session.seg true true true true 0 0 [])).2.2
    | send d =>
      rw [(C51_send t d).2 (by simp [h1])]
      exact ⟨h1, fun x => ⟨(h2 x).1, by rw [← (h2 x).2]; simp [Spec.outcomes]⟩,
        fun x y => ⟨(h3 x y).1, (h3 x y).2.1, by rw [← (h3 x y).2.2]; simp [Spec.returned]⟩⟩
    | recvAcquire =>
      show t.recvAcquire.state = _ ∧ (_ → t.recvAcquire.evConnect = 0 ∧ Spec.outcomes t.recvAcquire.out = _) ∧
        (_ → _ → t.recvAcquire.evRx = 0 ∧ t.recvAcquire.readers = 0 ∧ Spec.returned t.recvAcquire.out = _)
      unfold recvAcquire
      split
      · exact ⟨h1, h2, h3⟩
      · exact ⟨h1, h2, fun x y => absurd (h3 x y).1 (by assumption)⟩
    | recvTake n =>
      refine ⟨?_, fun x => ?_, fun x y => ?_⟩
      · have := beside_take t n
        show (t.recvTake n).state = _
        rw [this]; exact h1
      · show (t.recvTake n).evConnect = 0 ∧ Spec.outcomes (t.recvTake n).out = _
        rcases recvTake_cases t n with z | ⟨k, e, z⟩ <;> rw [z]
        · exact h2 x
        · exact ⟨(h2 x).1, by rw [← (h2 x).2]; simp [Spec.outcomes]⟩
      · have : t.recvTake n = t := by unfold recvTake; rw [if_pos (h3 x y).2.1]
        show (t.recvTake n).evRx = 0 ∧ (t.recvTake n).readers = 0 ∧ Spec.returned (t.recvTake n).out = _
        rw [this]; exact h3 x y
    | connectReturn =>
      refine ⟨?_, fun x => ?_, fun x y => ?_⟩
      · have := beside_connect t
        show t.connectReturn.state = _
        rw [this]; exact h1
      · have : t.connectReturn = t := by unfold connectReturn; rw [if_pos (h2 x).1]
        show t.connectReturn.evConnect = 0 ∧ Spec.outcomes t.connectReturn.out = _
        rw [this]; exact h2 x
      · rw [← (h3 x y).2.2]
        show t.connectReturn.evRx = 0 ∧ t.connectReturn.readers = 0 ∧ Spec.returned t.connectReturn.out = _
        unfold connectReturn
        split
        · exact ⟨(h3 x y).1, (h3 x y).2.1, rfl⟩
        · dsimp only
          split
          · exact ⟨(h3 x y).1, (h3 x y).2.1, by simp [Spec.returned, emit]⟩
          · split
            · exact ⟨(h3 x y).1, (h3 x y).2.1, by simp [Spec.returned, emit]⟩
            · exact ⟨(h3 x y).1, (h3 x y).2.1, by simp [Spec.returned, emit]⟩
    | clock => exact ⟨h1, h2, h3⟩
    | table b => exact ⟨h1, h2, h3⟩

/-- C55 fails: a `connect` never returns when another thread closes the socket meanwhile. -/
theorem C55_connect_stuck : ∃ evs : List Ev, (Example.Session.client.run evs).state = .closed ∧
    ∀ later, Spec.outcomes (Example.Session.client.run (evs ++ later)).out = [] := by
  refine ⟨[.timer, .close], by decide +kernel, fun later => ?_⟩
  have : Example.Session.client.run ([.timer, .close] ++ later) = (Example.Session.client.run [.timer, .close]).run later := by
    unfold run; rw [List.foldl_append]
  rw [this, (closed_stuck (by decide +kernel) later).1 (by decide +kernel)]
  decide +kernel

/-- C55 fails: after the application has closed, a receive call is not released by a reset; and after one receive call has returned the
end of the stream, no other ever returns. -/
theorem C55_reader_stuck :
    (∃ evs : List Ev, (Example.Session.client.run evs).state = .closed ∧
      ∀ later, Spec.returned (Example.Session.client.run (evs ++ later)).out = []) ∧
    ∃ evs : List Ev, (Example.Session.client.run evs).state = .closed ∧
      ∀ later, Spec.returned (Example.Session.client.run (evs ++ later)).out = [[]] := by
  have happ : ∀ evs later : List Ev, Example.Session.client.run (evs ++ later) = (Example.Session.client.run evs).run later := by
    intro evs later; unfold run; rw [List.foldl_append]
  refine ⟨⟨[.timer, .segment (Example.Session.seg true true false false 500 101 []), .close, .timer, .timer,
    .segment (Example.Session.seg false true false true 501 102 [])], by decide +kernel, fun later => ?_⟩,
    ⟨[.timer, .segment (Example.Session.seg true true false false 500 101 []),
    .segment (Example.Session.seg false true false true 501 101 []), .recvAcquire, .recvTake none], by decide +kernel, fun later => ?_⟩⟩
  · rw [happ, (closed_stuck (by decide +kernel) later).2 (by decide +kernel) (by decide +kernel)]
    decide +kernel
  · rw [happ, (closed_stuck (by decide +kernel) later).2 (by decide +kernel) (by decide +kernel)]
    decide +kernel

end Verif
