import Verif.Model.TcpStack
import Verif.Spec.TcpStack
import Verif.Lemmas.SessionRecv
import Verif.Lemmas.Socket
/-! What one event of a session does outside of it, and invariants of all sockets and sessions together. -/
namespace Verif

theorem Spec.asked_eq (k : TcpStack.Call) : Spec.asked k = k.ev := by cases k <;> rfl

namespace Sess

/-- Nothing that concerns sockets or other sessions happens from `s` to `s'`, except perhaps the removal of the socket from the
table. -/
structure Calm (s s' : Sess) : Prop where
  out : ∃ news, s'.out = s.out ++ news ∧ ∀ o ∈ news, o ≠ .spawned ∧ o ≠ .queued ∧ o ≠ .moved .synRcvd .established
  lip : s'.lip = s.lip
  lport : s'.lport = s.lport
  rip : s'.rip = s.rip
  rport : s'.rport = s.rport
  state : s'.state = s.state ∨
    (s'.state ≠ .listen ∧ s'.state ≠ .synRcvd ∧ s.state ≠ .closed ∧ (s.state = .listen → s'.state = .closed))

theorem Calm.refl (s : Sess) : Calm s s := ⟨⟨[], by simp⟩, rfl, rfl, rfl, rfl, .inl rfl⟩

theorem Calm.trans {a b c : Sess} (h : Calm a b) (h' : Calm b c) : Calm a c := by
  obtain ⟨n, h1, h2⟩ := h.out
  obtain ⟨n', h1', h2'⟩ := h'.out
  refine ⟨⟨n ++ n', by rw [h1', h1, List.append_assoc], ?_⟩, h'.lip.trans h.lip, h'.lport.trans h.lport, h'.rip.trans h.rip,
    h'.rport.trans h.rport, ?_⟩
  · intro o ho
    rcases List.mem_append.1 ho with x | x
    · exact h2 o x
    · exact h2' o x
  · rcases h'.state with x | x
    · rw [x]; exact h.state
    · rcases h.state with y | y
      · rw [y] at x; exact .inr x
      · refine .inr ⟨x.1, x.2.1, y.2.2.1, fun e => absurd (y.2.2.2 e) x.2.2.1⟩

theorem Calm.emit (s : Sess) {o : Out} (h : o ≠ .spawned ∧ o ≠ .queued ∧ o ≠ .moved .synRcvd .established) : Calm s (s.emit o) :=
  ⟨⟨[o], rfl, by simpa using h⟩, rfl, rfl, rfl, rfl, .inl rfl⟩

theorem Calm.done {s : Sess} {r : Res} (h : Calm s r.s) : Calm s r.done := by
  unfold Res.done
  split
  · exact h
  · exact h.trans (Calm.emit _ (by simp))

theorem calm_sent (s : Sess) (seq : Nat) (syn ack fin rst : Bool) (data : Bytes) : Calm s (s.sentAs seq syn ack fin rst data) := by
  refine ⟨⟨_, sentAs_out _ _ _ _ _ _ _, by simp⟩, ?_, ?_, ?_, ?_, .inl (by simp)⟩ <;> rw [sentAs_eq]

theorem calm_move {s : Sess} {st : FsmState} (h : st ≠ .listen ∧ st ≠ .synRcvd) (h' : s.state = .synRcvd → st ≠ .established)
    (hc : s.state ≠ .closed) (hl : s.state = .listen → st = .closed) : Calm s (s.moveAs st) := by
  refine ⟨⟨_, moveAs_out _ _, ?_⟩, ?_, ?_, ?_, ?_, .inr (by simp [h, hc]; exact hl)⟩
  · intro o ho
    simp only [List.mem_append, List.mem_singleton] at ho
    rcases ho with x | x
    · subst x; simpa using h'
    · split at x
      · simp at x; subst x; simp
      · simp at x
  all_goals rw [moveAs_eq]

/-- Everything but the listed fields is the same. -/
theorem calm_same {s s' : Sess} (h1 : s'.out = s.out) (h2 : s'.state = s.state) (h3 : s'.lip = s.lip) (h4 : s'.lport = s.lport)
    (h5 : s'.rip = s.rip) (h6 : s'.rport = s.rport) : Calm s s' := ⟨⟨[], by simp [h1], by simp⟩, h3, h4, h5, h6, .inl h2⟩

variable {Q : TcpMd → Prop} {G : Prop}

theorem micro_calm {a b : Sess} (h : Micro Q G a b) (hl : a.state ≠ .listen) (he : a.state = .synRcvd → b.state ≠ .established) :
    Calm a b := by
  cases h with
  | reset => exact calm_same rfl rfl rfl rfl rfl rfl
  | abort h =>
    refine (calm_sent a a.sndUna false true false true []).trans ?_
    refine Calm.trans (b := (a.sentAs a.sndUna false true false true []).failAs) ?_ (calm_move (by simp) (by simp) ?_ (by simp))
    · rw [failAs_eq]; exact calm_same rfl rfl rfl rfl rfl rfl
    · rw [failAs_eq]; simp; intro x; simp [Retransmits, x] at h
  | @abortMove st t h =>
    have h1 : Calm a a.abortAs := by
      refine (calm_sent a a.sndUna false true false true []).trans ?_
      refine Calm.trans (b := (a.sentAs a.sndUna false true false true []).failAs) ?_ (calm_move (by simp) (by simp) ?_ (by simp))
      · rw [failAs_eq]; exact calm_same rfl rfl rfl rfl rfl rfl
      · rw [failAs_eq]; simp; intro x; simp [x] at h
    obtain ⟨n, e1, e2⟩ := h1.out
    refine ⟨⟨_, by rw [moveAs_out]; dsimp only; rw [e1, List.append_assoc], ?_⟩, ?_, ?_, ?_, ?_, .inr ?_⟩
    · intro o ho
      simp only [List.mem_append, List.mem_singleton] at ho
      rcases ho with x | x | x
      · exact e2 o x
      · subst x
        have : a.abortAs.state = .closed := by rw [abortAs_eq]
        simp [this]
      · split at x
        · simp at x; subst x; simp
        · simp at x
    · rw [moveAs_eq]; exact h1.lip
    · rw [moveAs_eq]; exact h1.lport
    · rw [moveAs_eq]; exact h1.rip
    · rw [moveAs_eq]; exact h1.rport
    · rcases h with h | h <;> simp [h]
  | synOut => exact calm_sent _ _ _ _ _ _ _
  | synAckOut => exact calm_sent _ _ _ _ _ _ _
  | dataOut => exact calm_sent _ _ _ _ _ _ _
  | finOut => exact calm_sent _ _ _ _ _ _ _
  | ackOut => exact calm_sent _ _ _ _ _ _ _
  | timerSet => exact calm_same rfl rfl rfl rfl rfl rfl
  | finClose h => exact calm_move (by simp) (by simp) (by simp [h]) (by simp [h])
  | lastClose h => exact calm_move (by simp) (by simp) (by simp [h]) (by simp [h])
  | dup => rw [retransmitRequest_eq]; exact calm_same rfl rfl rfl rfl rfl rfl
  | store => exact calm_same rfl rfl rfl rfl rfl rfl
  | pop => exact calm_same rfl rfl rfl rfl rfl rfl
  | synIn hq h => exact absurd h hl
  | synAckIn => rw [ackUpdate_eq]; exact calm_same rfl rfl rfl rfl rfl rfl
  | establish hq h =>
    exact (calm_move (st := .established) (by simp) (by simp [h]) (by simp [h]) (by simp [h])).trans (calm_same rfl rfl rfl rfl rfl rfl)
  | ackIn => rw [ackUpdate_eq]; exact calm_same rfl rfl rfl rfl rfl rfl
  | establish' hq h => exact absurd (by simp [Sess.emit]) (he h)
  | refused hq h => exact (calm_move (st := .closed) (by simp) (by simp) (by simp [h]) (by simp)).trans (calm_same rfl rfl rfl rfl rfl rfl)
  | closes => exact calm_same rfl rfl rfl rfl rfl rfl
  | finEarly h => exact calm_move (by simp) (by simp) (by simp [h]) (by simp [h])
  | dataIn => rw [ackUpdate_eq]; exact calm_same rfl rfl rfl rfl rfl rfl
  | finIn => rw [ackUpdate_eq]; exact calm_same rfl rfl rfl rfl rfl rfl
  | toCloseWait hq h =>
    exact Calm.trans (b := { a with evRx := a.evRx + 1 }) (calm_same rfl rfl rfl rfl rfl rfl) (calm_move (by simp) (by simp) (by simp [h]) (by simp [h]))
  | toFinWait2 hq h => exact calm_move (by simp) (by simp) (by rcases h with h | h <;> simp [h]) (by rcases h with h | h <;> simp [h])
  | toTimeWait hq h =>
    exact (calm_move (st := .timeWait) (by simp) (by simp) (by rcases h with h | h <;> simp [h]) (by rcases h with h | h <;> simp [h])).trans (calm_same rfl rfl rfl rfl rfl rfl)
  | toClosing hq h => exact calm_move (by simp) (by simp) (by rcases h with h | h <;> simp [h]) (by rcases h with h | h <;> simp [h])
  | @closingAck m hq h =>
    exact Calm.trans (b := { a with sndUna := m.ackn }) (calm_same rfl rfl rfl rfl rfl rfl)
      ((calm_move (st := .timeWait) (by simp) (by simp) (by simp [h]) (by simp [h])).trans (calm_same rfl rfl rfl rfl rfl rfl))
  | @shut b h =>
    exact Calm.trans (b := { a with evRx := a.evRx + b.toNat }) (calm_same rfl rfl rfl rfl rfl rfl) (calm_move (by simp) (by simp) h (by simp))

theorem path_calm {a b : Sess} (h : Path Q G a b) (ha : a.state ≠ .listen ∧ a.state ≠ .synRcvd) : Calm a b := by
  have : ∀ c, Path Q G a c → Calm a c := by
    intro c hc
    induction hc with
    | refl => exact Calm.refl _
    | tail h1 m ih =>
      have hs := ih.state
      refine ih.trans (micro_calm m ?_ ?_)
      · rcases hs with x | x
        · rw [x]; exact ha.1
        · exact x.1
      · rcases hs with x | x
        · rw [x]; exact fun y => absurd y ha.2
        · exact fun y => absurd y x.2.1
  exact this b h

/-- What one event of a session can do outside of it: nothing (but perhaps remove the socket from the table); or take a new
connection; or establish it. -/
inductive News (s : Sess) : Ev → Sess → Prop
  | calm {ev : Ev} {s' : Sess} (h : Calm s s') : News s ev s'
  | syn {m : TcpMd} (h : s.state = .listen) (hf : isSyn m = true) (hm : m.ackn = 0 ∧ m.data = []) :
      News s (.segment m) ((s.synAs m).moveAs .synRcvd)
  | est {ev : Ev} {s' : Sess} (h : s.state = .synRcvd) (h' : s'.state = .established)
      (ho : s'.out = s.out ++ [.moved .synRcvd .established, .queued])
      (ha : s'.lip = s.lip ∧ s'.lport = s.lport ∧ s'.rip = s.rip ∧ s'.rport = s.rport) : News s ev s'

theorem fsm_news {s : Sess} (hq : Queue (fun _ => True) s) {i : Input} (hi : InputOk (fun _ => True) i)
    (hs : s.state ≠ .listen ∧ s.state ≠ .synRcvd) : Calm s (s.fsm i).done :=
  (path_calm (fsm_path hq.queueOk hi) hs).done

theorem calm_shut {s : Sess} (h : s.state ≠ .closed) : Calm s (s.changeState .closed).done := by
  refine Calm.done ?_
  exact calm_move (by simp) (by simp) h (by simp)

theorem timer_calm {s : Sess} (h : s.state = .synRcvd) : Calm s (s.retransmitTimeout.next fun s => s.transmitData).s := by
  have hd : ∀ a : Sess, a.state ≠ .listen → a.state ≠ .established → Calm a a.transmitData.s := by
    intro a ha hb
    rcases transmitData_cases (Q := fun _ => True) (G := False) a with (h | ⟨e, h⟩) | ⟨s', h, hm, h1, h2, h3, _⟩
    · rw [h]; exact Calm.refl _
    · rw [h]; exact Calm.refl _
    · rw [h]; exact micro_calm hm ha (fun _ => by rw [ok_s] at *; rw [h1]; exact hb)
  rcases retransmitTimeout_cases (Q := fun _ => True) (G := False) (s := s) (by simp [Retransmits, h]) with
    (x | x) | ⟨s', x, hm, h1, _⟩ | ⟨e, x, _, hm⟩
  · rw [x]; exact hd s (by simp [h]) (by simp [h])
  · rw [x]; exact Calm.refl _
  · rw [x, next_ok]
    have c1 : Calm s s' := micro_calm hm (by simp [h]) (by rw [h1]; simp [h])
    exact c1.trans (hd s' (by simp [h, h1]) (by simp [h, h1]))
  · rw [x]
    have hs : s.abortAs.state = .closed := by rw [abortAs_eq]
    have c1 : Calm s s.abortAs := micro_calm hm (by simp [h]) (by simp [hs])
    cases e with
    | none => exact c1.trans (hd _ (by simp [hs]) (by simp [hs]))
    | some e => exact c1

theorem step_news {s : Sess} (hq : Queue (fun _ => True) s) (ev : Ev) : News s ev (s.step ev) := by
  have hfsm : ∀ i, InputOk (fun _ => True) i → (s.state ≠ .listen ∧ s.state ≠ .synRcvd) → News s ev (s.fsm i).done :=
    fun i hi hs => .calm (fsm_news hq hi hs)
  have hlisten : s.state = .listen → ∀ i, s.fsm i = s.fsmListen i := by
    intro h i; show fsmWith _ s i = _; unfold fsmWith; rw [h]
  have hrcvd : s.state = .synRcvd → ∀ i, s.fsm i = s.fsmSynRcvd (fun a m => fsmFuel s.ooo.length a (.packet m)) i := by
    intro h i; show fsmWith _ s i = _; unfold fsmWith; rw [h]
  cases ev with
  | segment m =>
    show News s _ (s.fsm (.packet m)).done
    by_cases hl : s.state = .listen
    · rw [hlisten hl]
      dsimp only [fsmListen]
      split
      · rename_i h
        rw [changeState_ok (by simp)]
        have hflag := isSyn_flags h.1
        have := News.syn (s := s) hl h.1 h.2
        simpa [synAs, paramsAs, hflag, Sess.emit, ok, Res.done] using this
      · exact .calm (Calm.refl s).done
    · by_cases hr : s.state = .synRcvd
      · rw [hrcvd hr]
        have hooo : s.ooo = [] := hq.early (by simp [hr])
        unfold fsmSynRcvd
        dsimp only
        split
        · have hp : processAck (fun a m => fsmFuel s.ooo.length a (.packet m)) s m = ok (s.ackUpdate m) := by
            unfold processAck
            dsimp only
            rw [ackUpdate_ooo, hooo]
            rfl
          rw [hp, next_ok, changeState_ok (by simp), next_ok]
          refine .est hr ?_ ?_ ?_
          · simp [Res.done, ok, Sess.emit]
          · simp [Res.done, ok, Sess.emit, hr]
          · simp only [Res.done, ok, Sess.emit]
            rw [moveAs_eq, ackUpdate_eq]; simp
        · split
          · split
            · exact .calm (calm_shut (by simp [hr]))
            · exact .calm (Calm.refl s).done
          · split
            · split
              · exact .calm (calm_shut (by simp [hr]))
              · exact .calm (Calm.refl s).done
            · exact .calm (Calm.refl s).done
      · exact hfsm _ trivial ⟨hl, hr⟩
  | close =>
    show News s _ (s.fsm (.sys .close)).done
    by_cases hl : s.state = .listen
    · rw [hlisten hl]
      exact .calm (calm_shut (by simp [hl]))
    · by_cases hr : s.state = .synRcvd
      · rw [hrcvd hr]
        show News s _ (s.changeState .finWait1).done
        exact .calm (Calm.done (calm_move (st := .finWait1) (by simp) (by simp) (by simp [hr]) (by simp [hr])))
      · exact hfsm _ rfl ⟨hl, hr⟩
  | send d =>
    show News s _ (s.send d)
    unfold send
    split
    · exact .calm ⟨⟨[.accepted d], rfl, by simp⟩, rfl, rfl, rfl, rfl, .inl rfl⟩
    · exact .calm (Calm.emit _ (by simp))
  | recvAcquire =>
    show News s _ s.recvAcquire
    unfold recvAcquire
    split
    · exact .calm (Calm.refl _)
    · exact .calm (calm_same rfl rfl rfl rfl rfl rfl)
  | recvTake n =>
    show News s _ (s.recvTake n)
    rcases recvTake_cases s n with x | ⟨k, e, x⟩ <;> rw [x]
    · exact .calm (Calm.refl _)
    · exact .calm ⟨⟨_, rfl, by simp⟩, rfl, rfl, rfl, rfl, .inl rfl⟩
  | connectReturn =>
    show News s _ s.connectReturn
    unfold connectReturn
    split
    · exact .calm (Calm.refl _)
    · dsimp only
      have : Calm s { s with evConnect := s.evConnect - 1 } := calm_same rfl rfl rfl rfl rfl rfl
      split
      · exact .calm (this.trans (Calm.emit _ (by simp)))
      · split
        · exact .calm (this.trans (Calm.emit _ (by simp)))
        · exact .calm (this.trans (Calm.emit _ (by simp)))
  | clock => exact .calm (calm_same rfl rfl rfl rfl rfl rfl)
  | timer =>
    show News s _ (s.fsm .timer).done
    by_cases hl : s.state = .listen
    · rw [hlisten hl]
      exact .calm (Calm.refl s).done
    · by_cases hr : s.state = .synRcvd
      · rw [hrcvd hr]
        exact .calm (timer_calm hr).done
      · exact hfsm _ trivial ⟨hl, hr⟩
  | table b => exact .calm (calm_same rfl rfl rfl rfl rfl rfl)

/-- The out-of-order queue after any history. -/
theorem queue_run {s : Sess} {evs : List Ev} (h : Queue (fun _ => True) s) : Queue (fun _ => True) (s.run evs) := by
  refine run_keeps (Q := fun _ => True) (G := False) (P := Queue (fun _ => True)) (fun s h => h.queueOk) (fun a b h hm => queue_micro h hm)
    (fun s e h => h.same rfl rfl) ?_ ?_ ?_ ?_ (fun s h => h.same rfl rfl) (fun s b h => h.same rfl rfl) (fun _ _ => trivial) h
  · intro s d h; unfold send; split <;> exact h.same rfl rfl
  · intro s h; unfold recvAcquire; split
    · exact h
    · exact h.same rfl rfl
  · intro s n h
    rcases recvTake_cases s n with x | ⟨k, e, x⟩ <;> rw [x]
    · exact h
    · exact h.same rfl rfl
  · intro s h
    unfold connectReturn
    split
    · exact h
    · dsimp only
      split
      · exact h.same rfl rfl
      · split
        · exact h.same rfl rfl
        · exact h.same rfl rfl

theorem queue_opened (active : Bool) (iss : Nat) (lip : IpAddress) (lport : Nat) (rip : IpAddress) (rport : Nat) :
    Queue (fun _ => True) (opened active iss lip lport rip rport) := by
  rw [opened_eq]
  exact ⟨by simp [new], by simp [new]⟩

end Sess
end Verif
