import Verif.Spec.TcpEcho
import Verif.Lemmas.Echo
import Verif.Props.SessionNet
import Verif.Props.SessionEnd
/-! The TCP echo service on a connection. -/
namespace Verif.TcpEcho
open Echo Spec Sess

/-! ### The words that end the service -/

theorem isSpace_iff (x : UInt8) : isSpace x = true ↔ x ∈ ([32, 9, 10, 11, 12, 13] : Bytes) := by
  have n3 : (9 : UInt8).toNat = 9 := rfl
  have n4 : (13 : UInt8).toNat = 13 := rfl
  simp only [isSpace, Bool.or_eq_true, Bool.and_eq_true, decide_eq_true_eq, UInt8.le_iff_toNat_le, List.mem_cons, List.not_mem_nil, or_false,
    ← UInt8.toNat_inj]
  have : (10 : UInt8).toNat = 10 := rfl
  have : (11 : UInt8).toNat = 11 := rfl
  have : (12 : UInt8).toNat = 12 := rfl
  omega

theorem takeWhile_space {d : Bytes} {x : UInt8} (h : x ∈ d.takeWhile isSpace) : isSpace x = true := by
  induction d with
  | nil => cases h
  | cons y d ih =>
    rw [List.takeWhile_cons] at h
    split at h
    · rcases List.mem_cons.1 h with e | h
      · rw [e]; assumption
      · exact ih h
    · cases h

theorem strip_parts (d : Bytes) : ∃ a b, d = a ++ strip d ++ b ∧ ∀ x ∈ a ++ b, isSpace x = true := by
  refine ⟨d.takeWhile isSpace, ((d.dropWhile isSpace).reverse.takeWhile isSpace).reverse, ?_, fun x hx => ?_⟩
  · rw [strip, List.append_assoc, ← List.reverse_append, List.takeWhile_append_dropWhile, List.reverse_reverse, List.takeWhile_append_dropWhile]
  · rcases List.mem_append.1 hx with h | h
    · exact takeWhile_space h
    · exact takeWhile_space (List.mem_reverse.1 h)

theorem strip_around {a c b : Bytes} (h : ∀ x ∈ a ++ b, isSpace x = true) (hc : c ≠ []) (hp : ∀ x ∈ c, isSpace x = false) :
    strip (a ++ c ++ b) = c := by
  have drop : ∀ (a c : Bytes), (∀ x ∈ a, isSpace x = true) → c ≠ [] → (∀ x, c.head? = some x → isSpace x = false) →
      (a ++ c).dropWhile isSpace = c := by
    intro a c ha hc hh
    rw [List.dropWhile_append_of_pos ha]
    cases c with
    | nil => exact absurd rfl hc
    | cons x c => rw [List.dropWhile_cons, if_neg (by rw [hh x rfl]; simp)]
  have h1 : (a ++ c ++ b).dropWhile isSpace = c ++ b := by
    rw [List.append_assoc]
    refine drop a (c ++ b) (fun x hx => h x (List.mem_append_left _ hx)) (by simp [hc]) (fun x hx => ?_)
    cases c with
    | nil => exact absurd rfl hc
    | cons y c => cases hx; exact hp x (by simp)
  rw [strip, h1, List.reverse_append]
  rw [drop b.reverse c.reverse (fun x hx => h x (List.mem_append_right _ (List.mem_reverse.1 hx))) (by simpa using hc)
    (fun x hx => hp x (List.mem_reverse.1 (List.mem_of_mem_head? hx))), List.reverse_reverse]

theorem says_iff {w : Bytes} (h0 : w ≠ []) (hw : ∀ y ∈ w, Letter y) (d : Bytes) : lower (strip d) = w ↔
    ∃ a c b, d = a ++ c ++ b ∧ (∀ x ∈ a ++ b, x ∈ ([32, 9, 10, 11, 12, 13] : Bytes)) ∧ c.length = w.length ∧ ∀ p ∈ c.zip w, p.1 = p.2 ∨ p.1 = p.2 - 32 := by
  constructor
  · intro h
    obtain ⟨a, b, e, hs⟩ := strip_parts d
    exact ⟨a, strip d, b, e, fun x hx => (isSpace_iff x).1 (hs x hx), (letters_iff hw _).2 h⟩
  · rintro ⟨a, c, b, rfl, hs, hc⟩
    have e := (letters_iff hw c).1 hc
    rw [strip_around (fun x hx => (isSpace_iff x).2 (hs x hx)) (fun y => h0 (by rw [← e, y]; rfl))
      (fun x hx => space_letter (hw _ (by rw [← e]; exact List.mem_map_of_mem hx)) rfl)]
    exact e

theorem asksEnd_iff (d : Bytes) : asksEnd d = true ↔ SaysEnd d := by
  have key : ∀ w ∈ [ascii "quit", ascii "close", ascii "bye", ascii "exit"], w ≠ [] ∧ ∀ y ∈ w, Letter y := by
    have : ∀ w ∈ [ascii "quit", ascii "close", ascii "bye", ascii "exit"], w ≠ [] ∧ ∀ y ∈ w, 97 ≤ y ∧ y ≤ 122 := by decide +kernel
    exact this
  unfold asksEnd SaysEnd
  rw [List.contains_iff_mem]
  constructor
  · intro h
    exact ⟨_, h, (says_iff (key _ h).1 (key _ h).2 d).1 rfl⟩
  · rintro ⟨w, hw, h⟩
    rw [(says_iff (key _ hw).1 (key _ hw).2 d).2 h]
    exact hw

/-- The reply, computed. -/
def reply (d : Bytes) : Bytes := if d = [] then closedMsg else if asksEnd d then quitMsg else answer d

/-! ### What the stack does not do -/

theorem returned_append (l m : List Out) : returned (l ++ m) = returned l ++ returned m := List.filterMap_append

theorem received_eq (l : List Out) : received l = (returned l).flatten := by
  unfold received returned
  congr 1

theorem outs_micro {Q : TcpMd → Prop} {G : Prop} {a b : Sess} (hm : Micro Q G a b) : returned b.out = returned a.out ∧ b.readers = a.readers := by
  cases hm with
  | abort => rw [abortAs_eq]; simp [returned]
  | abortMove => rw [moveAs_out, abortAs_eq]; simp [returned, abortAs]
  | dup => rw [retransmitRequest_eq]; simp
  | synAckIn => rw [ackUpdate_eq]; simp [paramsAs]
  | synIn => simp [synAs, paramsAs, returned]
  | ackIn => rw [ackUpdate_eq]; simp
  | dataIn => rw [ackUpdate_eq]; simp
  | finIn => rw [ackUpdate_eq]; simp
  | reset => exact ⟨rfl, rfl⟩
  | timerSet => exact ⟨rfl, rfl⟩
  | store => exact ⟨rfl, rfl⟩
  | pop => exact ⟨rfl, rfl⟩
  | closes => exact ⟨rfl, rfl⟩
  | _ => simp [emit, setTimer, ackAs, returned]

/-- The stack, and `close`. -/
theorem step_outs {s : Sess} (h : Queue (fun _ => True) s) {e : Sess.Ev} (he : ByStack e ∨ e = .close) :
    returned (s.step e).out = returned s.out ∧ (s.step e).readers = s.readers ∧ accepted (s.step e).out = accepted s.out := by
  have done : ∀ i, InputOk (fun _ => True) i → returned (s.fsm i).done.out = returned s.out ∧ (s.fsm i).done.readers = s.readers ∧
      accepted (s.fsm i).done.out = accepted s.out := by
    intro i hi
    have h1 := (fsm_path (Q := fun _ => True) (G := False) (i := i) h.queueOk hi).keeps
      (P := fun b => returned b.out = returned s.out ∧ b.readers = s.readers ∧ accepted b.out = accepted s.out)
      (fun a b h hm => ⟨(outs_micro hm).1.trans h.1, (outs_micro hm).2.trans h.2.1, (accepted_micro hm).trans h.2.2⟩) ⟨rfl, rfl, rfl⟩
    unfold Res.done
    split
    · exact h1
    · refine ⟨?_, h1.2.1, ?_⟩
      · rw [emit, returned_append, h1.1]; simp [returned]
      · rw [← h1.2.2]; simp [emit, accepted]
  rcases he with he | rfl
  · cases he with
    | segment m => exact done _ trivial
    | timer => exact done _ trivial
    | clock => exact ⟨rfl, rfl, rfl⟩
    | table b => exact ⟨rfl, rfl, rfl⟩
  · exact done _ rfl

theorem queue_step {s : Sess} (h : Queue (fun _ => True) s) (e : Sess.Ev) : Queue (fun _ => True) (s.step e) := queue_run (evs := [e]) h

/-- A turn is a call on the session, or nothing. -/
theorem turn_step (running : Bool) (s : Sess) (pc : Pc) : (turn running s pc).1 = s ∨
    ∃ e, (∀ m, e ≠ Sess.Ev.segment m) ∧ (turn running s pc).1 = s.step e := by
  cases pc with
  | hello => exact .inr ⟨.send hello, by simp, rfl⟩
  | test => exact .inl rfl
  | recv =>
    rw [turn]
    split
    · exact .inl rfl
    · exact .inr ⟨.recvAcquire, by simp, rfl⟩
  | taking => exact .inr ⟨.recvTake none, by simp, rfl⟩
  | got d =>
    rw [turn]
    repeat' split
    · exact .inr ⟨.send closedMsg, by simp, rfl⟩
    · exact .inr ⟨.send quitMsg, by simp, rfl⟩
    · exact .inr ⟨.send (answer d), by simp, rfl⟩
  | closing again => exact .inr ⟨.close, by simp, rfl⟩
  | ended => exact .inl rfl
  | died => exact .inl rfl

theorem joined {calm : Prop} {x y a b : Sess} {pc : Pc} (h : Served calm x y a b pc) : Joined x y a b := by
  induction h with
  | start => exact .start
  | client _ he ih => exact .left ih he
  | stack _ _ he _ ih => exact .right ih he
  | service running _ _ ih =>
    rcases turn_step running _ _ with e | ⟨e, he, h⟩
    · rw [e]; exact ih
    · rw [h]; exact .right ih (fun m hm => absurd hm (he m))

/-! ### What has been read and what has been said -/

/-- What is said, with what has been read and where the thread is. -/
def Script (acc : Bytes) (ret : List Bytes) (readers : Nat) : Pc → Prop
  | .hello => acc = [] ∧ ret = [] ∧ readers = 0
  | .test => acc = hello ++ (ret.map reply).flatten ∧ [] ∉ ret ∧ readers = 0
  | .recv => acc = hello ++ (ret.map reply).flatten ∧ [] ∉ ret ∧ readers = 0
  | .taking => acc = hello ++ (ret.map reply).flatten ∧ [] ∉ ret ∧ readers = 1
  | .got d => readers = 0 ∧ ∃ l, ret = l ++ [d] ∧ acc = hello ++ (l.map reply).flatten ∧ [] ∉ l
  | .closing again => acc = hello ++ (ret.map reply).flatten ∧ readers = 0 ∧ if again then [] ∉ ret else ∃ l, ret = l ++ [[]] ∧ [] ∉ l
  | .ended => acc = hello ++ (ret.map reply).flatten ∧ readers = 0 ∧ ([] ∉ ret ∨ ∃ l, ret = l ++ [[]] ∧ [] ∉ l)
  | .died => readers = 0 ∧ (acc = [] ∧ ret = [] ∨ (∃ l d, ret = l ++ [d] ∧ acc = hello ++ (l.map reply).flatten ∧ [] ∉ l) ∨
      acc = hello ++ (ret.map reply).flatten ∧ ([] ∉ ret ∨ ∃ l, ret = l ++ [[]] ∧ [] ∉ l))

theorem send_outs (s : Sess) (d : Bytes) : returned (s.send d).out = returned s.out ∧ (s.send d).readers = s.readers ∧
    accepted (s.send d).out = accepted s.out ++ (if s.state = .established ∨ s.state = .closeWait then d else []) := by
  unfold send
  split
  · simp [returned, accepted]
  · simp [returned, accepted, emit]

theorem take_outs (s : Sess) (h : s.readers = 1) : (s.recvTake none).out = s.out ++ [.received s.rx] ∧ (s.recvTake none).rx = [] ∧
    (s.recvTake none).readers = 0 ∧ (s.recvTake none).state = s.state := by
  unfold recvTake
  rw [if_neg (by omega)]
  dsimp only
  split
  · next hc => simp [emit, hc.1, h]
  · rw [List.take_length, List.drop_length]
    split <;> simp [emit, h]

theorem acquire_outs (s : Sess) (h : s.evRx ≠ 0) : s.recvAcquire = { s with evRx := s.evRx - 1, readers := s.readers + 1 } := by
  unfold recvAcquire; rw [if_neg h]

theorem script_turn {s : Sess} {pc : Pc} (hq : Queue (fun _ => True) s) (h : Script (accepted s.out) (returned s.out) s.readers pc) (running : Bool) :
    Script (accepted (turn running s pc).1.out) (returned (turn running s pc).1.out) (turn running s pc).1.readers (turn running s pc).2 := by
  cases pc with
  | hello =>
    obtain ⟨h1, h2, h3⟩ := h
    obtain ⟨e1, e2, e3⟩ := send_outs s hello
    rw [turn, say]
    dsimp only
    rw [e1, e2, e3, h1, h2, h3]
    split
    · simp [Script]
    · simp [Script]
  | test =>
    rw [turn]
    dsimp only
    split
    · exact h
    · exact ⟨h.1, h.2.2, .inl h.2.1⟩
  | recv =>
    rw [turn]
    by_cases h0 : s.evRx = 0
    · rw [if_pos h0]; exact h
    · rw [if_neg h0]
      dsimp only
      rw [acquire_outs s h0]
      exact ⟨h.1, h.2.1, by have := h.2.2; dsimp only; omega⟩
  | taking =>
    rw [turn]
    obtain ⟨e1, e2, e3, e4⟩ := take_outs s h.2.2
    dsimp only
    rw [lastRead, e1, e3]
    simp only [List.getLast?_append, List.getLast?_singleton, Option.some_or]
    refine ⟨rfl, returned s.out, by rw [returned_append]; rfl, ?_, h.2.1⟩
    rw [← h.1]
    simp [accepted]
  | got d =>
    obtain ⟨h1, l, h2, h3, h4⟩ := h
    have all : ∀ x, x = reply d → accepted s.out ++ x = hello ++ ((returned s.out).map reply).flatten := by
      rintro x rfl
      rw [h2, h3]; simp
    have go : ∀ x next, x = reply d → (Script (accepted s.out ++ x) (returned s.out) 0 next) →
        Script (accepted (say s x next).1.out) (returned (say s x next).1.out) (say s x next).1.readers (say s x next).2 := by
      intro x next hx hn
      obtain ⟨e1, e2, e3⟩ := send_outs s x
      rw [say]
      dsimp only
      rw [e1, e2, e3, h1]
      split
      · exact hn
      · rw [List.append_nil]
        exact ⟨rfl, .inr (.inl ⟨l, d, h2, h3, h4⟩)⟩
    rw [turn]
    by_cases hd : d = []
    · rw [if_pos hd]
      have hx : closedMsg = reply d := by rw [reply, if_pos hd]
      exact go _ _ hx ⟨all _ hx, rfl, l, by rw [h2, hd], h4⟩
    · have hn : [] ∉ returned s.out := by
        rw [h2]; intro hm
        rcases List.mem_append.1 hm with hm | hm
        · exact h4 hm
        · exact hd (List.mem_singleton.1 hm).symm
      rw [if_neg hd]
      by_cases ha : asksEnd d = true
      · rw [if_pos ha]
        have hx : quitMsg = reply d := by rw [reply, if_neg hd, if_pos ha]
        exact go _ _ hx ⟨all _ hx, rfl, hn⟩
      · rw [if_neg ha]
        have hx : answer d = reply d := by rw [reply, if_neg hd, if_neg ha]
        exact go _ _ hx ⟨all _ hx, hn, rfl⟩
  | closing again =>
    obtain ⟨h1, h2, h3⟩ := h
    obtain ⟨e1, e2, e3⟩ := step_outs hq (e := .close) (.inr rfl)
    rw [turn]
    dsimp only
    rw [e1, e2, e3]
    have h4 : [] ∉ returned s.out ∨ ∃ l, returned s.out = l ++ [[]] ∧ [] ∉ l := by
      cases again
      · exact .inr (by simpa using h3)
      · exact .inl (by simpa using h3)
    split
    · exact ⟨h2, .inr (.inr ⟨h1, h4⟩)⟩
    · cases again
      · exact ⟨h1, h2, h4⟩
      · exact ⟨h1, by simpa using h3, h2⟩
  | ended => exact h
  | died => exact h

theorem script {calm : Prop} {x y a b : Sess} {pc : Pc} (h : Served calm x y a b pc) (hq : Queue (fun _ => True) y)
    (h0 : accepted y.out = [] ∧ returned y.out = [] ∧ y.readers = 0) :
    Queue (fun _ => True) b ∧ Script (accepted b.out) (returned b.out) b.readers pc := by
  induction h with
  | start => exact ⟨hq, h0⟩
  | client _ _ ih => exact ih
  | stack _ hs _ _ ih =>
    obtain ⟨e1, e2, e3⟩ := step_outs ih.1 (.inl hs)
    refine ⟨queue_step ih.1 _, ?_⟩
    rw [e1, e2, e3]; exact ih.2
  | service running _ _ ih =>
    refine ⟨?_, script_turn ih.1 ih.2 running⟩
    rcases turn_step running _ _ with e | ⟨e, _, h⟩
    · rw [e]; exact ih.1
    · rw [h]; exact queue_step ih.1 _

/-! ### The end of the client's stream -/

/-- The peer's FIN is taken only if there was one. -/
theorem finTaken_run {F : Prop} (active : Bool) (iss : Nat) (lip : IpAddress) (lport : Nat) (rip : IpAddress) (rport : Nat)
    {evs : List Sess.Ev} (h : ∀ m ∈ Spec.arrivals evs, m.fin = true → F) :
    finTaken ((opened active iss lip lport rip rport).run evs).state → F := by
  refine (run_keeps' (Q := fun m => m.fin = true → F) (G := False) (P := fun s => Queue (fun m => m.fin = true → F) s ∧ (finTaken s.state → F))
    (fun s h => h.1.queueOk) (fun a b h hm => ⟨queue_micro h.1 hm, ?_⟩) (fun a b h hb => ⟨h.1.beside hb, ?_⟩) h ⟨?_, ?_⟩).2
  · have old := h.2
    intro hst
    cases hm with
    | toCloseWait hq hst hf hr => exact hq (isFinAck_flags hf).2.2.2
    | toTimeWait hq hst hf hr => exact hq (isFinAck_flags hf).2.2.2
    | toClosing hq hst hf ha hr => exact hq (isFinAck_flags hf).2.2.2
    | closingAck hq hs => exact old (by simp [finTaken, hs])
    | lastClose hs => exact old (by simp [finTaken, hs])
    | abort => rw [abortAs_eq] at hst; simp [finTaken] at hst
    | @abortMove st t hs =>
      rcases hs with x | x
      · simp [finTaken, x.2] at hst
      · exact old (by simp [finTaken, x.1])
    | dup => rw [retransmitRequest_eq] at hst; exact old hst
    | synAckIn => rw [ackUpdate_state] at hst; exact old hst
    | ackIn => rw [ackUpdate_state] at hst; exact old hst
    | dataIn => rw [ackUpdate_state] at hst; exact old hst
    | finIn => rw [ackUpdate_state] at hst; exact old hst
    | reset => exact old hst
    | timerSet => exact old hst
    | store => exact old hst
    | pop => exact old hst
    | closes => exact old hst
    | synOut => exact old (by simpa using hst)
    | synAckOut => exact old (by simpa using hst)
    | dataOut => exact old (by simpa using hst)
    | finOut => exact old (by simpa using hst)
    | ackOut => exact old (by simpa using hst)
    | _ => simp [finTaken, emit] at hst
  · have h2 := congrArg Sess.state hb
    dsimp only at h2
    rw [h2]; exact h.2
  · rw [opened_eq]; exact ⟨by simp [new], by simp [new]⟩
  · rw [opened_eq]; cases active <;> simp [finTaken]

theorem finTaken_sent {ia ib : Nat} {p q : Bool} {lip : IpAddress} {lport : Nat} {rip : IpAddress} {rport : Nat} {lip' : IpAddress} {lport' : Nat}
    {rip' : IpAddress} {rport' : Nat} {a b : Sess}
    (h : Joined (opened p ia lip lport rip rport) (opened q ib lip' lport' rip' rport') a b) (hf : finTaken b.state) :
    ∃ g ∈ sent a.out, g.fin = true := by
  obtain ⟨-, ⟨evs, h1, h2⟩, -⟩ := pair_joined h
  rw [h1] at hf
  refine finTaken_run q ib lip' lport' rip' rport' (fun m hm hfin => ?_) hf
  rcases h2 m hm with r | ⟨g, hg, hc⟩
  · rw [r.fin] at hfin; cases hfin
  · exact ⟨g, hg, by rw [← hc.fin]; exact hfin⟩

/-- All that the client has sent or will send has been read, and its FIN has been sent. -/
def Complete (a b : Sess) : Prop := (∃ g ∈ sent a.out, g.fin = true) ∧ received b.out = accepted a.out

theorem step_accepted {s : Sess} (h : Queue (fun _ => True) s) (e : Sess.Ev) (hs : s.state ≠ .established ∧ s.state ≠ .closeWait) :
    accepted (s.step e).out = accepted s.out := by
  cases e with
  | segment m => exact (step_outs h (.inl (.segment m))).2.2
  | close => exact (step_outs h (.inr rfl)).2.2
  | timer => exact (step_outs h (.inl .timer)).2.2
  | clock => rfl
  | table b => rfl
  | send d =>
    have := (send_outs s d).2.2
    rw [if_neg (by rintro (x | x); exacts [hs.1 x, hs.2 x]), List.append_nil] at this
    exact this
  | recvAcquire => show accepted s.recvAcquire.out = _; unfold recvAcquire; split <;> rfl
  | recvTake n =>
    show accepted (s.recvTake n).out = _
    rcases recvTake_cases s n with x | ⟨k, e, x⟩ <;> rw [x]
    simp [accepted]
  | connectReturn =>
    show accepted s.connectReturn.out = _
    unfold connectReturn
    split
    · rfl
    · dsimp only
      split
      · simp [emit, accepted]
      · split <;> simp [emit, accepted]

theorem Complete.client {ia : Nat} {a b : Sess} (h : Complete a b) (hS : SendInv ia a) (hq : Queue (fun _ => True) a) (e : Sess.Ev) :
    Complete (a.step e) b := by
  obtain ⟨⟨g, hg, hf⟩, h2⟩ := h
  have hE := (hS.sent.fin g hg hf).2
  refine ⟨⟨g, sent_prefix (out_step hq e) hg, hf⟩, ?_⟩
  rw [step_accepted hq e ⟨fun x => hE (by simp [Early, x]), fun x => hE (by simp [Early, x])⟩]
  exact h2

theorem Complete.other {a b b' : Sess} (h : Complete a b) (hr : returned b'.out = returned b.out) : Complete a b' :=
  ⟨h.1, by rw [received_eq, hr, ← received_eq]; exact h.2⟩

/-- While receive calls are not interrupted. -/
theorem eof_step {iss : Nat} {s : Sess} (hS : SendInv iss s) (hE : EofInv s) {e : Sess.Ev} (he : ByStack e ∨ e = .close)
    (ha : ∀ m, e = .segment m → AckOk iss m) : EofInv (s.step e) := by
  have done : ∀ i, InputOk (AckOk iss) i → EofInv (s.fsm i).done := by
    intro i hi
    have := ((fsm_path hS.queueOk hi).keeps (P := fun s => SendInv iss s ∧ EofInv s)
      (fun a b h hm => ⟨send_micro h.1 hm, eof_micro h.1 h.2 hm⟩) ⟨hS, hE⟩).2
    unfold Res.done
    split
    · exact this
    · exact ⟨this.none, this.sem⟩
  rcases he with he | rfl
  · cases he with
    | segment m => exact done _ (ha m rfl)
    | timer => exact done _ trivial
    | clock => exact ⟨hE.none, hE.sem⟩
    | table b => exact ⟨hE.none, hE.sem⟩
  · exact done _ rfl

/-- A closed session stays closed. -/
theorem closed_step {iss : Nat} {s : Sess} (hS : SendInv iss s) (hc : s.state = .closed) {e : Sess.Ev} (he : ByStack e ∨ e = .close)
    (ha : ∀ m, e = .segment m → AckOk iss m) : (s.step e).state = .closed := by
  have done : ∀ i, InputOk (AckOk iss) i → (s.fsm i).done.state = .closed := by
    intro i hi
    have := ((fsm_path hS.queueOk hi).keeps (P := fun s => SendInv iss s ∧ s.state = .closed)
      (fun a b h hm => ⟨send_micro h.1 hm, Classical.byContradiction fun x => closed_micro h.1 hm x h.2⟩) ⟨hS, hc⟩).2
    unfold Res.done
    split
    · exact this
    · exact this
  rcases he with he | rfl
  · cases he with
    | segment m => exact done _ (ha m rfl)
    | timer => exact done _ trivial
    | clock => exact hc
    | table b => exact hc
  · exact done _ rfl

theorem EofInv.send {s : Sess} (h : EofInv s) (d : Bytes) : EofInv (s.send d) := by
  unfold Sess.send
  split <;> exact ⟨h.none, h.sem⟩

/-- The end of the stream, with where the thread is, when receive calls are not interrupted. -/
def EndInv (a b : Sess) : Pc → Prop
  | .taking => ∃ s, EofInv s ∧ s.evRx ≠ 0 ∧ b = s.recvAcquire
  | .got d => EofInv b ∧ (d = [] → b.state = .closed ∨ Complete a b)
  | .closing again => if again then EofInv b else Complete a b
  | .ended => [] ∈ returned b.out → Complete a b
  | .died => True
  | _ => EofInv b

theorem end_inv {p q : Bool} {ia ib : Nat} {lip : IpAddress} {lport : Nat} {rip : IpAddress} {rport : Nat} {lip' : IpAddress} {lport' : Nat}
    {rip' : IpAddress} {rport' : Nat} {a b : Sess} {pc : Pc}
    (h : Served True (opened p ia lip lport rip rport) (opened q ib lip' lport' rip' rport') a b pc) : EndInv a b pc := by
  have base : accepted (opened q ib lip' lport' rip' rport').out = [] ∧ returned (opened q ib lip' lport' rip' rport').out = [] ∧
      (opened q ib lip' lport' rip' rport').readers = 0 := by
    rw [opened_eq]; cases q <;> simp [new, accepted, returned]
  induction h with
  | start =>
    show EofInv _
    rw [opened_eq]
    cases q <;> exact ⟨by simp [new], fun _ => by simp [new]⟩
  | @client a b pc e h he ih =>
    obtain ⟨⟨evs, h1, -⟩, -, hS, -⟩ := pair_joined (joined h)
    have hq : Queue (fun _ => True) a := by rw [h1]; exact queue_run (queue_opened ..)
    cases pc with
    | got d =>
      refine ⟨ih.1, fun hd => ?_⟩
      rcases ih.2 hd with x | x
      · exact .inl x
      · exact .inr (x.client hS hq e)
    | closing again =>
      cases again
      · exact Complete.client (show Complete a b from ih) hS hq e
      · exact ih
    | ended => exact fun x => (ih x).client hS hq e
    | _ => exact ih
  | @stack a b pc e h hs he hc ih =>
    obtain ⟨-, ⟨evs, h1, -⟩, -, hL, hS, -⟩ := pair_joined (joined h)
    have hq : Queue (fun _ => True) b := by rw [h1]; exact queue_run (queue_opened ..)
    have hA : ∀ m, e = .segment m → AckOk ib m := by
      intro m hm ha hr
      rcases he m hm with r | ⟨g, hg, hc⟩
      · rw [r.rst] at hr; cases hr
      · rcases hL.acks g hg (by rw [← hc.ack]; exact ha) with x | x
        · rw [← hc.rst, hr] at x; cases x
        · rw [hc.ackn]; omega
    have hr := (step_outs hq (.inl hs)).1
    cases pc with
    | taking =>
      obtain ⟨r, rfl⟩ := hc trivial rfl
      obtain ⟨s, hE, h0, hb⟩ := ih
      refine ⟨{ s with registered := r }, ⟨hE.none, hE.sem⟩, h0, ?_⟩
      rw [hb, acquire_outs s h0, acquire_outs { s with registered := r } h0]; rfl
    | got d =>
      refine ⟨eof_step hS ih.1 (.inl hs) hA, fun hd => ?_⟩
      rcases ih.2 hd with x | x
      · exact .inl (closed_step hS x (.inl hs) hA)
      · exact .inr (x.other hr)
    | closing again =>
      cases again
      · exact Complete.other (show Complete a b from ih) hr
      · exact eof_step hS (show EofInv b from ih) (.inl hs) hA
    | ended => exact fun x => (ih (by rw [← hr]; exact x)).other hr
    | died => trivial
    | hello => exact eof_step hS (show EofInv b from ih) (.inl hs) hA
    | test => exact eof_step hS (show EofInv b from ih) (.inl hs) hA
    | recv => exact eof_step hS (show EofInv b from ih) (.inl hs) hA
  | @service a b pc running h hq ih =>
    have hj := joined h
    obtain ⟨hqu, hsc⟩ := script h (queue_opened ..) base
    obtain ⟨-, -, -, hL, hS, -⟩ := pair_joined hj
    cases pc with
    | hello =>
      rw [turn, say]
      dsimp only
      split
      · exact EofInv.send (show EofInv b from ih) _
      · trivial
    | test =>
      rw [turn]
      dsimp only
      split
      · exact ih
      · exact fun x => absurd x hsc.2.1
    | recv =>
      rw [turn]
      by_cases h0 : b.evRx = 0
      · rw [if_pos h0]; exact ih
      · rw [if_neg h0]; exact ⟨b, ih, h0, rfl⟩
    | taking =>
      obtain ⟨e1, e2, e3, e4⟩ := take_outs b hsc.2.2
      rw [turn]
      dsimp only
      rw [lastRead, e1]
      simp only [List.getLast?_append, List.getLast?_singleton, Option.some_or]
      obtain ⟨s, hE, h0, hb⟩ := ih
      have hst : s.state = b.state := by rw [hb, acquire_outs s h0]
      have hrx : s.rx = b.rx := by rw [hb, acquire_outs s h0]
      have hcl : b.rx = [] → finTaken b.state → Complete a (b.recvTake none) := by
        intro hx hf
        refine ⟨finTaken_sent hj hf, ?_⟩
        have := C81_fin_means_all _ _ _ _ _ _ _ _ _ _ _ _ hj.swap (by simpa [finTaken] using hf)
        rw [hx, List.append_nil] at this
        rw [e1, received_eq, returned_append, List.flatten_append, ← received_eq, this, hx]
        simp [returned]
      rcases receive_cases hE.none none with ⟨x, _⟩ | ⟨_, h1, h2, x⟩ | ⟨_, h1, k, hk, x⟩
      · exact absurd x h0
      · refine ⟨?_, fun hd => ?_⟩
        · rw [hb, x]
          refine ⟨hE.none, fun y => ?_⟩
          exfalso; apply y
          rcases h2 with h2 | h2 <;> simp [Ended, h2]
        · rw [hst] at h2
          rcases h2 with h2 | h2
          · exact .inr (hcl hd (.inl h2))
          · exact .inl (e4.trans h2)
      · refine ⟨?_, fun hd => ?_⟩
        · rw [hb, x]
          refine ⟨hE.none, fun y => ?_⟩
          have h3 := hE.sem y
          dsimp only at y ⊢
          split
          · rename_i hc
            refine ⟨h3.1, fun _ => ?_⟩
            rcases hc with hc | hc | hc
            · exact hc
            · exact absurd (by simp [Ended, hc]) y
            · exact absurd (by simp [Ended, hc]) y
          · exact ⟨by omega, fun z => by omega⟩
        · have hend : Ended s.state := by
            apply Classical.byContradiction
            intro hne
            have := hE.sem hne
            exact this.2 (by omega) (by rw [hrx]; exact hd)
          rw [hst] at hend
          rcases hend with y | y | y
          · exact .inr (hcl hd (.inl y))
          · exact .inr (hcl hd (.inr (.inr (.inl y))))
          · exact .inl (e4.trans y)
    | got d =>
      obtain ⟨hE, hC⟩ := ih
      rw [turn]
      by_cases hd : d = []
      · rw [if_pos hd, say]
        dsimp only
        split
        · next hst =>
          rcases hC hd with x | x
          · rw [x] at hst; rcases hst with y | y <;> cases y
          · exact Complete.other x (send_outs b closedMsg).1
        · trivial
      · rw [if_neg hd]
        split <;> rw [say] <;> dsimp only <;> split <;> first | trivial | exact EofInv.send hE _
    | closing again =>
      have hr := (step_outs hqu (e := .close) (.inr rfl)).1
      have hE' := fun hE => eof_step (e := .close) hS hE (.inr rfl) (fun m hm => nomatch hm)
      rw [turn]
      dsimp only
      split
      · trivial
      · cases again
        · exact fun _ => Complete.other (show Complete a b from ih) hr
        · exact hE' (show EofInv b from ih)
    | ended => exact ih
    | died => trivial

/-! ### Closing -/

theorem closes_micro {Q : TcpMd → Prop} {G : Prop} {a b : Sess} (hm : Micro Q G a b) (h : a.closes = true) : b.closes = true := by
  cases hm with
  | abort => simpa using h
  | abortMove => simpa using h
  | dup => rw [retransmitRequest_eq]; exact h
  | synAckIn => rw [ackUpdate_eq]; simpa [paramsAs] using h
  | synIn => simpa [synAs, paramsAs] using h
  | ackIn => rw [ackUpdate_eq]; exact h
  | dataIn => rw [ackUpdate_eq]; exact h
  | finIn => rw [ackUpdate_eq]; exact h
  | reset => exact h
  | timerSet => exact h
  | store => exact h
  | pop => exact h
  | closes => rfl
  | _ => simpa [emit, setTimer, ackAs] using h

theorem late_micro {Q : TcpMd → Prop} {G : Prop} {a b : Sess} (hm : Micro Q G a b) (h : Early b.state) : Early a.state := by
  cases hm with
  | abort => rw [abortAs_eq] at h; simp [Early] at h
  | abortMove hst => rcases hst with ⟨x, _⟩ | ⟨x, _⟩ <;> simp [Early, x]
  | dup => rw [retransmitRequest_eq] at h; exact h
  | synAckIn _ hst => simp [Early, hst]
  | synIn _ hst => simp [Early, hst]
  | ackIn _ hst => simp [Early, hst]
  | establish _ hst => simp [Early, hst]
  | establish' _ hst => simp [Early, hst]
  | toCloseWait _ hst => simp [Early, hst]
  | dataIn => rw [ackUpdate_state] at h; exact h
  | finIn => rw [ackUpdate_state] at h; exact h
  | reset => exact h
  | timerSet => exact h
  | store => exact h
  | pop => exact h
  | closes => exact h
  | synOut => simpa using h
  | synAckOut => simpa using h
  | dataOut => simpa using h
  | finOut => simpa using h
  | ackOut => simpa [ackAs] using h
  | _ => simp [Early, setTimer] at h

theorem shut_micro {Q : TcpMd → Prop} {G : Prop} {a b : Sess} (h : ClosesDown a) (hm : Micro Q G a b) : ClosesDown b := by
  rcases h with h | h
  · exact .inl (closes_micro hm h)
  · exact .inr (fun x => h (late_micro hm x))

theorem shut_step {s : Sess} (hq : Queue (fun _ => True) s) (h : ClosesDown s) {e : Sess.Ev} (he : ByStack e ∨ e = .close) : ClosesDown (s.step e) := by
  have done : ∀ i, InputOk (fun _ => True) i → ClosesDown (s.fsm i).done := by
    intro i hi
    have := (fsm_path (Q := fun _ => True) (G := False) (i := i) hq.queueOk hi).keeps (P := ClosesDown) (fun a b h hm => shut_micro h hm) h
    unfold Res.done
    split <;> exact this
  rcases he with he | rfl
  · cases he with
    | segment m => exact done _ trivial
    | timer => exact done _ trivial
    | clock => exact h
    | table b => exact h
  · exact done _ rfl

theorem close_shut (s : Sess) : ClosesDown (s.step .close) := by
  have done : ∀ r : Sess.Res, ClosesDown r.s → ClosesDown r.done := by
    intro r h
    unfold Res.done
    split <;> exact h
  refine done _ ?_
  unfold fsm; rw [fsmFuel]; unfold fsmWith
  have cs : ∀ st : FsmState, ¬ Early st → ClosesDown (s.changeState st).s := by
    intro st h
    unfold changeState
    dsimp only
    split
    · split <;> exact .inr h
    · exact .inr h
  rcases h : s.state with _ | _ | _ | _ | _ | _ | _ | _ | _ | _ | _ <;> dsimp only
  · exact .inr (by show ¬ Early s.state; simp [Early, h])
  · exact cs _ (by simp [Early])
  · exact cs _ (by simp [Early])
  · exact cs _ (by simp [Early])
  · exact .inl rfl
  · exact .inr (by show ¬ Early s.state; simp [Early, h])
  · exact .inr (by show ¬ Early s.state; simp [Early, h])
  · exact .inr (by show ¬ Early s.state; simp [Early, h])
  · exact .inl rfl
  · exact .inr (by show ¬ Early s.state; simp [Early, h])
  · exact .inr (by show ¬ Early s.state; simp [Early, h])

/-- The end has been read, or one of the four words. -/
def Over (l : List Bytes) : Prop := ∃ d ∈ l, d = [] ∨ asksEnd d = true

def CloseInv (b : Sess) : Pc → Prop
  | .got d => ∃ l, returned b.out = l ++ [d] ∧ (Over l → ClosesDown b)
  | .closing _ => True
  | .died => True
  | _ => Over (returned b.out) → ClosesDown b

theorem shut_send {s : Sess} (h : ClosesDown s) (d : Bytes) : ClosesDown (s.send d) := by
  unfold Sess.send; split <;> exact h

theorem close_inv {calm : Prop} {x y a b : Sess} {pc : Pc} (h : Served calm x y a b pc) (hq : Queue (fun _ => True) y)
    (h0 : accepted y.out = [] ∧ returned y.out = [] ∧ y.readers = 0) : CloseInv b pc := by
  induction h with
  | start => rintro ⟨d, hd, _⟩; rw [h0.2.1] at hd; cases hd
  | client _ _ ih => exact ih
  | @stack a b pc e h hs _ _ ih =>
    have hqu := (script h hq h0).1
    have hr := (step_outs hqu (.inl hs)).1
    have hk : ClosesDown b → ClosesDown (b.step e) := fun x => shut_step hqu x (.inl hs)
    cases pc with
    | got d =>
      obtain ⟨l, e1, e2⟩ := ih
      exact ⟨l, by rw [hr]; exact e1, fun x => hk (e2 x)⟩
    | closing _ => trivial
    | died => trivial
    | hello => intro x; rw [hr] at x; exact hk (ih x)
    | test => intro x; rw [hr] at x; exact hk (ih x)
    | recv => intro x; rw [hr] at x; exact hk (ih x)
    | taking => intro x; rw [hr] at x; exact hk (ih x)
    | ended => intro x; rw [hr] at x; exact hk (ih x)
  | @service a b pc running h _ ih =>
    obtain ⟨hqu, hs⟩ := script h hq h0
    cases pc with
    | hello =>
      rw [turn, say]
      dsimp only
      split
      · rintro ⟨d, hd, _⟩
        rw [(send_outs b hello).1, hs.2.1] at hd; cases hd
      · trivial
    | test =>
      rw [turn]
      dsimp only
      split <;> exact ih
    | recv =>
      rw [turn]
      by_cases h0 : b.evRx = 0
      · rw [if_pos h0]; exact ih
      · rw [if_neg h0]
        dsimp only
        rw [acquire_outs b h0]; exact ih
    | taking =>
      obtain ⟨e1, e2, e3, e4⟩ := take_outs b hs.2.2
      rw [turn]
      dsimp only
      rw [lastRead, e1]
      simp only [List.getLast?_append, List.getLast?_singleton, Option.some_or]
      refine ⟨returned b.out, by rw [e1, returned_append]; rfl, fun x => ?_⟩
      have := ih x
      rcases recvTake_cases b none with z | ⟨k, e, z⟩ <;> rw [z] <;> exact this
    | got d =>
      obtain ⟨l, e1, e2⟩ := ih
      rw [turn]
      by_cases hd : d = []
      · rw [if_pos hd, say]; dsimp only; split <;> trivial
      · rw [if_neg hd]
        by_cases ha : asksEnd d = true
        · rw [if_pos ha, say]; dsimp only; split <;> trivial
        · rw [if_neg ha, say]
          dsimp only
          split
          · intro x
            rw [(send_outs b _).1, e1] at x
            refine shut_send (e2 ?_) _
            obtain ⟨c, hc, hx⟩ := x
            rcases List.mem_append.1 hc with hc | hc
            · exact ⟨c, hc, hx⟩
            · rw [List.mem_singleton.1 hc] at hx
              rcases hx with hx | hx
              · exact absurd hx hd
              · exact absurd hx ha
          · trivial
    | closing again =>
      rw [turn]
      dsimp only
      split
      · trivial
      · cases again
        · exact fun _ => close_shut b
        · exact fun _ => close_shut b
    | ended => exact ih
    | died => trivial

end Verif.TcpEcho
