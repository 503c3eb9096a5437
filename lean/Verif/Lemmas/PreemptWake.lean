import Verif.Lemmas.Preempt
/-! With thread switches, no data is in the receive buffer without someone awake to take it. -/
namespace Verif.Sess
open Verif Prog

/-- A call of `receive` is under way that will look at the buffer or has left the semaphore to release, or the next call need not wait. -/
def Awake (c : Conc) : Prop := 0 < c.s.evRx ∨ 0 < c.s.readers ∨ 0 < c.takers ∨ true ∈ c.taken

def Wakes (c : Conc) : Prop := c.s.rx ≠ [] → Awake c

/-- The program leaves no data without a release.  `b`: there is such data now. -/
def Prompt : Bool → Prog → Prop
  | b, .done _ => b = false
  | b, .step f k => ∀ s, ∃ b', Prompt b' (k s) ∧ s.evRx ≤ (f s).evRx ∧ (f s).readers = s.readers ∧
      (b' = false → 0 < (f s).evRx ∨ b = false ∧ (f s).rx = s.rx)

theorem Prompt.andThen {b : Bool} {p q : Prog} (hp : Prompt b p) (hq : Prompt false q) : Prompt b (p ;; q) := by
  induction p generalizing b with
  | done e =>
    cases e with
    | none => rw [show b = false from hp]; exact hq
    | some e => exact hp
  | step f k ih =>
    intro s
    obtain ⟨b', h1, h2⟩ := hp s
    exact ⟨b', ih s h1, h2⟩

/-- What concerns `receive` is left alone. -/
def Off (a b : Sess) : Prop := b.evRx = a.evRx ∧ b.readers = a.readers ∧ b.rx = a.rx

theorem Off.refl (a : Sess) : Off a a := ⟨rfl, rfl, rfl⟩
theorem Off.trans {a b c : Sess} (h : Off a b) (h' : Off b c) : Off a c := ⟨h'.1.trans h.1, h'.2.1.trans h.2.1, h'.2.2.trans h.2.2⟩

theorem prompt_skip : Prompt false skip := rfl

theorem prompt_step {f : Sess → Sess} {k : Sess → Prog} (h : ∀ s, Off s (f s)) (hk : ∀ s, Prompt false (k s)) : Prompt false (.step f k) :=
  fun s => ⟨false, hk s, Nat.le_of_eq (h s).1.symm, (h s).2.1, fun _ => .inr ⟨rfl, (h s).2.2⟩⟩

theorem prompt_act {f : Sess → Sess} (h : ∀ s, Off s (f s)) : Prompt false (act f) := prompt_step h fun _ => rfl
theorem prompt_look {k : Sess → Prog} (h : ∀ s, Prompt false (k s)) : Prompt false (look k) := prompt_step Off.refl h
theorem prompt_call {g : Sess → Res} (h : ∀ s, Off s (g s).s) : Prompt false (call g) := prompt_step h fun _ => rfl

theorem prompt_ite {P : Prop} [Decidable P] {a b : Prog} (ha : Prompt false a) (hb : Prompt false b) : Prompt false (if P then a else b) := by
  split
  · exact ha
  · exact hb

theorem prompt_releaseRx (b : Bool) : Prompt b releaseRx := fun s => ⟨false, rfl, Nat.le_succ _, rfl, fun _ => .inl (Nat.succ_pos _)⟩

theorem off_transmitPacket (s : Sess) (seq : Option Nat) (syn ack fin rst : Bool) (data : Bytes) :
    Off s (s.transmitPacket seq syn ack fin rst data).s := by
  rcases transmit_cases s seq syn ack fin rst data with x | x
  · rw [x.1]; exact ⟨sentAs_evRx .., sentAs_readers .., sentAs_rx ..⟩
  · rw [x]; exact .refl s

theorem off_changeState (s : Sess) (st : FsmState) : Off s (s.changeState st).s := by
  unfold changeState
  dsimp only
  split
  · split <;> exact ⟨rfl, rfl, rfl⟩
  · exact ⟨rfl, rfl, rfl⟩

theorem off_next {a : Sess} {r : Res} {k : Sess → Res} (h : Off a r.s) (hk : ∀ s, Off s (k s).s) : Off a (r.next k).s := by
  unfold Res.next
  split
  · exact h.trans (hk _)
  · exact h

theorem off_delayedAck (s : Sess) : Off s s.delayedAck.s := by
  unfold delayedAck
  split
  · refine off_next ?_ fun _ => ⟨rfl, rfl, rfl⟩
    split
    · exact off_transmitPacket _ _ _ _ _ _ _
    · exact .refl _
  · exact .refl _

theorem off_outOfOrder (s : Sess) (m : TcpMd) : Off s (s.outOfOrder m).s := by
  unfold outOfOrder
  dsimp only
  split
  · exact Off.trans ⟨rfl, rfl, rfl⟩ (off_transmitPacket _ _ _ _ _ _ _)
  · exact ⟨rfl, rfl, rfl⟩

theorem off_retransmitRequest (s : Sess) (m : TcpMd) : Off s (s.retransmitRequest m) := by
  unfold retransmitRequest
  dsimp only
  split <;> exact ⟨rfl, rfl, rfl⟩

theorem off_fsmListen (i : Input) (s : Sess) : Off s (s.fsmListen i).s := by
  cases i with
  | packet m =>
    show Off s (if _ then _ else _ : Res).s
    split
    · exact Off.trans ⟨rfl, rfl, rfl⟩ (off_changeState _ _)
    · exact .refl _
  | timer => exact .refl _
  | sys c => cases c <;> first | exact off_changeState _ _ | exact .refl _

theorem off_fsmClosing (i : Input) (s : Sess) : Off s (s.fsmClosing i).s := by
  cases i with
  | packet m =>
    show Off s (if _ then _ else if _ then if _ then _ else _ else _ : Res).s
    split
    · exact off_next (Off.trans ⟨rfl, rfl, rfl⟩ (off_changeState _ _)) fun _ => ⟨rfl, rfl, rfl⟩
    · split
      · split
        · exact off_changeState _ _
        · exact .refl _
      · exact .refl _
  | timer => exact .refl _
  | sys c => exact .refl _

theorem off_fsmTimeWait (i : Input) (s : Sess) : Off s (s.fsmTimeWait i).s := by
  cases i with
  | timer =>
    show Off s (if _ then _ else _ : Res).s
    split
    · exact off_changeState _ _
    · exact .refl _
  | packet => exact .refl _
  | sys c => exact .refl _

theorem prompt_enqueue (d : Bytes) : Prompt false (enqueueRxP d) := by
  show Prompt false (.step _ _)
  intro s
  refine ⟨true, ?_, Nat.le_refl _, rfl, (nomatch ·)⟩
  show Prompt true (.step _ _)
  intro s
  dsimp only
  by_cases h : s.evRx = 0
  · rw [if_pos h]
    exact ⟨true, prompt_releaseRx true, Nat.le_refl _, rfl, (nomatch ·)⟩
  · rw [if_neg h]
    exact ⟨false, prompt_act fun s => .refl s, Nat.le_refl _, rfl, fun _ => .inl (Nat.pos_of_ne_zero h)⟩

theorem prompt_transmitPacket (seq : Option Nat) (syn ack fin rst : Bool) (data : Bytes) : Prompt false (transmitPacketP seq syn ack fin rst data) :=
  prompt_call fun s => off_transmitPacket s _ _ _ _ _ _

theorem prompt_changeState (st : FsmState) : Prompt false (changeStateP st) := prompt_call fun s => off_changeState s st

theorem prompt_releaseConnect : Prompt false releaseConnect := prompt_act fun _ => ⟨rfl, rfl, rfl⟩

theorem prompt_transmitData : Prompt false transmitDataP := by
  refine prompt_look fun s => ?_
  refine prompt_ite rfl (prompt_ite (prompt_transmitPacket _ _ _ _ _ _) (prompt_ite (prompt_transmitPacket _ _ _ _ _ _)
    (prompt_ite (prompt_ite (prompt_look fun s => prompt_transmitPacket _ _ _ _ _ _) prompt_skip) (prompt_ite (prompt_transmitPacket _ _ _ _ _ _) prompt_skip))))

theorem prompt_retransmitTimeout : Prompt false retransmitTimeoutP := by
  refine prompt_look fun s => ?_
  split
  · exact prompt_skip
  · refine prompt_ite (prompt_ite ?_ (prompt_act fun _ => ⟨rfl, rfl, rfl⟩)) prompt_skip
    refine (prompt_transmitPacket _ _ _ _ _ _).andThen (Prompt.andThen (prompt_ite ?_ prompt_skip) (Prompt.andThen (prompt_ite ?_ prompt_skip) (prompt_changeState _)))
    · exact (prompt_act fun _ => ⟨rfl, rfl, rfl⟩).andThen (prompt_releaseRx false)
    · exact (prompt_act fun _ => ⟨rfl, rfl, rfl⟩).andThen prompt_releaseConnect

theorem prompt_processAck {fsm : TcpMd → Prog} (h : ∀ m, Prompt false (fsm m)) (m : TcpMd) : Prompt false (processAckP fsm m) := by
  refine Prompt.andThen ?_ ?_
  · exact (prompt_act fun _ => ⟨rfl, rfl, rfl⟩).andThen ((prompt_ite (prompt_enqueue _) prompt_skip).andThen
      ((prompt_act fun _ => ⟨rfl, rfl, rfl⟩).andThen (prompt_act fun _ => ⟨rfl, rfl, rfl⟩)))
  · refine prompt_step (fun s => ?_) fun s => ?_
    · split <;> exact ⟨rfl, rfl, rfl⟩
    · split
      · exact prompt_skip
      · exact h _

theorem prompt_fsm (n : Nat) (i : Input) : Prompt false (fsmP n i) := by
  induction n generalizing i with
  | zero => exact rfl
  | succ n ih =>
    have pa : ∀ m, Prompt false (processAckP (fun m => fsmP n (.packet m)) m) := prompt_processAck fun m => ih (.packet m)
    have tp := prompt_transmitPacket
    have cs := prompt_changeState
    have sk := prompt_skip
    have da : Prompt false delayedAckP := prompt_call off_delayedAck
    refine prompt_look fun s => ?_
    cases s.state with
    | closed => cases i with
      | sys c => cases c <;> first | exact cs _ | exact sk
      | packet => exact sk
      | timer => exact sk
    | listen => exact prompt_call (off_fsmListen i)
    | synSent => cases i with
      | timer => exact prompt_retransmitTimeout.andThen prompt_transmitData
      | sys c => cases c <;> first | exact cs _ | exact sk
      | packet m =>
        refine prompt_ite ?_ (prompt_ite ?_ (prompt_ite (prompt_ite ?_ sk) sk))
        · exact Prompt.andThen (prompt_act fun _ => ⟨rfl, rfl, rfl⟩) ((pa m).andThen ((tp _ _ _ _ _ _).andThen ((cs _).andThen prompt_releaseConnect)))
        · exact (tp _ _ _ _ _ _).andThen (cs _)
        · exact (cs _).andThen (Prompt.andThen (prompt_act fun _ => ⟨rfl, rfl, rfl⟩) prompt_releaseConnect)
    | synRcvd => cases i with
      | timer => exact prompt_retransmitTimeout.andThen prompt_transmitData
      | sys c => cases c <;> first | exact cs _ | exact sk
      | packet m =>
        refine prompt_ite ?_ (prompt_ite (prompt_ite (cs _) sk) (prompt_ite (prompt_ite (cs _) sk) sk))
        exact (pa m).andThen ((cs _).andThen (Prompt.andThen (prompt_act fun _ => ⟨rfl, rfl, rfl⟩) prompt_releaseConnect))
    | established => cases i with
      | timer =>
        refine prompt_retransmitTimeout.andThen (prompt_transmitData.andThen (da.andThen ?_))
        exact prompt_look fun s => prompt_ite (cs _) sk
      | sys c => cases c <;> first | exact prompt_act fun _ => ⟨rfl, rfl, rfl⟩ | exact sk
      | packet m =>
        refine prompt_ite sk (prompt_ite (prompt_ite ?_ (prompt_ite (prompt_call fun s => off_outOfOrder s m) (prompt_ite (pa m) sk)))
          (prompt_ite (prompt_ite ?_ sk) (prompt_ite (prompt_ite ?_ sk) sk)))
        · exact prompt_act fun s => off_retransmitRequest s m
        · exact (pa m).andThen ((prompt_ite (tp _ _ _ _ _ _) sk).andThen ((prompt_releaseRx false).andThen (cs _)))
        · exact (prompt_releaseRx false).andThen (cs _)
    | finWait1 => cases i with
      | timer => exact prompt_retransmitTimeout.andThen prompt_transmitData
      | sys c => cases c <;> exact sk
      | packet m =>
        refine prompt_ite (prompt_ite ?_ sk) (prompt_ite (prompt_ite ?_ sk) (prompt_ite (prompt_ite (cs _) sk) sk))
        · exact (pa m).andThen ((prompt_ite (tp _ _ _ _ _ _) sk).andThen (prompt_look fun s => prompt_ite (cs _) sk))
        · refine (pa m).andThen ((tp _ _ _ _ _ _).andThen (prompt_look fun s => prompt_ite ?_ (cs _)))
          exact (cs _).andThen (prompt_act fun _ => ⟨rfl, rfl, rfl⟩)
    | finWait2 => cases i with
      | timer => exact sk
      | sys c => cases c <;> exact sk
      | packet m =>
        refine prompt_ite ?_ (prompt_ite ?_ (prompt_ite (prompt_ite (cs _) sk) sk))
        · exact (pa m).andThen (prompt_ite (tp _ _ _ _ _ _) sk)
        · exact (pa m).andThen ((tp _ _ _ _ _ _).andThen ((cs _).andThen (prompt_act fun _ => ⟨rfl, rfl, rfl⟩)))
    | closing => exact prompt_call (off_fsmClosing i)
    | closeWait => cases i with
      | timer =>
        refine prompt_retransmitTimeout.andThen (prompt_transmitData.andThen (da.andThen ?_))
        exact prompt_look fun s => prompt_ite (cs _) sk
      | sys c => cases c <;> first | exact prompt_act fun _ => ⟨rfl, rfl, rfl⟩ | exact sk
      | packet m =>
        refine prompt_ite (prompt_ite ?_ (prompt_ite (prompt_call fun s => off_outOfOrder s m) (prompt_ite (pa m) sk)))
          (prompt_ite (prompt_ite (cs _) sk) sk)
        exact prompt_act fun s => off_retransmitRequest s m
    | lastAck => cases i with
      | timer => exact prompt_retransmitTimeout.andThen prompt_transmitData
      | sys c => cases c <;> exact sk
      | packet m =>
        exact prompt_ite (prompt_ite (cs _) sk) (prompt_ite (prompt_ite (cs _) sk) sk)
    | timeWait => exact prompt_call (off_fsmTimeWait i)

theorem wakes_app {c : Conc} (h : Wakes c) (a : App) : Wakes (c.app a) := by
  intro hr
  unfold Wakes Awake at h
  unfold Awake
  cases a with
  | sendTest d =>
    dsimp only [Conc.app] at hr ⊢
    by_cases hc : c.s.state = .established ∨ c.s.state = .closeWait
    · rw [if_pos hc] at hr ⊢; exact h hr
    · rw [if_neg hc] at hr ⊢; exact h hr
  | sendPut k =>
    dsimp only [Conc.app] at hr ⊢
    split at hr <;> exact h hr
  | recvAcquire =>
    dsimp only [Conc.app, recvAcquire] at hr ⊢
    by_cases hc : c.s.evRx = 0
    · rw [if_pos hc] at hr ⊢; exact h hr
    · rw [if_neg hc] at hr ⊢; exact .inr (.inl (Nat.succ_pos _))
  | recvLook =>
    dsimp only [Conc.app] at hr ⊢
    by_cases hc : c.s.readers = 0
    · rw [if_pos hc] at hr ⊢; exact h hr
    · rw [if_neg hc] at hr ⊢
      by_cases hx : c.s.rx = []
      · rw [if_pos hx] at hr; exact absurd hx hr
      · rw [if_neg hx]; exact .inr (.inr (.inl (Nat.succ_pos _)))
  | recvState =>
    dsimp only [Conc.app] at hr ⊢
    by_cases hc : c.empty = 0
    · rw [if_pos hc] at hr ⊢; exact h hr
    · rw [if_neg hc] at hr ⊢
      by_cases hx : c.s.state = .closeWait ∨ c.s.state = .closed
      · rw [if_pos hx] at hr ⊢; exact h hr
      · rw [if_neg hx]; exact .inr (.inr (.inl (Nat.succ_pos _)))
  | recvTake n =>
    dsimp only [Conc.app] at hr ⊢
    by_cases hc : c.takers = 0
    · rw [if_pos hc] at hr ⊢; exact h hr
    · rw [if_neg hc] at hr ⊢
      refine .inr (.inr (.inr ?_))
      exact List.mem_append.2 (.inr (List.mem_singleton.2 (decide_eq_true hr).symm))
  | recvRelease k =>
    dsimp only [Conc.app] at hr ⊢
    cases hk : c.taken[k]? with
    | none => rw [hk] at hr; exact h hr
    | some b =>
      rw [hk] at hr
      dsimp only at hr ⊢
      by_cases hx : b = true ∨ c.s.state = .closeWait ∨ c.s.state = .closed
      · rw [if_pos hx]; exact .inl (Nat.succ_pos _)
      · rw [if_neg hx] at hr ⊢
        rcases h hr with x | x | x | x
        · exact .inl x
        · exact .inr (.inl x)
        · exact .inr (.inr (.inl x))
        · refine .inr (.inr (.inr ?_))
          obtain ⟨j, hj, hjt⟩ := List.mem_iff_getElem.1 x
          have hne : j ≠ k := by
            rintro rfl
            rw [List.getElem?_eq_getElem hj, hjt] at hk
            cases hk
            exact hx (.inl rfl)
          exact List.mem_eraseIdx_iff_getElem.2 ⟨j, hj, hne, hjt⟩
  | connAcquire =>
    dsimp only [Conc.app] at hr ⊢
    split at hr <;> split <;> first | exact h hr | contradiction
  | connState =>
    dsimp only [Conc.app] at hr ⊢
    split at hr <;> [skip; split at hr] <;> (repeat' split) <;> first | exact h hr | contradiction
  | connRefused =>
    dsimp only [Conc.app] at hr ⊢
    split at hr <;> [skip; split at hr] <;> (repeat' split) <;> first | exact h hr | contradiction
  | connState' =>
    dsimp only [Conc.app] at hr ⊢
    split at hr <;> [skip; split at hr] <;> (repeat' split) <;> first | exact h hr | contradiction
  | connTimeout =>
    dsimp only [Conc.app] at hr ⊢
    split at hr <;> [skip; split at hr] <;> (repeat' split) <;> first | exact h hr | contradiction

theorem wakes_apps (l : List App) {c : Conc} (h : Wakes c) : Wakes (c.apps l) := by
  induction l generalizing c with
  | nil => exact h
  | cons a l ih => exact ih (wakes_app h a)

theorem wakes_weave (p : Prog) {b : Bool} (hp : Prompt b p) {l : List (List App)} {c : Conc} (h : b = false → Wakes c) :
    Wakes (Conc.weave p l c).1 := by
  induction p generalizing b l c with
  | done e => exact h hp
  | step f k ih =>
    obtain ⟨b', h1, h2, h3, h4⟩ := hp (c.apps (l.headD [])).s
    refine ih _ h1 fun hb => ?_
    intro hr
    rcases h4 hb with x | ⟨x, y⟩
    · exact .inl x
    · have hw := wakes_apps (l.headD []) (h x)
      rcases hw (y ▸ hr) with z | z | z
      · exact .inl (Nat.lt_of_lt_of_le z h2)
      · exact .inr (.inl (show 0 < (f _).readers from h3 ▸ z))
      · exact .inr (.inr z)

theorem wakes_fsm {c : Conc} (h : Wakes c) (i : Input) (l : List (List App)) : Wakes (c.fsm i l) := by
  have hw := wakes_weave _ (prompt_fsm (c.s.ooo.length + 1) i) (l := l) (c := c) fun _ => h
  unfold Conc.fsm
  generalize Conc.weave (fsmP (c.s.ooo.length + 1) i) l c = r at hw
  obtain ⟨c', l', e⟩ := r
  cases e with
  | none => exact wakes_apps _ hw
  | some e => exact wakes_apps _ (c := { c' with s := c'.s.emit (.raised e) }) hw

theorem wakes_run {c : Conc} (h : Wakes c) (x : List (Work × List (List App))) : Wakes (c.run x) := by
  induction x generalizing c with
  | nil => exact h
  | cons x xs ih =>
    refine ih ?_
    obtain ⟨w, l⟩ := x
    cases w with
    | segment m => exact wakes_fsm h _ _
    | close => exact wakes_fsm h _ _
    | timer => exact wakes_fsm h _ _
    | clock => exact wakes_apps _ (c := { c with s := c.s.clock }) h
    | table b => exact wakes_apps _ (c := { c with s := { c.s with registered := b } }) h

end Verif.Sess
