import Verif.Lemmas.SessionFlow
/-! The acknowledgements sessions send. -/
namespace Verif.Sess

/-- The peer's SYN has been taken. -/
def Synced (st : FsmState) : Prop := st ≠ .closed ∧ st ≠ .listen ∧ st ≠ .synSent

/-- The timers after a transmission, but for the retransmission timer. -/
def ackTimers (s : Sess) : Dict TimerName Int := if s.state = .established then s.timers.set .delayedAck 100 else s.timers

theorem sentAs_timers (s : Sess) (seq : Nat) (syn ack fin rst : Bool) (data : Bytes) :
    (s.sentAs seq syn ack fin rst data).timers =
      if data ≠ [] ∨ syn ∨ fin then
        s.ackTimers.set (.retransmit seq) (1000 * 2 ^ (match s.txTmo.get? seq with | none => 0 | some c => c + 1))
      else s.ackTimers := by
  unfold sentAs ackTimers emit setTimer
  dsimp only
  split <;> split <;> rfl

theorem mem_timers_sentAs {s : Sess} {seq : Nat} {syn ack fin rst : Bool} {data : Bytes} {e : TimerName × Int}
    (h : e ∈ (s.sentAs seq syn ack fin rst data).timers) : e ∈ s.timers ∨ e = (.delayedAck, 100) ∨ ∃ c, e = (.retransmit seq, 1000 * 2 ^ c) := by
  rw [sentAs_timers] at h
  have key : e ∈ s.ackTimers → e ∈ s.timers ∨ e = (.delayedAck, 100) := by
    intro h
    unfold ackTimers at h
    split at h
    · rcases mem_set_cases h with x | x
      · exact .inr x
      · exact .inl x
    · exact .inl h
  split at h
  · rcases mem_set_cases h with x | x
    · exact .inr (.inr ⟨_, x⟩)
    · rcases key x with y | y
      · exact .inl y
      · exact .inr (.inl y)
  · rcases key h with y | y
    · exact .inl y
    · exact .inr (.inl y)

/-- What has been acknowledged. -/
structure AckInv (s : Sess) : Prop where
  seen : Synced s.state → s.rcvUna = 0 ∨ ∃ g : Seg, .sent g ∈ s.out ∧ g.ack = true ∧ g.ackn = s.rcvUna
  le : Synced s.state → s.rcvUna ≤ s.rcvNxt ∧ 1 ≤ s.rcvNxt
  listen : s.state = .listen → s.rcvUna = 0
  timer : ∀ e ∈ s.timers, e.1 = .delayedAck → 1 ≤ e.2 ∧ e.2 ≤ 100

theorem AckInv.same {a b : Sess} (h : AckInv a) (h1 : b.rcvUna = a.rcvUna) (h2 : b.rcvNxt = a.rcvNxt) (h3 : Synced b.state → Synced a.state)
    (h4 : b.state = .listen → a.state = .listen) (h5 : b.timers = a.timers) (h6 : ∀ g : Seg, .sent g ∈ a.out → .sent g ∈ b.out) : AckInv b := by
  refine ⟨fun x => ?_, fun x => by rw [h1, h2]; exact h.le (h3 x), fun x => by rw [h1]; exact h.listen (h4 x), by rw [h5]; exact h.timer⟩
  rw [h1]
  rcases h.seen (h3 x) with y | ⟨g, y, z⟩
  · exact .inl y
  · exact .inr ⟨g, h6 g y, z⟩

theorem AckInv.ackOut {a : Sess} {seq : Nat} {syn fin rst : Bool} {data : Bytes} (h : AckInv a) (hl : a.state ≠ .listen) :
    AckInv (a.sentAs seq syn true fin rst data) := by
  refine ⟨fun _ => .inr ⟨⟨syn, true, fin, rst, seq, a.rcvNxt, data⟩, by simp, rfl, by simp⟩, fun x => ?_, fun x => ?_, fun e he hk => ?_⟩
  · simp only [sentAs_rcvUna, sentAs_rcvNxt]
    exact ⟨Nat.le_refl _, (h.le (by simpa using x)).2⟩
  · exact absurd (by simpa using x) hl
  · rcases mem_timers_sentAs he with x | x | ⟨c, x⟩
    · exact h.timer e x hk
    · rw [x]; decide
    · rw [x] at hk; cases hk

theorem AckInv.ackIn {a : Sess} {m : TcpMd} (h : AckInv a) (hm : m.seq = a.rcvNxt) : AckInv (a.ackUpdate m) := by
  refine ⟨fun x => ?_, fun x => ?_, fun x => ?_, ?_⟩
  · simpa using h.seen (by simpa using x)
  · have := h.le (by simpa using x)
    simp only [ackUpdate_rcvUna, ackUpdate_rcvNxt]; omega
  · simpa using h.listen (by simpa using x)
  · rw [ackUpdate_eq]; exact h.timer

theorem ack_micro {Q : TcpMd → Prop} {G : Prop} {a b : Sess} (h : AckInv a) (hm : Micro Q G a b) : AckInv b := by
  have notSyn : ∀ (b : Sess) {st : FsmState}, Synced st → (∀ g : Seg, .sent g ∈ a.out → .sent g ∈ b.out) → b.state = st → Synced a.state →
      b.rcvUna = a.rcvUna → b.rcvNxt = a.rcvNxt → (∀ e ∈ b.timers, e ∈ a.timers ∨ e.1 = .timeWait) → AckInv b := by
    intro b st hst hout hb hs h1 h2 h3
    refine ⟨fun _ => ?_, fun _ => by rw [h1, h2]; exact h.le hs, fun x => ?_, fun e he hk => ?_⟩
    · rw [h1]
      rcases h.seen hs with y | ⟨g, y, z⟩
      · exact .inl y
      · exact .inr ⟨g, hout g y, z⟩
    · rw [hb] at x; exact absurd x hst.2.1
    · rcases h3 e he with y | y
      · exact h.timer e y hk
      · rw [y] at hk; cases hk
  cases hm with
  | reset => exact h.same rfl rfl (fun x => x) (fun x => x) rfl (fun _ x => x)
  | abort hst =>
    have h1 := h.ackOut (seq := a.sndUna) (syn := false) (fin := false) (rst := true) (data := []) (by rcases hst with x | x | x | x | x | x <;> simp [x])
    refine ⟨fun x => ?_, fun x => ?_, fun x => ?_, fun e he hk => ?_⟩
    · rw [abortAs_eq] at x; simp [Synced] at x
    · rw [abortAs_eq] at x; simp [Synced] at x
    · rw [abortAs_eq] at x; simp at x
    · refine h1.timer e ?_ hk
      rw [abortAs, moveAs_timers, failAs_eq] at he
      exact he
  | @abortMove st t hst hc hcl htx ht =>
    refine ⟨fun _ => .inr ⟨⟨false, true, false, true, a.sndUna, a.rcvNxt, []⟩, ?_, rfl, ?_⟩, fun x => ?_, fun x => ?_, fun e he hk => ?_⟩
    · simp only [moveAs_out]
      rw [abortAs_eq]
      simp
    · simp
    · simp
      exact (h.le (by rcases hst with ⟨y, _⟩ | ⟨y, _⟩ <;> simp [Synced, y])).2
    · rcases hst with ⟨_, y⟩ | ⟨_, y⟩ <;> simp [y] at x
    · have h1 := h.ackOut (seq := a.sndUna) (syn := false) (fin := false) (rst := true) (data := [])
        (by rcases hst with ⟨x, _⟩ | ⟨x, _⟩ <;> simp [x])
      have old : e ∈ a.abortAs.timers → 1 ≤ e.2 ∧ e.2 ≤ 100 := by
        intro y
        refine h1.timer e ?_ hk
        rw [abortAs, moveAs_timers, failAs_eq] at y
        exact y
      have he : e ∈ t := by simpa using he
      rcases ht with y | y <;> rw [y] at he
      · exact old he
      · rcases mem_set_cases he with z | z
        · rw [z]; decide
        · exact old z
  | synOut hst =>
    refine ⟨fun x => by simp [Synced, hst] at x, fun x => by simp [Synced, hst] at x, fun x => by simp [hst] at x, fun e he hk => ?_⟩
    rcases mem_timers_sentAs he with x | x | ⟨c, x⟩
    · exact h.timer e x hk
    · rw [x]; decide
    · rw [x] at hk; cases hk
  | synAckOut hst => exact h.ackOut (by simp [hst])
  | dataOut hst => exact h.ackOut (by rcases hst with x | x <;> simp [x])
  | finOut hst => exact h.ackOut (by rcases hst with x | x <;> simp [x])
  | ackOut hst => exact h.ackOut (by rcases hst with x | x | x | x | x <;> simp [x])
  | timerSet hst ha hv =>
    refine ⟨h.seen, h.le, h.listen, fun e he hk => ?_⟩
    rcases mem_set_cases he with x | x
    · rw [x, hv.2]; show (1 : Int) ≤ 100 ∧ (100 : Int) ≤ 100; decide
    · exact h.timer e x hk
  | finClose hst => exact notSyn _ (st := .finWait1) (by simp [Synced]) (by simp +contextual) (by simp) (by simp [Synced, hst]) (by simp) (by simp) (by simp +contextual)
  | lastClose hst => exact notSyn _ (st := .lastAck) (by simp [Synced]) (by simp +contextual) (by simp) (by simp [Synced, hst]) (by simp) (by simp) (by simp +contextual)
  | dup => rw [retransmitRequest_eq]; exact h.same rfl rfl (fun x => x) (fun x => x) rfl (fun _ x => x)
  | store => exact h.same rfl rfl (fun x => x) (fun x => x) rfl (fun _ x => x)
  | pop => exact h.same rfl rfl (fun x => x) (fun x => x) rfl (fun _ x => x)
  | @synIn m hq hst =>
    have := h.listen hst
    refine ⟨fun _ => .inl (by simpa [synAs, paramsAs] using this), fun _ => ?_, fun x => by simp at x, ?_⟩
    · simp [synAs, paramsAs, this]
    · simpa [synAs, paramsAs] using h.timer
  | @synAckIn m hq hst =>
    refine ⟨fun x => by simp [Synced, hst] at x, fun x => by simp [Synced, hst] at x, fun x => by simp [hst] at x, ?_⟩
    rw [ackUpdate_eq]; exact h.timer
  | @establish m hq hst hf hr ha hx hu hp hg =>
    refine ⟨fun _ => .inr ?_, fun _ => ?_, fun x => by simp at x, by simpa using h.timer⟩
    · obtain ⟨g, h1, h2, h3⟩ := hg
      exact ⟨g, by simp [h1], h2, by simp [h3, hu]⟩
    · simp [hu, hr]
  | ackIn hq hst hf hm => exact h.ackIn hm.1
  | establish' hq hst =>
    exact notSyn _ (st := .established) (by simp [Synced]) (by simp +contextual [emit]) (by simp [emit]) (by simp [Synced, hst]) (by simp [emit])
      (by simp [emit]) (by simp +contextual [emit])
  | refused => exact ⟨fun x => by simp [Synced] at x, fun x => by simp [Synced] at x, fun x => by simp at x, by simpa using h.timer⟩
  | closes => exact h.same rfl rfl (fun x => x) (fun x => x) rfl (fun _ x => x)
  | finEarly hst =>
    exact notSyn _ (st := .finWait1) (by simp [Synced]) (by simp +contextual) (by simp) (by simp [Synced, hst]) (by simp) (by simp) (by simp +contextual)
  | dataIn hq hst hf hm => exact h.ackIn hm.1
  | finIn hq hst hf hm => exact h.ackIn hm.1
  | toCloseWait hq hst =>
    exact notSyn _ (st := .closeWait) (by simp [Synced]) (by simp +contextual) (by simp) (by simp [Synced, hst]) (by simp) (by simp) (by simp +contextual)
  | toFinWait2 hq hst =>
    exact notSyn _ (st := .finWait2) (by simp [Synced]) (by simp +contextual) (by simp) (by rcases hst with x | x <;> simp [Synced, x]) (by simp) (by simp)
      (by simp +contextual)
  | toTimeWait hq hst =>
    refine notSyn _ (st := .timeWait) (by simp [Synced]) (by simp +contextual [setTimer]) (by simp [setTimer])
      (by rcases hst with x | x <;> simp [Synced, x]) (by simp [setTimer]) (by simp [setTimer]) (fun e he => ?_)
    rcases mem_set_cases he with x | x
    · right; rw [x]
    · left; simpa using x
  | toClosing hq hst =>
    exact notSyn _ (st := .closing) (by simp [Synced]) (by simp +contextual) (by simp) (by rcases hst with x | ⟨x, _⟩ <;> simp [Synced, x]) (by simp)
      (by simp) (by simp +contextual)
  | closingAck hq hst =>
    refine notSyn _ (st := .timeWait) (by simp [Synced]) (by simp +contextual [setTimer]) (by simp [setTimer])
      (by simp [Synced, hst]) (by simp [setTimer]) (by simp [setTimer]) (fun e he => ?_)
    rcases mem_set_cases he with x | x
    · right; rw [x]
    · left; simpa using x
  | shut => exact ⟨fun x => by simp [Synced] at x, fun x => by simp [Synced] at x, fun x => by simp at x, by simpa using h.timer⟩

/-- Everything below `R` is acknowledged, or will be within `k` ticks. -/
structure Due (R : Nat) (k : Int) (s : Sess) : Prop where
  state : s.state ≠ .listen ∧ s.state ≠ .synSent
  nxt : R ≤ s.rcvNxt
  una : R ≤ s.rcvUna ∨ ∀ e ∈ s.timers, e.1 = .delayedAck → e.2 ≤ k

variable {R : Nat} {k : Int}

theorem Due.same {a b : Sess} (h : Due R k a) (h1 : b.rcvUna = a.rcvUna) (h2 : b.rcvNxt = a.rcvNxt)
    (h3 : b.state ≠ .listen ∧ b.state ≠ .synSent) (h4 : ∀ e ∈ b.timers, e ∈ a.timers ∨ e.1 = .timeWait) : Due R k b := by
  refine ⟨h3, h2 ▸ h.nxt, ?_⟩
  rw [h1]
  rcases h.una with x | x
  · exact .inl x
  · refine .inr fun e he hk => ?_
    rcases h4 e he with y | y
    · exact x e y hk
    · rw [y] at hk; cases hk

theorem Due.sent {a b : Sess} (h : Due R k a) (h1 : b.rcvUna = a.rcvNxt) (h2 : b.rcvNxt = a.rcvNxt)
    (h3 : b.state ≠ .listen ∧ b.state ≠ .synSent) : Due R k b :=
  ⟨h3, h2 ▸ h.nxt, .inl (h1 ▸ h.nxt)⟩

theorem Due.ackIn {a : Sess} {m : TcpMd} (h : Due R k a) (hm : m.seq = a.rcvNxt) : Due R k (a.ackUpdate m) := by
  have := h.nxt
  refine ⟨by simpa using h.state, by rw [ackUpdate_rcvNxt]; omega, ?_⟩
  rw [ackUpdate_eq]
  exact h.una

theorem due_micro {Q : TcpMd → Prop} {G : Prop} {a b : Sess} (h : Due R k a) (hm : Micro Q G a b) : Due R k b := by
  have hs := h.state
  cases hm with
  | reset => exact h.same rfl rfl hs (fun _ x => .inl x)
  | abort => exact h.sent (by simp) (by simp) (by simp)
  | abortMove hst => exact h.sent (by simp) (by simp) (by rcases hst with ⟨_, x⟩ | ⟨_, x⟩ <;> simp [x])
  | synOut => exact h.sent (by simp) (by simp) (by simpa using hs)
  | synAckOut => exact h.sent (by simp) (by simp) (by simpa using hs)
  | dataOut => exact h.sent (by simp) (by simp) (by simpa using hs)
  | finOut => exact h.sent (by simp) (by simp) (by simpa using hs)
  | ackOut => exact h.sent (by simp) (by simp) (by simpa using hs)
  | timerSet hst ha => exact ⟨hs, h.nxt, .inl (Nat.le_trans h.nxt ha)⟩
  | finClose => exact h.same (by simp) (by simp) (by simp) (by simp +contextual)
  | lastClose => exact h.same (by simp) (by simp) (by simp) (by simp +contextual)
  | dup => rw [retransmitRequest_eq]; exact h.same rfl rfl hs (fun _ x => .inl x)
  | store => exact h.same rfl rfl hs (fun _ x => .inl x)
  | pop => exact h.same rfl rfl hs (fun _ x => .inl x)
  | synIn hq hst => exact absurd hst hs.1
  | synAckIn hq hst => exact absurd hst hs.2
  | establish hq hst => exact absurd hst hs.2
  | ackIn hq hst hf hm => exact h.ackIn hm.1
  | establish' => exact h.same (by simp [emit]) (by simp [emit]) (by simp [emit]) (by simp +contextual [emit])
  | refused hq hst => exact absurd hst hs.2
  | closes => exact h.same rfl rfl hs (fun _ x => .inl x)
  | finEarly => exact h.same (by simp) (by simp) (by simp) (by simp +contextual)
  | dataIn hq hst hf hm => exact h.ackIn hm.1
  | finIn hq hst hf hm => exact h.ackIn hm.1
  | toCloseWait => exact h.same (by simp) (by simp) (by simp) (by simp +contextual)
  | toFinWait2 => exact h.same (by simp) (by simp) (by simp) (by simp +contextual)
  | toTimeWait =>
    refine h.same (by simp [setTimer]) (by simp [setTimer]) (by simp [setTimer]) (fun e he => ?_)
    rcases mem_set_cases he with x | x
    · right; rw [x]
    · left; simpa using x
  | toClosing => exact h.same (by simp) (by simp) (by simp) (by simp +contextual)
  | closingAck =>
    refine h.same (by simp [setTimer]) (by simp [setTimer]) (by simp [setTimer]) (fun e he => ?_)
    rcases mem_set_cases he with x | x
    · right; rw [x]
    · left; simpa using x
  | shut => exact h.same (by simp) (by simp) (by simp) (by simp +contextual)

/-- What the events beside `tcp_fsm` and the clock leave alone. -/
theorem connectReturn_timers (s : Sess) : s.connectReturn.timers = s.timers := by
  unfold connectReturn
  split
  · rfl
  · dsimp only
    split
    · rfl
    · split <;> rfl

theorem send_timers (s : Sess) (d : Bytes) : (s.send d).timers = s.timers := by unfold send; split <;> rfl
theorem acquire_timers (s : Sess) : s.recvAcquire.timers = s.timers := by unfold recvAcquire; split <;> rfl
theorem take_timers (s : Sess) (n : Option Nat) : (s.recvTake n).timers = s.timers := by
  rcases recvTake_cases s n with x | ⟨k, e, x⟩ <;> rw [x]

theorem mem_clock {s : Sess} {e : TimerName × Int} (h : e ∈ s.clock.timers) : (e.1, e.2 + 1) ∈ s.timers ∧ e.2 ≠ 0 := by
  unfold clock at h
  obtain ⟨h1, h2⟩ := List.mem_filter.1 h
  obtain ⟨x, hx, rfl⟩ := List.mem_map.1 h1
  refine ⟨?_, by simpa using h2⟩
  simpa using hx

theorem Due.beside {a b : Sess} (h : Due R k a) (hb : Beside a b) (ht : b.timers = a.timers) : Due R k b := by
  rw [hb]; exact h.same rfl rfl h.state (fun e x => .inl (by rw [← ht]; exact x))

theorem Due.clock {a : Sess} (h : Due R k a) : Due R (k - 1) a.clock := by
  refine ⟨h.state, h.nxt, ?_⟩
  rcases h.una with x | x
  · exact .inl x
  · refine .inr fun e he hk => ?_
    have := x _ (mem_clock he).1 hk
    simp only at this
    omega

theorem Due.mono {k' : Int} {a : Sess} (h : Due R k a) (hk : k ≤ k') : Due R k' a := by
  refine ⟨h.state, h.nxt, ?_⟩
  rcases h.una with x | x
  · exact .inl x
  · exact .inr fun e he hk' => Int.le_trans (x e he hk') hk

open Verif.Spec (millis)

theorem due_run {s : Sess} (hq : Queue (fun _ => True) s) (h : Due R k s) (evs : List Ev) : Due R (k - millis evs) (s.run evs) := by
  induction evs using List.reverseRecOn with
  | nil => simpa [millis, run] using h
  | append_singleton evs e ih =>
    have hrun : s.run (evs ++ [e]) = (s.run evs).step e := by unfold run; rw [List.foldl_append]; rfl
    have hqe := queue_run (evs := evs) hq
    rw [hrun]
    generalize s.run evs = t at ih hqe
    have hdone : ∀ i, InputOk (fun _ => True) i → Due R (k - millis evs) (t.fsm i).done := by
      intro i hi
      have := (fsm_path hqe.queueOk hi).keeps (P := Due R (k - millis evs)) (fun a b h hm => due_micro h hm) ih
      unfold Res.done
      split
      · exact this
      · exact this.beside rfl rfl
    have ht : ∀ e : Ev, e ≠ .clock → millis (evs ++ [e]) = millis evs := by
      intro e he
      cases e <;> first | (simp [millis]; done) | exact absurd rfl he
    cases e with
    | clock =>
      have : (k - millis (evs ++ [.clock]) : Int) = k - millis evs - 1 := by simp [millis]; omega
      rw [this]
      exact ih.clock
    | segment m => rw [ht _ (by simp)]; exact hdone _ trivial
    | close => rw [ht _ (by simp)]; exact hdone _ rfl
    | timer => rw [ht _ (by simp)]; exact hdone _ trivial
    | send d => rw [ht _ (by simp)]; exact ih.beside (beside_send t d) (send_timers t d)
    | recvAcquire => rw [ht _ (by simp)]; exact ih.beside (beside_acquire t) (acquire_timers t)
    | recvTake n => rw [ht _ (by simp)]; exact ih.beside (beside_take t n) (take_timers t n)
    | connectReturn => rw [ht _ (by simp)]; exact ih.beside (beside_connect t) (connectReturn_timers t)
    | table b => rw [ht _ (by simp)]; exact ih.beside rfl rfl

theorem AckInv.beside {a b : Sess} (h : AckInv a) (hb : Beside a b) (ht : ∀ e ∈ b.timers, e.1 = .delayedAck → 1 ≤ e.2 ∧ e.2 ≤ 100)
    (ho : ∀ o ∈ a.out, o ∈ b.out) : AckInv b := by
  have h1 := congrArg Sess.state hb
  have h2 := congrArg Sess.rcvUna hb
  have h3 := congrArg Sess.rcvNxt hb
  dsimp only at h1 h2 h3
  refine ⟨fun x => ?_, fun x => ?_, fun x => ?_, ht⟩
  · rw [h2]
    rcases h.seen (h1 ▸ x) with y | ⟨g, y, z⟩
    · exact .inl y
    · exact .inr ⟨g, ho _ y, z⟩
  · rw [h2, h3]; exact h.le (h1 ▸ x)
  · rw [h2]; exact h.listen (h1 ▸ x)

theorem ack_opened (active : Bool) (iss : Nat) (lip : IpAddress) (lport : Nat) (rip : IpAddress) (rport : Nat) :
    AckInv (opened active iss lip lport rip rport) := by
  rw [opened_eq]
  refine ⟨fun _ => .inl (by simp [new]), fun x => ?_, fun _ => by simp [new], by simp [new]⟩
  cases active <;> simp [Synced] at x

theorem ack_run {s : Sess} (evs : List Ev) (hq : Queue (fun _ => True) s) (h : AckInv s) : AckInv (s.run evs) := by
  have := run_keeps (Q := fun _ => True) (G := False) (P := fun s => Queue (fun _ => True) s ∧ AckInv s) (fun s h => h.1.queueOk)
    (fun a b h hm => ⟨queue_micro h.1 hm, ack_micro h.2 hm⟩)
    (fun s e h => ⟨h.1.beside rfl, h.2.beside rfl h.2.timer (by simp +contextual [emit])⟩)
    (fun s d h => ⟨h.1.beside (beside_send s d), h.2.beside (beside_send s d) (by rw [send_timers]; exact h.2.timer) ?_⟩)
    (fun s h => ⟨h.1.beside (beside_acquire s), h.2.beside (beside_acquire s) (by rw [acquire_timers]; exact h.2.timer) ?_⟩)
    (fun s n h => ⟨h.1.beside (beside_take s n), h.2.beside (beside_take s n) (by rw [take_timers]; exact h.2.timer) ?_⟩)
    (fun s h => ⟨h.1.beside (beside_connect s), h.2.beside (beside_connect s) (by rw [connectReturn_timers]; exact h.2.timer) ?_⟩)
    (fun s h => ⟨h.1.beside rfl, h.2.beside rfl (fun e he hk => ?_) (fun _ x => x)⟩)
    (fun s b h => ⟨h.1.beside rfl, h.2.beside rfl h.2.timer (fun _ x => x)⟩)
    (evs := evs) (fun _ _ => trivial) ⟨hq, h⟩
  · exact this.2
  · unfold send emit; split <;> simp +contextual
  · unfold recvAcquire; split <;> simp
  · rcases recvTake_cases s n with x | ⟨k, e, x⟩ <;> rw [x] <;> simp +contextual
  · unfold connectReturn emit
    split
    · simp
    · dsimp only
      split
      · simp +contextual
      · split <;> simp +contextual
  · obtain ⟨h1, h2⟩ := mem_clock he
    have := h.2.timer _ h1 hk
    simp only at this
    omega

/-- The timer's round acknowledges what is due. -/
theorem due_timer {t : Sess} (hd : Due R 0 t) (ha : AckInv t) (hst : t.state = .established ∨ t.state = .closeWait)
    (he : (t.fsm .timer).exc = none) : R ≤ (t.fsm .timer).s.rcvUna := by
  have hst' : Retransmits t.state := by rcases hst with x | x <;> simp [Retransmits, x]
  have mv : ∀ (c : Prop) [Decidable c] (s : Sess) (st : FsmState), (if c then s.changeState st else ok s).s.rcvUna = s.rcvUna := by
    intro c _ s st
    split
    · show (s.moveAs st).rcvUna = _; simp
    · rfl
  have rest : ∀ (c : Sess → Bool) (st : FsmState) (a : Sess), Due R 0 a → AckInv a →
      (a.transmitData.next fun s => s.delayedAck.next fun s => if c s = true then s.changeState st else ok s).exc = none →
      R ≤ (a.transmitData.next fun s => s.delayedAck.next fun s => if c s = true then s.changeState st else ok s).s.rcvUna := by
    intro c st a hd ha he
    have hp := (transmitData_path (Q := fun _ => True) (G := False) a).1
    have hd1 : Due R 0 a.transmitData.s := hp.keeps (fun a b h hm => due_micro h hm) hd
    have ha1 : AckInv a.transmitData.s := hp.keeps (fun a b h hm => ack_micro h hm) ha
    generalize a.transmitData = r at hd1 ha1 he ⊢
    obtain ⟨b, e⟩ := r
    cases e with
    | some e => exact absurd he (by simp)
    | none =>
      rw [show (⟨b, none⟩ : Res) = ok b from rfl, next_ok] at he ⊢
      have key : b.delayedAck.exc = none → R ≤ b.delayedAck.s.rcvUna := by
        intro hx
        unfold delayedAck at hx ⊢
        split
        · rename_i hexp
          rw [if_pos hexp] at hx
          split
          · rename_i hlt
            rw [if_pos hlt] at hx
            rcases transmitAck_cases b with ⟨y, _⟩ | y
            · rw [y]
              show R ≤ b.ackAs.rcvUna
              simpa using hd1.nxt
            · rw [y] at hx; exact absurd hx (by simp)
          · rename_i hge
            have := hd1.nxt
            show R ≤ b.rcvUna
            dsimp only at this
            omega
        · rename_i hexp
          rcases hd1.una with y | y
          · exact y
          · exfalso
            apply hexp
            unfold expired
            split
            · rfl
            · rename_i v hv
              have h1 := y _ (Dict.get?_mem hv) rfl
              have h2 := (ha1.timer _ (Dict.get?_mem hv) rfl).1
              simp only at h1 h2
              omega
      generalize b.delayedAck = r at key he ⊢
      obtain ⟨d, e⟩ := r
      cases e with
      | some e => exact absurd he (by simp)
      | none =>
        rw [show (⟨d, none⟩ : Res) = ok d from rfl, next_ok, mv]
        exact key rfl
  have all : ∀ (c : Sess → Bool) (st : FsmState),
      (t.retransmitTimeout.next fun s => s.transmitData.next fun s => s.delayedAck.next fun s => if c s = true then s.changeState st else ok s).exc = none →
      R ≤ (t.retransmitTimeout.next fun s => s.transmitData.next fun s => s.delayedAck.next fun s =>
        if c s = true then s.changeState st else ok s).s.rcvUna := by
    intro c st he
    rcases retransmitTimeout_cases (Q := fun _ => True) (G := False) hst' with (x | x) | ⟨s', x, hm, _⟩ | ⟨e, x, _, hm⟩
    · rw [x, next_ok] at he ⊢; exact rest c st t hd ha he
    · rw [x] at he; exact absurd he (by simp)
    · rw [x, next_ok] at he ⊢; exact rest c st s' (due_micro hd hm) (ack_micro ha hm) he
    · rw [x] at he ⊢
      cases e with
      | none => exact rest c st _ (due_micro hd hm) (ack_micro ha hm) he
      | some e => exact absurd he (by simp)
  revert he
  unfold fsm fsmFuel fsmWith
  rcases hst with x | x <;> rw [x]
  · intro he
    have := all (fun s => s.closes = true ∧ s.tx = []) .finWait1
    simp only [decide_eq_true_eq] at this
    exact this he
  · intro he
    have := all (fun s => s.closes = true ∧ s.tx = []) .lastAck
    simp only [decide_eq_true_eq] at this
    exact this he

end Verif.Sess
