import Verif.Lemmas.SessionInv
/-! The receiving side of sessions: what is delivered is a prefix of what the peer sends. -/
namespace Verif.Spec
open Verif

@[simp] theorem sent_append (a b : List Out) : sent (a ++ b) = sent a ++ sent b := List.filterMap_append
@[simp] theorem received_append (a b : List Out) : received (a ++ b) = received a ++ received b := by
  simp [received, List.filterMap_append]
@[simp] theorem accepted_append (a b : List Out) : accepted (a ++ b) = accepted a ++ accepted b := by
  simp [accepted, List.filterMap_append]
@[simp] theorem moves_append (a b : List Out) : moves (a ++ b) = moves a ++ moves b := List.filterMap_append
@[simp] theorem sent_nil : sent [] = [] := rfl
@[simp] theorem received_nil : received [] = [] := rfl
@[simp] theorem accepted_nil : accepted [] = [] := rfl
@[simp] theorem moves_nil : moves [] = [] := rfl

/-- `o` is none of the things an invariant looks at. -/
def quiet : Out → Bool
  | .unregistered | .spawned | .queued | .rejected | .connected _ | .raised _ => true
  | _ => false

theorem sent_one {o : Out} (h : quiet o = true) : sent [o] = [] := by cases o <;> first | rfl | cases h
theorem received_one {o : Out} (h : quiet o = true) : received [o] = [] := by cases o <;> first | rfl | cases h
theorem accepted_one {o : Out} (h : quiet o = true) : accepted [o] = [] := by cases o <;> first | rfl | cases h
theorem moves_one {o : Out} (h : quiet o = true) : moves [o] = [] := by cases o <;> first | rfl | cases h

@[simp] theorem sent_moved (a b : FsmState) (l : List Out) : sent (.moved a b :: l) = sent l := rfl
@[simp] theorem received_moved (a b : FsmState) (l : List Out) : received (.moved a b :: l) = received l := rfl
@[simp] theorem accepted_moved (a b : FsmState) (l : List Out) : accepted (.moved a b :: l) = accepted l := rfl
@[simp] theorem sent_sent (g : Seg) (l : List Out) : sent (.sent g :: l) = g :: sent l := rfl
@[simp] theorem received_sent (g : Seg) (l : List Out) : received (.sent g :: l) = received l := rfl
@[simp] theorem accepted_sent (g : Seg) (l : List Out) : accepted (.sent g :: l) = accepted l := rfl
@[simp] theorem moves_sent (g : Seg) (l : List Out) : moves (.sent g :: l) = moves l := rfl
@[simp] theorem moves_moved (a b : FsmState) (l : List Out) : moves (.moved a b :: l) = (a, b) :: moves l := rfl
@[simp] theorem sent_received (d : Bytes) (l : List Out) : sent (.received d :: l) = sent l := rfl
@[simp] theorem received_received (d : Bytes) (l : List Out) : received (.received d :: l) = d ++ received l := rfl
@[simp] theorem accepted_received (d : Bytes) (l : List Out) : accepted (.received d :: l) = accepted l := rfl
@[simp] theorem moves_received (d : Bytes) (l : List Out) : moves (.received d :: l) = moves l := rfl
@[simp] theorem sent_accepted (d : Bytes) (l : List Out) : sent (.accepted d :: l) = sent l := rfl
@[simp] theorem received_accepted (d : Bytes) (l : List Out) : received (.accepted d :: l) = received l := rfl
@[simp] theorem accepted_accepted (d : Bytes) (l : List Out) : accepted (.accepted d :: l) = d ++ accepted l := rfl
@[simp] theorem moves_accepted (d : Bytes) (l : List Out) : moves (.accepted d :: l) = moves l := rfl
@[simp] theorem sent_unregistered (b : Prop) [Decidable b] : sent (if b then [.unregistered] else []) = [] := by split <;> rfl
@[simp] theorem received_unregistered (b : Prop) [Decidable b] : received (if b then [.unregistered] else []) = [] := by split <;> rfl
@[simp] theorem accepted_unregistered (b : Prop) [Decidable b] : accepted (if b then [.unregistered] else []) = [] := by split <;> rfl
@[simp] theorem moves_unregistered (b : Prop) [Decidable b] : moves (if b then [.unregistered] else []) = [] := by split <;> rfl
@[simp] theorem sent_spawned (l : List Out) : sent (.spawned :: l) = sent l := rfl
@[simp] theorem received_spawned (l : List Out) : received (.spawned :: l) = received l := rfl
@[simp] theorem accepted_spawned (l : List Out) : accepted (.spawned :: l) = accepted l := rfl
@[simp] theorem moves_spawned (l : List Out) : moves (.spawned :: l) = moves l := rfl
@[simp] theorem sent_queued (l : List Out) : sent (.queued :: l) = sent l := rfl
@[simp] theorem received_queued (l : List Out) : received (.queued :: l) = received l := rfl
@[simp] theorem accepted_queued (l : List Out) : accepted (.queued :: l) = accepted l := rfl
@[simp] theorem moves_queued (l : List Out) : moves (.queued :: l) = moves l := rfl

end Verif.Spec

namespace Verif.Sess
open Verif

/-- Everything delivered so far or waiting to be. -/
def delivered (s : Sess) : Bytes := Spec.received s.out ++ s.rx

/-- What the session expects is right behind what it has. -/
structure RecvInv (p : Bytes) (irs : Nat) (s : Sess) : Prop where
  queue : Queue (Spec.SegmentOf p irs) s
  data : (s.rcvNxt = 0 ∧ s.delivered = [] ∧ (s.state = .closed ∨ s.state = .listen ∨ s.state = .synSent)) ∨
    (∃ k, k ≤ p.length ∧ s.delivered = p.take k ∧ s.rcvNxt = irs + 1 + k ∧ s.state ≠ .listen ∧ (s.state = .synSent → k = 0)) ∨
    (s.delivered = p ∧ s.rcvNxt = irs + 2 + p.length ∧ s.state ≠ .listen ∧ s.state ≠ .synSent)
  acks : ∀ g ∈ Spec.sent s.out, g.ack = true → g.ackn ≤ s.rcvNxt

variable {p : Bytes} {irs : Nat} {G : Prop}

/-- Nothing of the receiving side changes. -/
theorem RecvInv.keep {a b : Sess} (h : RecvInv p irs a) (hq : Queue (Spec.SegmentOf p irs) b) (hn : b.rcvNxt = a.rcvNxt)
    (hd : b.delivered = a.delivered)
    (hs : b.state = a.state ∨ (b.state ≠ .listen ∧ b.state ≠ .synSent ∧ (a.rcvNxt = 0 → b.state = .closed)))
    (ha : ∀ g ∈ Spec.sent b.out, g ∈ Spec.sent a.out ∨ (g.ack = true → g.ackn ≤ a.rcvNxt)) : RecvInv p irs b := by
  refine ⟨hq, ?_, ?_⟩
  · have := h.data
    rw [hn, hd]
    rcases hs with hs | hs
    · rw [hs]; exact this
    · rcases this with x | x | x
      · exact .inl ⟨x.1, x.2.1, .inl (hs.2.2 x.1)⟩
      · obtain ⟨k, x⟩ := x
        exact .inr (.inl ⟨k, x.1, x.2.1, x.2.2.1, hs.1, fun y => absurd y hs.2.1⟩)
      · exact .inr (.inr ⟨x.1, x.2.1, hs.1, hs.2.1⟩)
  · intro g hg hk
    rw [hn]
    rcases ha g hg with x | x
    · exact h.acks g x hk
    · exact x hk

theorem RecvInv.pos {a : Sess} (h : RecvInv p irs a) (hs : a.state ≠ .closed ∧ a.state ≠ .listen ∧ a.state ≠ .synSent) :
    a.rcvNxt ≠ 0 := by
  rcases h.data with x | x | x
  · obtain ⟨_, _, x⟩ := x
    rcases x with x | x | x <;> simp [x] at hs
  · obtain ⟨k, x⟩ := x
    omega
  · omega

theorem take_step {p d : Bytes} {k : Nat} (hk : k ≤ p.length) (h : (p.drop k).take d.length = d) :
    p.take k ++ d = p.take (k + d.length) ∧ k + d.length ≤ p.length := by
  constructor
  · rw [List.take_add, h]
  · have := congrArg List.length h
    simp only [List.length_take, List.length_drop] at this
    omega

/-- A segment in order. -/
theorem RecvInv.take {a : Sess} {m : TcpMd} (h : RecvInv p irs a) (hq : Spec.SegmentOf p irs m) (hs : m.seq = a.rcvNxt)
    (hst : a.state ≠ .closed ∧ a.state ≠ .listen ∧ a.state ≠ .synSent) (hsyn : m.syn = false) : RecvInv p irs (a.ackUpdate m) := by
  have hqq : Queue (Spec.SegmentOf p irs) (a.ackUpdate m) := h.queue.same (by simp) (by simp)
  have hd : (a.ackUpdate m).delivered = a.delivered ++ m.data := by
    rw [ackUpdate_eq]; simp [delivered]
  have hr : (a.ackUpdate m).rcvNxt = a.rcvNxt + m.data.length + m.fin.toNat := by simp [hsyn, hs]
  have hnd : m.data = [] ∨ m.data ≠ [] := by by_cases x : m.data = [] <;> simp [x]
  refine ⟨hqq, ?_, ?_⟩
  · rw [hd, hr, ackUpdate_state]
    rcases h.data with x | x | x
    · obtain ⟨_, _, x⟩ := x
      rcases x with x | x | x <;> simp [x] at hst
    · obtain ⟨k, h1, h2, h3, h4, h5⟩ := x
      have step : a.delivered ++ m.data = p.take (k + m.data.length) ∧ k + m.data.length ≤ p.length := by
        rcases hnd with x | x
        · simp [x, h2, h1]
        · have := hq.data x
          rw [hs, h3] at this
          rw [h2]
          refine take_step h1 ?_
          have e : irs + 1 + k - (irs + 1) = k := by omega
          rw [e] at this
          exact this.2
      by_cases hf : m.fin = true
      · have := hq.fin hf
        refine .inr (.inr ⟨?_, ?_, hst.2.1, hst.2.2⟩)
        · rw [step.1]; exact List.take_of_length_le (by omega)
        · simp [hf]; omega
      · refine .inr (.inl ⟨k + m.data.length, step.2, step.1, ?_, hst.2.1, fun x => absurd x hst.2.2⟩)
        simp [hf]; omega
    · obtain ⟨h1, h2, h3, h4⟩ := x
      have hnil : m.data = [] := by
        rcases hnd with x | x
        · exact x
        · have := hq.data x
          have e := congrArg List.length this.2
          simp only [List.length_take, List.length_drop] at e
          have : m.data.length ≠ 0 := fun y => x (List.length_eq_zero_iff.1 y)
          omega
      have hfin : m.fin = false := by
        by_cases hf : m.fin = true
        · have := hq.fin hf
          rw [hnil] at this
          simp at this
          omega
        · simpa using hf
      exact .inr (.inr ⟨by simp [hnil, h1], by simp [hnil, hfin, h2], h3, h4⟩)
  · intro g hg hk
    rw [ackUpdate_out] at hg
    have := h.acks g hg hk
    omega

theorem recv_micro {a b : Sess} (h : RecvInv p irs a) (hm : Micro (Spec.SegmentOf p irs) G a b) : RecvInv p irs b := by
  have hqq := queue_micro h.queue hm
  cases hm with
  | reset => exact h.keep hqq rfl rfl (.inl rfl) (fun g hg => .inl hg)
  | abort =>
    refine h.keep hqq (by rw [abortAs_eq]) ?_ (.inr ?_) ?_ <;> rw [abortAs_eq]
    · simp [delivered]
    · simp
    · intro g hg
      simp at hg
      rcases hg with x | x
      · exact .inl x
      · exact .inr (by rw [x]; simp)
  | @abortMove st t hst =>
    have hp := h.pos (by rcases hst with ⟨x, _⟩ | ⟨x, _⟩ <;> simp [x])
    refine h.keep hqq (by simp [abortAs]; rw [failAs_eq]; simp) ?_ (.inr ?_) ?_
    · simp [delivered]; rw [abortAs_eq]; simp
    · rcases hst with ⟨_, x⟩ | ⟨_, x⟩ <;> simp [x, hp]
    · intro g hg
      simp at hg
      rw [abortAs_eq] at hg
      simp at hg
      rcases hg with x | x
      · exact .inl x
      · exact .inr (by rw [x]; simp)
  | synOut => exact h.keep hqq (by simp) (by simp [delivered]) (.inl (by simp)) (by simp +contextual [or_imp])
  | synAckOut => exact h.keep hqq (by simp) (by simp [delivered]) (.inl (by simp)) (by simp +contextual [or_imp])
  | dataOut => exact h.keep hqq (by simp) (by simp [delivered]) (.inl (by simp)) (by simp +contextual [or_imp])
  | finOut => exact h.keep hqq (by simp) (by simp [delivered]) (.inl (by simp)) (by simp +contextual [or_imp])
  | ackOut => exact h.keep hqq (by simp) (by simp [delivered]) (.inl (by simp)) (by simp +contextual [or_imp])
  | timerSet => exact h.keep hqq rfl rfl (.inl rfl) (fun g hg => .inl hg)
  | finClose hst =>
    have hp := h.pos (by simp [hst])
    exact h.keep hqq (by simp) (by simp [delivered]) (.inr (by simp [hp])) (by simp +contextual [or_imp])
  | lastClose hst =>
    have hp := h.pos (by simp [hst])
    exact h.keep hqq (by simp) (by simp [delivered]) (.inr (by simp [hp])) (by simp +contextual [or_imp])
  | dup =>
    exact h.keep hqq (by rw [retransmitRequest_eq]) (by rw [retransmitRequest_eq]; rfl) (.inl (by rw [retransmitRequest_eq]))
      (by rw [retransmitRequest_eq]; exact fun g hg => .inl hg)
  | store => exact h.keep hqq rfl rfl (.inl rfl) (fun g hg => .inl hg)
  | pop => exact h.keep hqq rfl rfl (.inl rfl) (fun g hg => .inl hg)
  | @synIn m hq hst hf hm =>
    have hseq := (hq.syn (isSyn_flags hf).2.1).1
    rcases h.data with x | x | x
    · refine ⟨hqq, .inr (.inl ⟨0, by omega, ?_, ?_, by simp, by simp⟩), ?_⟩
      · have := x.2.1
        simp [delivered, synAs, paramsAs] at this ⊢
        exact this
      · simp [synAs, hseq]
      · intro g hg hk
        simp [synAs, paramsAs] at hg
        have := h.acks g hg hk
        omega
    · obtain ⟨k, x⟩ := x
      exact absurd hst x.2.2.2.1
    · exact absurd hst x.2.2.1
  | @synAckIn m hq hst hf hm =>
    have hfl := isSynAck_flags hf
    have hseq := (hq.syn hfl.2.1).1
    have hd : a.delivered = [] ∧ a.rcvNxt ≤ irs + 1 := by
      rcases h.data with x | x | x
      · exact ⟨x.2.1, by omega⟩
      · obtain ⟨k, x⟩ := x
        have := x.2.2.2.2 hst
        rw [x.2.1, this]
        exact ⟨by simp, by omega⟩
      · exact absurd hst x.2.2.2
    refine ⟨hqq, .inr (.inl ⟨0, by omega, ?_, ?_, by simp [hst], by simp⟩), ?_⟩
    · have := hd.1
      rw [ackUpdate_eq]
      simp [delivered, paramsAs, hm.2] at this ⊢
      exact this
    · simp [hfl, hm.2, hseq]
    · intro g hg hk
      simp [paramsAs] at hg
      have := h.acks g hg hk
      simp [hfl, hm.2, hseq]
      omega
  | @establish m hq hst hf hr =>
    exact h.keep hqq (by simp) (by simp [delivered]) (.inr ⟨by simp, by simp, fun x => by omega⟩) (by simp +contextual [or_imp])
  | ackIn hq hst hf hm => exact h.take hq hm.1 (by simp [hst]) (isAck_flags hf).2.1
  | establish' hq hst =>
    have hp := h.pos (by simp [hst])
    exact h.keep hqq (by simp [emit]) (by simp [delivered, emit]) (.inr (by simp [emit, hp])) (by simp +contextual [emit])
  | refused => exact h.keep hqq (by simp) (by simp [delivered]) (.inr (by simp)) (by simp +contextual [or_imp])
  | closes => exact h.keep hqq rfl rfl (.inl rfl) (fun g hg => .inl hg)
  | finEarly hst =>
    have hp := h.pos (by simp [hst])
    exact h.keep hqq (by simp) (by simp [delivered]) (.inr (by simp [hp])) (by simp +contextual [or_imp])
  | dataIn hq hst hf hm => exact h.take hq hm.1 (by rcases hst with x | x | x | x <;> simp [x]) (isAck_flags hf).2.1
  | finIn hq hst hf hm => exact h.take hq hm.1 (by rcases hst with x | x | x <;> simp [x]) (isFinAck_flags hf).2.1
  | toCloseWait hq hst =>
    have hp := h.pos (by simp [hst])
    exact h.keep hqq (by simp) (by simp [delivered]) (.inr (by simp [hp])) (by simp +contextual [or_imp])
  | toFinWait2 hq hst =>
    have hp := h.pos (by rcases hst with x | x <;> simp [x])
    exact h.keep hqq (by simp) (by simp [delivered]) (.inr (by simp [hp])) (by simp +contextual [or_imp])
  | toTimeWait hq hst =>
    have hp := h.pos (by rcases hst with x | x <;> simp [x])
    exact h.keep hqq (by simp [setTimer]) (by simp [delivered, setTimer]) (.inr (by simp [hp, setTimer])) (by simp +contextual [setTimer])
  | toClosing hq hst =>
    have hp := h.pos (by rcases hst with x | x <;> simp [x])
    exact h.keep hqq (by simp) (by simp [delivered]) (.inr (by simp [hp])) (by simp +contextual [or_imp])
  | closingAck hq hst =>
    have hp := h.pos (by simp [hst])
    exact h.keep hqq (by simp [setTimer]) (by simp [delivered, setTimer]) (.inr (by simp [hp, setTimer])) (by simp +contextual [setTimer])
  | shut => exact h.keep hqq (by simp) (by simp [delivered]) (.inr (by simp)) (by simp +contextual [or_imp])

theorem recvTake_cases (s : Sess) (n : Option Nat) : s.recvTake n = s ∨ ∃ k e, s.recvTake n =
    { s with readers := s.readers - 1, rx := s.rx.drop k, evRx := e, out := s.out ++ [.received (s.rx.take k)] } := by
  unfold recvTake
  split
  · exact .inl rfl
  · refine .inr ?_
    dsimp only
    split
    · rename_i h
      refine ⟨0, s.evRx, ?_⟩
      simp [emit, h.1]
    · cases n with
      | none =>
        refine ⟨s.rx.length, ?_⟩
        dsimp only
        split
        · exact ⟨_, rfl⟩
        · exact ⟨_, rfl⟩
      | some n =>
        refine ⟨min n s.rx.length, ?_⟩
        dsimp only
        split
        · exact ⟨_, rfl⟩
        · exact ⟨_, rfl⟩

theorem Queue.queueOk {Q : TcpMd → Prop} {s : Sess} (h : Queue Q s) : QueueOk Q False s :=
  ⟨h.each, h.early, fun x => x.elim, fun x => x.elim⟩

/-- The side conditions of `run_keeps` for an invariant that looks only at some things. -/
theorem recv_run {s : Sess} {evs : List Ev} (hs : ∀ m ∈ Spec.arrivals evs, Spec.SegmentOf p irs m) (h : RecvInv p irs s) :
    RecvInv p irs (s.run evs) := by
  have quiet : ∀ (s : Sess) (o : Out), Spec.quiet o = true → RecvInv p irs s → RecvInv p irs (s.emit o) := by
    intro s o ho h
    refine h.keep (h.queue.same rfl rfl) rfl ?_ (.inl rfl) ?_
    · simp [delivered, emit, Spec.received_one ho]
    · simp +contextual [emit, Spec.sent_one ho]
  refine run_keeps (G := False) (fun s h => h.queue.queueOk) (fun a b h hm => recv_micro h hm)
    (fun s e h => quiet s _ rfl h) ?_ ?_ ?_ ?_ ?_ ?_ hs h
  · intro s d h
    unfold send
    split
    · exact h.keep (h.queue.same rfl rfl) rfl (by simp [delivered]) (.inl rfl) (by simp +contextual)
    · exact quiet _ _ rfl h
  · intro s h
    unfold recvAcquire
    split
    · exact h
    · exact h.keep (h.queue.same rfl rfl) rfl rfl (.inl rfl) (fun g hg => .inl hg)
  · intro s n h
    rcases recvTake_cases s n with x | ⟨k, e, x⟩
    · rw [x]; exact h
    · rw [x]
      exact h.keep (h.queue.same rfl rfl) rfl (by simp [delivered]) (.inl rfl) (by simp +contextual)
  · intro s h
    unfold connectReturn
    split
    · exact h
    · have h' : RecvInv p irs { s with evConnect := s.evConnect - 1 } :=
        h.keep (h.queue.same rfl rfl) rfl rfl (.inl rfl) (fun g hg => .inl hg)
      dsimp only
      split
      · exact quiet _ _ rfl h'
      · split
        · exact quiet _ _ rfl h'
        · exact quiet _ _ rfl h'
  · intro s h
    exact h.keep (h.queue.same rfl rfl) rfl rfl (.inl rfl) (fun g hg => .inl hg)
  · intro s b h
    exact h.keep (h.queue.same rfl rfl) rfl rfl (.inl rfl) (fun g hg => .inl hg)

theorem opened_eq (active : Bool) (iss : Nat) (lip : IpAddress) (lport : Nat) (rip : IpAddress) (rport : Nat) :
    opened active iss lip lport rip rport =
      (new iss lip lport rip rport).moveAs (if active then .synSent else .listen) := by
  cases active <;> rfl

theorem recv_opened (active : Bool) (iss : Nat) (lip : IpAddress) (lport : Nat) (rip : IpAddress) (rport : Nat) :
    RecvInv p irs (opened active iss lip lport rip rport) := by
  rw [opened_eq]
  refine ⟨⟨by simp [new], by simp [new]⟩, .inl ⟨by simp [new], by simp [delivered, new], ?_⟩, by simp [new]⟩
  cases active <;> simp

end Verif.Sess
