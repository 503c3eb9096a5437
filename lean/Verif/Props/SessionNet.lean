import Verif.Lemmas.SessionNet
/-!
C81: the two ends of a TCP connection.  Each end is a session of this stack, opened by `connect` or by `listen`; between them is a
network that may lose, repeat, delay and reorder segments, and on which anybody may send resets; the applications call as they like and the timers run as they like.
-/
namespace Verif
open Sess

/-- C81: at every moment, what one application has been given (and what is waiting for it) is a prefix of what the other application
has sent, byte for byte, in both directions. -/
theorem C81_prefix (p q : Bool) (ia ib : Nat) (lip : IpAddress) (lport : Nat) (rip : IpAddress) (rport : Nat) (lip' : IpAddress)
    (lport' : Nat) (rip' : IpAddress) (rport' : Nat) {a b : Sess}
    (h : Spec.Joined (opened p ia lip lport rip rport) (opened q ib lip' lport' rip' rport') a b) :
    Spec.received a.out ++ a.rx <+: Spec.accepted b.out ∧ Spec.received b.out ++ b.rx <+: Spec.accepted a.out := by
  have one : ∀ {r : Bool} {i j : Nat} {lip : IpAddress} {lport : Nat} {rip : IpAddress} {rport : Nat} {s t : Sess} {evs : List Ev},
      s = (opened r i lip lport rip rport).run evs → From t evs → SendInv j t → ShapeInv t →
      Spec.received s.out ++ s.rx <+: Spec.accepted t.out := by
    intro r i j lip lport rip rport s t evs hs hf hS hH
    by_cases hp : Spec.accepted t.out = []
    · have := none_run (active := r) (iss := i) (lip := lip) (lport := lport) (rip := rip) (rport := rport) (no_data hf hS hp)
      rw [← hs] at this
      change s.delivered <+: _
      rw [this]; exact List.nil_prefix
    · obtain ⟨k, -, h2, -⟩ := C52_prefix r i lip lport rip rport (segments_of hf hS hH hp)
      rw [← hs] at h2
      rw [h2]; exact List.take_prefix _ _
  obtain ⟨⟨evs, h1, h2⟩, ⟨evs', h3, h4⟩, h5, h6, h7, h8⟩ := pair_joined h
  exact ⟨one h1 h2 h7 (by rw [h3]; exact shape_run), one h3 h4 h5 (by rw [h1]; exact shape_run)⟩

theorem Spec.Joined.swap {x y a b : Sess} (h : Spec.Joined x y a b) : Spec.Joined y x b a := by
  induction h with
  | start => exact .start
  | left _ he ih => exact .right ih he
  | right _ he ih => exact .left ih he

/-- What one end has taken to be acknowledged is with the other. -/
theorem acked_delivered {r : Bool} {i j : Nat} {lip : IpAddress} {lport : Nat} {rip : IpAddress} {rport : Nat} {r' : Bool} {lip' : IpAddress}
    {lport' : Nat} {rip' : IpAddress} {rport' : Nat} {s t : Sess} {evs evs' : List Ev}
    (hs : s = (opened r i lip lport rip rport).run evs) (ht : t = (opened r' j lip' lport' rip' rport').run evs')
    (hf : From t evs) (hf' : From s evs') (hS : SendInv i s) (hH : ShapeInv s) :
    ∃ k, t.delivered = (Spec.accepted s.out).take k ∧ k ≤ (Spec.accepted s.out).length ∧
      (Spec.accepted s.out ≠ [] → s.sndUna ≤ i + 1 + k ∨ k = (Spec.accepted s.out).length) := by
  by_cases hp : Spec.accepted s.out = []
  · refine ⟨0, ?_, by simp, fun x => absurd hp x⟩
    rw [ht, none_run (no_data hf' hS hp)]
    simp
  · obtain ⟨k, h1, h2, -, h4⟩ := C52_prefix r' j lip' lport' rip' rport' (segments_of hf' hS hH hp)
    rw [← ht] at h2 h4
    refine ⟨k, h2, h1, fun _ => ?_⟩
    by_cases hk : k = (Spec.accepted s.out).length
    · exact .inr hk
    · left
      rw [hs]
      refine una_run (by omega) (fun m hm ha hr => ?_)
      obtain r | ⟨g, hg, hc⟩ := hf m hm
      · rw [r.rst] at hr; cases hr
      rw [hc.ackn]
      rcases h4 g hg (by rw [← hc.ack]; exact ha) with x | x
      · exact x
      · exact absurd x.2 hk

/-- C81: no byte is lost, and none is kept for nothing: while an end may send, what its application has sent is what has
reached the other end, up to some point, followed by what is in its own transmit buffer. -/
theorem C81_no_loss (p q : Bool) (ia ib : Nat) (lip : IpAddress) (lport : Nat) (rip : IpAddress) (rport : Nat) (lip' : IpAddress)
    (lport' : Nat) (rip' : IpAddress) (rport' : Nat) {a b : Sess}
    (h : Spec.Joined (opened p ia lip lport rip rport) (opened q ib lip' lport' rip' rport') a b) :
    (a.state = .established ∨ a.state = .closeWait → ∃ d, d <+: Spec.received b.out ++ b.rx ∧ Spec.accepted a.out = d ++ a.tx) ∧
    (b.state = .established ∨ b.state = .closeWait → ∃ d, d <+: Spec.received a.out ++ a.rx ∧ Spec.accepted b.out = d ++ b.tx) := by
  have one : ∀ {i k : Nat} {s t : Sess}, SendInv i s → t.delivered = (Spec.accepted s.out).take k → k ≤ (Spec.accepted s.out).length →
      (Spec.accepted s.out ≠ [] → s.sndUna ≤ i + 1 + k ∨ k = (Spec.accepted s.out).length) →
      s.state = .established ∨ s.state = .closeWait → ∃ d, d <+: Spec.received t.out ++ t.rx ∧ Spec.accepted s.out = d ++ s.tx := by
    intro i k s t hS hd hk hu hst
    have hp := hS.openPhase hst
    refine ⟨(Spec.accepted s.out).take (s.sndUna - (i + 1)), ?_, by rw [hp.tx, List.take_append_drop]⟩
    change _ <+: t.delivered
    rw [hd]
    by_cases hn : Spec.accepted s.out = []
    · simp [hn]
    · refine List.take_prefix_take_left ?_
      have := hp.nxt; have := hp.most; have := hp.top
      have := hu hn
      omega
  obtain ⟨⟨evs, h1, h2⟩, ⟨evs', h3, h4⟩, h5, h6, h7, h8⟩ := pair_joined h
  obtain ⟨k, x1, x2, x3⟩ := acked_delivered h1 h3 h2 h4 h5 (by rw [h1]; exact shape_run)
  obtain ⟨k', y1, y2, y3⟩ := acked_delivered h3 h1 h4 h2 h7 (by rw [h3]; exact shape_run)
  exact ⟨one h5 x1 x2 x3, one h7 y1 y2 y3⟩

/-- C81: once an end has gone on to its FIN, everything its application has sent has reached the other end. -/
theorem C81_sent_before_fin (p q : Bool) (ia ib : Nat) (lip : IpAddress) (lport : Nat) (rip : IpAddress) (rport : Nat) (lip' : IpAddress)
    (lport' : Nat) (rip' : IpAddress) (rport' : Nat) {a b : Sess}
    (h : Spec.Joined (opened p ia lip lport rip rport) (opened q ib lip' lport' rip' rport') a b)
    (hst : a.state = .finWait1 ∨ a.state = .finWait2 ∨ a.state = .closing ∨ a.state = .lastAck ∨ a.state = .timeWait) :
    Spec.received b.out ++ b.rx = Spec.accepted a.out := by
  obtain ⟨⟨evs, h1, h2⟩, ⟨evs', h3, h4⟩, h5, h6, h7, h8⟩ := pair_joined h
  obtain ⟨k, x1, x2, x3⟩ := acked_delivered h1 h3 h2 h4 h5 (by rw [h1]; exact shape_run)
  change b.delivered = _
  rw [x1]
  by_cases hn : Spec.accepted a.out = []
  · simp [hn]
  · have hp := h5.finPhase hst
    refine List.take_of_length_le ?_
    have := x3 hn
    rcases hp.num with y | y
    · exact absurd y.1 hn
    · omega

/-- The states in which the peer's FIN has been taken. -/
def finTaken (st : FsmState) : Prop := st = .closeWait ∨ st = .closing ∨ st = .lastAck ∨ st = .timeWait

theorem fin_micro {d : Bytes} {irs : Nat} {G : Prop} {a b : Sess} (h : RecvInv d irs a) (hf : finTaken a.state → a.delivered = d)
    (hm : Micro (Spec.SegmentOf d irs) G a b) : finTaken b.state → b.delivered = d := by
  have hb := recv_micro h hm
  have hg := delivered_micro hm
  have old : finTaken a.state → b.delivered = d := by
    intro x
    have := hf x
    rw [this] at hg
    have hl := hg.length_le
    rcases hb.data with y | ⟨k, y⟩ | y
    · rw [y.2.1] at hg ⊢
      exact (List.prefix_nil.1 hg).symm
    · rw [y.2.1] at hl ⊢
      rw [List.length_take] at hl
      exact List.take_of_length_le (by omega)
    · exact y.1
  have new : (∃ m, Spec.SegmentOf d irs m ∧ isFinAck m = true ∧ m.seq + m.data.length + 1 ≤ b.rcvNxt) → b.delivered = d := by
    rintro ⟨m, hq, hfl, hr⟩
    have := hq.fin (isFinAck_flags hfl).2.2.2
    rcases hb.data with y | ⟨k, y⟩ | y
    · omega
    · omega
    · exact y.1
  intro hst
  cases hm with
  | toCloseWait hq hst hf hr => exact new ⟨_, hq, hf, by simpa using hr⟩
  | toTimeWait hq hst hf hr => exact new ⟨_, hq, hf, by simpa [setTimer] using hr⟩
  | toClosing hq hst hf ha hr => exact new ⟨_, hq, hf, by simpa using hr⟩
  | closingAck hq hs => exact old (by simp [finTaken, hs])
  | lastClose hs => exact old (by simp [finTaken, hs])
  | abort => rw [abortAs_eq] at hst; simp [finTaken] at hst
  | @abortMove st t hs =>
    rcases hs with x | x
    · simp [finTaken, x.2] at hst
    · exact old (by simp [finTaken, x.1])
  | dup => rw [retransmitRequest_eq] at hst; exact old hst
  | synAckIn => rw [ackUpdate_state] at hst; exact old hst
  | ackIn => rw [ackUpdate_state] at hst; exact old hst
  | dataIn => rw [ackUpdate_state] at hst; exact old hst
  | finIn => rw [ackUpdate_state] at hst; exact old hst
  | reset => exact old hst
  | timerSet => exact old hst
  | store => exact old hst
  | pop => exact old hst
  | closes => exact old hst
  | synOut => exact old (by simpa using hst)
  | synAckOut => exact old (by simpa using hst)
  | dataOut => exact old (by simpa using hst)
  | finOut => exact old (by simpa using hst)
  | ackOut => exact old (by simpa using hst)
  | _ => simp [finTaken, emit] at hst

/-- C81: once an end has taken the other's FIN, its application has been given everything the other has sent, or it is waiting
for it. -/
theorem C81_fin_means_all (p q : Bool) (ia ib : Nat) (lip : IpAddress) (lport : Nat) (rip : IpAddress) (rport : Nat) (lip' : IpAddress)
    (lport' : Nat) (rip' : IpAddress) (rport' : Nat) {a b : Sess}
    (h : Spec.Joined (opened p ia lip lport rip rport) (opened q ib lip' lport' rip' rport') a b)
    (hst : a.state = .closeWait ∨ a.state = .closing ∨ a.state = .lastAck ∨ a.state = .timeWait) :
    Spec.received a.out ++ a.rx = Spec.accepted b.out := by
  obtain ⟨⟨evs, h1, h2⟩, ⟨evs', h3, h4⟩, h5, h6, h7, h8⟩ := pair_joined h
  have hp := C81_prefix p q ia ib lip lport rip rport lip' lport' rip' rport' h
  by_cases hn : Spec.accepted b.out = []
  · rw [hn] at hp ⊢
    exact List.prefix_nil.1 hp.1
  · have hseg := segments_of h2 h7 (by rw [h3]; exact shape_run) hn
    have := run_keeps_aside (Q := Spec.SegmentOf (Spec.accepted b.out) ib) (G := False)
      (P := fun s => RecvInv (Spec.accepted b.out) ib s ∧ (finTaken s.state → s.delivered = Spec.accepted b.out))
      (fun s h => h.1.queue.queueOk) (fun s t h hm => ⟨recv_micro h.1 hm, fin_micro h.1 h.2 hm⟩)
      (fun s t h hb => by
        have hs := hb.beside
        have hst : t.state = s.state := by rw [hs]
        refine ⟨h.1.keep (h.1.queue.beside hs) (by rw [hs]) hb.del (.inl hst) (fun g hg => .inl (by rw [hb.sent] at hg; exact hg)), ?_⟩
        rw [hst, hb.del]; exact h.2)
      hseg ⟨recv_opened p ia lip lport rip rport, fun x => by
        rw [opened_eq] at x
        cases p <;> simp [finTaken] at x⟩
    rw [← h1] at this
    exact this.2 hst

namespace Example.Net
open Sess

/-- What happens: an event at an end, or the arrival there of the `n`-th segment that the other end has sent. -/
inductive Act
  | l (e : Ev)
  | r (e : Ev)
  | toL (n : Nat)
  | toR (n : Nat)

def arrive (lip : IpAddress) (lport : Nat) (rip : IpAddress) (rport : Nat) (g : Seg) : TcpMd :=
  ⟨lip, lport, rip, rport, g.syn, g.ack, g.fin, g.rst, g.seq, g.ackn, 65535, none, 1460, g.data⟩

def isSeg : Ev → Bool
  | .segment _ => true
  | _ => false

def act (x : Sess × Sess) : Act → Sess × Sess
  | .l e => if isSeg e then x else (x.1.step e, x.2)
  | .r e => if isSeg e then x else (x.1, x.2.step e)
  | .toL n => match (Spec.sent x.2.out)[n]? with
    | some g => (x.1.step (.segment (arrive x.1.lip x.1.lport x.1.rip x.1.rport g)), x.2)
    | none => x
  | .toR n => match (Spec.sent x.1.out)[n]? with
    | some g => (x.1, x.2.step (.segment (arrive x.2.lip x.2.lport x.2.rip x.2.rport g)))
    | none => x

theorem joined (x y : Sess) (l : List Act) : Spec.Joined x y (l.foldl act (x, y)).1 (l.foldl act (x, y)).2 := by
  induction l using List.reverseRecOn with
  | nil => exact .start
  | append_singleton l c ih =>
    rw [List.foldl_append]
    simp only [List.foldl_cons, List.foldl_nil]
    generalize l.foldl act (x, y) = z at ih
    have ok : ∀ {e : Ev} {t : Sess}, isSeg e ≠ true → Spec.Arrives t e := by
      intro e t h m hm
      rw [hm] at h; simp [isSeg] at h
    cases c with
    | l e =>
      simp only [act]
      split
      · exact ih
      · exact .left ih (ok ‹_›)
    | r e =>
      simp only [act]
      split
      · exact ih
      · exact .right ih (ok ‹_›)
    | toL n =>
      simp only [act]
      split
      · rename_i g hg
        dsimp only
        refine .left ih (fun m hm => .inr ⟨g, List.mem_of_getElem? hg, ?_⟩)
        injection hm with hm
        rw [← hm]; exact ⟨rfl, rfl, rfl, rfl, rfl, rfl, rfl⟩
      · exact ih
    | toR n =>
      simp only [act]
      split
      · rename_i g hg
        dsimp only
        refine .right ih (fun m hm => .inr ⟨g, List.mem_of_getElem? hg, ?_⟩)
        injection hm with hm
        rw [← hm]; exact ⟨rfl, rfl, rfl, rfl, rfl, rfl, rfl⟩
      · exact ih

def x : Sess := opened true 100 Example.Session.lip 5000 Example.Session.rip 80
def y : Sess := opened false 500 Example.Session.rip 80 Example.Session.lip 5000

/-- The left end connects, the right one listens; the left sends [1,2] and then [3,4]; the segments arrive in the wrong order, and
the first twice; the right sends [9]. -/
def acts : List Act :=
  [.l .timer, .toR 0, .r .timer, .toL 0, .toR 1, .l (.send [1, 2]), .l .timer, .l (.send [3, 4]), .l .timer, .toR 3, .toR 2, .toR 2,
   .r .recvAcquire, .r (.recvTake none), .r (.send [9]), .r .timer]

/-- The left takes the [9] and closes; its FIN arrives. -/
def more : List Act :=
  [.toL 1, .toL 2, .l .recvAcquire, .l (.recvTake none), .l .close, .l .timer, .l .timer, .toR 4]

def half : Sess × Sess := acts.foldl act (x, y)
def done : Sess × Sess := more.foldl act half

theorem half_joined : Spec.Joined x y half.1 half.2 := joined x y acts

theorem done_joined : Spec.Joined x y done.1 done.2 := by
  have := joined x y (acts ++ more)
  rw [List.foldl_append] at this
  exact this

/-- C81_prefix, C81_no_loss: both ends may send; the first four bytes have been given, the [9] is under way, and no end knows yet. -/
example : half.1.state = .established ∧ half.2.state = .established ∧ Spec.accepted half.1.out = [1, 2, 3, 4] ∧
    Spec.received half.2.out = [1, 2, 3, 4] ∧ half.1.tx = [1, 2, 3, 4] ∧ Spec.accepted half.2.out = [9] ∧
    Spec.received half.1.out ++ half.1.rx = [] ∧ half.2.tx = [9] := by decide +kernel

/-- C81_sent_before_fin, C81_fin_means_all: the left end has gone on to its FIN, the right end has taken it. -/
example : done.1.state = .finWait1 ∧ done.2.state = .closeWait ∧ Spec.received done.1.out = [9] ∧ Spec.received done.2.out = [1, 2, 3, 4] ∧
    done.1.tx = [] := by decide +kernel

/-- Nothing else in the hypotheses: these are sessions as `connect` and `listen` open them. -/
example : Spec.received done.2.out ++ done.2.rx = Spec.accepted done.1.out :=
  C81_fin_means_all false true 500 100 _ _ _ _ _ _ _ _ done_joined.swap (by decide +kernel)

end Example.Net

end Verif
