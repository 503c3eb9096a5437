import Verif.Lemmas.SessionFlow
import Verif.Props.SessionData
import Verif.Spec.Net
/-! Invariants of one end that the other end relies on. -/
namespace Verif.Sess
open Verif

/-! ### What is seen only grows -/

theorem out_micro {Q : TcpMd → Prop} {G : Prop} {a b : Sess} (hm : Micro Q G a b) : a.out <+: b.out := by
  have eqv : ∀ {x y : List Out}, y = x → x <+: y := by
    intro x y h; rw [h]; exact List.prefix_refl _
  cases hm with
  | abort => rw [abortAs_eq]; simp
  | abortMove => simp; rw [abortAs_eq]; simp
  | dup => rw [retransmitRequest_eq]; exact List.prefix_refl _
  | synAckIn => exact eqv (by simp [paramsAs])
  | ackIn => exact eqv (by simp)
  | dataIn => exact eqv (by simp)
  | finIn => exact eqv (by simp)
  | synIn => simp [synAs, paramsAs]
  | _ => simp [emit, setTimer, storeAs, ackAs]

theorem out_step {s : Sess} (h : Queue (fun _ => True) s) (e : Ev) : s.out <+: (s.step e).out := by
  have done : ∀ i, InputOk (fun _ => True) i → s.out <+: (s.fsm i).done.out := by
    intro i hi
    have h1 := (fsm_path (Q := fun _ => True) (G := False) (i := i) h.queueOk hi).keeps (P := fun b => s.out <+: b.out)
      (fun a b h hm => h.trans (out_micro hm)) (List.prefix_refl _)
    unfold Res.done
    split
    · exact h1
    · exact h1.trans (List.prefix_append _ _)
  cases e with
  | segment m => exact done _ trivial
  | close => exact done _ rfl
  | timer => exact done _ trivial
  | send d => show _ <+: (s.send d).out; unfold send; split <;> simp [emit]
  | recvAcquire => show _ <+: s.recvAcquire.out; unfold recvAcquire; split <;> simp
  | recvTake n =>
    show _ <+: (s.recvTake n).out
    rcases recvTake_cases s n with x | ⟨k, e, x⟩ <;> rw [x]
    · exact List.prefix_refl _
    · exact List.prefix_append _ _
  | connectReturn =>
    show _ <+: s.connectReturn.out
    unfold connectReturn
    split
    · exact List.prefix_refl _
    · dsimp only
      split
      · simp [emit]
      · split <;> simp [emit]
  | clock => exact List.prefix_refl _
  | table b => exact List.prefix_refl _

theorem sent_prefix {l l' : List Out} (h : l <+: l') {g : Seg} (hg : g ∈ Spec.sent l) : g ∈ Spec.sent l' := by
  obtain ⟨t, rfl⟩ := h
  unfold Spec.sent at hg ⊢
  rw [List.filterMap_append]
  exact List.mem_append_left _ hg

/-! ### The numbers that are acknowledged -/

/-- Everything expected, and so everything acknowledged, is above the peer's SYN. -/
structure LowInv (irs : Nat) (s : Sess) : Prop where
  num : (s.rcvNxt = 0 ∧ (s.state = .closed ∨ s.state = .listen ∨ s.state = .synSent)) ∨ irs < s.rcvNxt
  acks : ∀ g ∈ Spec.sent s.out, g.ack = true → g.rst = true ∨ irs < g.ackn

variable {irs : Nat} {G : Prop}

theorem LowInv.keep {a b : Sess} (h : LowInv irs a) (hn : b.rcvNxt = a.rcvNxt)
    (hs : b.state = a.state ∨ (a.rcvNxt = 0 → b.state = .closed))
    (ha : ∀ g ∈ Spec.sent b.out, g ∈ Spec.sent a.out ∨ (g.ack = true → g.rst = true ∨ irs < g.ackn)) : LowInv irs b := by
  refine ⟨?_, fun g hg hk => ?_⟩
  · rw [hn]
    rcases h.num with x | x
    · rcases hs with y | y
      · rw [y]; exact .inl x
      · exact .inl ⟨x.1, .inl (y x.1)⟩
    · exact .inr x
  · rcases ha g hg with x | x
    · exact h.acks g x hk
    · exact x hk

theorem LowInv.pos {a : Sess} (h : LowInv irs a) (hs : a.state ≠ .closed ∧ a.state ≠ .listen ∧ a.state ≠ .synSent) : irs < a.rcvNxt := by
  rcases h.num with x | x
  · rcases x.2 with x | x | x <;> simp [x] at hs
  · exact x

theorem LowInv.take {a : Sess} {m : TcpMd} (h : LowInv irs a) (hs : m.seq = a.rcvNxt)
    (hst : a.state ≠ .closed ∧ a.state ≠ .listen ∧ a.state ≠ .synSent) : LowInv irs (a.ackUpdate m) := by
  have := h.pos hst
  refine ⟨.inr (by simp; omega), fun g hg => ?_⟩
  rw [ackUpdate_out] at hg
  exact h.acks g hg

theorem low_micro {Q : TcpMd → Prop} (hQ : ∀ m, Q m → m.syn = true → m.seq = irs) {a b : Sess} (h : LowInv irs a) (hm : Micro Q G a b) :
    LowInv irs b := by
  cases hm with
  | reset => exact h.keep rfl (.inl rfl) (fun g hg => .inl hg)
  | abort =>
    refine h.keep (by rw [abortAs_eq]) (.inr ?_) ?_ <;> rw [abortAs_eq]
    · simp
    · intro g hg
      simp at hg
      rcases hg with x | x
      · exact .inl x
      · exact .inr (by rw [x]; simp)
  | @abortMove st t hst =>
    have hp := h.pos (by rcases hst with ⟨x, _⟩ | ⟨x, _⟩ <;> simp [x])
    refine h.keep (by simp [abortAs]; rw [failAs_eq]; simp) (.inr (fun x => by omega)) ?_
    intro g hg
    simp at hg
    rw [abortAs_eq] at hg
    simp at hg
    rcases hg with x | x
    · exact .inl x
    · exact .inr (by rw [x]; simp)
  | synOut => exact h.keep (by simp) (.inl (by simp)) (by simp +contextual [or_imp])
  | synAckOut hst =>
    have hp := h.pos (by simp [hst])
    exact h.keep (by simp) (.inl (by simp)) (by simp +contextual [or_imp, hp])
  | dataOut hst =>
    have hp := h.pos (by rcases hst with x | x <;> simp [x])
    exact h.keep (by simp) (.inl (by simp)) (by simp +contextual [or_imp, hp])
  | finOut hst =>
    have hp := h.pos (by rcases hst with x | x <;> simp [x])
    exact h.keep (by simp) (.inl (by simp)) (by simp +contextual [or_imp, hp])
  | ackOut hst _ _ hz =>
    have hp : irs < a.rcvNxt := by
      rcases hst with x | x | x | x | x
      · rcases h.num with y | y
        · exact absurd y.1 (hz x)
        · exact y
      all_goals exact h.pos (by simp [x])
    exact h.keep (by simp) (.inl (by simp)) (by simp +contextual [or_imp, hp])
  | timerSet => exact h.keep rfl (.inl rfl) (fun g hg => .inl hg)
  | finClose hst =>
    have hp := h.pos (by simp [hst])
    exact h.keep (by simp) (.inr (fun x => by omega)) (by simp +contextual [or_imp])
  | lastClose hst =>
    have hp := h.pos (by simp [hst])
    exact h.keep (by simp) (.inr (fun x => by omega)) (by simp +contextual [or_imp])
  | dup => rw [retransmitRequest_eq]; exact h.keep rfl (.inl rfl) (fun g hg => .inl hg)
  | store => exact h.keep rfl (.inl rfl) (fun g hg => .inl hg)
  | pop => exact h.keep rfl (.inl rfl) (fun g hg => .inl hg)
  | @synIn m hq hst hf hm =>
    have hseq := hQ m hq (isSyn_flags hf).2.1
    refine ⟨.inr (by simp [synAs, hseq]), fun g hg => ?_⟩
    simp [synAs, paramsAs] at hg
    exact h.acks g hg
  | @synAckIn m hq hst hf hm =>
    have hseq := hQ m hq (isSynAck_flags hf).2.1
    refine ⟨.inr (by simp [isSynAck_flags hf, hseq]; omega), fun g hg => ?_⟩
    simp [paramsAs] at hg
    exact h.acks g hg
  | @establish m hq hst hf hr =>
    exact h.keep (by simp) (.inr (fun x => by omega)) (by simp +contextual [or_imp])
  | ackIn hq hst hf hm => exact h.take hm.1 (by simp [hst])
  | establish' hq hst =>
    have hp := h.pos (by simp [hst])
    exact h.keep (by simp [emit]) (.inr (fun x => by omega)) (by simp +contextual [emit])
  | refused => exact h.keep (by simp) (.inr (by simp)) (by simp +contextual [or_imp])
  | closes => exact h.keep rfl (.inl rfl) (fun g hg => .inl hg)
  | finEarly hst =>
    have hp := h.pos (by simp [hst])
    exact h.keep (by simp) (.inr (fun x => by omega)) (by simp +contextual [or_imp])
  | dataIn hq hst hf hm => exact h.take hm.1 (by rcases hst with x | x | x | x <;> simp [x])
  | finIn hq hst hf hm => exact h.take hm.1 (by rcases hst with x | x | x <;> simp [x])
  | toCloseWait hq hst =>
    have hp := h.pos (by simp [hst])
    exact h.keep (by simp) (.inr (fun x => by omega)) (by simp +contextual [or_imp])
  | toFinWait2 hq hst =>
    have hp := h.pos (by rcases hst with x | x <;> simp [x])
    exact h.keep (by simp) (.inr (fun x => by omega)) (by simp +contextual [or_imp])
  | toTimeWait hq hst =>
    have hp := h.pos (by rcases hst with x | x <;> simp [x])
    exact h.keep (by simp [setTimer]) (.inr (fun x => by omega)) (by simp +contextual [setTimer])
  | toClosing hq hst =>
    have hp := h.pos (by rcases hst with x | x <;> simp [x])
    exact h.keep (by simp) (.inr (fun x => by omega)) (by simp +contextual [or_imp])
  | closingAck hq hst =>
    have hp := h.pos (by simp [hst])
    exact h.keep (by simp [setTimer]) (.inr (fun x => by omega)) (by simp +contextual [setTimer])
  | shut => exact h.keep (by simp) (.inr (by simp)) (by simp +contextual [or_imp])

/-- The events that are not calls of `tcp_fsm` send nothing. -/
structure Sideways (a b : Sess) : Prop where
  beside : Beside a b
  sent : Spec.sent b.out = Spec.sent a.out
  acc : Spec.accepted b.out = [] → Spec.accepted a.out = []
  del : b.delivered = a.delivered

/-- `run_keeps` for an invariant of what is sent and delivered. -/
theorem run_keeps_aside {Q : TcpMd → Prop} {G : Prop} {P : Sess → Prop} (hq : ∀ s, P s → QueueOk Q G s)
    (hmicro : ∀ a b, P a → Micro Q G a b → P b) (hside : ∀ a b, P a → Sideways a b → P b) {s : Sess} {evs : List Ev}
    (hs : ∀ m ∈ Spec.arrivals evs, Q m) (h : P s) : P (s.run evs) := by
  have quiet : ∀ (s : Sess) (o : Out), Spec.quiet o = true → Sideways s (s.emit o) := by
    intro s o ho
    exact ⟨rfl, by simp [emit, Spec.sent_one ho], by simp [emit, Spec.accepted_one ho], by simp [emit, delivered, Spec.received_one ho]⟩
  refine run_keeps hq hmicro (fun s e h => hside _ _ h (quiet s _ rfl)) (fun s d h => hside _ _ h ⟨beside_send s d, ?_, ?_, ?_⟩)
    (fun s h => hside _ _ h ⟨beside_acquire s, ?_, ?_, ?_⟩) (fun s n h => hside _ _ h ⟨beside_take s n, ?_, ?_, ?_⟩)
    (fun s h => hside _ _ h ⟨beside_connect s, ?_, ?_, ?_⟩) (fun s h => hside _ _ h ⟨rfl, rfl, fun x => x, rfl⟩)
    (fun s b h => hside _ _ h ⟨rfl, rfl, fun x => x, rfl⟩) hs h
  · unfold send; split
    · simp
    · exact (quiet _ _ rfl).sent
  · unfold send; split
    · simp +contextual
    · exact (quiet _ _ rfl).acc
  · unfold send; split
    · simp [delivered]
    · exact (quiet _ _ rfl).del
  · unfold recvAcquire; split <;> rfl
  · unfold recvAcquire; split <;> exact fun x => x
  · unfold recvAcquire; split <;> rfl
  · rcases recvTake_cases s n with x | ⟨k, e, x⟩ <;> rw [x]; simp
  · rcases recvTake_cases s n with x | ⟨k, e, x⟩ <;> rw [x]
    · exact fun x => x
    · simp
  · rcases recvTake_cases s n with x | ⟨k, e, x⟩ <;> rw [x]; simp [delivered]
  all_goals
    unfold connectReturn
    split
    · first | rfl | exact fun x => x
    · dsimp only
      split
      · first | exact (quiet _ _ rfl).sent | exact (quiet _ _ rfl).acc | exact (quiet _ _ rfl).del
      · split
        · first | exact (quiet _ _ rfl).sent | exact (quiet _ _ rfl).acc | exact (quiet _ _ rfl).del
        · first | exact (quiet _ _ rfl).sent | exact (quiet _ _ rfl).acc | exact (quiet _ _ rfl).del

/-! ### The shape of what is sent -/

/-- A SYN has no data and no FIN, a FIN has no data. -/
def ShapeInv (s : Sess) : Prop :=
  ∀ g ∈ Spec.sent s.out, (g.syn = true → g.data = [] ∧ g.fin = false) ∧ (g.fin = true → g.data = [])

theorem shape_micro {Q : TcpMd → Prop} {a b : Sess} (h : ShapeInv a) (hm : Micro Q G a b) : ShapeInv b := by
  have key : (∀ g ∈ Spec.sent b.out, g ∈ Spec.sent a.out ∨ (g.syn = true → g.data = [] ∧ g.fin = false) ∧ (g.fin = true → g.data = [])) →
      ShapeInv b := by
    intro x g hg
    rcases x g hg with y | y
    · exact h g y
    · exact y
  apply key
  cases hm with
  | abort =>
    rw [abortAs_eq]
    intro g hg
    simp at hg
    rcases hg with x | x
    · exact .inl x
    · exact .inr (by rw [x]; simp)
  | abortMove =>
    intro g hg
    simp at hg
    rw [abortAs_eq] at hg
    simp at hg
    rcases hg with x | x
    · exact .inl x
    · exact .inr (by rw [x]; simp)
  | dup => rw [retransmitRequest_eq]; exact fun g hg => .inl hg
  | synAckIn => intro g hg; simp [paramsAs] at hg; exact .inl hg
  | ackIn => intro g hg; simp at hg; exact .inl hg
  | dataIn => intro g hg; simp at hg; exact .inl hg
  | finIn => intro g hg; simp at hg; exact .inl hg
  | synIn => intro g hg; simp [synAs, paramsAs] at hg; exact .inl hg
  | _ => simp +contextual [or_imp, emit, setTimer, storeAs, ackAs]

/-! ### Nothing arrives, nothing is delivered -/

theorem none_micro {Q : TcpMd → Prop} (hQ : ∀ m, Q m → m.data = []) {a b : Sess} (h : a.delivered = []) (hm : Micro Q G a b) :
    b.delivered = [] := by
  have upd : ∀ (s : Sess) (m : TcpMd), m.data = [] → (s.ackUpdate m).delivered = s.delivered := by
    intro s m hm
    rw [ackUpdate_eq]
    simp [delivered, hm]
  rw [← h]
  cases hm with
  | abort => rw [abortAs_eq]; simp [delivered]
  | abortMove => simp [delivered]; rw [abortAs_eq]; simp
  | dup => rw [retransmitRequest_eq]; rfl
  | @synAckIn m hq => exact upd (a.paramsAs m) m (hQ m hq)
  | ackIn hq => exact upd _ _ (hQ _ hq)
  | dataIn hq => exact upd _ _ (hQ _ hq)
  | finIn hq => exact upd _ _ (hQ _ hq)
  | synIn => simp [delivered, synAs, paramsAs]
  | _ => simp [delivered, emit, setTimer, storeAs, ackAs]

/-! ### What is taken to be acknowledged was acknowledged -/

theorem una_micro {Q : TcpMd → Prop} {X : Nat} (hQ : ∀ m, Q m → m.ack = true → m.rst = false → m.ackn ≤ X) {a b : Sess}
    (h : a.sndUna ≤ X) (hm : Micro Q G a b) : b.sndUna ≤ X := by
  have ack : ∀ {m : TcpMd}, Q m → isAck m = true → m.ackn ≤ X := fun q x => hQ _ q (isAck_flags x).1 (isAck_flags x).2.2.1
  cases hm with
  | abort => rw [abortAs_eq]; exact h
  | abortMove => simp; rw [abortAs_eq]; exact h
  | dup => rw [retransmitRequest_eq]; exact h
  | @synAckIn m hq hst hf =>
    have := hQ m hq (isSynAck_flags hf).1 (isSynAck_flags hf).2.2.1
    have e : (a.paramsAs m).sndUna = a.sndUna := rfl
    simp [e]; omega
  | ackIn hq hst hf => have := ack hq hf; simp; omega
  | dataIn hq hst hf => have := ack hq hf; simp; omega
  | finIn hq hst hf => have := hQ _ hq (isFinAck_flags hf).1 (isFinAck_flags hf).2.2.1; simp; omega
  | closingAck hq hst hf => have := ack hq hf; simpa [setTimer] using this
  | synIn => simpa [synAs, paramsAs] using h
  | reset => exact h
  | _ => simpa [emit, setTimer, storeAs, ackAs] using h

/-! ### One end -/

/-- The segments that arrived were sent by `b`, or were resets. -/
def From (b : Sess) (evs : List Ev) : Prop := ∀ m ∈ Spec.arrivals evs, Spec.Resets m ∨ ∃ g ∈ Spec.sent b.out, Spec.Carries g m

theorem low_run {active : Bool} {iss : Nat} {lip : IpAddress} {lport : Nat} {rip : IpAddress} {rport : Nat} {evs : List Ev}
    (h : ∀ m ∈ Spec.arrivals evs, m.syn = true → m.seq = irs) : LowInv irs ((opened active iss lip lport rip rport).run evs) := by
  refine (run_keeps_aside (Q := fun m => m.syn = true → m.seq = irs) (G := False)
    (P := fun s => Queue (fun m => m.syn = true → m.seq = irs) s ∧ LowInv irs s) (fun s h => h.1.queueOk)
    (fun a b h hm => ⟨queue_micro h.1 hm, low_micro (fun _ x => x) h.2 hm⟩)
    (fun a b h hb => ⟨h.1.beside hb.beside, ?_⟩) h ⟨queue_opened' .., ?_⟩).2
  · have := hb.beside
    refine h.2.keep (by rw [this]) (.inl (by rw [this])) (fun g hg => .inl ?_)
    rw [hb.sent] at hg; exact hg
  · rw [opened_eq]
    refine ⟨.inl ⟨by simp [new], ?_⟩, by simp [new]⟩
    cases active <;> simp

theorem shape_run {active : Bool} {iss : Nat} {lip : IpAddress} {lport : Nat} {rip : IpAddress} {rport : Nat} {evs : List Ev} :
    ShapeInv ((opened active iss lip lport rip rport).run evs) := by
  refine (run_keeps_aside (Q := fun _ => True) (G := False)
    (P := fun s => Queue (fun _ => True) s ∧ ShapeInv s) (fun s h => h.1.queueOk)
    (fun a b h hm => ⟨queue_micro h.1 hm, shape_micro h.2 hm⟩)
    (fun a b h hb => ⟨h.1.beside hb.beside, ?_⟩) (fun _ _ => trivial) ⟨queue_opened' .., ?_⟩).2
  · unfold ShapeInv; rw [hb.sent]; exact h.2
  · rw [opened_eq]; unfold ShapeInv; simp [new]

theorem none_run {active : Bool} {iss : Nat} {lip : IpAddress} {lport : Nat} {rip : IpAddress} {rport : Nat} {evs : List Ev}
    (h : ∀ m ∈ Spec.arrivals evs, m.data = []) : ((opened active iss lip lport rip rport).run evs).delivered = [] := by
  refine (run_keeps_aside (Q := fun m => m.data = []) (G := False)
    (P := fun s => Queue (fun m => m.data = []) s ∧ s.delivered = []) (fun s h => h.1.queueOk)
    (fun a b h hm => ⟨queue_micro h.1 hm, none_micro (fun _ x => x) h.2 hm⟩)
    (fun a b h hb => ⟨h.1.beside hb.beside, ?_⟩) h ⟨queue_opened' .., ?_⟩).2
  · rw [hb.del]; exact h.2
  · rw [opened_eq]; simp [new, delivered]

theorem una_run {X : Nat} {active : Bool} {iss : Nat} {lip : IpAddress} {lport : Nat} {rip : IpAddress} {rport : Nat} {evs : List Ev}
    (hX : iss ≤ X) (h : ∀ m ∈ Spec.arrivals evs, m.ack = true → m.rst = false → m.ackn ≤ X) :
    ((opened active iss lip lport rip rport).run evs).sndUna ≤ X := by
  refine (run_keeps_aside (Q := fun m => m.ack = true → m.rst = false → m.ackn ≤ X) (G := False)
    (P := fun s => Queue (fun m => m.ack = true → m.rst = false → m.ackn ≤ X) s ∧ s.sndUna ≤ X) (fun s h => h.1.queueOk)
    (fun a b h hm => ⟨queue_micro h.1 hm, una_micro (fun _ x => x) h.2 hm⟩)
    (fun a b h hb => ⟨h.1.beside hb.beside, ?_⟩) h ⟨queue_opened' .., ?_⟩).2
  · have := hb.beside
    rw [this]; exact h.2
  · rw [opened_eq]; simpa [new] using hX

/-- One end keeps to its numbers if the other does. -/
theorem one_end {ia ib : Nat} {b : Sess} {evs : List Ev} (active : Bool) (lip : IpAddress) (lport : Nat) (rip : IpAddress) (rport : Nat)
    (hf : From b evs) (hs : SendInv ib b) (hl : LowInv ia b) :
    SendInv ia ((opened active ia lip lport rip rport).run evs) ∧ LowInv ib ((opened active ia lip lport rip rport).run evs) := by
  refine ⟨send_run (fun m hm ha hr => ?_) (send_opened active lip lport rip rport), low_run (fun m hm hy => ?_)⟩
  · obtain r | ⟨g, hg, hc⟩ := hf m hm
    · rw [r.rst] at hr; cases hr
    rcases hl.acks g hg (by rw [← hc.ack]; exact ha) with x | x
    · rw [← hc.rst, hr] at x; cases x
    · rw [hc.ackn]; omega
  · obtain r | ⟨g, hg, hc⟩ := hf m hm
    · rw [r.syn] at hy; cases hy
    rw [hc.seq]
    exact hs.sent.syn g hg (by rw [← hc.syn]; exact hy)

/-- What arrives is of the other end's stream. -/
theorem segments_of {ib : Nat} {b : Sess} {evs : List Ev} (hf : From b evs) (hs : SendInv ib b) (hh : ShapeInv b)
    (hp : Spec.accepted b.out ≠ []) : ∀ m ∈ Spec.arrivals evs, Spec.SegmentOf (Spec.accepted b.out) ib m := by
  intro m hm
  obtain r | ⟨g, hg, hc⟩ := hf m hm
  · exact ⟨fun h => by simp [r.syn] at h, fun h => absurd r.data h, fun h => by simp [r.fin] at h⟩
  refine ⟨fun h => ?_, fun h => ?_, fun h => ?_⟩
  · rw [hc.syn] at h
    rw [hc.seq, hc.data, hc.fin]
    exact ⟨hs.sent.syn g hg h, (hh g hg).1 h⟩
  · rw [hc.data] at h ⊢
    rw [hc.seq]
    exact hs.sent.data g hg h
  · rw [hc.fin] at h
    rw [hc.seq, hc.data, (hh g hg).2 h]
    have := (hs.sent.fin g hg h).1
    simp [hp] at this
    simp
    omega

theorem no_data {ib : Nat} {b : Sess} {evs : List Ev} (hf : From b evs) (hs : SendInv ib b) (hp : Spec.accepted b.out = []) :
    ∀ m ∈ Spec.arrivals evs, m.data = [] := by
  intro m hm
  obtain r | ⟨g, hg, hc⟩ := hf m hm
  · exact r.data
  rw [hc.data]
  refine Classical.byContradiction fun h => h ?_
  have := (hs.sent.data g hg h).2
  rw [hp] at this
  simpa using this.symm

/-! ### Both ends -/

structure Pair (ia ib : Nat) (x y a b : Sess) : Prop where
  left : ∃ evs, a = x.run evs ∧ From b evs
  right : ∃ evs, b = y.run evs ∧ From a evs
  sendL : SendInv ia a
  lowL : LowInv ib a
  sendR : SendInv ib b
  lowR : LowInv ia b

theorem From.mono {b b' : Sess} {evs : List Ev} (h : From b evs) (hb : b.out <+: b'.out) : From b' evs := by
  intro m hm
  obtain r | ⟨g, hg, hc⟩ := h m hm
  · exact .inl r
  exact .inr ⟨g, sent_prefix hb hg, hc⟩

theorem From.snoc {b : Sess} {evs : List Ev} {e : Ev} (h : From b evs) (he : Spec.Arrives b e) : From b (evs ++ [e]) := by
  intro m hm
  unfold Spec.arrivals at hm
  rw [List.filterMap_append] at hm
  rcases List.mem_append.1 hm with x | x
  · exact h m x
  · cases e <;> simp at x
    exact he m (by rw [x])

theorem pair_joined {ia ib : Nat} {p q : Bool} {lip : IpAddress} {lport : Nat} {rip : IpAddress} {rport : Nat} {lip' : IpAddress} {lport' : Nat}
    {rip' : IpAddress} {rport' : Nat} {a b : Sess}
    (h : Spec.Joined (opened p ia lip lport rip rport) (opened q ib lip' lport' rip' rport') a b) :
    Pair ia ib (opened p ia lip lport rip rport) (opened q ib lip' lport' rip' rport') a b := by
  induction h with
  | start =>
    exact ⟨⟨[], rfl, fun m hm => nomatch hm⟩, ⟨[], rfl, fun m hm => nomatch hm⟩, send_opened .., low_run (evs := []) (fun m hm => nomatch hm),
      send_opened .., low_run (evs := []) (fun m hm => nomatch hm)⟩
  | @left a b e hj he ih =>
    obtain ⟨⟨evs, h1, h2⟩, ⟨evs', h3, h4⟩, h5, h6, h7, h8⟩ := ih
    have hrun : a.step e = (opened p ia lip lport rip rport).run (evs ++ [e]) := by
      rw [h1]; unfold run; rw [List.foldl_append]; rfl
    have hf := h2.snoc he
    have ho : a.out <+: (a.step e).out := out_step (by rw [h1]; exact queue_run (queue_opened ..)) e
    have := one_end p lip lport rip rport hf h7 h8
    rw [← hrun] at this
    exact ⟨⟨_, hrun, hf⟩, ⟨evs', h3, h4.mono ho⟩, this.1, this.2, h7, h8⟩
  | @right a b e hj he ih =>
    obtain ⟨⟨evs, h1, h2⟩, ⟨evs', h3, h4⟩, h5, h6, h7, h8⟩ := ih
    have hrun : b.step e = (opened q ib lip' lport' rip' rport').run (evs' ++ [e]) := by
      rw [h3]; unfold run; rw [List.foldl_append]; rfl
    have hf := h4.snoc he
    have ho : b.out <+: (b.step e).out := out_step (by rw [h3]; exact queue_run (queue_opened ..)) e
    have := one_end q lip' lport' rip' rport' hf h5 h6
    rw [← hrun] at this
    exact ⟨⟨evs, h1, h2.mono ho⟩, ⟨_, hrun, hf⟩, h5, h6, this.1, this.2⟩

end Verif.Sess
