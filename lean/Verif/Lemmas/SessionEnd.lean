import Verif.Lemmas.SessionAck
/-! What a small step sends; the ends of streams and of the sequence numbers. -/
namespace Verif.Sess

variable {Q : TcpMd → Prop} {G : Prop}

/-- A small step sends nothing, or one segment. -/
theorem sent_micro {a b : Sess} (hm : Micro Q G a b) : Spec.sent b.out = Spec.sent a.out ∨
    ∃ g : Seg, Spec.sent b.out = Spec.sent a.out ++ [g] ∧ g.seq ≤ 0xFFFFFFFF ∧
      (g.data ≠ [] → (a.state = .established ∨ a.state = .closeWait) ∧ a.inWindow ∧ a.sendLen ≠ 0 ∧ g.seq = a.sndNxt ∧
        g.data = pySlice a.tx a.txNxt (a.txNxt + a.sendLen)) ∧
      (g.fin = true → a.state = .finWait1 ∨ a.state = .lastAck) := by
  cases hm with
  | abort _ _ _ hs => right; rw [abortAs_eq]; exact ⟨_, by simp; rfl, hs, by simp, by simp⟩
  | abortMove _ _ _ _ _ hs => right; rw [moveAs_out, abortAs_eq]; exact ⟨_, by simp; rfl, hs, by simp, by simp⟩
  | synOut _ _ _ hs => right; exact ⟨_, by simp; rfl, hs, by simp, by simp⟩
  | synAckOut _ _ _ hs => right; exact ⟨_, by simp; rfl, hs, by simp, by simp⟩
  | dataOut h hw hr hl hs => right; exact ⟨_, by simp; rfl, hs, fun _ => ⟨h, hw, hl, rfl, rfl⟩, by simp⟩
  | finOut h _ _ hs => right; exact ⟨_, by simp; rfl, hs, by simp, fun _ => h⟩
  | ackOut _ hs => right; exact ⟨_, by simp [ackAs]; rfl, hs, by simp, by simp⟩
  | dup => left; rw [retransmitRequest_eq]
  | synAckIn => left; rw [ackUpdate_out]; rfl
  | synIn => left; simp [synAs]
  | ackIn => left; rw [ackUpdate_out]
  | dataIn => left; rw [ackUpdate_out]
  | finIn => left; rw [ackUpdate_out]
  | reset => left; rfl
  | timerSet => left; rfl
  | store => left; rfl
  | pop => left; rfl
  | closes => left; rfl
  | _ => left; simp [emit, setTimer]

/-- The side events send nothing. -/
theorem sent_send (s : Sess) (d : Bytes) : Spec.sent (s.send d).out = Spec.sent s.out := by
  unfold send; split <;> simp [Spec.sent, emit]
theorem sent_acquire (s : Sess) : Spec.sent s.recvAcquire.out = Spec.sent s.out := by unfold recvAcquire; split <;> rfl
theorem sent_take (s : Sess) (n : Option Nat) : Spec.sent (s.recvTake n).out = Spec.sent s.out := by
  rcases recvTake_cases s n with x | ⟨k, e, x⟩ <;> rw [x] <;> simp
theorem sent_connect (s : Sess) : Spec.sent s.connectReturn.out = Spec.sent s.out := by
  unfold connectReturn
  split
  · rfl
  · dsimp only
    split
    · simp [Spec.sent, emit]
    · split <;> simp [Spec.sent, emit]
theorem sent_raised (s : Sess) (e : PyErr) : Spec.sent (s.emit (.raised e)).out = Spec.sent s.out := by simp [Spec.sent, emit]

/-- The numbers of the segments fit their field, and the segments are not too long. -/
def Fits (s : Sess) : Prop := ∀ g ∈ Spec.sent s.out, g.seq ≤ 0xFFFFFFFF ∧ g.data.length ≤ 1460

theorem fits_run {iss : Nat} (active : Bool) (lip : IpAddress) (lport : Nat) (rip : IpAddress) (rport : Nat) {evs : List Ev}
    (hs : ∀ m ∈ Spec.arrivals evs, AckOk iss m) : Fits ((opened active iss lip lport rip rport).run evs) := by
  have := send_keeps (iss := iss) (A := fun _ => True) (P := fun s => FlowInv (fun _ => True) s ∧ Fits s)
    (fun a b hS h hm => ⟨flow_micro (fun _ _ => trivial) hS h.1 hm, ?_⟩)
    (fun s e h => ⟨h.1.beside rfl, by unfold Fits; rw [sent_raised]; exact h.2⟩)
    (fun s d h => ⟨h.1.beside (beside_send s d), by unfold Fits; rw [sent_send]; exact h.2⟩)
    (fun s h => ⟨h.1.beside (beside_acquire s), by unfold Fits; rw [sent_acquire]; exact h.2⟩)
    (fun s n h => ⟨h.1.beside (beside_take s n), by unfold Fits; rw [sent_take]; exact h.2⟩)
    (fun s h => ⟨h.1.beside (beside_connect s), by unfold Fits; rw [sent_connect]; exact h.2⟩)
    (fun s h => ⟨h.1.beside rfl, h.2⟩) (fun s b h => ⟨h.1.beside rfl, h.2⟩)
    (evs := evs) (fun m hm => ⟨hs m hm, trivial⟩) (send_opened active lip lport rip rport) (queue_opened' ..)
    ⟨flow_opened .., ?_⟩
  · exact this.2.2
  · rcases sent_micro hm with x | ⟨g, x, h1, h2, _⟩
    · unfold Fits; rw [x]; exact h.2
    · unfold Fits
      rw [x]
      intro g' hg'
      rcases List.mem_append.1 hg' with y | y
      · exact h.2 g' y
      · rw [List.mem_singleton.1 y]
        refine ⟨h1, ?_⟩
        by_cases hd : g.data = []
        · simp [hd]
        · obtain ⟨hst, hw, hl, _, hsl⟩ := h2 hd
          obtain ⟨n, k1, k2, k3, k4, k5, k6, k7, k8⟩ := (hS.openPhase hst).send hw hl
          rw [hsl, k7, k8]
          have := h.1.mss
          omega
  · rw [opened_eq]; intro g hg; simp [new, Spec.sent] at hg

/-! ### The receiving side -/

/-- The next number expected is at most a segment past the end of the numbers. -/
def RcvFits (L : Nat) (s : Sess) : Prop := s.rcvNxt ≤ 0xFFFFFFFF + L + 2

theorem rcvFits_run {L : Nat} {s : Sess} {evs : List Ev} (hs : ∀ m ∈ Spec.arrivals evs, m.seq ≤ 0xFFFFFFFF ∧ m.data.length ≤ L)
    (hq : Queue (fun m => m.seq ≤ 0xFFFFFFFF ∧ m.data.length ≤ L) s) (h : RcvFits L s) : RcvFits L (s.run evs) := by
  have hack : ∀ (s : Sess) (m : TcpMd), m.seq ≤ 0xFFFFFFFF ∧ m.data.length ≤ L → RcvFits L (s.ackUpdate m) := by
    intro s m hm
    unfold RcvFits
    rw [ackUpdate_rcvNxt]
    have := Bool.toNat_le m.syn
    have := Bool.toNat_le m.fin
    omega
  refine (run_keeps' (Q := fun m => m.seq ≤ 0xFFFFFFFF ∧ m.data.length ≤ L) (G := False)
    (P := fun s => Queue (fun m => m.seq ≤ 0xFFFFFFFF ∧ m.data.length ≤ L) s ∧ RcvFits L s) (fun s h => h.1.queueOk)
    (fun a b h hm => ⟨queue_micro h.1 hm, ?_⟩) (fun a b h hb => ⟨h.1.beside hb, ?_⟩) hs ⟨hq, h⟩).2
  · have h := h.2
    unfold RcvFits at h
    cases hm with
    | abort => unfold RcvFits; rw [abortAs_rcvNxt]; exact h
    | abortMove => unfold RcvFits; simpa using h
    | dup => unfold RcvFits; rw [retransmitRequest_eq]; exact h
    | synAckIn hq => exact hack _ _ hq
    | synIn hq => unfold RcvFits; simp [synAs]; omega
    | ackIn hq => exact hack _ _ hq
    | dataIn hq => exact hack _ _ hq
    | finIn hq => exact hack _ _ hq
    | reset => exact h
    | timerSet => exact h
    | store => exact h
    | pop => exact h
    | closes => exact h
    | _ => unfold RcvFits; simpa [emit, setTimer, ackAs] using h
  · have := congrArg Sess.rcvNxt hb
    dsimp only at this
    unfold RcvFits
    rw [this]; exact h.2

/-! ### Opening at the last number -/

/-- A session whose initial number is the last one is not opened by anything that fits the field. -/
theorem lastNumber_run (active : Bool) (lip : IpAddress) (lport : Nat) (rip : IpAddress) (rport : Nat) {evs : List Ev}
    (hs : ∀ m ∈ Spec.arrivals evs, AckOk 0xFFFFFFFF m ∧ m.ackn ≤ 0xFFFFFFFF) :
    ((opened active 0xFFFFFFFF lip lport rip rport).run evs).state ≠ .established ∧
    ((opened active 0xFFFFFFFF lip lport rip rport).run evs).state ≠ .closeWait := by
  refine (send_keeps' (iss := 0xFFFFFFFF) (A := fun m => m.ackn ≤ 0xFFFFFFFF)
    (P := fun s => s.state ≠ .established ∧ s.state ≠ .closeWait) (fun a b hS h hm => ?_) (fun a b h hb => ?_) hs
    (send_opened active lip lport rip rport) (queue_opened' ..) ?_).2
  · cases hm with
    | abort => simp
    | abortMove hst => rcases hst with ⟨x, _⟩ | ⟨x, _⟩ <;> simp [x] at h
    | dup => rw [retransmitRequest_eq]; exact h
    | synAckIn hq hst => rw [ackUpdate_state]; exact h
    | ackIn hq => rw [ackUpdate_state]; exact h
    | dataIn hq => rw [ackUpdate_state]; exact h
    | finIn hq => rw [ackUpdate_state]; exact h
    | reset => exact h
    | timerSet => exact h
    | store => exact h
    | pop => exact h
    | closes => exact h
    | establish hq hst hf hr ha hx =>
      exfalso
      have h1 := hx trivial
      have h2 := hq.1 (isSynAck_flags hf).1 (isSynAck_flags hf).2.2.1
      have h3 := hq.2
      rcases (hS.synPhase (.inl hst)).num with y | y
      · omega
      · omega
    | establish' hq hst hf ha hx =>
      exfalso
      have h1 := hx trivial
      have h2 := hq.1 (isAck_flags hf).1 (isAck_flags hf).2.2.1
      have h3 := hq.2
      rcases (hS.synPhase (.inr hst)).num with y | y
      · omega
      · omega
    | toCloseWait hq hst => simp [hst] at h
    | synIn => simp
    | refused => simp
    | finEarly => simp
    | toFinWait2 => simp
    | toTimeWait => simp [setTimer]
    | toClosing => simp
    | closingAck => simp [setTimer]
    | shut => simp
    | finClose hst => simp
    | lastClose hst => simp
    | _ => simpa [ackAs] using h
  · have := congrArg Sess.state hb
    dsimp only at this
    rw [this]; exact h
  · rw [opened_eq]; cases active <;> simp

/-! ### The end of the stream -/

theorem accepted_micro {a b : Sess} (hm : Micro Q G a b) : Spec.accepted b.out = Spec.accepted a.out := by
  cases hm with
  | abort => rw [abortAs_eq]; simp
  | abortMove => rw [moveAs_out, abortAs_eq]; simp
  | dup => rw [retransmitRequest_eq]
  | synAckIn => rw [ackUpdate_out]; rfl
  | synIn => simp [synAs]
  | ackIn => rw [ackUpdate_out]
  | dataIn => rw [ackUpdate_out]
  | finIn => rw [ackUpdate_out]
  | reset => rfl
  | timerSet => rfl
  | store => rfl
  | pop => rfl
  | closes => rfl
  | _ => simp [emit, setTimer, ackAs]

theorem closed_micro {a b : Sess} {iss : Nat} (hS : SendInv iss a) (hm : Micro Q G a b) (h : b.state ≠ .closed) : a.state ≠ .closed := by
  intro hc
  cases hm with
  | abort => simp at h
  | abortMove hst => rcases hst with ⟨x, _⟩ | ⟨x, _⟩ <;> rw [hc] at x <;> cases x
  | dup _ hst => rcases hst with x | x <;> rw [hc] at x <;> cases x
  | store _ hst => rcases hst with x | x <;> rw [hc] at x <;> cases x
  | dataOut hst => rcases hst with x | x <;> rw [hc] at x <;> cases x
  | finOut hst => rcases hst with x | x <;> rw [hc] at x <;> cases x
  | ackOut hst => rcases hst with x | x | x | x | x <;> rw [hc] at x <;> cases x
  | closes hst => rcases hst with x | x <;> rw [hc] at x <;> cases x
  | toFinWait2 _ hst => rcases hst with x | x <;> rw [hc] at x <;> cases x
  | toTimeWait _ hst => rcases hst with x | x <;> rw [hc] at x <;> cases x
  | toClosing _ hst => rcases hst with x | ⟨x, _⟩ <;> rw [hc] at x <;> cases x
  | dataIn _ hst => rcases hst with x | x | x | ⟨x, _⟩ <;> rw [hc] at x <;> cases x
  | finIn _ hst => rcases hst with x | x | x <;> rw [hc] at x <;> cases x
  | reset hst => rcases hst with x | x | x | x | x | x <;> rw [hc] at x <;> cases x
  | synOut hst => rw [hc] at hst; cases hst
  | synAckOut hst => rw [hc] at hst; cases hst
  | finClose hst => rw [hc] at hst; cases hst
  | lastClose hst => rw [hc] at hst; cases hst
  | synIn _ hst => rw [hc] at hst; cases hst
  | synAckIn _ hst => rw [hc] at hst; cases hst
  | establish _ hst => rw [hc] at hst; cases hst
  | ackIn _ hst => rw [hc] at hst; cases hst
  | establish' _ hst => rw [hc] at hst; cases hst
  | refused _ hst => rw [hc] at hst; cases hst
  | finEarly hst => rw [hc] at hst; cases hst
  | toCloseWait _ hst => rw [hc] at hst; cases hst
  | closingAck _ hst => rw [hc] at hst; cases hst
  | timerSet => exact h hc
  | pop => exact h hc
  | shut => simp at h

/-- `abortMove` does not happen on a session that `SendInv` holds of. -/
theorem no_abortMove {a : Sess} {iss : Nat} (hS : SendInv iss a) (hst : a.state = .established ∨ a.state = .closeWait)
    (hc : a.txTmo.get? a.sndUna = some 3) (htx : a.tx = []) : False := by
  have hp := hS.openPhase hst
  obtain ⟨e, he, hk⟩ := get?_key hc
  have h1 := hp.tmo e he (by omega)
  have h2 := congrArg List.length hp.tx
  rw [htx, List.length_drop] at h2
  have := hp.top
  have := hp.una
  simp at h2
  omega

/-- Every number below `n` that belongs to an accepted byte has been sent with data. -/
def Covered (iss n : Nat) (acc : Bytes) (l : List Seg) : Prop :=
  ∀ i, iss < i → i < n → i < iss + 1 + acc.length → ∃ g ∈ l, g.seq ≤ i ∧ i < g.seq + g.data.length

/-- What has been sent before the FIN. -/
structure CovInv (iss : Nat) (s : Sess) : Prop where
  most : s.state ≠ .closed → Covered iss s.sndMax (Spec.accepted s.out) (Spec.sent s.out)
  fin : ∀ l₁ f l₂, Spec.sent s.out = l₁ ++ f :: l₂ → f.fin = true →
    Covered iss (iss + 1 + (Spec.accepted s.out).length) (Spec.accepted s.out) l₁

theorem Covered.grow {iss n : Nat} {acc : Bytes} {l l' : List Seg} (h : Covered iss n acc l) : Covered iss n acc (l ++ l') := by
  intro i h1 h2 h3
  obtain ⟨g, hg, x⟩ := h i h1 h2 h3
  exact ⟨g, List.mem_append_left _ hg, x⟩

theorem max_micro {iss : Nat} {a b : Sess} (hS : SendInv iss a) (hm : Micro Q G a b) (hc : b.state ≠ .closed) :
    b.sndMax ≤ max a.sndMax (iss + 1) ∨ (a.state = .finWait1 ∨ a.state = .lastAck) ∨
    ∃ g, Spec.sent b.out = Spec.sent a.out ++ [g] ∧ b.sndMax = max a.sndMax (a.sndNxt + g.data.length) ∧ g.seq = a.sndNxt := by
  cases hm with
  | abort => simp at hc
  | abortMove hst hc' hcl htx => exact (no_abortMove hS (by rcases hst with x | x <;> simp [x.1]) hc' htx).elim
  | synOut _ hn => left; simp [hn, hS.ini]
  | synAckOut _ hn => left; simp [hn, hS.ini]
  | dataOut h => right; right; exact ⟨_, by simp; rfl, by simp, rfl⟩
  | finOut h => exact .inr (.inl h)
  | ackOut => right; right; exact ⟨_, by simp [ackAs]; rfl, by simp [ackAs], rfl⟩
  | dup => left; rw [retransmitRequest_eq]; dsimp only; omega
  | synAckIn => left; rw [ackUpdate_eq]; show a.sndMax ≤ _; omega
  | synIn => left; rw [moveAs_sndMax]; show a.sndMax ≤ _; omega
  | ackIn => left; rw [ackUpdate_eq]; show a.sndMax ≤ _; omega
  | dataIn => left; rw [ackUpdate_eq]; show a.sndMax ≤ _; omega
  | finIn => left; rw [ackUpdate_eq]; show a.sndMax ≤ _; omega
  | reset => left; show a.sndMax ≤ _; omega
  | timerSet => left; show a.sndMax ≤ _; omega
  | store => left; show a.sndMax ≤ _; omega
  | pop => left; show a.sndMax ≤ _; omega
  | closes => left; show a.sndMax ≤ _; omega
  | _ => left; simp [emit, setTimer]; omega

theorem SendInv.nxt_le {iss : Nat} {a : Sess} (hS : SendInv iss a) (hst : a.state = .established ∨ a.state = .closeWait) :
    a.sndNxt ≤ a.sndMax := (hS.openPhase hst).most

theorem cov_micro {iss : Nat} {a b : Sess} (hS : SendInv iss a) (h : CovInv iss a) (hm : Micro Q G a b) : CovInv iss b := by
  have hacc := accepted_micro hm
  have hsent := sent_micro hm
  have hmono : ∀ n, Covered iss n (Spec.accepted a.out) (Spec.sent a.out) → Covered iss n (Spec.accepted b.out) (Spec.sent b.out) := by
    intro n hn
    rw [hacc]
    rcases hsent with x | ⟨g, x, _⟩
    · rw [x]; exact hn
    · rw [x]; exact hn.grow
  constructor
  · intro hc
    have h1 := h.most (closed_micro hS hm hc)
    rcases max_micro hS hm hc with x | x | ⟨g, x1, x2, x3⟩
    · intro i i1 i2 i3
      exact hmono _ h1 i i1 (by omega) i3
    · intro i i1 i2 i3
      have hp := hS.finPhase (by rcases x with x | x <;> simp [Late, x])
      rw [hacc] at i3
      rcases hp.num with y | y
      · rw [y.1] at i3; simp at i3; omega
      · refine hmono _ h1 i i1 (by omega) (by rw [hacc]; exact i3)
    · intro i i1 i2 i3
      by_cases hlt : i < a.sndMax
      · exact hmono _ h1 i i1 hlt i3
      · refine ⟨g, by rw [x1]; simp, ?_⟩
        rw [x3]
        by_cases hd : g.data = []
        · exfalso
          rw [x2, hd] at i2
          rw [hacc] at i3
          simp at i2
          -- a bare ACK: nothing new
          have := closed_micro hS hm hc
          rcases hph : a.state with _ | _ | _ | _ | _ | _ | _ | _ | _ | _ | _
          · exact this hph
          · have := hS.phase; rw [hph] at this; have := this.1.acc; rw [this] at i3; simp at i3; omega
          · have := (hS.synPhase (.inl hph)).acc; rw [this] at i3; simp at i3; omega
          · have := (hS.synPhase (.inr hph)).acc; rw [this] at i3; simp at i3; omega
          · have := hS.nxt_le (.inl hph); omega
          · rcases (hS.finPhase (by simp [Late, hph])).num with y | y
            · rw [y.1] at i3; simp at i3; omega
            · omega
          · rcases (hS.finPhase (by simp [Late, hph])).num with y | y
            · rw [y.1] at i3; simp at i3; omega
            · omega
          · rcases (hS.finPhase (by simp [Late, hph])).num with y | y
            · rw [y.1] at i3; simp at i3; omega
            · omega
          · have := hS.nxt_le (.inr hph); omega
          · rcases (hS.finPhase (by simp [Late, hph])).num with y | y
            · rw [y.1] at i3; simp at i3; omega
            · omega
          · rcases (hS.finPhase (by simp [Late, hph])).num with y | y
            · rw [y.1] at i3; simp at i3; omega
            · omega
        · have hst : a.state = .established ∨ a.state = .closeWait := by
            rcases hsent with y | ⟨g', y, _, z, _⟩
            · rw [x1] at y
              have := congrArg List.length y
              simp at this
            · rw [x1] at y
              have : g = g' := by simpa using y
              exact (z (this ▸ hd)).1
          have := hS.nxt_le hst
          omega
  · intro l₁ f l₂ hl hf
    rw [hacc]
    rcases hsent with x | ⟨g, x, _, _, hfin⟩
    · rw [x] at hl; exact h.fin l₁ f l₂ hl hf
    · rw [x] at hl
      rcases List.eq_nil_or_concat l₂ with y | ⟨l, z, y⟩
      · rw [y] at hl
        have hl' : Spec.sent a.out ++ [g] = l₁ ++ [f] := hl
        obtain ⟨e1, e2⟩ := List.append_inj' hl' rfl
        have e3 : g = f := by simpa using e2
        have hst := hfin (e3 ▸ hf)
        have hp := hS.finPhase (by rcases hst with y | y <;> simp [Late, y])
        rw [← e1]
        intro i i1 i2 i3
        rcases hp.num with y | y
        · rw [y.1] at i3; simp at i3; omega
        · exact h.most (by rcases hst with y | y <;> simp [y]) i i1 (by omega) i3
      · rw [y] at hl
        have hl' : Spec.sent a.out ++ [g] = (l₁ ++ f :: l) ++ [z] := by simpa using hl
        obtain ⟨e1, _⟩ := List.append_inj' hl' rfl
        exact h.fin l₁ f l e1 hf

theorem cov_run {iss : Nat} (active : Bool) (lip : IpAddress) (lport : Nat) (rip : IpAddress) (rport : Nat) {evs : List Ev}
    (hs : ∀ m ∈ Spec.arrivals evs, AckOk iss m) : CovInv iss ((opened active iss lip lport rip rport).run evs) := by
  have keep : ∀ a b : Sess, CovInv iss a → Spec.sent b.out = Spec.sent a.out → Spec.accepted b.out = Spec.accepted a.out →
      b.sndMax = a.sndMax → b.state = a.state → CovInv iss b := by
    intro a b h h1 h2 h3 h4
    exact ⟨by rw [h1, h2, h3, h4]; exact h.most, by rw [h1, h2]; exact h.fin⟩
  have key : ∀ evs : List Ev, (∀ m ∈ Spec.arrivals evs, AckOk iss m) →
      SendInv iss ((opened active iss lip lport rip rport).run evs) ∧ CovInv iss ((opened active iss lip lport rip rport).run evs) := by
    intro evs
    induction evs using List.reverseRecOn with
    | nil =>
      intro _
      refine ⟨send_opened active lip lport rip rport, ?_⟩
      show CovInv iss (opened active iss lip lport rip rport)
      rw [opened_eq]
      refine ⟨fun _ i _ _ hi => ?_, fun l₁ f l₂ hl => ?_⟩
      · simp [new] at hi; omega
      · simp [new] at hl
    | append_singleton evs e ih =>
      intro hs
      have hs1 : ∀ m ∈ Spec.arrivals evs, AckOk iss m := fun m hm => hs m (by simp [Spec.arrivals] at hm ⊢; exact .inl hm)
      have hs2 : ∀ m ∈ Spec.arrivals [e], AckOk iss m := fun m hm => hs m (by
        unfold Spec.arrivals at hm ⊢; rw [List.filterMap_append]; exact List.mem_append_right _ hm)
      obtain ⟨hS, hC⟩ := ih hs1
      have hrun : (opened active iss lip lport rip rport).run (evs ++ [e]) = ((opened active iss lip lport rip rport).run evs).step e := by
        unfold run; rw [List.foldl_append]; rfl
      have hS' := send_run (evs := [e]) hs2 hS
      refine ⟨by rw [hrun]; exact hS', ?_⟩
      rw [hrun]
      generalize (opened active iss lip lport rip rport).run evs = s at hS hC
      have done : ∀ i, InputOk (AckOk iss) i → CovInv iss (s.fsm i).done := by
        intro i hi
        have := ((fsm_path hS.queueOk hi).keeps (P := fun s => SendInv iss s ∧ CovInv iss s)
          (fun a b h hm => ⟨send_micro h.1 hm, cov_micro h.1 h.2 hm⟩) ⟨hS, hC⟩).2
        unfold Res.done
        split
        · exact this
        · exact keep _ _ this (sent_raised _ _) (by simp [Spec.accepted, emit]) rfl rfl
      cases e with
      | segment m => exact done _ (hs2 m (by simp [Spec.arrivals]))
      | close => exact done _ rfl
      | timer => exact done _ trivial
      | send d =>
        show CovInv iss (s.send d)
        unfold send
        split
        · rename_i hst
          have hp := hS.openPhase hst
          refine ⟨fun hc => ?_, fun l₁ f l₂ hl hf => ?_⟩
          · intro i i1 i2 i3
            have h1 := hC.most (by rcases hst with x | x <;> simp [x]) i i1 i2 (by have := hp.top; dsimp only at i2; omega)
            simpa [Spec.sent] using h1
          · exfalso
            have hl' : Spec.sent s.out = l₁ ++ f :: l₂ := by rw [← hl]; simp [Spec.sent]
            exact (hS.sent.fin f (by rw [hl']; simp) hf).2 (early_of_open hst)
        · exact keep _ _ hC (by simp [Spec.sent, emit]) (by simp [Spec.accepted, emit]) rfl rfl
      | recvAcquire =>
        show CovInv iss s.recvAcquire
        unfold recvAcquire
        split
        · exact hC
        · exact keep _ _ hC rfl rfl rfl rfl
      | recvTake n =>
        show CovInv iss (s.recvTake n)
        rcases recvTake_cases s n with x | ⟨k, e, x⟩ <;> rw [x]
        · exact hC
        · exact keep _ _ hC (by simp) (by simp) rfl rfl
      | connectReturn =>
        show CovInv iss s.connectReturn
        unfold connectReturn
        split
        · exact hC
        · dsimp only
          split
          · exact keep _ _ hC (by simp [Spec.sent, emit]) (by simp [Spec.accepted, emit]) rfl rfl
          · split <;> exact keep _ _ hC (by simp [Spec.sent, emit]) (by simp [Spec.accepted, emit]) rfl rfl
      | clock => exact keep _ _ hC rfl rfl rfl rfl
      | table b => exact keep _ _ hC rfl rfl rfl rfl
  exact (key evs hs).2

/-! ### The semaphore of `receive` -/

/-- The states in which `receive` is to see the end. -/
def Ended (st : FsmState) : Prop := st = .closeWait ∨ st = .lastAck ∨ st = .closed

/-- When receive calls are not interleaved with anything, the semaphore is up only when there are data, until the end. -/
structure EofInv (s : Sess) : Prop where
  none : s.readers = 0
  sem : ¬ Ended s.state → s.evRx ≤ 1 ∧ (s.evRx = 1 → s.rx ≠ [])

theorem eof_micro {iss : Nat} {a b : Sess} (hS : SendInv iss a) (h : EofInv a) (hm : Micro Q G a b) : EofInv b := by
  have same : ∀ b : Sess, b.readers = a.readers → b.evRx = a.evRx → b.rx = a.rx → (¬ Ended b.state → ¬ Ended a.state) → EofInv b := by
    intro b h1 h2 h3 h4
    exact ⟨h1 ▸ h.none, fun x => by rw [h2, h3]; exact h.sem (h4 x)⟩
  have ended : ∀ b : Sess, b.readers = a.readers → Ended b.state → EofInv b := fun b h1 h2 => ⟨h1 ▸ h.none, fun x => absurd h2 x⟩
  have ack : ∀ (a : Sess) (m : TcpMd), EofInv a → EofInv (a.ackUpdate m) := by
    intro a m h
    refine ⟨by rw [ackUpdate_eq]; exact h.none, fun x => ?_⟩
    rw [ackUpdate_state] at x
    have := h.sem x
    rw [ackUpdate_eq]
    dsimp only
    split
    · rename_i hc
      exact ⟨Nat.le_refl _, fun _ => by simp [hc.1]⟩
    · refine ⟨this.1, fun y => ?_⟩
      have := this.2 y
      simp [this]
  cases hm with
  | abort => exact ended _ (by rw [abortAs_eq]) (by simp [Ended])
  | abortMove hst hc' hcl htx => exact (no_abortMove hS (by rcases hst with x | x <;> simp [x.1]) hc' htx).elim
  | dup => rw [retransmitRequest_eq]; exact same _ rfl rfl rfl (fun x => x)
  | synAckIn hq hst => exact ack _ _ ⟨h.none, h.sem⟩
  | ackIn hq => exact ack _ _ h
  | dataIn hq => exact ack _ _ h
  | finIn hq => exact ack _ _ h
  | reset => exact same _ rfl rfl rfl (fun x => x)
  | timerSet => exact same _ rfl rfl rfl (fun x => x)
  | store => exact same _ rfl rfl rfl (fun x => x)
  | pop => exact same _ rfl rfl rfl (fun x => x)
  | closes => exact same _ rfl rfl rfl (fun x => x)
  | synIn hq hst => exact same _ (by simp; rfl) (by simp; rfl) (by simp; rfl) (fun _ => by simp [Ended, hst])
  | establish hq hst => exact same _ (by simp) (by simp) (by simp) (fun _ => by simp [Ended, hst])
  | establish' hq hst => exact same _ (by simp [emit]) (by simp [emit]) (by simp [emit]) (fun _ => by simp [Ended, hst])
  | refused => exact ended _ (by simp) (by simp [Ended])
  | finEarly hst => exact same _ (by simp) (by simp) (by simp) (fun _ => by simp [Ended, hst])
  | toCloseWait => exact ended _ (by simp) (by simp [Ended])
  | toFinWait2 hq hst => exact same _ (by simp) (by simp) (by simp) (fun _ => by rcases hst with x | x <;> simp [Ended, x])
  | toTimeWait hq hst =>
    exact same _ (by simp [setTimer]) (by simp [setTimer]) (by simp [setTimer]) (fun _ => by rcases hst with x | x <;> simp [Ended, x])
  | toClosing hq hst => exact same _ (by simp) (by simp) (by simp) (fun _ => by rcases hst with x | ⟨x, _⟩ <;> simp [Ended, x])
  | closingAck hq hst => exact same _ (by simp [setTimer]) (by simp [setTimer]) (by simp [setTimer]) (fun _ => by simp [Ended, hst])
  | shut => exact ended _ (by simp) (by simp [Ended])
  | finClose hst => exact same _ (by simp) (by simp) (by simp) (fun _ => by simp [Ended, hst])
  | lastClose hst => exact ended _ (by simp) (by simp [Ended])
  | _ => exact same _ (by simp [ackAs]) (by simp [ackAs]) (by simp [ackAs]) (by simp [ackAs])

/-- A receive call from beginning to end. -/
theorem receive_cases {s : Sess} (h : s.readers = 0) (n : Option Nat) :
    (s.evRx = 0 ∧ s.recvAcquire.recvTake n = s) ∨
    (s.evRx ≠ 0 ∧ s.rx = [] ∧ (s.state = .closeWait ∨ s.state = .closed) ∧
      s.recvAcquire.recvTake n = { s with evRx := s.evRx - 1, out := s.out ++ [.received []] }) ∨
    (s.evRx ≠ 0 ∧ ¬ (s.rx = [] ∧ (s.state = .closeWait ∨ s.state = .closed)) ∧ ∃ k, (k = match n with | none => s.rx.length | some n => min n s.rx.length) ∧
      s.recvAcquire.recvTake n = { s with
        rx := s.rx.drop k
        evRx := if s.rx.drop k ≠ [] ∨ s.state = .closeWait ∨ s.state = .closed then s.evRx else s.evRx - 1
        out := s.out ++ [.received (s.rx.take k)] }) := by
  unfold recvAcquire
  by_cases h0 : s.evRx = 0
  · left
    rw [if_pos h0]
    refine ⟨h0, ?_⟩
    unfold recvTake
    rw [if_pos h]
  · right
    rw [if_neg h0]
    unfold recvTake
    rw [if_neg (by simp)]
    dsimp only
    by_cases hc : s.rx = [] ∧ (s.state = .closeWait ∨ s.state = .closed)
    · left
      rw [if_pos hc]
      refine ⟨h0, hc.1, hc.2, ?_⟩
      simp [emit, h]
    · right
      rw [if_neg hc]
      refine ⟨h0, hc, _, rfl, ?_⟩
      rcases n with _ | n <;>
      · dsimp only
        split
        · simp only [emit, h]
          congr 1
          omega
        · simp only [emit, h]

end Verif.Sess
