import Verif.Lemmas.Live
/-! An acknowledgement that is lost. -/
namespace Verif.Sess
open Verif

/-! ### The end that has acknowledged everything and has nothing to send -/

structure Mute (s : Sess) : Prop where
  state : s.state = .established
  closes : s.closes = false
  tx : s.tx = []
  nxt : s.sndNxt = s.sndUna
  mod : s.seqMod = s.sndUna
  tmo : s.txTmo.get? s.sndUna = none
  ack : s.rcvUna = s.rcvNxt

theorem Mute.timer {s : Sess} (h : Mute s) : s.step .timer = s ∨ s.step .timer = s.setTimer .delayedAck 100 := by
  have h1 : s.retransmitTimeout = ok s := by unfold retransmitTimeout; rw [h.tmo]
  have h0 : s.txNxt = 0 := by unfold txNxt; rw [h.nxt, h.mod]; omega
  have h2 : s.transmitData = ok s := by
    unfold transmitData
    rw [if_neg (by simp [h.nxt]), if_neg (by simp [h.state]), if_neg (by simp [h.state])]
    dsimp only
    rw [if_neg (by simp [h.tx, h0]), if_neg (by simp [h.state])]
  show (s.fsm .timer).done = _ ∨ (s.fsm .timer).done = _
  rw [fsm_established h.state h.closes, h1, ok_next, h2, ok_next]
  unfold delayedAck
  split
  · right
    rw [if_neg (by rw [h.ack]; exact Nat.lt_irrefl _), ok_next, ok_next, if_neg (by simp [setTimer, h.closes]), ok_done]
  · left
    rw [ok_next, if_neg (by simp [h.closes]), ok_done]

theorem Mute.old {s : Sess} (h : s.state = .established) {m : TcpMd} (hm : m.seq < s.rcvNxt) : s.step (.segment m) = s := by
  show (s.fsm (.packet m)).done = s
  unfold fsm fsmFuel fsmWith
  rw [h]
  show (s.fsmEstablished _ (.packet m)).done = s
  unfold fsmEstablished
  dsimp only
  rw [if_pos (by omega)]
  rfl

theorem Mute.call {s s' : Sess} (h : Mute s) (hc : Called s s') (ht : s'.tx = s.tx) : Mute s' ∧ s'.rcvNxt = s.rcvNxt ∧ Spec.sent s'.out = Spec.sent s.out := by
  have hb := hc.aside.1
  unfold Beside at hb
  exact ⟨⟨by rw [hb]; exact h.state, by rw [hb]; exact h.closes, by rw [ht]; exact h.tx, by rw [hb]; exact h.nxt, by rw [hb]; exact h.mod,
    by rw [hb]; exact h.tmo, by rw [hb]; exact h.ack⟩, by rw [hb], hc.aside.2.2⟩

theorem call_tx {e : Ev} (h : Spec.Call e) (hd : ∀ d, e ≠ .send d) (s : Sess) : (s.step e).tx = s.tx ∧ Spec.accepted (s.step e).out = Spec.accepted s.out := by
  cases h with
  | send d => exact absurd rfl (hd d)
  | recvAcquire =>
    show s.recvAcquire.tx = _ ∧ Spec.accepted s.recvAcquire.out = _
    unfold recvAcquire; split <;> exact ⟨rfl, rfl⟩
  | recvTake n =>
    show (s.recvTake n).tx = _ ∧ Spec.accepted (s.recvTake n).out = _
    rcases recvTake_cases s n with x | ⟨k, e, x⟩ <;> rw [x] <;> simp
  | connectReturn =>
    show s.connectReturn.tx = _ ∧ Spec.accepted s.connectReturn.out = _
    unfold connectReturn
    split
    · exact ⟨rfl, rfl⟩
    · dsimp only
      split
      · exact ⟨rfl, by simp [emit, Spec.accepted]⟩
      · split
        · exact ⟨rfl, by simp [emit, Spec.accepted]⟩
        · exact ⟨rfl, by simp [emit, Spec.accepted]⟩

theorem Mute.step {s : Sess} (h : Mute s) {e : Ev} (he : Spec.Still e ∨ ∃ m, e = .segment m ∧ m.seq < s.rcvNxt) :
    Mute (s.step e) ∧ (s.step e).rcvNxt = s.rcvNxt ∧ Spec.sent (s.step e).out = Spec.sent s.out := by
  rcases he with (rfl | rfl | ⟨he, hd⟩) | ⟨m, rfl, hm⟩
  · exact ⟨⟨h.1, h.2, h.3, h.4, h.5, h.6, h.7⟩, rfl, rfl⟩
  · rcases h.timer with x | x <;> rw [x]
    · exact ⟨h, rfl, rfl⟩
    · exact ⟨⟨h.1, h.2, h.3, h.4, h.5, h.6, h.7⟩, rfl, rfl⟩
  · exact h.call (Sess.call he) (call_tx he hd s).1
  · rw [Mute.old h.state hm]; exact ⟨h, rfl, rfl⟩

theorem Mute.run {s : Sess} (h : Mute s) {evs : List Ev} (he : ∀ e ∈ evs, Spec.Still e ∨ ∃ m, e = .segment m ∧ m.seq < s.rcvNxt) :
    Mute (s.run evs) ∧ (s.run evs).rcvNxt = s.rcvNxt ∧ Spec.sent (s.run evs).out = Spec.sent s.out := by
  induction evs generalizing s with
  | nil => exact ⟨h, rfl, rfl⟩
  | cons e l ih =>
    obtain ⟨h1, h2, h3⟩ := h.step (he e List.mem_cons_self)
    obtain ⟨k1, k2, k3⟩ := ih h1 (fun e' h' => by rw [h2]; exact he e' (List.mem_cons_of_mem _ h'))
    exact ⟨k1, k2.trans h2, k3.trans h3⟩

/-! ### The end that waits -/

structure Alone (q : Nat) (s : Sess) : Prop where
  state : s.state = .established
  una : s.sndUna = q
  tx : s.tx ≠ []
  ack : s.rcvUna = s.rcvNxt

/-- Only data and segments with this number have been sent since. -/
structure Only (q : Nat) (s s' : Sess) : Prop where
  new : ∃ new, Spec.sent s'.out = Spec.sent s.out ++ new ∧ ∀ g ∈ new, g.data ≠ [] ∨ g.seq = q
  acc : Spec.accepted s'.out = Spec.accepted s.out

theorem Only.refl {q : Nat} (s : Sess) : Only q s s := ⟨⟨[], by simp, by simp⟩, rfl⟩

theorem Only.trans {q : Nat} {a b c : Sess} (h : Only q a b) (h' : Only q b c) : Only q a c := by
  obtain ⟨⟨n, h1, h2⟩, h3⟩ := h
  obtain ⟨⟨m, k1, k2⟩, k3⟩ := h'
  refine ⟨⟨n ++ m, by rw [k1, h1, List.append_assoc], fun g hg => ?_⟩, k3.trans h3⟩
  rcases List.mem_append.1 hg with x | x
  · exact h2 g x
  · exact k2 g x

theorem Only.same {q : Nat} {a b : Sess} (h : b.out = a.out) : Only q a b := ⟨⟨[], by rw [h]; simp, by simp⟩, by rw [h]⟩

variable {iss q : Nat} {s : Sess}

theorem open_reset (h : OpenPhase iss s) (hi : s.sndIni = iss) : OpenPhase iss s.resetAs := by
  refine ⟨h.una, Nat.le_refl _, by show s.sndUna ≤ s.sndMax; have := h.nxt; have := h.most; omega, h.top, ?_, h.tx, h.fin, h.tmo, h.ooo⟩
  have h1 := h.una
  have h2 := h.fin
  show (if s.sndUna = s.sndIni ∨ s.sndUna = s.sndFin then s.seqMod - 1 else s.seqMod) = s.sndUna
  rw [if_neg (by rw [hi, h2]; omega), h.mod]

theorem Alone.sends (h : Alone q s) (ho : OpenPhase iss s) :
    s.transmitData.s = s ∨ ∃ d, d ≠ [] ∧ s.transmitData = ok (s.sentAs s.sndNxt false true false false d) := by
  unfold transmitData
  split
  · exact .inl rfl
  · rename_i hw
    rw [if_neg (by simp [h.state]), if_neg (by simp [h.state])]
    dsimp only
    split
    · split
      · rename_i hn
        obtain ⟨n, n0, _, _, _, _, _, hp, hl⟩ := ho.send (Classical.not_not.1 hw) hn
        have : pySlice s.tx s.txNxt (s.txNxt + s.sendLen) ≠ [] := by
          rw [hp]
          intro y
          rw [y] at hl
          exact n0 hl.symm
        rcases transmit_cases s none false true false false (pySlice s.tx s.txNxt (s.txNxt + s.sendLen)) with ⟨x, _⟩ | x
        · exact .inr ⟨_, this, x⟩
        · exact .inl (congrArg Res.s x)
      · exact .inl rfl
    · rw [if_neg (by simp [h.state])]
      exact .inl rfl

theorem Alone.transmit (h : Alone q s) (ho : OpenPhase iss s) : Alone q s.transmitData.s ∧ Only q s s.transmitData.s := by
  rcases h.sends ho with x | ⟨d, hd, x⟩ <;> rw [x]
  · exact ⟨h, .refl s⟩
  · exact ⟨⟨by simp [ok, h.state], by simp [ok, h.una], by simp [ok, h.tx], by simp [ok]⟩,
      ⟨⟨[⟨false, true, false, false, s.sndNxt, s.rcvNxt, d⟩], by simp [ok], fun g hg => .inl (by simp at hg; rw [hg]; exact hd)⟩, by simp [ok]⟩⟩

theorem rest_quiet {s : Sess} (ht : s.tx ≠ []) (ha : s.rcvUna = s.rcvNxt) :
    s.rest .established = ok s ∨ s.rest .established = ok (s.setTimer .delayedAck 100) := by
  unfold Sess.rest delayedAck
  rw [if_pos (.inl rfl)]
  split
  · rw [if_neg (by rw [ha]; exact Nat.lt_irrefl _), ok_next, ok_next, if_neg (by simp [setTimer, ht])]
    exact .inr rfl
  · rw [ok_next, if_neg (by simp [ht])]
    exact .inl rfl

theorem Alone.rest (h : Alone q s) : Alone q (s.rest .established).s ∧ Only q s (s.rest .established).s := by
  rcases rest_quiet h.tx h.ack with x | x <;> rw [x]
  · exact ⟨h, .refl s⟩
  · exact ⟨⟨h.1, h.2, h.3, h.4⟩, .same rfl⟩

theorem Alone.tail (h : Alone q s) (ho : OpenPhase iss s) :
    Alone q (s.transmitData.next fun s => s.rest .established).s ∧ Only q s (s.transmitData.next fun s => s.rest .established).s := by
  obtain ⟨h1, h2⟩ := h.transmit ho
  rcases next_s s.transmitData (fun s => s.rest .established) with x | x <;> rw [x]
  · exact ⟨h1, h2⟩
  · exact ⟨h1.rest.1, h2.trans h1.rest.2⟩

theorem Only.emit (s : Sess) (e : PyErr) : Only q s (s.emit (.raised e)) := ⟨⟨[], by rw [sent_raised]; simp, by simp⟩, by simp [Sess.emit, Spec.accepted]⟩

theorem Alone.done {r : Res} (h : Alone q r.s) : Alone q r.done ∧ Only q r.s r.done := by
  rcases done_s r with x | ⟨e, x⟩ <;> rw [x]
  · exact ⟨h, .refl _⟩
  · exact ⟨⟨h.1, h.2, h.3, h.4⟩, .emit _ e⟩

theorem Alone.timer (h : Alone q s) (hS : SendInv iss s) :
    Only q s (s.step .timer) ∧ (Alone q (s.step .timer) ∨ (s.step .timer).state = .closed) := by
  have ho := hS.openPhase (.inl h.state)
  show Only q s (s.fsm .timer).done ∧ (Alone q (s.fsm .timer).done ∨ (s.fsm .timer).done.state = .closed)
  rw [fsm_timer (.inr (.inr (.inl h.state))), h.state]
  rcases retransmitTimeout_forms s with ⟨x, _⟩ | ⟨c', _, _, _, x⟩ | ⟨_, _, x | ⟨e, x⟩⟩
  · rw [x, ok_next]
    obtain ⟨h1, h2⟩ := h.tail ho
    exact ⟨h2.trans h1.done.2, .inl h1.done.1⟩
  · rw [x, ok_next]
    have hr : Alone q s.resetAs := ⟨h.1, h.2, h.3, h.4⟩
    obtain ⟨h1, h2⟩ := hr.tail (open_reset ho hS.ini)
    exact ⟨((Only.same rfl : Only q s s.resetAs).trans h2).trans h1.done.2, .inl h1.done.1⟩
  · rw [x]
    exact ⟨.emit _ _, .inl ⟨h.1, h.2, h.3, h.4⟩⟩
  · rw [x]
    have ht : s.abortAs.tx ≠ [] := by rw [abortAs_eq]; exact h.tx
    have hk : s.abortAs.rcvUna = s.abortAs.rcvNxt := by rw [abortAs_eq]
    have hst : s.abortAs.state = .closed := by rw [abortAs_eq]
    have h0 : Only q s s.abortAs := by
      refine ⟨⟨[⟨false, true, false, true, s.sndUna, s.rcvNxt, []⟩], ?_, fun g hg => .inr (by simp at hg; rw [hg]; exact h.una)⟩, ?_⟩
      · rw [abortAs_eq]; dsimp only; split <;> simp [Spec.sent]
      · rw [abortAs_eq]; dsimp only; split <;> simp [Spec.accepted]
    have key : ∀ r : Res, r.s.out = s.abortAs.out → r.s.state = .closed → Only q s r.done ∧ (Alone q r.done ∨ r.done.state = .closed) := by
      intro r hr hs
      rcases done_s r with y | ⟨e, y⟩ <;> rw [y]
      · exact ⟨h0.trans (.same hr), .inr hs⟩
      · exact ⟨(h0.trans (.same hr)).trans (.emit _ e), .inr hs⟩
    rcases next_s (⟨s.abortAs, e⟩ : Res) (fun s => s.transmitData.next fun s => s.rest .established) with y | y
    · exact key _ (by rw [y]) (by rw [y]; exact hst)
    · rcases next_s s.abortAs.transmitData (fun s => s.rest .established) with z | z
      · rw [closed_transmitData hst] at z
        exact key _ (by rw [y, z]) (by rw [y, z]; exact hst)
      · rw [closed_transmitData hst] at z
        rcases rest_quiet ht hk with w | w <;> rw [w] at z
        · exact key _ (by rw [y, z]; rfl) (by rw [y, z]; exact hst)
        · exact key _ (by rw [y, z]; rfl) (by rw [y, z]; exact hst)

theorem Alone.step (h : Alone q s ∨ s.state = .closed) (hS : SendInv iss s) {e : Ev} (he : Spec.Still e) :
    Only q s (s.step e) ∧ (Alone q (s.step e) ∨ (s.step e).state = .closed) := by
  rcases he with rfl | rfl | ⟨he, hd⟩
  · refine ⟨.same rfl, ?_⟩
    rcases h with h | h
    · exact .inl ⟨h.1, h.2, h.3, h.4⟩
    · exact .inr h
  · rcases h with h | h
    · exact h.timer hS
    · have : s.step .timer = s := by
        show (s.fsm .timer).done = s
        unfold fsm fsmFuel fsmWith
        rw [h]; rfl
      rw [this]
      exact ⟨.refl s, .inr h⟩
  · have hc := (Sess.call he : Called s _)
    obtain ⟨h1, h2⟩ := call_tx he hd s
    have hb := hc.aside.1
    unfold Beside at hb
    refine ⟨⟨⟨[], by rw [hc.aside.2.2]; simp, by simp⟩, h2⟩, ?_⟩
    rcases h with h | h
    · exact .inl ⟨by rw [hb]; exact h.state, by rw [hb]; exact h.una, by rw [h1]; exact h.tx, by rw [hb]; exact h.ack⟩
    · exact .inr (by rw [hb]; exact h)

theorem Alone.run {evs : List Ev} (h : Alone q s ∨ s.state = .closed) (hS : SendInv iss s) (he : ∀ e ∈ evs, Spec.Still e) : Only q s (s.run evs) := by
  induction evs generalizing s with
  | nil => exact .refl s
  | cons e l ih =>
    obtain ⟨h1, h2⟩ := Alone.step h hS (he e List.mem_cons_self)
    have hna : ∀ m, e ≠ .segment m := by
      intro m hm
      rcases he e List.mem_cons_self with x | x | ⟨x, _⟩
      · rw [hm] at x; cases x
      · rw [hm] at x; cases x
      · rw [hm] at x; cases x
    have hS' : SendInv iss (s.step e) := send_run (evs := [e]) (no_arrivals hna) hS
    exact h1.trans (ih h2 hS' (fun e' h' => he e' (List.mem_cons_of_mem _ h')))

/-! ### Sending again -/

theorem out_quiet {s : Sess} (h : SendInv iss s) {evs : List Ev} (he : ∀ m, Ev.segment m ∉ evs) : s.out <+: (s.run evs).out := by
  induction evs generalizing s with
  | nil => exact List.prefix_refl _
  | cons e l ih =>
    have hna : ∀ m, e ≠ .segment m := fun m hm => he m (by rw [hm]; exact List.mem_cons_self)
    have hS : SendInv iss (s.step e) := send_run (evs := [e]) (no_arrivals hna) h
    exact (out_step ⟨fun e he => ⟨(h.queue.each e he).1, (h.queue.each e he).2.1, trivial⟩, h.queue.early⟩ e).trans
      (ih hS (fun m hm => he m (List.mem_cons_of_mem _ hm)))

theorem quiet_arrivals {b : List Ev} (h : Spec.Quiet b) (m : TcpMd) : Ev.segment m ∉ b := by
  cases h with
  | ms h1 h2 =>
    intro hm
    rcases List.mem_cons.1 hm with y | y
    · cases y
    · rcases List.mem_append.1 y with y | y
      · cases h1 _ y
      · rcases List.mem_cons.1 y with y | y
        · cases y
        · cases h2 _ y

theorem arrivals_nil {evs : List Ev} (h : ∀ m, Ev.segment m ∉ evs) {P : TcpMd → Prop} : ∀ m ∈ Spec.arrivals evs, P m := by
  intro m hm
  obtain ⟨e, he, hm⟩ := List.mem_filterMap.1 hm
  cases e <;> simp at hm
  subst hm
  exact absurd he (h _)

theorem Waits.resent {c : Nat} {s : Sess} (h : Waits iss q c s) (hC : CountInv s) (hc : c ≤ 2) {blocks : List (List Ev)}
    (hb : ∀ b ∈ blocks, Spec.Quiet b) (hl : max (s.left q) 1 ≤ blocks.length) :
    c + 1 < Spec.transmissions q (s.run blocks.flatten).out := by
  induction blocks generalizing s with
  | nil => simp at hl
  | cons b l ih =>
    have hq := hb b List.mem_cons_self
    have hl' : ∀ b ∈ l, Spec.Quiet b := fun x hx => hb x (List.mem_cons_of_mem _ hx)
    rw [run_blocks]
    have hC' : CountInv (s.run b) := count_run (arrivals_nil (quiet_arrivals hq)) h.send hC
    rcases h.ms (by omega) hq with ⟨h1, h2, h3⟩ | ⟨h1, h2, h3⟩ | ⟨h1, -⟩
    · exact ih h2 hC' hl' (by rw [List.length_cons] at hl; omega)
    · have e1 := hC'.count q (by rw [h2.una])
      unfold counted at e1
      rw [h2.tmo] at e1
      dsimp only at e1
      obtain ⟨t, ht⟩ := out_quiet h2.send (evs := l.flatten) (fun m hm => by
        obtain ⟨x, hx, hm⟩ := List.mem_flatten.1 hm
        exact quiet_arrivals (hl' x hx) m hm)
      rw [← ht, transmissions_append]
      omega
    · omega

end Verif.Sess
