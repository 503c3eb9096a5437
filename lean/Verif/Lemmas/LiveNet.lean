import Verif.Lemmas.Live
/-! Both ends of a connection over a network that loses nothing. -/
namespace Verif.Sess
open Verif

/-! ### One direction -/

/-- Of the segments `L` that `a` has sent, `n` have arrived at `b`, which has answered with `M`. -/
structure Half (a b : Sess) (L : List (Nat × Seg)) (n : Nat) (M : List (Nat × Seg)) (u D now : Nat) : Prop where
  count : n ≤ L.length
  done : Trail (a.sndIni + 1) u (L.take n) b.rcvNxt b.sndUna
  rest : Trail b.rcvNxt b.sndUna (L.drop n) a.sndNxt a.rcvUna
  late : ∀ x ∈ L.take n, x.2.data ≠ [] → b.rcvUna < x.2.stop → (now : Int) + b.dl ≤ x.1 + D + 101
  told : ∀ x ∈ L, x.2.data ≠ [] → x.2.stop ≤ b.rcvUna → ∃ y ∈ M, x.2.stop ≤ y.2.ackn ∧ y.1 ≤ x.1 + D + 102
  under : ∀ x ∈ L.drop n, now ≤ x.1 + D
  ack : b.rcvUna ≤ b.rcvNxt
  dl : 0 ≤ b.dl ∧ b.dl ≤ 100
  got : b.rcvNxt = a.sndIni + 1 + b.delivered.length

variable {a b a' b' : Sess} {L M : List (Nat × Seg)} {n m u v D now : Nat}

theorem stop_gt {g : Seg} (h : g.data ≠ []) : g.seq < g.stop := by
  have := List.length_pos_iff.2 h
  unfold Seg.stop
  omega

theorem Half.low (h : Half a b L n M u D now) {x : Nat × Seg} (hx : x ∈ L) (hd : x.2.data ≠ []) (hs : x.2.stop ≤ b.rcvNxt) : x ∈ L.take n := by
  rw [← List.take_append_drop n L] at hx
  rcases List.mem_append.1 hx with hx | hx
  · exact hx
  · have := (h.rest.mem hx).1
    have := stop_gt hd
    omega

/-- Everything sent is acknowledged in time. -/
theorem Half.hot (h : Half a b L n M u D now) (h' : Half b a M m L v D now) {x : Nat × Seg} (hx : x ∈ L) (hd : x.2.data ≠ [])
    (hs : a.sndUna < x.2.stop) : now ≤ x.1 + 2 * D + 102 := by
  have hx' := hx
  rw [← List.take_append_drop n L] at hx'
  rcases List.mem_append.1 hx' with hx' | hx'
  · by_cases hu : b.rcvUna < x.2.stop
    · have := h.late x hx' hd hu
      have := h.dl.1
      omega
    · obtain ⟨y, hy, h1, h2⟩ := h.told x hx hd (by omega)
      rw [← List.take_append_drop m M] at hy
      rcases List.mem_append.1 hy with hy | hy
      · have := (h'.done.mem hy).2.2.2
        omega
      · have := h'.under y hy
        omega
  · have := h.under x hx'
    omega

theorem Trail.acked {x u y w : Nat} {l : List (Nat × Seg)} (h : Trail x u l y w) (hu : u < w) : ∃ p ∈ l, p.2.ackn = w := by
  induction l generalizing x u with
  | nil => obtain ⟨rfl, rfl⟩ := h; omega
  | cons q l ih =>
    by_cases hq : q.2.ackn = w
    · exact ⟨q, List.mem_cons_self, hq⟩
    · obtain ⟨p, hp, h1⟩ := ih h.2.2.2.2.2 (Nat.lt_of_le_of_ne h.2.2.2.2.2.mono.2 hq)
      exact ⟨p, List.mem_cons_of_mem _ hp, h1⟩

theorem received_sents (l : List Seg) : Spec.received (l.map Out.sent) = [] := by
  induction l with
  | nil => rfl
  | cons g l ih => exact ih
theorem accepted_sents (l : List Seg) : Spec.accepted (l.map Out.sent) = [] := by
  induction l with
  | nil => rfl
  | cons g l ih => exact ih
theorem sent_sents (l : List Seg) : Spec.sent (l.map Out.sent) = l := by
  induction l with
  | nil => rfl
  | cons g l ih => rw [List.map_cons, Spec.sent_sent, ih]

theorem Ticked.delivered {s s' : Sess} {new : List Seg} (h : Ticked s s' new) : s'.delivered = s.delivered := by
  unfold Sess.delivered
  rw [h.out, h.rx, Spec.received_append, received_sents, List.append_nil]

theorem Half.tick {p q : List Seg} (h : Half a b L n M u D now) (ha : Ticked a a' p) (hb : Ticked b b' q)
    (hdl : 0 ≤ b'.dl ∧ b'.dl ≤ 100) (hn : ∀ x ∈ L.drop n, now < x.1 + D) :
    Half a' b' (L ++ p.map fun g => (now + 1, g)) n (M ++ q.map fun g => (now + 1, g)) u D (now + 1) := by
  have hab := h.rest.mono.1
  refine ⟨?_, ?_, ?_, ?_, ?_, ?_, ?_, hdl, ?_⟩
  · rw [List.length_append]; exact Nat.le_add_right_of_le h.count
  · rw [List.take_append_of_le_length h.count, ha.ini, hb.rcv, hb.una]; exact h.done
  · rw [List.drop_append_of_le_length h.count, hb.rcv, hb.una]
    exact h.rest.append (ha.trail _)
  · intro x hx hd hs
    rw [List.take_append_of_le_length h.count] at hx
    rcases hb.acks with e | ⟨e, h1, h2⟩
    · have := (h.done.mem hx).2.1
      omega
    · have := h.late x hx hd (by omega)
      omega
  · intro x hx hd hs
    by_cases ho : x ∈ L ∧ x.2.stop ≤ b.rcvUna
    · obtain ⟨y, hy, h1⟩ := h.told x ho.1 hd ho.2
      exact ⟨y, List.mem_append_left _ hy, h1⟩
    · have hle : b'.rcvUna ≤ b.rcvNxt := by
        rcases hb.acks with e | ⟨e, -⟩ <;> have := h.ack <;> omega
      have hx' : x ∈ L := by
        rcases List.mem_append.1 hx with hx | hx
        · exact hx
        · have := ((ha.trail (now + 1)).mem hx).1
          have := stop_gt hd
          omega
      have hu : ¬ x.2.stop ≤ b.rcvUna := fun y => ho ⟨hx', y⟩
      have hl := h.late x (h.low hx' hd (by omega)) hd (by omega)
      have := h.dl.1
      obtain ⟨y, hy, h1⟩ := (hb.trail (now + 1)).acked (by omega)
      refine ⟨y, List.mem_append_right _ hy, by omega, ?_⟩
      obtain ⟨g, -, rfl⟩ := List.mem_map.1 hy
      dsimp only
      omega
  · intro x hx
    rw [List.drop_append_of_le_length h.count] at hx
    rcases List.mem_append.1 hx with hx | hx
    · exact hn x hx
    · obtain ⟨g, -, rfl⟩ := List.mem_map.1 hx
      exact Nat.le_add_right _ _
  · rw [hb.rcv]
    rcases hb.acks with e | ⟨e, -⟩ <;> have := h.ack <;> omega
  · rw [hb.rcv, hb.delivered, ha.ini]; exact h.got

/-- The next segment arrives at `b`. -/
theorem Half.arrive (h : Half a b L n M u D now) {x : Nat × Seg} (hx : L[n]? = some x) (h1 : b'.rcvNxt = b.rcvNxt + x.2.data.length)
    (h2 : b'.sndUna = x.2.ackn) (h3 : b'.rcvUna = b.rcvUna) (h4 : b'.dl = b.dl) (h5 : b'.delivered = b.delivered ++ x.2.data) :
    Half a b' L (n + 1) M u D now := by
  have hlt := (List.getElem?_eq_some_iff.1 hx).1
  have hdrop : L.drop n = x :: L.drop (n + 1) := by
    rw [List.drop_eq_getElem_cons hlt, (List.getElem?_eq_some_iff.1 hx).2]
  have htake : L.take (n + 1) = L.take n ++ [x] := by rw [List.take_add_one, hx]; rfl
  have hr := h.rest
  rw [hdrop] at hr
  have hstop : x.2.stop = b'.rcvNxt := by unfold Seg.stop; rw [hr.2.1, h1]
  refine ⟨hlt, ?_, ?_, ?_, ?_, ?_, ?_, ?_, ?_⟩
  · rw [htake]
    exact h.done.append ⟨hr.1, hr.2.1, hr.2.2.1, hr.2.2.2.1, hr.2.2.2.2.1, hstop, h2.symm⟩
  · rw [← hstop, h2]; exact hr.2.2.2.2.2
  · intro y hy hd hs
    rw [htake] at hy
    rw [h4]
    rcases List.mem_append.1 hy with hy | hy
    · exact h.late y hy hd (by omega)
    · rw [List.mem_singleton.1 hy]
      have := h.under x (by rw [hdrop]; exact List.mem_cons_self)
      have := h.dl.2
      omega
  · rw [h3]; exact h.told
  · intro y hy
    exact h.under y (by rw [hdrop]; exact List.mem_cons_of_mem _ hy)
  · have := h.ack; omega
  · rw [h4]; exact h.dl
  · rw [h1, h5, List.length_append, h.got]; omega

/-- Nothing that matters changes. -/
theorem Half.same (h : Half a b L n M u D now) (a1 : a'.sndIni = a.sndIni) (a2 : a'.sndNxt = a.sndNxt) (a3 : a'.rcvUna = a.rcvUna)
    (b1 : b'.rcvNxt = b.rcvNxt) (b2 : b'.sndUna = b.sndUna) (b3 : b'.rcvUna = b.rcvUna) (b4 : b'.dl = b.dl)
    (b5 : b'.delivered.length = b.delivered.length) : Half a' b' L n M u D now := by
  refine ⟨h.count, ?_, ?_, ?_, ?_, h.under, ?_, ?_, ?_⟩
  · rw [a1, b1, b2]; exact h.done
  · rw [a2, a3, b1, b2]; exact h.rest
  · rw [b3, b4]; exact h.late
  · rw [b3]; exact h.told
  · rw [b1, b3]; exact h.ack
  · rw [b4]; exact h.dl
  · rw [a1, b1, b5]; exact h.got

theorem Sends.dl_le {s : Sess} (h : Sends s L now) : 0 ≤ s.dl ∧ s.dl ≤ 100 := by
  unfold Sess.dl
  cases hw : s.timers.get? .delayedAck with
  | none => simp
  | some w => have := h.delay w hw; simp; omega

/-! ### Before the connection is up -/

/-- A session that has not sent anything. -/
structure Unsent (s : Sess) (st : FsmState) (i0 : Nat) : Prop where
  state : s.state = st
  closes : s.closes = false
  ooo : s.ooo = []
  ini : s.sndIni = i0
  una : s.sndUna = i0
  nxt : s.sndNxt = i0
  max : s.sndMax = i0
  mod : s.seqMod = i0
  tx : s.tx = []
  acc : Spec.accepted s.out = []
  wsc : s.sndWsc = 1
  timers : s.timers = []
  tmo : s.txTmo = []
  got : s.delivered = []

/-- A session that has sent its SYN at the time `t`. -/
structure Waiting (s : Sess) (st : FsmState) (i0 t now : Nat) : Prop where
  state : s.state = st
  closes : s.closes = false
  ooo : s.ooo = []
  ini : s.sndIni = i0
  una : s.sndUna = i0
  nxt : s.sndNxt = i0 + 1
  max : s.sndMax = i0 + 1
  mod : s.seqMod = i0 + 1
  tx : s.tx = []
  acc : Spec.accepted s.out = []
  wsc : s.sndWsc = 1
  ewn : 1 ≤ s.sndEwn
  nodup : (Dict.keys s.timers).Nodup
  tmo : s.txTmo = [(i0, 0)]
  timer : now < t + 1000 → s.timers.get? (.retransmit i0) = some ((t : Int) + 1000 - now)
  delay : s.timers.get? .delayedAck = none
  past : t ≤ now
  got : s.delivered = []

theorem Called.delivered {s s' : Sess} (h : Called s s') : s'.delivered = s.delivered := h.rx

theorem Unsent.call {s s' : Sess} {st : FsmState} {ini : Nat} (h : Unsent s st ini) (hc : Called s s') (hst : st ≠ .established ∧ st ≠ .closeWait) :
    Unsent s' st ini := by
  obtain ⟨d, h1, h2, h3⟩ := hc.tx
  have hd : d = [] := Classical.byContradiction fun hn => by
    rcases h3 hn with x | x <;> rw [h.state] at x
    · exact hst.1 x
    · exact hst.2 x
  have ht := hc.aside.2.1
  have hb := hc.aside.1
  unfold Beside at hb
  refine ⟨by rw [hb]; exact h.state, by rw [hb]; exact h.closes, by rw [hb]; exact h.ooo, by rw [hb]; exact h.ini, by rw [hb]; exact h.una,
    by rw [hb]; exact h.nxt, by rw [hb]; exact h.max, by rw [hb]; exact h.mod, by rw [h1, h.tx, hd]; rfl, by rw [h2, h.acc, hd]; rfl,
    by rw [hb]; exact h.wsc, by rw [ht]; exact h.timers, by rw [hb]; exact h.tmo, by rw [hc.delivered]; exact h.got⟩

theorem Waiting.call {s s' : Sess} {st : FsmState} {ini t now : Nat} (h : Waiting s st ini t now) (hc : Called s s')
    (hst : st ≠ .established ∧ st ≠ .closeWait) : Waiting s' st ini t now := by
  obtain ⟨d, h1, h2, h3⟩ := hc.tx
  have hd : d = [] := Classical.byContradiction fun hn => by
    rcases h3 hn with x | x <;> rw [h.state] at x
    · exact hst.1 x
    · exact hst.2 x
  have ht := hc.aside.2.1
  have hb := hc.aside.1
  unfold Beside at hb
  exact ⟨by rw [hb]; exact h.state, by rw [hb]; exact h.closes, by rw [hb]; exact h.ooo, by rw [hb]; exact h.ini, by rw [hb]; exact h.una,
    by rw [hb]; exact h.nxt, by rw [hb]; exact h.max, by rw [hb]; exact h.mod, by rw [h1, h.tx, hd]; rfl, by rw [h2, h.acc, hd]; rfl,
    by rw [hb]; exact h.wsc, by rw [hb]; exact h.ewn, by rw [ht]; exact h.nodup, by rw [hb]; exact h.tmo, by rw [ht]; exact h.timer,
    by rw [ht]; exact h.delay, h.past, by rw [hc.delivered]; exact h.got⟩

theorem clock_nil {s : Sess} (h : s.timers = []) : s.clock = s := by
  unfold clock
  rw [h]
  obtain ⟨⟩ := s
  cases h
  rfl

theorem fsm_timer_syn {s : Sess} (h : s.state = .synSent ∨ s.state = .synRcvd) : s.fsm .timer = s.retransmitTimeout.next fun s => s.transmitData := by
  unfold fsm fsmFuel fsmWith
  rcases h with x | x <;> rw [x] <;> rfl

theorem Unsent.listen_tick {s : Sess} {ini : Nat} (h : Unsent s .listen ini) : (s.step .clock).step .timer = s := by
  show (s.clock.fsm .timer).done = s
  rw [clock_nil h.timers]
  unfold fsm fsmFuel fsmWith
  rw [h.state]
  rfl

/-- The SYN, or the SYN and ACK, is sent. -/
theorem Unsent.tick {s : Sess} {st : FsmState} {ini : Nat} (h : Unsent s st ini) (now : Nat) (hst : st = .synSent ∨ st = .synRcvd)
    (hi : ini ≤ 0xFFFFFFFF) (hr : s.rcvNxt ≤ 0xFFFFFFFF) (he : 1 ≤ s.sndEwn) :
    let s' := (s.step .clock).step .timer
    let g : Seg := ⟨true, st = .synRcvd, false, false, ini, if st = .synRcvd then s.rcvNxt else 0, []⟩
    Waiting s' st ini (now + 1) (now + 1) ∧ s'.out = s.out ++ [.sent g] ∧ s'.rcvNxt = s.rcvNxt ∧ s'.rcvUna = s.rcvNxt ∧
      s'.sndMss = s.sndMss ∧ s'.sndEwn = s.sndEwn := by
  intro s' g
  have e : s' = { s with
      out := s.out ++ [.sent g]
      rcvUna := s.rcvNxt
      sndNxt := ini + 1
      sndMax := ini + 1
      seqMod := ini + 1
      txTmo := [(ini, 0)]
      timers := [(.retransmit ini, 1000)] } := by
    show (s.clock.fsm .timer).done = _
    rw [clock_nil h.timers, fsm_timer_syn (by rcases hst with x | x <;> rw [h.state, x] <;> simp)]
    rw [timeout_ok (by intro c hc; rw [h.tmo] at hc; cases hc), ok_next]
    unfold transmitData
    rw [if_neg (by rw [h.una, h.nxt]; simp)]
    rcases hst with x | x
    · subst x
      rw [if_pos ⟨h.state, by rw [h.nxt, h.ini]⟩]
      unfold transmitPacket
      simp [h.nxt, hi, emit, h.state, h.tmo, h.timers, h.max, h.mod, ok, Res.done, g]
      exact ⟨rfl, rfl⟩
    · subst x
      rw [if_neg (by rw [h.state]; simp), if_pos ⟨h.state, by rw [h.nxt, h.ini]⟩]
      unfold transmitPacket
      simp [h.nxt, hi, hr, emit, h.state, h.tmo, h.timers, h.max, h.mod, ok, Res.done, g]
      exact ⟨rfl, rfl⟩
  rw [e]
  refine ⟨⟨h.state, h.closes, h.ooo, h.ini, h.una, rfl, rfl, rfl, h.tx, ?_, h.wsc, he, by simp [Dict.keys], rfl, fun _ => ?_, rfl, Nat.le_refl _, ?_⟩,
    rfl, rfl, rfl, rfl, rfl⟩
  · simp [h.acc]
  · simp [Dict.get?]
  · have := h.got; unfold delivered at this ⊢; simpa using this

theorem Waiting.tick {s : Sess} {st : FsmState} {ini t now : Nat} (h : Waiting s st ini t now) (hst : st = .synSent ∨ st = .synRcvd)
    (hn : now + 1 < t + 1000) : (s.step .clock).step .timer = s.clock ∧ Waiting s.clock st ini t (now + 1) := by
  have hp := h.past
  have hw : Waiting s.clock st ini t (now + 1) := by
    refine ⟨h.state, h.closes, h.ooo, h.ini, h.una, h.nxt, h.max, h.mod, h.tx, h.acc, h.wsc, h.ewn, nodup_clock h.nodup, h.tmo, fun _ => ?_, ?_, by omega, h.got⟩
    · rw [clock_get h.nodup, h.timer (by omega), Option.bind_some, if_neg (by omega)]
      exact congrArg some (by omega)
    · rw [clock_get h.nodup, h.delay]; rfl
  refine ⟨?_, hw⟩
  show (s.clock.fsm .timer).done = _
  rw [fsm_timer_syn (by rcases hst with x | x <;> rw [hw.state, x] <;> simp)]
  rw [timeout_ok (by intro c hc; unfold expired; rw [hw.una, hw.timer hn]; simp; omega), ok_next]
  have hn0 : s.clock.txNxt = 0 := by unfold txNxt; rw [hw.nxt, hw.mod]; simp
  have := hw.ewn
  unfold transmitData
  rw [if_neg (by rw [hw.una, hw.nxt]; simp; omega), if_neg (by rw [hw.nxt, hw.ini]; simp), if_neg (by rw [hw.nxt, hw.ini]; simp)]
  dsimp only
  rw [hn0, hw.tx, if_neg (by simp), if_neg (by rcases hst with x | x <;> rw [hw.state, x] <;> simp)]
  rfl

/-- A SYN arrives at a listening session. -/
theorem Unsent.syn {s : Sess} {ini : Nat} (h : Unsent s .listen ini) {m : TcpMd} (hm : isSyn m = true) (ha : m.ackn = 0) (hd : m.data = [])
    (hw : m.wscale = none) (hmss : m.mss = 1460) :
    let s' := s.step (.segment m)
    Unsent s' .synRcvd ini ∧ Spec.sent s'.out = Spec.sent s.out ∧ s'.rcvNxt = m.seq + 1 ∧ s'.sndMss = 1460 ∧ s'.sndEwn = 1460 := by
  have hs : m.syn = true := by simp only [isSyn, Bool.and_eq_true] at hm; exact hm.1.1.1
  intro s'
  have e : s' = { s with
      lip := m.lip, lport := m.lport, rip := m.rip, rport := m.rport, registered := true
      sndMss := 1460
      sndWnd := m.win
      sndWsc := 1
      rcvIni := m.seq
      sndEwn := 1460
      rcvNxt := m.seq + 1
      state := .synRcvd
      out := s.out ++ [.spawned] ++ [.moved .listen .synRcvd] } := by
    show (s.fsm (.packet m)).done = _
    unfold fsm fsmFuel fsmWith
    rw [h.state]
    unfold fsmListen
    dsimp only
    rw [if_pos ⟨hm, ha, hd⟩]
    simp [changeState, emit, h.wsc, peerScale, hw, hmss, hs, ok, Res.done, h.state]
  rw [e]
  refine ⟨⟨rfl, h.closes, h.ooo, h.ini, h.una, h.nxt, h.max, h.mod, h.tx, ?_, rfl, h.timers, h.tmo, ?_⟩, ?_, rfl, rfl, rfl⟩
  · simp [h.acc]
  · have := h.got; unfold delivered at this ⊢; simpa using this
  · simp

/-- The answer to the SYN arrives. -/
theorem Waiting.synAck {s : Sess} {ini t now : Nat} (h : Waiting s .synSent ini t now) {m : TcpMd} (hm : isSynAck m = true) (ha : m.ackn = ini + 1)
    (hd : m.data = []) (hw : m.wscale = none) (hmss : m.mss = 1460) (hwin : m.win = 65535) (hi : ini + 1 ≤ 0xFFFFFFFF) (hr : m.seq + 1 ≤ 0xFFFFFFFF) :
    let s' := s.step (.segment m)
    let g : Seg := ⟨false, true, false, false, ini + 1, m.seq + 1, []⟩
    Sends s' [(now, g)] now ∧ Spec.sent s'.out = Spec.sent s.out ++ [g] ∧ s'.sndIni = ini ∧ s'.sndUna = ini + 1 ∧ s'.sndNxt = ini + 1 ∧
      s'.rcvNxt = m.seq + 1 ∧ s'.rcvUna = m.seq + 1 ∧ s'.dl = 0 ∧ s'.delivered = [] ∧ Spec.accepted s'.out = [] := by
  have hs : m.syn = true ∧ m.fin = false := by
    simp only [isSynAck, Bool.and_eq_true, Bool.not_eq_true'] at hm
    exact ⟨hm.1.1.1, hm.1.2⟩
  intro s' g
  have e : s' = { s with
      sndMss := 1460
      sndWnd := 65535
      sndWsc := 1
      rcvIni := m.seq
      sndEwn := 2920
      sndUna := ini + 1
      rcvNxt := m.seq + 1
      rcvUna := m.seq + 1
      txReq := s.txReq.filter (fun e => ¬ e.1 < ini + 1)
      txTmo := []
      rxReq := s.rxReq.filter (fun e => ¬ e.1 < m.seq + 1)
      state := .established
      evConnect := s.evConnect + 1
      out := s.out ++ [.sent g] ++ [.moved .synSent .established] } := by
    show (s.fsm (.packet m)).done = _
    unfold fsm fsmFuel fsmWith
    rw [h.state]
    unfold fsmSynSent
    dsimp only
    rw [if_pos ⟨hm, by rw [ha, h.nxt], hd⟩]
    unfold processAck
    rw [ackUpdate_eq]
    simp [h.una, h.nxt, h.max, h.mod, h.tx, ha, hd, hs.1, hs.2, hwin, peerScale, hw, hmss, h.ooo, h.tmo, Res.next, ok, transmitPacket, hi, hr,
      emit, h.state, changeState, Res.done, g]
  rw [e]
  refine ⟨⟨rfl, h.closes, h.ooo, by dsimp only; rw [h.ini], by dsimp only; rw [h.nxt], by dsimp only; rw [h.nxt, h.max], by dsimp only; rw [h.mod]; simp,
    by dsimp only; rw [h.nxt]; simp, ?_, by dsimp only; rw [h.nxt]; simp, by dsimp only; omega, by dsimp only; omega, rfl, rfl, Nat.le_refl _, h.nodup,
    fun q c hc => (by cases hc), fun v hv => ?_, fun x hx => by rw [List.mem_singleton.1 hx]⟩, ?_, h.ini, rfl, h.nxt, rfl, rfl, ?_, ?_, ?_⟩
  · dsimp only; rw [h.tx, h.ini]; simp [h.acc]
  · rw [h.delay] at hv; cases hv
  · simp
  · unfold dl; dsimp only; rw [h.delay]; rfl
  · have := h.got; unfold delivered at this ⊢; simpa using this
  · simp [h.acc]

/-- The acknowledgement of the SYN arrives at the session that was listening. -/
theorem Waiting.acked {s : Sess} {ini t now : Nat} (h : Waiting s .synRcvd ini t now) (hmss : s.sndMss = 1460) (hewn : s.sndEwn = 1460)
    {m : TcpMd} (hm : isAck m = true) (hs : m.seq = s.rcvNxt) (ha : m.ackn = ini + 1) (hd : m.data = []) (hwin : m.win = 65535)
    (hu : s.rcvUna = s.rcvNxt) :
    let s' := s.step (.segment m)
    Sends s' [] now ∧ Spec.sent s'.out = Spec.sent s.out ∧ s'.sndIni = ini ∧ s'.sndUna = ini + 1 ∧ s'.sndNxt = ini + 1 ∧
      s'.rcvNxt = s.rcvNxt ∧ s'.rcvUna = s.rcvUna ∧ s'.dl = 0 ∧ s'.delivered = [] ∧ Spec.accepted s'.out = [] := by
  have hf : m.syn = false ∧ m.fin = false := by
    simp only [isAck, Bool.and_eq_true, Bool.not_eq_true'] at hm
    exact ⟨hm.1.1.2, hm.2⟩
  intro s'
  have e : s' = { s with
      sndWnd := 65535
      sndEwn := 2920
      sndUna := ini + 1
      txReq := s.txReq.filter (fun e => ¬ e.1 < ini + 1)
      txTmo := []
      rxReq := s.rxReq.filter (fun e => ¬ e.1 < s.rcvNxt)
      state := .established
      evConnect := s.evConnect + 1
      out := s.out ++ [.moved .synRcvd .established] ++ [.queued] } := by
    show (s.fsm (.packet m)).done = _
    unfold fsm fsmFuel fsmWith
    rw [h.state]
    unfold fsmSynRcvd
    dsimp only
    rw [if_pos ⟨hm, hs, by rw [ha, h.nxt], hd⟩]
    unfold processAck
    rw [ackUpdate_eq]
    simp [h.una, h.nxt, h.max, h.mod, h.tx, ha, hd, hf.1, hf.2, hwin, hs, hewn, h.wsc, h.ooo, h.tmo, Res.next, ok,
      emit, h.state, changeState, Res.done]
  rw [e]
  refine ⟨⟨rfl, h.closes, h.ooo, by dsimp only; rw [h.ini], by dsimp only; rw [h.nxt], by dsimp only; rw [h.nxt, h.max], by dsimp only; rw [h.mod]; simp,
    by dsimp only; rw [h.nxt]; simp, ?_, by dsimp only; rw [h.nxt]; simp, by dsimp only; omega, by dsimp only; omega, hmss, h.wsc, Nat.le_of_eq hu, h.nodup,
    fun q c hc => (by cases hc), fun v hv => ?_, fun x hx => by cases hx⟩, ?_, h.ini, rfl, h.nxt, rfl, rfl, ?_, ?_, ?_⟩
  · dsimp only; rw [h.tx, h.ini]; simp [h.acc]
  · rw [h.delay] at hv; cases hv
  · simp
  · unfold dl; dsimp only; rw [h.delay]; rfl
  · have := h.got; unfold delivered at this ⊢; simpa using this
  · simp [h.acc]

end Verif.Sess
