import Verif.Lemmas.ReleaseNet
import Verif.Props.SessionNet
/-! What is left in the transmit buffer goes out before the connection is closed. -/
namespace Verif.Release
open Verif Spec Sess

/-- The application has closed. -/
def cl (s : Sess) : Sess := { s with closes := true }

/-- The same for a result. -/
def clr (r : Sess.Res) : Sess.Res := ⟨cl r.s, r.exc⟩

theorem cl_packet (s : Sess) (q : Option Nat) (a b c d : Bool) (e : Bytes) : (cl s).transmitPacket q a b c d e = clr (s.transmitPacket q a b c d e) := by
  by_cases hs : s.state = .established <;> by_cases he : e ≠ [] ∨ a = true ∨ c = true <;>
    by_cases hq : (q.getD s.sndNxt ≤ 0xFFFFFFFF ∧ (if b then s.rcvNxt else 0) ≤ 0xFFFFFFFF) <;>
    simp only [transmitPacket, clr, cl, emit, setTimer, hs, he, hq, if_true, if_false, not_true_eq_false, not_false_eq_true, ok, reduceCtorEq, and_self]

theorem cl_data (s : Sess) : (cl s).transmitData = clr s.transmitData := by
  unfold transmitData
  simp only [cl_packet]
  have h1 : (cl s).txNxt = s.txNxt := rfl
  have h2 : (cl s).sndUna = s.sndUna := rfl
  have h3 : (cl s).sndNxt = s.sndNxt := rfl
  have h4 : (cl s).sndEwn = s.sndEwn := rfl
  have h5 : (cl s).sndMss = s.sndMss := rfl
  have h6 : (cl s).state = s.state := rfl
  have h7 : (cl s).sndIni = s.sndIni := rfl
  have h8 : (cl s).tx = s.tx := rfl
  have h9 : (cl s).sndFin = s.sndFin := rfl
  rw [h1, h2, h3, h4, h5, h6, h7, h8, h9]
  repeat' split
  all_goals rfl

theorem cl_delayed {s t : Sess} (h : s.delayedAck = ok t) : (cl s).delayedAck = ok (cl t) := by
  unfold delayedAck at h ⊢
  simp only [cl_packet]
  have h1 : (cl s).expired .delayedAck = s.expired .delayedAck := rfl
  have h2 : (cl s).rcvNxt = s.rcvNxt := rfl
  have h3 : (cl s).rcvUna = s.rcvUna := rfl
  rw [h1, h2, h3]
  split
  · rename_i hx
    rw [if_pos hx] at h
    by_cases hr : s.rcvNxt > s.rcvUna
    · rw [if_pos hr] at h ⊢
      unfold Res.next at h ⊢
      cases hp : s.transmitPacket none false true false false [] with
      | mk u exc =>
        rw [hp] at h
        cases exc with
        | none =>
          have := Res.mk.inj h
          simp only [clr]
          rw [← this.1]
          rfl
        | some e => have := Res.mk.inj h; cases this.2
    · rw [if_neg hr] at h ⊢
      rw [ok_next] at h ⊢
      have := Res.mk.inj h
      rw [← this.1]
      rfl
  · rename_i hx
    rw [if_neg hx] at h
    have := Res.mk.inj h
    rw [← this.1]

/-- A millisecond of an end that still has something to send. -/
theorem tick_cl {s : Sess} {L : List (Nat × Seg)} {now : Nat} (h : Sends s L now)
    (hot : ∀ x ∈ L, x.2.data ≠ [] → s.sndUna < x.2.stop → now + 1 < x.1 + 1000)
    (h1 : s.sndIni + 1 + (Spec.accepted s.out).length ≤ 0xFFFFFFFF) (h2 : s.rcvNxt ≤ 0xFFFFFFFF) (ht : s.tx ≠ []) : (cl s).tick = cl s.tick := by
  have hc := h.clock
  have htx := h.tx
  have hlen := h.len
  have hcl : s.clock.closes = false := h.closes
  have hto := hc.timeout hot
  have hto' : (cl s.clock).retransmitTimeout = ok (cl s.clock) := by
    refine timeout_ok fun c hq => ?_
    obtain ⟨-, -, x, hx, k1, k2, k3⟩ := hc.tmo _ c hq
    have hn := hot x hx k2 (by unfold Seg.stop; have := List.length_pos_iff.2 k2; have : s.clock.sndUna = s.sndUna := rfl; have : (cl s.clock).sndUna = s.sndUna := rfl; omega)
    unfold expired
    rw [show (cl s.clock).timers = s.clock.timers from rfl, k3 hn]
    simp
    omega
  have key : ∀ u : Sess, u.sndNxt ≤ 0xFFFFFFFF → u.rcvNxt ≤ 0xFFFFFFFF → u.state = .established → u.txTmo.get? u.sndNxt = none → u.tx = s.tx → u.closes = false →
      s.clock.transmitData = ok u → (cl s).tick = cl s.tick := by
    intro u hn hr hs hm hu hcu htd
    obtain ⟨v, hv, hvt, hvc⟩ : ∃ v, u.delayedAck = ok v ∧ v.tx = s.tx ∧ v.closes = false := by
      unfold delayedAck
      split
      · split
        · rw [transmit_xmit hs hn hr hm, ok_next]
          exact ⟨_, rfl, hu, hcu⟩
        · exact ⟨_, rfl, hu, hcu⟩
      · exact ⟨u, rfl, hu, hcu⟩
    have e1 : s.tick = v := by
      show (s.clock.fsm .timer).done = _
      rw [fsm_established hc.state hcl, hto, ok_next, htd, ok_next, hv, ok_next, hvc]
      rfl
    have e2 : (cl s).tick = cl v := by
      show ((cl s.clock).fsm .timer).done = _
      rw [fsm_timer_open (s := cl s.clock) (.inl hc.state), hto', ok_next, cl_data, htd]
      rw [show clr (ok u) = ok (cl u) from rfl, ok_next, cl_delayed hv, ok_next, if_neg (by rintro ⟨-, k⟩; exact ht (hvt.symm.trans k))]
      rfl
    rw [e1, e2]
  rcases hc.transmit (show s.sndNxt ≤ _ by omega) h2 with ⟨e1, -⟩ | ⟨d, hd0, e1, hd1, hd2, hd3, -⟩
  · exact key s.clock (show s.sndNxt ≤ _ by omega) h2 hc.state hc.tmo_none rfl hcl e1
  · have hx := hc.xmit hd2 hd3
    refine key (s.clock.xmit d) ?_ h2 hx.state hx.tmo_none rfl hcl e1
    have e3 : (s.clock.xmit d).sndNxt = s.clock.sndNxt + d.length := rfl
    have e4 : s.clock.sndUna = s.sndUna := rfl
    have e5 : s.clock.tx = s.tx := rfl
    rw [e3]
    rw [e4, e5] at hd2
    omega

/-- The arrival of the next segment. -/
theorem arrive_step {s : Sess} (hst : s.state = .established) (hooo : s.ooo = []) (hmax : s.sndMax = s.sndNxt) {m : TcpMd} (hf : isAck m = true)
    (hs : m.seq = s.rcvNxt) (hu : s.sndUna ≤ m.ackn) (hn : m.ackn ≤ s.sndNxt) (hd : m.data = [] → s.sndUna < m.ackn)
    (hl : m.data.length ≤ 1460) : s.step (.segment m) = s.ackUpdate m := by
  show (s.fsm (.packet m)).done = _
  unfold fsm fsmFuel fsmWith
  rw [hst]
  unfold fsmEstablished
  dsimp only
  rw [if_neg (by simp; omega), if_pos hf, if_neg (by rintro ⟨-, x, y⟩; have := hd y; omega), if_neg (by omega),
    if_pos ⟨hs, by simp [acceptable, hmax, hu, hn]⟩]
  unfold processAck
  dsimp only
  rw [show (s.ackUpdate m).ooo = [] from by rw [ackUpdate_eq]; exact hooo]
  rfl

/-- A connection that is up, seen from one of its ends. -/
structure Open (D : Nat) (PA PB : Bytes) (a b : Sess) (L : List (Nat × Seg)) (n : Nat) (M : List (Nat × Seg)) (m u v now : Nat) : Prop where
  left : Sends a L now
  right : Sends b M now
  out : Half a b L n M u D now
  back : Half b a M m L v D now
  finA : a.sndFin = 0
  finB : b.sndFin = 0
  accA : accepted a.out = PA
  accB : accepted b.out = PB
  gotA : a.delivered <+: PB
  gotB : b.delivered <+: PA
  fitA : a.sndIni + 2 + PA.length ≤ 0xFFFFFFFF
  fitB : b.sndIni + 2 + PB.length ≤ 0xFFFFFFFF

theorem Trail.none {x u : Nat} {l : List (Nat × Seg)} (h : Trail x u l x u) : l = [] := by
  cases l with
  | nil => rfl
  | cons p l =>
    obtain ⟨-, h1, h2, h3, -, h4⟩ := h
    have := h4.mono
    by_cases hd : p.2.data = []
    · have := h3 hd; omega
    · have := stop_gt hd; omega

section
variable {D : Nat} {PA PB : Bytes} {a b : Sess} {L : List (Nat × Seg)} {n : Nat} {M : List (Nat × Seg)} {m u v now : Nat}

/-- Nothing is left to send at either end: then nothing is under way, and all has arrived. -/
theorem Open.idle (h : Open D PA PB a b L n M m u v now) (ha : a.tx = []) (hb : b.tx = []) :
    n = L.length ∧ m = M.length ∧ ∃ x y, x + 1 ≤ 0xFFFFFFFF ∧ y + 1 ≤ 0xFFFFFFFF ∧
      Rest a .established x y PB ∧ a.rcvUna = y ∧ DelayOk a ∧ Up b y x PA := by
  have a1 := h.left.unaNxt
  have a2 := h.left.tx
  have a3 := h.left.len
  have a4 := h.left.ack
  have b1 := h.right.unaNxt
  have b2 := h.right.tx
  have b3 := h.right.len
  have b4 := h.right.ack
  rw [ha, List.length_nil] at a2 a3
  rw [hb, List.length_nil] at b2 b3
  have m1 := h.out.rest.mono
  have m2 := h.back.rest.mono
  have g1 := h.out.got
  have g2 := h.back.got
  rw [h.accA] at a3
  rw [h.accB] at b3
  have r1 := h.out.rest
  have r2 := h.back.rest
  rw [show a.sndNxt = b.rcvNxt by omega, show a.rcvUna = b.sndUna by omega] at r1
  rw [show b.sndNxt = a.rcvNxt by omega, show b.rcvUna = a.sndUna by omega] at r2
  have e1 := Trail.none r1
  have e2 := Trail.none r2
  have c1 := h.out.count
  have c2 := h.back.count
  rw [List.drop_eq_nil_iff] at e1 e2
  have dA : a.delivered = PB := by
    refine h.gotA.eq_of_length ?_
    omega
  have dB : b.delivered = PA := by
    refine h.gotB.eq_of_length ?_
    omega
  have fA := h.fitA
  have fB := h.fitB
  have wA := h.left.ewn1
  have wB := h.right.ewn1
  have tA : ∀ q, a.sndNxt ≤ q → a.txTmo.get? q = none := by
    intro q hq
    cases hc : a.txTmo.get? q with
    | none => rfl
    | some c => have := (h.left.tmo _ c hc).2.1; omega
  have tB : ∀ q, b.sndNxt ≤ q → b.txTmo.get? q = none := by
    intro q hq
    cases hc : b.txTmo.get? q with
    | none => rfl
    | some c => have := (h.right.tmo _ c hc).2.1; omega
  refine ⟨by omega, by omega, a.sndNxt, b.sndNxt, by omega, by omega, ?_, by omega, h.left.delay, ?_⟩
  · exact ⟨⟨h.left.state, h.left.ooo, ha, by omega, by omega, h.left.wsc, h.left.nodup, dA⟩, by omega, rfl, h.left.max, by rw [h.left.mod]; omega, h.finA,
      by omega, tA⟩
  · exact ⟨⟨⟨h.right.state, h.right.ooo, hb, by omega, by omega, h.right.wsc, h.right.nodup, dB⟩, by omega, rfl, h.right.max,
      by rw [h.right.mod]; omega, h.finB, by omega, tB⟩, h.right.delay, by omega, h.right.closes⟩

/-- An arrival, with the effect on a session that has closed. -/
theorem Open.arriveA (h : Open D PA PB a b L n M m u v now) {x : Nat × Seg} (hx : M[m]? = some x) :
    let s := a.step (.segment (asSeen b x.2))
    (cl a).step (.segment (asSeen b x.2)) = cl s ∧ s.out = a.out := by
  intro s
  have hlt := (List.getElem?_eq_some_iff.1 hx).1
  have hdrop : M.drop m = x :: M.drop (m + 1) := by
    rw [List.drop_eq_getElem_cons hlt, (List.getElem?_eq_some_iff.1 hx).2]
  have hr := h.back.rest
  rw [hdrop] at hr
  have hle := hr.2.2.2.2.2.mono.2
  have h1 := h.right.ack
  have h2 := h.out.rcv_le
  have e1 : s = a.ackUpdate (asSeen b x.2) := arrive_step h.left.state h.left.ooo h.left.max (asSeen_isAck hr.1) hr.2.1 hr.2.2.1
    (by show x.2.ackn ≤ _; omega) hr.2.2.2.1 hr.2.2.2.2.1
  have e2 : (cl a).step (.segment (asSeen b x.2)) = (cl a).ackUpdate (asSeen b x.2) := arrive_step (s := cl a) h.left.state h.left.ooo h.left.max (asSeen_isAck hr.1)
    hr.2.1 hr.2.2.1 (by show x.2.ackn ≤ _; have : (cl a).sndNxt = a.sndNxt := rfl; omega) hr.2.2.2.1 hr.2.2.2.2.1
  rw [e2, e1, ackUpdate_eq, ackUpdate_eq]
  exact ⟨rfl, rfl⟩

theorem Open.swap (h : Open D PA PB a b L n M m u v now) : Open D PB PA b a M m L n v u now :=
  ⟨h.right, h.left, h.back, h.out, h.finB, h.finA, h.accB, h.accA, h.gotB, h.gotA, h.fitB, h.fitA⟩

theorem Open.tickA (h : Open D PA PB a b L n M m u v now) (hD : D ≤ 400) :
    accepted a.tick.out = PA ∧ (a.tx ≠ [] → (cl a).tick = cl a.tick) := by
  have h1 := h.back.rcv_le
  have h2 := h.right.tx
  have h3 := h.right.len
  have h4 := h.fitA
  have h5 := h.fitB
  rw [h.accB] at h3
  have hot : ∀ x ∈ L, x.2.data ≠ [] → a.sndUna < x.2.stop → now + 1 < x.1 + 1000 := fun x hx hd hs => by
    have := h.out.hot h.back hx hd hs; omega
  refine ⟨?_, fun ht => tick_cl h.left hot (by rw [h.accA]; omega) (by omega) ht⟩
  obtain ⟨p, k1, -⟩ := h.left.tick hot (by rw [h.accA]; omega) (by omega)
  have : a.tick.out = a.out ++ p.map .sent := k1.out
  rw [this, accepted_append, h.accA]
  have : ∀ p : List Seg, accepted (p.map Out.sent) = [] := by
    intro p
    induction p with
    | nil => rfl
    | cons g l ih => exact ih
  rw [this, List.append_nil]
end

/-- A link whose first end has closed. -/
def clk (k : Link) : Link := { k with a := cl k.a }

/-- The link is up. -/
def OpenLink (D : Nat) (PA PB : Bytes) (k : Link) : Prop :=
  ∃ x y L M n m u v, k.fromA = x :: L ∧ k.fromB = y :: M ∧ k.atA = m + 1 ∧ k.atB = n + 1 ∧ Open D PA PB k.a k.b L n M m u v k.now

/-! ### A session that has closed stays so -/

theorem closes_micro {Q : TcpMd → Prop} {G : Prop} {a b : Sess} (hm : Micro Q G a b) (h : a.closes = true) : b.closes = true := by
  cases hm with
  | dup => rw [retransmitRequest_eq]; exact h
  | synAckIn => rw [ackUpdate_eq]; exact h
  | ackIn => rw [ackUpdate_eq]; exact h
  | dataIn => rw [ackUpdate_eq]; exact h
  | finIn => rw [ackUpdate_eq]; exact h
  | _ => simp [emit, setTimer, storeAs, ackAs, synAs, paramsAs, h]

theorem closes_step {s : Sess} (h : Queue (fun _ => True) s) (hc : s.closes = true) (e : Ev) : (s.step e).closes = true := by
  have done : ∀ i, InputOk (fun _ => True) i → (s.fsm i).done.closes = true := by
    intro i hi
    have h1 := (fsm_path (Q := fun _ => True) (G := False) (i := i) h.queueOk hi).keeps (P := fun b => b.closes = true)
      (fun a b h hm => closes_micro hm h) hc
    unfold Res.done
    split
    · exact h1
    · exact h1
  cases e with
  | segment m => exact done _ trivial
  | close => exact done _ rfl
  | timer => exact done _ trivial
  | send d => show (s.send d).closes = true; unfold send; split <;> simp [emit, hc]
  | recvAcquire => show s.recvAcquire.closes = true; unfold recvAcquire; split <;> simp [hc]
  | recvTake n =>
    show (s.recvTake n).closes = true
    rcases recvTake_cases s n with x | ⟨k, e, x⟩ <;> rw [x] <;> exact hc
  | connectReturn =>
    show s.connectReturn.closes = true
    unfold connectReturn
    split
    · exact hc
    · dsimp only
      repeat' split
      all_goals exact hc
  | clock => exact hc
  | table b => exact hc

theorem closes_run {s : Sess} {evs : List Ev} (h : Queue (fun _ => True) s) (hc : s.closes = true) : (s.run evs).closes = true := by
  induction evs using List.reverseRecOn with
  | nil => exact hc
  | append_singleton l e ih =>
    unfold Sess.run at ih ⊢
    rw [List.foldl_append]
    exact closes_step (queue_run h) ih e

/-- What happens to the second end. -/
theorem act_runB (l : Link) (e : Act) : ∃ evs, (l.act e).b = l.b.run evs := by
  cases e with
  | callA e => exact ⟨[], rfl⟩
  | callB e => exact ⟨[e], rfl⟩
  | arriveA =>
    refine ⟨[], ?_⟩
    unfold Link.act
    dsimp only
    split <;> rfl
  | arriveB =>
    unfold Link.act
    dsimp only
    split
    · rename_i g hg
      exact ⟨[.segment (asSeen l.a g.2)], rfl⟩
    · exact ⟨[], rfl⟩
  | tick => exact ⟨[.clock, .timer], rfl⟩

theorem parts_runB {D : Nat} {l l' : Link} (h : Parts D l l') : ∃ evs, l'.b = l.b.run evs := by
  induction h with
  | start => exact ⟨[], rfl⟩
  | @next k e _ _ ih =>
    obtain ⟨evs, h1⟩ := ih
    obtain ⟨evs', h2⟩ := act_runB k e
    exact ⟨evs ++ evs', by rw [h2, h1]; unfold Sess.run; rw [List.foldl_append]⟩

theorem parts_now {D : Nat} {l l' : Link} (h : Parts D l l') : l.now ≤ l'.now := by
  induction h with
  | start => exact Nat.le_refl _
  | @next k e _ _ ih => exact Nat.le_trans ih (later_act k e).1.now

/-! ### The first end has closed, and has something left to send -/

theorem clk_now (k : Link) : (clk k).now = k.now := rfl

section
variable {D : Nat} {PA PB : Bytes} {k : Link}

theorem looks_cl (s : Sess) : Looks s (cl s) := ⟨rfl, rfl, rfl, rfl⟩

theorem cl_reads {s : Sess} {e : Ev} (h : Reads e) : (cl s).step e = cl (s.step e) := by
  obtain ⟨h, hs⟩ := h
  cases h with
  | send d => exact absurd rfl (hs d)
  | recvAcquire =>
    show (cl s).recvAcquire = cl s.recvAcquire
    unfold recvAcquire
    have : (cl s).evRx = s.evRx := rfl
    rw [this]
    split <;> rfl
  | recvTake n =>
    show (cl s).recvTake n = cl (s.recvTake n)
    unfold recvTake
    have h1 : (cl s).readers = s.readers := rfl
    have h2 : (cl s).rx = s.rx := rfl
    have h3 : (cl s).err = s.err := rfl
    have h4 : (cl s).state = s.state := rfl
    simp only [h1, h2, h3, h4]
    repeat' split
    all_goals rfl
  | connectReturn =>
    show (cl s).connectReturn = cl s.connectReturn
    unfold connectReturn
    have h1 : (cl s).evConnect = s.evConnect := rfl
    have h3 : (cl s).err = s.err := rfl
    have h4 : (cl s).state = s.state := rfl
    simp only [h1, h3, h4]
    repeat' split
    all_goals rfl

theorem Open.sentA {a b : Sess} {L M : List (Nat × Seg)} {n m u v now : Nat} (h : Open D PA PB a b L n M m u v now) (hD : D ≤ 400) :
    ∃ p, Spec.sent a.tick.out = Spec.sent a.out ++ p := by
  have h1 := h.back.rcv_le
  have h2 := h.right.tx
  have h3 := h.right.len
  have h4 := h.fitA
  have h5 := h.fitB
  rw [h.accB] at h3
  obtain ⟨p, k1, -⟩ := h.left.tick (fun x hx hd hs => by have := h.out.hot h.back hx hd hs; omega) (by rw [h.accA]; omega) (by omega)
  refine ⟨p, ?_⟩
  have : a.tick.out = a.out ++ p.map .sent := k1.out
  have hs : ∀ p : List Seg, Spec.sent (p.map Out.sent) = p := by
    intro p
    induction p with
    | nil => rfl
    | cons g l ih => exact congrArg (g :: ·) ih
  rw [this, sent_append, hs]

/-- One thing that happens while there is something left to send: it is what would have happened otherwise. -/
theorem OpenLink.drain (h : OpenLink D PA PB k) (hD : D ≤ 400) {e : Act} (hm : (clk k).mayPart D e) (hb : k.b.tx = []) :
    (∃ e' : Option Act, (∀ x ∈ e', k.may D x) ∧ (let k' := (e'.map k.act).getD k
        accepted k'.a.out = PA ∧ accepted k'.b.out = PB ∧ (clk k).act e = clk k')) ∨
      k.a.tx = [] ∧ ∃ x y, x + 1 ≤ 0xFFFFFFFF ∧ y + 1 ≤ 0xFFFFFFFF ∧ ∀ tc, Rel D x y PB PA k.fromA k.fromB (k.now + 1) tc ((clk k).act e) := by
  obtain ⟨p, q, L, M, n, m, u, v, fA, fB, aA, aB, h⟩ := h
  cases e with
  | callA e =>
    refine .inl ?_
    rcases hm with hm | rfl
    · refine ⟨some (.callA e), fun x hx => by cases hx; exact hm.1, ?_⟩
      have k1 := (looks_reads (s := k.a) hm).1
      have k2 := (looks_reads (s := cl k.a) hm).1
      dsimp only [Option.map_some, Option.getD_some]
      rw [callA_looks k1, callA_looks (l := clk k) k2]
      refine ⟨k1.accepted.trans h.accA, h.accB, ?_⟩
      show { clk k with a := (cl k.a).step e } = _
      rw [cl_reads hm]
      rfl
    · refine ⟨none, fun x hx => (nomatch hx), h.accA, h.accB, ?_⟩
      obtain ⟨k1, k2⟩ := looks_close (s := cl k.a) (.inl h.left.state)
      rw [callA_looks (l := clk k) k1]
      rcases k2 with k2 | k2
      · show { clk k with a := (cl k.a).step .close } = _
        rw [k2]
        rfl
      · exact absurd h.left.state k2.2.1
  | callB e =>
    refine .inl ?_
    rcases hm with hm | hm
    · refine ⟨some (.callB e), fun x hx => by cases hx; exact hm.1, ?_⟩
      have k1 := (looks_reads (s := k.b) hm).1
      dsimp only [Option.map_some, Option.getD_some]
      rw [callB_looks k1, callB_looks (l := clk k) k1]
      exact ⟨h.accA, k1.accepted.trans h.accB, rfl⟩
    · exact absurd h.right.state hm.2
  | arriveA =>
    refine .inl ⟨some .arriveA, fun x hx => by cases hx; trivial, ?_⟩
    dsimp only [Option.map_some, Option.getD_some]
    cases hx : k.fromB[k.atA]? with
    | none => rw [arriveA_none hx, arriveA_none (l := clk k) hx]; exact ⟨h.accA, h.accB, rfl⟩
    | some x =>
      have hx' : M[m]? = some x := by rw [fB, aA] at hx; simpa using hx
      obtain ⟨k1, k2⟩ := h.arriveA hx'
      rw [arriveA_eq (new := []) hx (by rw [k2, List.append_nil]), arriveA_eq (l := clk k) (new := []) hx (by
        show Spec.sent ((cl k.a).step (.segment (asSeen k.b x.2))).out = Spec.sent k.a.out ++ []
        rw [k1]
        show Spec.sent (k.a.step (.segment (asSeen k.b x.2))).out = _
        rw [k2, List.append_nil])]
      refine ⟨by dsimp only; rw [k2]; exact h.accA, h.accB, ?_⟩
      simp only [List.map_nil, List.append_nil]
      show (⟨(cl k.a).step (.segment (asSeen k.b x.2)), _, _, _, _, _, _⟩ : Link) = _
      rw [k1]
      rfl
  | arriveB =>
    refine .inl ⟨some .arriveB, fun x hx => by cases hx; trivial, ?_⟩
    dsimp only [Option.map_some, Option.getD_some]
    cases hx : k.fromA[k.atB]? with
    | none => rw [arriveB_none hx, arriveB_none (l := clk k) hx]; exact ⟨h.accA, h.accB, rfl⟩
    | some x =>
      have hx' : L[n]? = some x := by rw [fA, aB] at hx; simpa using hx
      obtain ⟨-, k2⟩ := h.swap.arriveA hx'
      rw [arriveB_eq (new := []) hx (by rw [k2, List.append_nil]), arriveB_eq (l := clk k) (new := []) hx (by
        show Spec.sent (k.b.step (.segment (asSeen k.a x.2))).out = Spec.sent k.b.out ++ []
        rw [k2, List.append_nil])]
      refine ⟨h.accA, by dsimp only; rw [k2]; exact h.accB, ?_⟩
      simp only [List.map_nil, List.append_nil]
      rfl
  | tick =>
    obtain ⟨pb, hpb⟩ := h.swap.sentA hD
    by_cases ht : k.a.tx = []
    · refine .inr ⟨ht, ?_⟩
      obtain ⟨e1, e2, x, y, hx, hy, h1, h2, h3, h4⟩ := h.idle ht hb
      refine ⟨x, y, hx, hy, fun tc => ?_⟩
      obtain ⟨k1, new, k2, k3⟩ := (h1.looks (looks_cl _)).moves (.inl rfl) (h3.looks (looks_cl _)) (by omega) (by omega) rfl
      obtain ⟨k4, k5⟩ := h4.tick hx hy
      have hn : new = [] := by
        rcases k3 with k3 | ⟨-, k3⟩
        · exact k3
        · have : (cl k.a).rcvUna = k.a.rcvUna := rfl
          omega
      subst hn
      rw [tick_eq (l := clk k) k2 k5]
      simp only [List.map_nil, List.append_nil]
      have a1 : (clk k).atA = k.fromB.length := by rw [fB, List.length_cons, ← e2]; exact aA
      have a2 : (clk k).atB = k.fromA.length := by rw [fA, List.length_cons, ← e1]; exact aB
      rw [a1, a2]
      exact .calm k1 k4 (Nat.le_refl _)
    · refine .inl ⟨some .tick, fun x hx => by cases hx; exact hm, ?_⟩
      dsimp only [Option.map_some, Option.getD_some]
      obtain ⟨pa, hpa⟩ := h.sentA hD
      obtain ⟨k1, k2⟩ := h.tickA hD
      rw [tick_eq hpa hpb, tick_eq (l := clk k) (p := pa) (q := pb) (by
        show Spec.sent (cl k.a).tick.out = _
        rw [k2 ht]
        exact hpa) hpb]
      refine ⟨k1, (h.swap.tickA hD).1, ?_⟩
      show (⟨(cl k.a).tick, _, _, _, _, _, _⟩ : Link) = _
      rw [k2 ht]
      rfl
end

end Verif.Release
