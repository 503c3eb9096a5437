import Verif.Props.SessionData
import Verif.Props.Socket
import Verif.Lemmas.TcpStackInv
/-! Listening sockets, the connections that come in through them, and `accept`: C61. -/
namespace Verif
open TcpStack

/-- C61: at every moment of every history, the sockets that `accept` on `l` has returned are a first part of the sockets of the
connections that have come in through `l` and been established, in the order in which they were; none of these occurs twice, and
every established incoming connection is among them for the one socket it came in through.  If `accept` has returned all of them, it
waits; otherwise it returns the next. -/
theorem C61_accept (evs : List TcpStack.Ev) (l : Nat) :
    let t := TcpStack.run evs
    Spec.accepts t.log l <+: Spec.inbound t l ∧ (Spec.inbound t l).Nodup ∧
    (∀ i, TcpNote.did i (.moved .synRcvd .established) ∈ t.log → ∃ p, ∀ l', t.sockOf i ∈ Spec.inbound t l' ↔ l' = p) ∧
    (Spec.accepts t.log l = Spec.inbound t l → t.step (.accept l) = t) ∧
    ∀ c rest, Spec.inbound t l = Spec.accepts t.log l ++ c :: rest →
      (t.step (.accept l)).log = t.log ++ [.accepted l c] := by
  intro t
  have h : Inv t := inv evs
  refine ⟨⟨t.queue l, h.acc l⟩, h.nodup l, ?_, ?_, ?_⟩
  · intro i hi
    obtain ⟨c, hc, -, -, hs⟩ := h.est i hi
    obtain ⟨p, hp⟩ := h.par i c hc hs
    refine ⟨p, fun l' => ⟨fun hm => ?_, ?_⟩⟩
    · obtain ⟨n, hn, hb⟩ := List.mem_filterMap.1 hm
      unfold Spec.inboundNote at hb
      split at hb
      · split at hb
        · rename_i hpar
          injection hb with hb
          rw [hb, sockOf_eq hc, hp] at hpar
          injection hpar with hpar
          exact hpar.symm
        · cases hb
      · cases hb
    · rintro rfl
      refine List.mem_filterMap.2 ⟨_, hi, ?_⟩
      simp [Spec.inboundNote, sockOf_eq hc, hp]
  · intro he
    have hq : t.queue l = [] := by
      have := h.acc l
      rw [he] at this
      exact List.append_right_eq_self.1 this
    have hp : t.permits l = 0 := by rw [h.perm, hq]; rfl
    simp only [TcpStack.step, TcpStack.accept, hp, if_pos]
  · intro c rest he
    have hq : t.queue l = c :: rest := by
      have := h.acc l
      rw [he] at this
      exact List.append_cancel_left this
    have hp : t.permits l ≠ 0 := by rw [h.perm, hq]; simp
    simp only [TcpStack.step, TcpStack.accept, if_neg hp, hq]

/-- C61: each session does what it would do if it were alone: it is the session that `connect` or `listen` makes, run over its own
share of the history (`Spec.portion`) and nothing else, and what it has done is what has been seen of it. -/
theorem C61_independent (evs : List TcpStack.Ev) (i : Nat) (c : TcpConn) (h : (TcpStack.run evs).conns[i]? = some c) :
    (∃ active iss lip lport rip rport, c.s = (Sess.opened active iss lip lport rip rport).run (Spec.historyOf evs i)) ∧
    Spec.seenOf (TcpStack.run evs).log i = c.s.out :=
  (hist evs).runs i c h

/-- C61 with C52: whatever else goes on, if the segments that were handed to session `i` are those of a peer with byte stream `p`,
what its socket has received and will receive next is a first part of `p`. -/
theorem C61_stream (evs : List TcpStack.Ev) (i : Nat) (c : TcpConn) (h : (TcpStack.run evs).conns[i]? = some c) {p : Bytes} {irs : Nat}
    (hm : ∀ m ∈ Spec.arrivals (Spec.historyOf evs i), Spec.SegmentOf p irs m) :
    Spec.received (Spec.seenOf (TcpStack.run evs).log i) ++ c.s.rx <+: p := by
  obtain ⟨⟨a, iss, l, lp, r, rp, hs⟩, ho⟩ := C61_independent evs i c h
  obtain ⟨k, -, h2, -⟩ := C52_prefix a iss l lp r rp hm
  rw [ho, hs, h2]
  exact List.take_prefix k p

/-- C61: a segment is handed to the session of its own connection: when a segment arrives, the session it is handed to listens, or is
closed, or has exactly the addresses and ports of the segment.  (The ports of segments that arrive are never 0: the parser drops
those.) -/
theorem C61_own_segments (evs : List TcpStack.Ev)
    (hp : ∀ m iss, Ev.segment m iss ∈ evs → 1 ≤ m.lport ∧ m.lport < 65536) (m : TcpMd) (i : Nat)
    (hr : (TcpStack.run evs).route m = some i) :
    ∃ c, (TcpStack.run evs).conns[i]? = some c ∧
      (c.s.state = .listen ∨ c.s.state = .closed ∨ c.s.rport = 0 ∨
        c.s.lip = m.lip ∧ c.s.lport = m.lport ∧ c.s.rip = m.rip ∧ c.s.rport = m.rport) := by
  unfold TcpStack.route at hr
  rw [Option.bind_eq_some_iff] at hr
  obtain ⟨r, h1, h2⟩ := hr
  obtain ⟨c, g1, g2, g3⟩ := own evs hp r i h2
  refine ⟨c, g1, ?_⟩
  rcases g3 with x | x | ⟨id, x, y⟩
  · exact .inl x
  · exact .inr (.inl x)
  · right; right
    have hw := (inv evs).wf
    have key : ∀ k, (TcpStack.run evs).ss.table.get? k = some r → k = id := by
      intro k hk
      obtain ⟨s, hs, rfl⟩ := hw.holds k r hk
      unfold TcpStack.idOf at x
      rw [hs] at x
      injection x
    unfold Rx.tcpMatch at h1
    split at h1
    · rename_i r' hk
      injection h1 with h1
      subst h1
      have := key _ hk
      subst this
      exact .inr ⟨y.1.symm, y.2.1.symm, y.2.2.1.symm, y.2.2.2.1.symm⟩
    · split at h1
      · obtain ⟨k, hk, hg⟩ := List.exists_of_findSome?_eq_some h1
        have := key k hg
        subst this
        left
        rw [← y.2.2.2.1]
        unfold TcpMd.listening at hk
        simp only [List.mem_cons, List.not_mem_nil, or_false] at hk
        rcases hk with e | e <;> rw [e]
      · cases h1

/-- C61, for SYNs with acknowledgement number 0 and without data (see `C61_ignored`): if such a SYN arrives for a listening socket
`r`, there is a new socket, registered for the addresses and ports of the SYN, with a session in SYN-RECEIVED with these addresses
and ports; `r` listens as before; nothing else changes: the sessions of all other sockets, their states, ids and registrations,
what waits to be accepted. -/
theorem C61_spawn_partial (evs : List TcpStack.Ev) (r : Nat) (id : SockId) (m : TcpMd) (iss : Nat)
    (hl : Spec.Listens (TcpStack.run evs) r id) (hm : Rx.tcpMatch (TcpStack.run evs).ss m = some r) (hid : id.rport ≠ m.rport)
    (hf : m.syn = true ∧ m.ack = false ∧ m.fin = false ∧ m.rst = false) (ha : m.ackn = 0) (hd : m.data = []) :
    let t := TcpStack.run evs
    let t' := t.step (.segment m iss)
    Spec.Listens t' r id ∧
    (∃ r' i s, t.idOf r' = none ∧ t'.idOf r' = some m.active ∧ t'.ss.table.get? m.active = some r' ∧ t'.parent r' = some r ∧
      Spec.SessionIs t' r' i s ∧ s.state = .synRcvd ∧ s.lip = m.lip ∧ s.lport = m.lport ∧ s.rip = m.rip ∧ s.rport = m.rport ∧
      s.rcvNxt = m.seq + 1) ∧
    (∀ x y, t.idOf x = some y → t'.idOf x = some y) ∧
    (∀ k, k ≠ m.active → t'.ss.table.get? k = t.ss.table.get? k) ∧
    (∀ x i s, x ≠ r → Spec.SessionIs t x i s → Spec.SessionIs t' x i s) ∧
    t'.queue = t.queue ∧ t'.permits = t.permits := by
  intro t t'
  obtain ⟨l1, l2, i, s, ⟨l3, l4⟩, l5⟩ := hl
  change t.session r = some i at l3
  change t.conns[i]? = some ⟨s, r⟩ at l4
  have hv : Inv t := inv evs
  have hroute : t.route m = some i := by
    unfold TcpStack.route
    rw [show Rx.tcpMatch t.ss m = some r from hm]; exact l3
  have ht : t' = t.act i (.segment m) iss := by
    show t.step (.segment m iss) = _
    simp only [TcpStack.step, hroute]
  have hsyn : Sess.isSyn m = true := by simp [Sess.isSyn, hf]
  have hstep : Sess.step { s with registered := t.has r } (.segment m) =
      (Sess.synAs { s with registered := t.has r } m).moveAs .synRcvd := by
    show (Sess.fsm _ (.packet m)).done = _
    have : Sess.fsm { s with registered := t.has r } (.packet m) = Sess.fsmListen { s with registered := t.has r } (.packet m) := by
      show Sess.fsmWith _ _ _ = _; unfold Sess.fsmWith; dsimp only; rw [l5]
    rw [this]
    dsimp only [Sess.fsmListen]
    rw [if_pos ⟨hsyn, ha, hd⟩, Sess.changeState_ok (by simp)]
    simp [Sess.synAs, Sess.paramsAs, hf, Sess.emit, Sess.ok, Sess.Res.done]
  have hacted := act_cases l4 ((hist evs).runs i _ l4).1.queue (.segment m) iss
  dsimp only at hacted
  rw [hstep] at hacted
  generalize hs' : (Sess.synAs { s with registered := t.has r } m).moveAs .synRcvd = s' at hacted
  have hrn : s'.rcvNxt = m.seq + 1 := by rw [← hs', Sess.moveAs_eq]; simp [Sess.synAs]
  have hst'' : s'.state = .synRcvd := by rw [← hs', Sess.moveAs_eq]
  have hli := get_lt' l4
  have hrl := hv.lt i _ l4
  dsimp only at hrl
  rw [ht]
  generalize t.act i (.segment m) iss = t₂ at hacted
  cases hacted with
  | calm hc =>
    exfalso
    rcases hc.state with x | x
    · rw [hst''] at x; dsimp only at x; rw [l5] at x; cases x
    · exact x.2.1 hst''
  | est h => dsimp only at h; rw [l5] at h; cases h
  | syn _ _ _ hst ho haddr =>
    have hidOf : ∀ x y, t.idOf x = some y → (((t.ss.accepted m.active).1.socks)[x]?).map (·.id) = some y := by
      intro x y hx
      have hlx := idOf_lt hx
      unfold TcpStack.idOf at hx
      simp only [Socks.accepted]
      rw [List.getElem?_append_left hlx]; exact hx
    have htab : ∀ k, k ≠ m.active → (t.ss.accepted m.active).1.table.get? k = t.ss.table.get? k := by
      intro k hk
      simp only [Socks.accepted, Dict.get?_set, if_neg hk]
    have hne : id ≠ m.active := fun e => hid (by rw [e]; rfl)
    refine ⟨⟨hidOf r id l1, (htab id hne).trans l2, t.conns.length,
        Sess.opened false iss s.lip s.lport s.rip s.rport, ⟨?_, ?_⟩, rfl⟩,
      ⟨t.ss.socks.length, i, s', ?_, ?_, ?_, ?_, ⟨?_, ?_⟩, hst, haddr.1, haddr.2.1, haddr.2.2.1, haddr.2.2.2, hrn⟩,
      hidOf, htab, ?_, rfl, rfl⟩
    · simp only [upd]
      rw [if_neg (by omega)]; simp
    · dsimp only
      rw [List.getElem?_set_ne (by omega)]
      simp
    · simp [TcpStack.idOf]
    · simp [TcpStack.idOf, Socks.accepted]
    · simp [Socks.accepted, Dict.get?_set]
    · simp [upd]
    · simp [upd]
    · dsimp only; rw [List.getElem?_set_self (by simp; omega)]
    · intro x j s₀ hx ⟨h1, h2⟩
      have hxl := hv.lt j _ h2
      dsimp only at hxl
      have hji : j ≠ i := by
        rintro rfl
        rw [h2] at l4; injection l4 with l4; injection l4 with _ l4; exact hx l4
      refine ⟨?_, ?_⟩
      · simp only [upd]
        rw [if_neg (by omega), if_neg hx]; exact h1
      · dsimp only
        rw [List.getElem?_set_ne (Ne.symm hji), List.getElem?_append_left (get_lt' h2)]; exact h2

namespace Example.TcpStack
open Example.Session (lip rip)

/-- A segment to 10.0.1.7:80 from 10.0.1.9, from the port given. -/
def seg (port : Nat) (syn ack : Bool) (seq ackn : Nat) (data : Bytes) : TcpMd :=
  ⟨lip, 80, rip, port, syn, ack, false, false, seq, ackn, 1000, none, 1000, data⟩

/-- A socket listens on 10.0.1.7:80. -/
def listening : List Ev := [.socket .inet4, .bind Example.stack 0 (some lip) 80 0, .listen 0 1000]

/-- Two connections come in; the second is established first.  The sessions are 0 and 1, their sockets 1 and 2. -/
def two : List Ev := listening ++
  [.segment (seg 7001 true false 500 0 []) 2000, .segment (seg 7002 true false 900 0 []) 3000, .timer 0, .timer 1,
   .segment (seg 7002 false true 901 2001 []) 0, .segment (seg 7001 false true 501 1001 []) 0]

/-- C61_accept -/
example : Spec.inbound (TcpStack.run two) 0 = [2, 1] ∧ Spec.accepts (TcpStack.run two).log 0 = [] ∧
    Spec.accepts (TcpStack.run (two ++ [.accept 0, .accept 0, .accept 0])).log 0 = [2, 1] := by decide +kernel

/-- C61_independent, C61_stream: data of the two connections do not mix. -/
example : Spec.received (Spec.seenOf (TcpStack.run (two ++ [.accept 0, .segment (seg 7001 false true 501 1001 [1, 2]) 0,
      .segment (seg 7002 false true 901 2001 [7, 8]) 0, .call 0 .recvAcquire, .call 0 (.recvTake none), .call 1 .recvAcquire,
      .call 1 (.recvTake none)])).log 0) = [1, 2] ∧
    Spec.received (Spec.seenOf (TcpStack.run (two ++ [.accept 0, .segment (seg 7001 false true 501 1001 [1, 2]) 0,
      .segment (seg 7002 false true 901 2001 [7, 8]) 0, .call 0 .recvAcquire, .call 0 (.recvTake none), .call 1 .recvAcquire,
      .call 1 (.recvTake none)])).log 1) = [7, 8] := by decide +kernel

/-- C61_own_segments -/
example : (TcpStack.run two).route (seg 7001 false true 501 1001 [1, 2]) = some 0 ∧
    (TcpStack.run two).route (seg 7003 true false 5 0 []) = some 2 ∧ (TcpStack.run two).route (seg 7003 false true 5 0 []) = none := by
  decide +kernel

/-- C61_spawn_partial -/
example : Spec.Listens (TcpStack.run listening) 0 ⟨.inet4, .stream, lip, 80, .v4 .zero, 0⟩ ∧
    Rx.tcpMatch (TcpStack.run listening).ss (seg 7001 true false 500 0 []) = some 0 := by
  refine ⟨⟨by decide +kernel, by decide +kernel, 0, Sess.opened false 1000 lip 80 (.v4 .zero) 0, ⟨by decide +kernel, by rfl⟩, rfl⟩, by decide +kernel⟩

end Example.TcpStack

/-- C61 fails for a SYN that carries data, or one with an acknowledgement number other than 0 (which means nothing without ACK): it
belongs to the listening socket, but no session is made for it and no answer is sent. -/
theorem C61_ignored : ∃ m₁ m₂ : TcpMd, (m₁.syn ∧ m₁.ack = false ∧ m₁.ackn = 0 ∧ m₁.data = [1]) ∧
    (m₂.syn ∧ m₂.ack = false ∧ m₂.ackn = 1 ∧ m₂.data = []) ∧ ∀ m ∈ [m₁, m₂],
    Rx.tcpMatch (TcpStack.run Example.TcpStack.listening).ss m = some 0 ∧
    ((TcpStack.run Example.TcpStack.listening).step (.segment m 5)).conns.length = (TcpStack.run Example.TcpStack.listening).conns.length ∧
    ((TcpStack.run Example.TcpStack.listening).step (.segment m 5)).log = (TcpStack.run Example.TcpStack.listening).log := by
  refine ⟨Example.TcpStack.seg 7001 true false 500 0 [1], Example.TcpStack.seg 7001 true false 500 1 [], by decide, by decide, ?_⟩
  decide +kernel

/-- C61 and `close`: `close` on the listening socket reads which session is the socket's before it closes it; if a SYN comes in
between, the new connection is closed and the socket goes on listening. -/
theorem C61_close_race : ∃ evs : List Ev, evs = Example.TcpStack.listening ++ [.segment (Example.TcpStack.seg 7001 true false 500 0 []) 2000] ∧
    (TcpStack.run Example.TcpStack.listening).session 0 = some 0 ∧
    ((TcpStack.run (evs ++ [.call 0 .close])).conns.map (fun c => (c.sock, c.s.state))) = [(1, .finWait1), (0, .listen)] ∧
    (TcpStack.run (evs ++ [.call 0 .close])).session 0 = some 1 := by
  refine ⟨_, rfl, ?_⟩
  decide +kernel

end Verif
