import Verif.Model.Rx
/-!
A TCP session (`/repo/pytcp/protocols/tcp/session.py`), function by function.

* A function that changes the session and may raise is a function to `Sess.Res`: the session as it is left, and the exception
  if there is one.
* `Sess.out` is the model's own: what the session has done that others can see, oldest first.
* `tcp_fsm` runs under the session's lock, so a call of it is one event of a history.  A receive call is two: it takes the
  semaphore, then it looks at the buffer (session.py:431 and 435-457); anything may happen in between.  `send` and the rest of
  `receive` are one event each.
* The timers of a session are its own: they are named after it (session.py:314-321), and here they are known by what follows
  the name.  The timer thread's round is two events: the timers count down (`clock`), the session's registered method runs
  (`timer`).
* Log lines are left out, and so is Python's limit on the depth of recursion, which a long run of queued segments can reach
  through session.py:820.
-/
namespace Verif

/-- session.py:74-87 -/
inductive SysCall where
  | listen
  | connect
  | close
  deriving DecidableEq

/-- session.py:88-108 -/
inductive FsmState where
  | closed
  | listen
  | synSent
  | synRcvd
  | established
  | finWait1
  | finWait2
  | closing
  | closeWait
  | lastAck
  | timeWait
  deriving DecidableEq

/-- session.py:110-122 -/
inductive ConnError where
  | none
  | refused
  | timeout
  deriving DecidableEq

/-- The names of a session's timers, without the session's name (session.py:535, 544, 656, 663, 671, 1289, 1365, 1414, 1583). -/
inductive TimerName where
  | delayedAck
  | retransmit (seq : Nat)
  | timeWait
  deriving DecidableEq

/-- session.py:507-523: what is given to `send_tcp_packet`, apart from addresses, ports and the window, which is always 65535
(`_rcv_wnd` is never changed).  `data=None` is the same as `b""` to the transmit side (tcp/fpa.py:137). -/
structure Seg where
  syn : Bool
  ack : Bool
  fin : Bool
  rst : Bool
  seq : Nat
  ackn : Nat
  data : Bytes
  deriving DecidableEq

/-- packet_handler.py:646-681, tcp/phtx.py:104-113: the segment as given to the assembler.  The option list has an MSS option
exactly for SYN; the scale 0 given for SYN is falsy, so no window scale option is made. -/
def Seg.tx (g : Seg) (sport dport : Nat) : Tcp.Tx :=
  ⟨sport, dport, g.seq, g.ackn, ⟨false, false, false, false, g.ack, false, g.rst, g.syn, g.fin⟩, 65535, 0,
    if g.syn then [.mss 1460] else [], g.data⟩

/-- What a session does that others can see. -/
inductive Out where
  /-- `send_tcp_packet(...)` -/
  | sent (g : Seg)
  /-- `_change_state` from the first to the second state -/
  | moved (a b : FsmState)
  /-- `stack.sockets.pop(str(self._socket))` that found the key -/
  | unregistered
  /-- a listening session has made a new listening session for its socket and a new socket for itself
  (session.py:868-893) -/
  | spawned
  /-- the new socket was put in the listening socket's accept queue, and its semaphore released (session.py:1055-1056) -/
  | queued
  /-- `receive` returned this -/
  | received (d : Bytes)
  /-- `send` of this buffer returned its length -/
  | accepted (d : Bytes)
  /-- `send` raised `TcpSessionError` -/
  | rejected
  /-- `connect` returned (`none`) or raised `TcpSessionError` with this text -/
  | connected (e : ConnError)
  /-- `tcp_fsm` raised -/
  | raised (e : PyErr)
  deriving DecidableEq

/-- session.py:173-311.  `_rcv_mss` (1460), `_rcv_wnd` (65535) and `_rcv_wsc` are never changed and are left out; so is
`_socket`, of which only matters whether `stack.sockets` has its key (`registered`; see `Model/TcpStack.lean`). -/
structure Sess where
  lip : IpAddress
  lport : Nat
  rip : IpAddress
  rport : Nat
  rx : Bytes
  tx : Bytes
  rcvIni : Nat
  rcvNxt : Nat
  rcvUna : Nat
  sndIni : Nat
  sndNxt : Nat
  sndMax : Nat
  sndUna : Nat
  sndFin : Nat
  sndMss : Nat
  sndWnd : Nat
  sndEwn : Nat
  sndWsc : Nat
  /-- `_tx_retransmit_request_counter` -/
  txReq : Dict Nat Nat
  /-- `_tx_retransmit_timeout_counter` -/
  txTmo : Dict Nat Nat
  /-- `_rx_retransmit_request_counter` -/
  rxReq : Dict Nat Nat
  /-- `_tx_buffer_seq_mod` -/
  seqMod : Int
  state : FsmState
  /-- the value of the semaphore `_event_connect` -/
  evConnect : Nat
  /-- the value of the semaphore `_event_rx_buffer` -/
  evRx : Nat
  /-- `_closing` -/
  closes : Bool
  /-- `_ooo_packet_queue` -/
  ooo : Dict Nat TcpMd
  /-- `_connection_error` -/
  err : ConnError
  timers : Dict TimerName Int
  registered : Bool
  /-- how many `receive` calls have taken the semaphore and not yet looked at the buffer -/
  readers : Nat
  out : List Out

namespace Sess

/-- The session as a function leaves it, and the exception it raised, if any. -/
structure Res where
  s : Sess
  exc : Option PyErr

/-- The function went through. -/
def ok (s : Sess) : Res := ⟨s, none⟩

/-- Sequencing: what follows an exception is not run. -/
def Res.next (r : Res) (k : Sess → Res) : Res :=
  match r.exc with
  | none => k r.s
  | some _ => r

/-- session.py:173-311; `iss` is the random number of line 233. -/
def new (iss : Nat) (lip : IpAddress) (lport : Nat) (rip : IpAddress) (rport : Nat) : Sess where
  lip := lip
  lport := lport
  rip := rip
  rport := rport
  rx := []
  tx := []
  rcvIni := 0
  rcvNxt := 0
  rcvUna := 0
  sndIni := iss
  sndNxt := iss
  sndMax := iss
  sndUna := iss
  sndFin := 0
  sndMss := 536
  sndWnd := 536
  sndEwn := 536
  sndWsc := 1
  txReq := []
  txTmo := []
  rxReq := []
  seqMod := iss
  state := .closed
  evConnect := 0
  evRx := 0
  closes := false
  ooo := []
  err := .none
  timers := []
  registered := true
  readers := 0
  out := []

/-- Note something others can see. -/
def emit (s : Sess) (o : Out) : Sess := { s with out := s.out ++ [o] }

/-- session.py:366-370: `_tx_buffer_nxt` -/
def txNxt (s : Sess) : Nat := (s.sndNxt - s.seqMod).toNat

/-- session.py:372-377: `_tx_buffer_una` -/
def txUna (s : Sess) : Nat := (s.sndUna - s.seqMod).toNat

/-- timer.py:193-197: `stack.timer.register_timer` -/
def setTimer (s : Sess) (n : TimerName) (v : Int) : Sess := { s with timers := s.timers.set n v }

/-- timer.py:199-204: `stack.timer.is_expired` -/
def expired (s : Sess) (n : TimerName) : Bool :=
  match s.timers.get? n with
  | none => true
  | some v => v = 0

/-- session.py:470-488: `_change_state`. -/
def changeState (s : Sess) (st : FsmState) : Res :=
  let s := { s with state := st, out := s.out ++ [.moved s.state st] }
  if st = .closed then
    if s.registered then ok { s with registered := false, out := s.out ++ [.unregistered] }
    else ⟨s, some .keyError⟩
  else ok s

/-- session.py:490-555: `_transmit_packet`.  `send_tcp_packet` raises when a number is too large for its field
(tcp/fpa.py:110-111; the ports and the window fit). -/
def transmitPacket (s : Sess) (seq : Option Nat) (syn ack fin rst : Bool) (data : Bytes) : Res :=
  let seq := seq.getD s.sndNxt
  let ackn := if ack then s.rcvNxt else 0
  if ¬ (seq ≤ 0xFFFFFFFF ∧ ackn ≤ 0xFFFFFFFF) then ⟨s, some .assertionError⟩
  else
    let s := s.emit (.sent ⟨syn, ack, fin, rst, seq, ackn, data⟩)
    let nxt := seq + data.length + syn.toNat + fin.toNat
    let s := { s with
      rcvUna := s.rcvNxt
      sndNxt := nxt
      sndMax := max s.sndMax nxt
      seqMod := s.seqMod + syn.toNat + fin.toNat
      sndFin := if fin then nxt else s.sndFin }
    let s := if s.state = .established then s.setTimer .delayedAck 100 else s
    if data ≠ [] ∨ syn ∨ fin then
      let c := match s.txTmo.get? seq with
        | none => 0
        | some c => c + 1
      ok { s with txTmo := s.txTmo.set seq c, timers := s.timers.set (.retransmit seq) (1000 * 2 ^ c) }
    else ok s

/-- session.py:557-573: `_enqueue_rx_buffer`. -/
def enqueueRx (s : Sess) (d : Bytes) : Sess :=
  { s with rx := s.rx ++ d, evRx := if s.evRx = 0 then 1 else s.evRx }

/-- `b[i:j]` with Python's meaning of negative bounds. -/
def pySlice (b : Bytes) (i j : Int) : Bytes :=
  let norm (x : Int) : Nat := if x < 0 then (x + b.length).toNat else min x.toNat b.length
  (b.drop (norm i)).take (norm j - norm i)

/-- session.py:575-651: `_transmit_data`. -/
def transmitData (s : Sess) : Res :=
  if ¬ (s.sndUna ≤ s.sndNxt ∧ s.sndNxt ≤ s.sndUna + s.sndEwn) then ⟨s, some .assertionError⟩
  else if s.state = .synSent ∧ s.sndNxt = s.sndIni then s.transmitPacket none true false false false []
  else if s.state = .synRcvd ∧ s.sndNxt = s.sndIni then s.transmitPacket none true true false false []
  else
    let remaining : Int := (s.tx.length : Int) - s.txNxt
    let usable : Int := (s.sndEwn : Int) - s.txNxt
    let n : Int := min (min (s.sndMss : Int) usable) remaining
    if (s.state = .established ∨ s.state = .closeWait) ∧ remaining ≠ 0 then
      if n ≠ 0 then s.transmitPacket none false true false false (pySlice s.tx s.txNxt (s.txNxt + n))
      else ok s
    else if (s.state = .finWait1 ∨ s.state = .lastAck) ∧ s.sndNxt ≠ s.sndFin then
      s.transmitPacket none false true true false []
    else ok s

/-- session.py:653-663: `_delayed_ack`. -/
def delayedAck (s : Sess) : Res :=
  if s.expired .delayedAck then
    (if s.rcvNxt > s.rcvUna then s.transmitPacket none false true false false [] else ok s).next fun s =>
    ok (s.setTimer .delayedAck 100)
  else ok s

/-- session.py:665-720: `_retransmit_packet_timeout`.  `_rcv_nxt` is never `None`. -/
def retransmitTimeout (s : Sess) : Res :=
  match s.txTmo.get? s.sndUna with
  | none => ok s
  | some c =>
    if s.expired (.retransmit s.sndUna) then
      if c = 3 then
        (s.transmitPacket (some s.sndUna) false true false true []).next fun s =>
        let s := if s.state = .established ∨ s.state = .finWait1 ∨ s.state = .finWait2 ∨ s.state = .closeWait then
            { s with err := .timeout, evRx := s.evRx + 1 }
          else s
        let s := if s.state = .synSent then { s with err := .timeout, evConnect := s.evConnect + 1 } else s
        s.changeState .closed
      else
        ok { s with
          sndEwn := s.sndMss
          sndNxt := s.sndUna
          seqMod := if s.sndUna = s.sndIni ∨ s.sndUna = s.sndFin then s.seqMod - 1 else s.seqMod }
    else ok s

/-- session.py:722-735: `_retransmit_packet_request`. -/
def retransmitRequest (s : Sess) (m : TcpMd) : Sess :=
  let c := ((s.txReq.get? m.ackn).getD 0) + 1
  let s := { s with txReq := s.txReq.set m.ackn c }
  if c > 1 then { s with sndNxt := s.sndUna } else s

/-- session.py:737-811: `_process_ack_packet` up to the out-of-order queue. -/
def ackUpdate (s : Sess) (m : TcpMd) : Sess :=
  let una := max s.sndUna m.ackn
  let s := { s with
    sndUna := una
    sndNxt := if s.sndNxt < una ∧ una ≤ s.sndMax then una else s.sndNxt
    rcvNxt := m.seq + m.data.length + m.syn.toNat + m.fin.toNat }
  let s := if m.data ≠ [] then s.enqueueRx m.data else s
  { s with
    tx := s.tx.drop s.txUna
    seqMod := s.seqMod + s.txUna
    sndWnd := m.win * s.sndWsc
    sndEwn := min (s.sndEwn * 2) (m.win * s.sndWsc)
    txReq := s.txReq.filter (fun e => ¬ e.1 < m.ackn)
    txTmo := s.txTmo.filter (fun e => ¬ e.1 < m.ackn)
    rxReq := s.rxReq.filter (fun e => ¬ e.1 < s.rcvNxt) }

/-- session.py:737-820: `_process_ack_packet`; `fsm` is `tcp_fsm` called with a packet. -/
def processAck (fsm : Sess → TcpMd → Res) (s : Sess) (m : TcpMd) : Res :=
  let s := s.ackUpdate m
  match s.ooo.get? s.rcvNxt with
  | none => ok s
  | some p => fsm { s with ooo := s.ooo.erase s.rcvNxt } p

/-- The flag tests of the handlers: `all({...}) and not any({...})`, written out there each time. -/
def isAck (m : TcpMd) : Bool := m.ack && !m.syn && !m.rst && !m.fin
def isFinAck (m : TcpMd) : Bool := m.fin && m.ack && !m.syn && !m.rst
def isRstAck (m : TcpMd) : Bool := m.rst && m.ack && !m.fin && !m.syn
def isRst (m : TcpMd) : Bool := m.rst && !m.ack && !m.fin && !m.syn
def isSynAck (m : TcpMd) : Bool := m.syn && m.ack && !m.fin && !m.rst
def isSyn (m : TcpMd) : Bool := m.syn && !m.ack && !m.fin && !m.rst

/-- The acceptability test of the handlers, `snd_una <= ack <= snd_max`. -/
def acceptable (s : Sess) (m : TcpMd) : Bool := s.sndUna ≤ m.ackn && m.ackn ≤ s.sndMax

/-- session.py:898-900, 948-950: `packet_rx_md.wscale if packet_rx_md.wscale else 1`. -/
def peerScale (m : TcpMd) : Nat :=
  match m.wscale with
  | some w => if w = 0 then 1 else w
  | none => 1

/-- What `tcp_fsm` is called with. -/
inductive Input where
  | packet (m : TcpMd)
  | sys (c : SysCall)
  | timer

/-- session.py:822-839: `_tcp_fsm_closed`. -/
def fsmClosed (s : Sess) : Input → Res
  | .sys .connect => s.changeState .synSent
  | .sys .listen => s.changeState .listen
  | _ => ok s

/-- session.py:841-917: `_tcp_fsm_listen`.  The new session and the new socket are `Model/TcpStack.lean`'s; from here on
`registered` speaks of the new socket. -/
def fsmListen (s : Sess) : Input → Res
  | .packet m =>
    if isSyn m ∧ m.ackn = 0 ∧ m.data = [] then
      let s := (s.emit .spawned)
      { s with
        lip := m.lip
        lport := m.lport
        rip := m.rip
        rport := m.rport
        registered := true
        sndMss := min m.mss 1460
        sndWnd := m.win * s.sndWsc
        sndWsc := peerScale m
        rcvIni := m.seq
        sndEwn := min m.mss 1460
        rcvNxt := m.seq + m.syn.toNat }.changeState .synRcvd
    else ok s
  | .sys .close => s.changeState .closed
  | _ => ok s

/-- session.py:919-1010: `_tcp_fsm_syn_sent`. -/
def fsmSynSent (fsm : Sess → TcpMd → Res) (s : Sess) : Input → Res
  | .timer => s.retransmitTimeout.next fun s => s.transmitData
  | .packet m =>
    if isSynAck m ∧ m.ackn = s.sndNxt ∧ m.data = [] then
      (processAck fsm { s with
        sndMss := min m.mss 1460
        sndWnd := m.win * s.sndWsc
        sndWsc := peerScale m
        rcvIni := m.seq
        sndEwn := min m.mss 1460 } m).next fun s =>
      (s.transmitPacket none false true false false []).next fun s =>
      (s.changeState .established).next fun s =>
      ok { s with evConnect := s.evConnect + 1 }
    else if m.syn ∧ ¬ (m.ack ∨ m.fin ∨ m.syn) ∧ m.ackn = 0 ∧ m.data = [] then
      (s.transmitPacket none true true false false []).next fun s => s.changeState .synRcvd
    else if isRstAck m then
      if m.seq = 0 ∧ m.ackn = s.sndNxt then
        (s.changeState .closed).next fun s => ok { s with err := .refused, evConnect := s.evConnect + 1 }
      else ok s
    else ok s
  | .sys .close => s.changeState .closed
  | .sys _ => ok s

/-- session.py:1012-1095: `_tcp_fsm_syn_rcvd`. -/
def fsmSynRcvd (fsm : Sess → TcpMd → Res) (s : Sess) : Input → Res
  | .timer => s.retransmitTimeout.next fun s => s.transmitData
  | .packet m =>
    if isAck m ∧ m.seq = s.rcvNxt ∧ m.ackn = s.sndNxt ∧ m.data = [] then
      (processAck fsm s m).next fun s =>
      (s.changeState .established).next fun s =>
      ok { s.emit .queued with evConnect := s.evConnect + 1 }
    else if isRstAck m then
      if m.seq = s.rcvNxt ∧ s.acceptable m then s.changeState .closed else ok s
    else if isRst m then
      if m.seq = s.rcvNxt ∧ m.ackn = 0 then s.changeState .closed else ok s
    else ok s
  | .sys .close => s.changeState .finWait1
  | .sys _ => ok s

/-- session.py:1144-1163, 1466-1483: a segment above the expected sequence number is kept, and the missing one asked for, at
most twice. -/
def outOfOrder (s : Sess) (m : TcpMd) : Res :=
  let c := ((s.rxReq.get? s.rcvNxt).getD 0) + 1
  let s := { s with ooo := s.ooo.set m.seq m, rxReq := s.rxReq.set s.rcvNxt c }
  if c ≤ 2 then s.transmitPacket none false true false false [] else ok s

/-- session.py:1097-1221: `_tcp_fsm_established`. -/
def fsmEstablished (fsm : Sess → TcpMd → Res) (s : Sess) : Input → Res
  | .timer =>
    s.retransmitTimeout.next fun s =>
    s.transmitData.next fun s =>
    s.delayedAck.next fun s =>
    if s.closes ∧ s.tx = [] then s.changeState .finWait1 else ok s
  | .packet m =>
    if ¬ (s.rcvNxt ≤ m.seq ∧ m.seq + m.data.length ≤ s.rcvNxt + 65535) then ok s
    else if isAck m then
      if m.seq = s.rcvNxt ∧ m.ackn = s.sndUna ∧ m.data = [] then ok (s.retransmitRequest m)
      else if m.seq > s.rcvNxt ∧ s.acceptable m then s.outOfOrder m
      else if m.seq = s.rcvNxt ∧ s.acceptable m then processAck fsm s m
      else ok s
    else if isFinAck m then
      if m.seq = s.rcvNxt ∧ s.acceptable m then
        (processAck fsm s m).next fun s =>
        (if m.data ≠ [] then s.transmitPacket none false true false false [] else ok s).next fun s =>
        { s with evRx := s.evRx + 1 }.changeState .closeWait
      else ok s
    else if isRstAck m then
      if m.seq = s.rcvNxt ∧ s.acceptable m then { s with evRx := s.evRx + 1 }.changeState .closed else ok s
    else ok s
  | .sys .close => ok { s with closes := true }
  | .sys _ => ok s

/-- session.py:1223-1311: `_tcp_fsm_fin_wait_1`. -/
def fsmFinWait1 (fsm : Sess → TcpMd → Res) (s : Sess) : Input → Res
  | .timer => s.retransmitTimeout.next fun s => s.transmitData
  | .packet m =>
    if isAck m then
      if m.seq = s.rcvNxt ∧ s.acceptable m then
        (processAck fsm s m).next fun s =>
        (if m.data ≠ [] then s.transmitPacket none false true false false [] else ok s).next fun s =>
        if m.ackn ≥ s.sndFin then s.changeState .finWait2 else ok s
      else ok s
    else if isFinAck m then
      if m.seq = s.rcvNxt ∧ s.acceptable m then
        (processAck fsm s m).next fun s =>
        (s.transmitPacket none false true false false []).next fun s =>
        if m.ackn ≥ s.sndFin then (s.changeState .timeWait).next fun s => ok (s.setTimer .timeWait 30000)
        else s.changeState .closing
      else ok s
    else if isRstAck m then
      if m.seq = s.rcvNxt ∧ s.acceptable m then s.changeState .closed else ok s
    else ok s
  | .sys _ => ok s

/-- session.py:1313-1383: `_tcp_fsm_fin_wait_2`. -/
def fsmFinWait2 (fsm : Sess → TcpMd → Res) (s : Sess) : Input → Res
  | .packet m =>
    if isAck m ∧ m.seq = s.rcvNxt ∧ s.acceptable m then
      (processAck fsm s m).next fun s =>
      if m.data ≠ [] then s.transmitPacket none false true false false [] else ok s
    else if isFinAck m ∧ m.seq = s.rcvNxt ∧ s.acceptable m then
      (processAck fsm s m).next fun s =>
      (s.transmitPacket none false true false false []).next fun s =>
      (s.changeState .timeWait).next fun s => ok (s.setTimer .timeWait 30000)
    else if isRstAck m then
      if m.seq = s.rcvNxt ∧ s.acceptable m then s.changeState .closed else ok s
    else ok s
  | _ => ok s

/-- session.py:1385-1431: `_tcp_fsm_closing`. -/
def fsmClosing (s : Sess) : Input → Res
  | .packet m =>
    if isAck m ∧ m.ackn = s.sndNxt ∧ s.acceptable m then
      ({ s with sndUna := m.ackn }.changeState .timeWait).next fun s => ok (s.setTimer .timeWait 30000)
    else if isRstAck m then
      if m.seq = s.rcvNxt ∧ s.acceptable m then s.changeState .closed else ok s
    else ok s
  | _ => ok s

/-- session.py:1433-1519: `_tcp_fsm_close_wait`. -/
def fsmCloseWait (fsm : Sess → TcpMd → Res) (s : Sess) : Input → Res
  | .timer =>
    s.retransmitTimeout.next fun s =>
    s.transmitData.next fun s =>
    s.delayedAck.next fun s =>
    if s.closes ∧ s.tx = [] then s.changeState .lastAck else ok s
  | .packet m =>
    if isAck m then
      if m.seq = s.rcvNxt ∧ m.ackn = s.sndUna ∧ m.data = [] then ok (s.retransmitRequest m)
      else if m.seq > s.rcvNxt ∧ s.acceptable m then s.outOfOrder m
      else if m.seq = s.rcvNxt ∧ s.acceptable m ∧ m.data = [] then processAck fsm s m
      else ok s
    else if isRst m then
      if m.seq = s.rcvNxt then s.changeState .closed else ok s
    else ok s
  | .sys .close => ok { s with closes := true }
  | .sys _ => ok s

/-- session.py:1521-1570: `_tcp_fsm_last_ack`. -/
def fsmLastAck (s : Sess) : Input → Res
  | .timer => s.retransmitTimeout.next fun s => s.transmitData
  | .packet m =>
    if isAck m then
      if m.ackn = s.sndNxt ∧ s.acceptable m then s.changeState .closed else ok s
    else if isRstAck m then
      if m.seq = s.rcvNxt ∧ s.acceptable m then s.changeState .closed else ok s
    else ok s
  | .sys _ => ok s

/-- session.py:1572-1585: `_tcp_fsm_time_wait`. -/
def fsmTimeWait (s : Sess) : Input → Res
  | .timer => if s.expired .timeWait then s.changeState .closed else ok s
  | _ => ok s

/-- session.py:1587-1611: `tcp_fsm`; `fsm` stands for the call of `tcp_fsm` in `_process_ack_packet`. -/
def fsmWith (fsm : Sess → TcpMd → Res) (s : Sess) (i : Input) : Res :=
  match s.state with
  | .closed => s.fsmClosed i
  | .listen => s.fsmListen i
  | .synSent => s.fsmSynSent fsm i
  | .synRcvd => s.fsmSynRcvd fsm i
  | .established => s.fsmEstablished fsm i
  | .finWait1 => s.fsmFinWait1 fsm i
  | .finWait2 => s.fsmFinWait2 fsm i
  | .closing => s.fsmClosing i
  | .closeWait => s.fsmCloseWait fsm i
  | .lastAck => s.fsmLastAck i
  | .timeWait => s.fsmTimeWait i

/-- `tcp_fsm` with its own recursion, to a given depth. -/
def fsmFuel : Nat → Sess → Input → Res
  | 0, s, _ => ⟨s, some .nonTermination⟩
  | n + 1, s, i => fsmWith (fun s m => fsmFuel n s (.packet m)) s i

/-- session.py:1587-1611: `tcp_fsm`.  Every level of recursion takes a segment out of the out-of-order queue, so this depth is
enough (`fsm_terminates`). -/
def fsm (s : Sess) (i : Input) : Res := fsmFuel (s.ooo.length + 1) s i

/-- timer.py:152-157: the timers count down, those at zero go. -/
def clock (s : Sess) : Sess :=
  { s with timers := (s.timers.map (fun e => (e.1, e.2 - 1))).filter (fun e => e.2 ≠ 0) }

/-- session.py:410-421: `send`. -/
def send (s : Sess) (d : Bytes) : Sess :=
  if s.state = .established ∨ s.state = .closeWait then { s with tx := s.tx ++ d, out := s.out ++ [.accepted d] }
  else s.emit .rejected

/-- session.py:431: `receive` gets past its semaphore; a call that waits is an event that has not happened yet. -/
def recvAcquire (s : Sess) : Sess :=
  if s.evRx = 0 then s else { s with evRx := s.evRx - 1, readers := s.readers + 1 }

/-- session.py:433-457: the rest of `receive`, for a byte count that is not negative. -/
def recvTake (s : Sess) (n : Option Nat) : Sess :=
  if s.readers = 0 then s
  else
    let s := { s with readers := s.readers - 1 }
    if s.rx = [] ∧ (s.state = .closeWait ∨ s.state = .closed) then s.emit (.received [])
    else
      let k := match n with
        | none => s.rx.length
        | some n => min n s.rx.length
      let d := s.rx.take k
      let s := { s with rx := s.rx.drop k }
      let s := if s.rx ≠ [] ∨ s.state = .closeWait ∨ s.state = .closed then { s with evRx := s.evRx + 1 } else s
      s.emit (.received d)

/-- session.py:397-408: `connect` gets past its semaphore. -/
def connectReturn (s : Sess) : Sess :=
  if s.evConnect = 0 then s
  else
    let s := { s with evConnect := s.evConnect - 1 }
    if s.state ≠ .established ∧ s.err = .refused then s.emit (.connected .refused)
    else if s.state ≠ .established ∧ s.err = .timeout then s.emit (.connected .timeout)
    else s.emit (.connected .none)

/-- What can happen to a session. -/
inductive Ev where
  /-- a received segment is handed to it -/
  | segment (m : TcpMd)
  /-- the application closes -/
  | close
  | send (d : Bytes)
  | recvAcquire
  | recvTake (n : Option Nat)
  | connectReturn
  /-- the timers count down one millisecond -/
  | clock
  /-- the session's timer method runs -/
  | timer
  /-- something else has added or removed the key of the session's socket in `stack.sockets` -/
  | table (b : Bool)

/-- Note an exception. -/
def Res.done (r : Res) : Sess :=
  match r.exc with
  | none => r.s
  | some e => r.s.emit (.raised e)

/-- One event. -/
def step (s : Sess) : Ev → Sess
  | .segment m => (s.fsm (.packet m)).done
  | .close => (s.fsm (.sys .close)).done
  | .send d => s.send d
  | .recvAcquire => s.recvAcquire
  | .recvTake n => s.recvTake n
  | .connectReturn => s.connectReturn
  | .clock => s.clock
  | .timer => (s.fsm .timer).done
  | .table b => { s with registered := b }

/-- A history. -/
def run (s : Sess) (evs : List Ev) : Sess := evs.foldl step s

/-- session.py:388-396, 379-386: `connect` up to its semaphore, or `listen`, of a new session.  The socket makes a new session
for every call of either (tcp/socket.py:242-248, 269-275), and so does a listening session (session.py:870-877). -/
def opened (active : Bool) (iss : Nat) (lip : IpAddress) (lport : Nat) (rip : IpAddress) (rport : Nat) : Sess :=
  ((new iss lip lport rip rport).fsm (.sys (if active then .connect else .listen))).done

end Sess
end Verif
