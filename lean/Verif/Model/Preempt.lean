import Verif.Model.Session
/-!
A TCP session when threads are switched at any moment.

`tcp_fsm` runs under a lock of the session (session.py:1598), so no two runs of it overlap.  But an application's thread can be anywhere in
`send`, `receive` or `connect` meanwhile.  Here a run of `tcp_fsm` is a program (`Prog`) of steps, and the application's threads may do any
number of theirs before each of them.

* What threads share: the two buffers, the two semaphores, the state and the connection error.  A step does not touch more than one of these,
  except where it holds that for all others (`_change_state` reads the state it writes; only `tcp_fsm` writes it).  Everything else is
  touched by `tcp_fsm` only.
* The locks of the buffers (session.py:415, 440, 567, 625, 764) are not modelled: a block that one of them guards is one step if both sides
  are guarded; otherwise it is split.  So there are more ways to switch here than in the program.
* The countdown of timers (timer.py:152-157) is not split and does not fall into a run of `tcp_fsm`.
-/
namespace Verif
namespace Sess

/-- A run of `tcp_fsm` from some point on: at the end, perhaps with an exception, or before a step, which changes the session and goes on
with what was seen before the change. -/
inductive Prog where
  | done (e : Option PyErr)
  | step (f : Sess → Sess) (k : Sess → Prog)

namespace Prog

/-- Sequencing: what follows an exception is not run. -/
def andThen : Prog → Prog → Prog
  | done none, q => q
  | done (some e), _ => done (some e)
  | step f k, q => step f fun s => (k s).andThen q

/-- Nothing. -/
def skip : Prog := done none

/-- One step, without exception. -/
def act (f : Sess → Sess) : Prog := step f fun _ => skip

/-- Look at the session, then go on. -/
def look (k : Sess → Prog) : Prog := step id k

/-- A function of `Model/Session.lean` as one step. -/
def call (g : Sess → Res) : Prog := step (fun s => (g s).s) fun s => done (g s).exc

/-- The run if no thread comes in between. -/
def run : Prog → Sess → Res
  | done e, s => ⟨s, e⟩
  | step f k, s => (k s).run (f s)

end Prog
open Prog

@[inherit_doc] infixr:65 " ;; " => Prog.andThen

/-- session.py:490-555: `_transmit_packet`, which shares nothing with the application's threads. -/
def transmitPacketP (seq : Option Nat) (syn ack fin rst : Bool) (data : Bytes) : Prog :=
  call (·.transmitPacket seq syn ack fin rst data)

/-- session.py:470-488: `_change_state`. -/
def changeStateP (st : FsmState) : Prog := call (·.changeState st)

/-- `self._event_rx_buffer.release()` -/
def releaseRx : Prog := act fun s => { s with evRx := s.evRx + 1 }

/-- `self._event_connect.release()` -/
def releaseConnect : Prog := act fun s => { s with evConnect := s.evConnect + 1 }

/-- session.py:557-573: `_enqueue_rx_buffer`. -/
def enqueueRxP (d : Bytes) : Prog :=
  act (fun s => { s with rx := s.rx ++ d }) ;;
  look fun s => if s.evRx = 0 then releaseRx else act id

/-- session.py:575-651: `_transmit_data`; the length of the buffer is read before the lock is taken. -/
def transmitDataP : Prog :=
  look fun s =>
  if ¬ (s.sndUna ≤ s.sndNxt ∧ s.sndNxt ≤ s.sndUna + s.sndEwn) then done (some .assertionError)
  else if s.state = .synSent ∧ s.sndNxt = s.sndIni then transmitPacketP none true false false false []
  else if s.state = .synRcvd ∧ s.sndNxt = s.sndIni then transmitPacketP none true true false false []
  else
    let remaining : Int := (s.tx.length : Int) - s.txNxt
    let usable : Int := (s.sndEwn : Int) - s.txNxt
    let n : Int := min (min (s.sndMss : Int) usable) remaining
    if (s.state = .established ∨ s.state = .closeWait) ∧ remaining ≠ 0 then
      if n ≠ 0 then look fun s => transmitPacketP none false true false false (pySlice s.tx s.txNxt (s.txNxt + n))
      else skip
    else if (s.state = .finWait1 ∨ s.state = .lastAck) ∧ s.sndNxt ≠ s.sndFin then
      transmitPacketP none false true true false []
    else skip

/-- session.py:653-663: `_delayed_ack`. -/
def delayedAckP : Prog := call (·.delayedAck)

/-- session.py:665-720: `_retransmit_packet_timeout`. -/
def retransmitTimeoutP : Prog :=
  look fun s =>
  match s.txTmo.get? s.sndUna with
  | none => skip
  | some c =>
    if s.expired (.retransmit s.sndUna) then
      if c = 3 then
        transmitPacketP (some s.sndUna) false true false true [] ;;
        (if s.state = .established ∨ s.state = .finWait1 ∨ s.state = .finWait2 ∨ s.state = .closeWait then
          act (fun s => { s with err := .timeout }) ;; releaseRx
        else skip) ;;
        (if s.state = .synSent then act (fun s => { s with err := .timeout }) ;; releaseConnect else skip) ;;
        changeStateP .closed
      else
        act fun s => { s with
          sndEwn := s.sndMss
          sndNxt := s.sndUna
          seqMod := if s.sndUna = s.sndIni ∨ s.sndUna = s.sndFin then s.seqMod - 1 else s.seqMod }
    else skip

/-- session.py:737-811: `_process_ack_packet` up to the out-of-order queue. -/
def ackUpdateP (m : TcpMd) : Prog :=
  act (fun s => { s with
    sndUna := max s.sndUna m.ackn
    sndNxt := if s.sndNxt < max s.sndUna m.ackn ∧ max s.sndUna m.ackn ≤ s.sndMax then max s.sndUna m.ackn else s.sndNxt
    rcvNxt := m.seq + m.data.length + m.syn.toNat + m.fin.toNat }) ;;
  (if m.data ≠ [] then enqueueRxP m.data else skip) ;;
  act (fun s => { s with tx := s.tx.drop s.txUna }) ;;
  act fun s => { s with
    seqMod := s.seqMod + s.txUna
    sndWnd := m.win * s.sndWsc
    sndEwn := min (s.sndEwn * 2) (m.win * s.sndWsc)
    txReq := s.txReq.filter (fun e => ¬ e.1 < m.ackn)
    txTmo := s.txTmo.filter (fun e => ¬ e.1 < m.ackn)
    rxReq := s.rxReq.filter (fun e => ¬ e.1 < s.rcvNxt) }

/-- session.py:737-820: `_process_ack_packet`; `fsm` is `tcp_fsm` called with a packet. -/
def processAckP (fsm : TcpMd → Prog) (m : TcpMd) : Prog :=
  ackUpdateP m ;;
  Prog.step (fun s => match s.ooo.get? s.rcvNxt with
    | none => s
    | some _ => { s with ooo := s.ooo.erase s.rcvNxt })
  fun s => match s.ooo.get? s.rcvNxt with
    | none => skip
    | some p => fsm p

/-- session.py:822-839: `_tcp_fsm_closed`. -/
def fsmClosedP : Input → Prog
  | .sys .connect => changeStateP .synSent
  | .sys .listen => changeStateP .listen
  | _ => skip

/-- session.py:919-1010: `_tcp_fsm_syn_sent`, in the session `s`. -/
def fsmSynSentP (fsm : TcpMd → Prog) (s : Sess) : Input → Prog
  | .timer => retransmitTimeoutP ;; transmitDataP
  | .packet m =>
    if isSynAck m ∧ m.ackn = s.sndNxt ∧ m.data = [] then
      act (fun s => { s with
        sndMss := min m.mss 1460
        sndWnd := m.win * s.sndWsc
        sndWsc := peerScale m
        rcvIni := m.seq
        sndEwn := min m.mss 1460 }) ;;
      processAckP fsm m ;;
      transmitPacketP none false true false false [] ;;
      changeStateP .established ;;
      releaseConnect
    else if m.syn ∧ ¬ (m.ack ∨ m.fin ∨ m.syn) ∧ m.ackn = 0 ∧ m.data = [] then
      transmitPacketP none true true false false [] ;; changeStateP .synRcvd
    else if isRstAck m then
      if m.seq = 0 ∧ m.ackn = s.sndNxt then
        changeStateP .closed ;; act (fun s => { s with err := .refused }) ;; releaseConnect
      else skip
    else skip
  | .sys .close => changeStateP .closed
  | .sys _ => skip

/-- session.py:1012-1095: `_tcp_fsm_syn_rcvd`, in the session `s`. -/
def fsmSynRcvdP (fsm : TcpMd → Prog) (s : Sess) : Input → Prog
  | .timer => retransmitTimeoutP ;; transmitDataP
  | .packet m =>
    if isAck m ∧ m.seq = s.rcvNxt ∧ m.ackn = s.sndNxt ∧ m.data = [] then
      processAckP fsm m ;;
      changeStateP .established ;;
      act (fun s => s.emit .queued) ;;
      releaseConnect
    else if isRstAck m then
      if m.seq = s.rcvNxt ∧ s.acceptable m then changeStateP .closed else skip
    else if isRst m then
      if m.seq = s.rcvNxt ∧ m.ackn = 0 then changeStateP .closed else skip
    else skip
  | .sys .close => changeStateP .finWait1
  | .sys _ => skip

/-- session.py:1144-1163, 1466-1483: a segment above the expected sequence number. -/
def outOfOrderP (m : TcpMd) : Prog := call (·.outOfOrder m)

/-- session.py:1097-1221: `_tcp_fsm_established`, in the session `s`. -/
def fsmEstablishedP (fsm : TcpMd → Prog) (s : Sess) : Input → Prog
  | .timer =>
    retransmitTimeoutP ;; transmitDataP ;; delayedAckP ;;
    look fun s => if s.closes ∧ s.tx = [] then changeStateP .finWait1 else skip
  | .packet m =>
    if ¬ (s.rcvNxt ≤ m.seq ∧ m.seq + m.data.length ≤ s.rcvNxt + 65535) then skip
    else if isAck m then
      if m.seq = s.rcvNxt ∧ m.ackn = s.sndUna ∧ m.data = [] then act (·.retransmitRequest m)
      else if m.seq > s.rcvNxt ∧ s.acceptable m then outOfOrderP m
      else if m.seq = s.rcvNxt ∧ s.acceptable m then processAckP fsm m
      else skip
    else if isFinAck m then
      if m.seq = s.rcvNxt ∧ s.acceptable m then
        processAckP fsm m ;;
        (if m.data ≠ [] then transmitPacketP none false true false false [] else skip) ;;
        releaseRx ;; changeStateP .closeWait
      else skip
    else if isRstAck m then
      if m.seq = s.rcvNxt ∧ s.acceptable m then releaseRx ;; changeStateP .closed else skip
    else skip
  | .sys .close => act fun s => { s with closes := true }
  | .sys _ => skip

/-- session.py:1223-1311: `_tcp_fsm_fin_wait_1`, in the session `s`. -/
def fsmFinWait1P (fsm : TcpMd → Prog) (s : Sess) : Input → Prog
  | .timer => retransmitTimeoutP ;; transmitDataP
  | .packet m =>
    if isAck m then
      if m.seq = s.rcvNxt ∧ s.acceptable m then
        processAckP fsm m ;;
        (if m.data ≠ [] then transmitPacketP none false true false false [] else skip) ;;
        look fun s => if m.ackn ≥ s.sndFin then changeStateP .finWait2 else skip
      else skip
    else if isFinAck m then
      if m.seq = s.rcvNxt ∧ s.acceptable m then
        processAckP fsm m ;;
        transmitPacketP none false true false false [] ;;
        look fun s =>
        if m.ackn ≥ s.sndFin then changeStateP .timeWait ;; act (·.setTimer .timeWait 30000)
        else changeStateP .closing
      else skip
    else if isRstAck m then
      if m.seq = s.rcvNxt ∧ s.acceptable m then changeStateP .closed else skip
    else skip
  | .sys _ => skip

/-- session.py:1313-1383: `_tcp_fsm_fin_wait_2`, in the session `s`. -/
def fsmFinWait2P (fsm : TcpMd → Prog) (s : Sess) : Input → Prog
  | .packet m =>
    if isAck m ∧ m.seq = s.rcvNxt ∧ s.acceptable m then
      processAckP fsm m ;;
      (if m.data ≠ [] then transmitPacketP none false true false false [] else skip)
    else if isFinAck m ∧ m.seq = s.rcvNxt ∧ s.acceptable m then
      processAckP fsm m ;;
      transmitPacketP none false true false false [] ;;
      changeStateP .timeWait ;; act (·.setTimer .timeWait 30000)
    else if isRstAck m then
      if m.seq = s.rcvNxt ∧ s.acceptable m then changeStateP .closed else skip
    else skip
  | _ => skip

/-- session.py:1433-1519: `_tcp_fsm_close_wait`, in the session `s`. -/
def fsmCloseWaitP (fsm : TcpMd → Prog) (s : Sess) : Input → Prog
  | .timer =>
    retransmitTimeoutP ;; transmitDataP ;; delayedAckP ;;
    look fun s => if s.closes ∧ s.tx = [] then changeStateP .lastAck else skip
  | .packet m =>
    if isAck m then
      if m.seq = s.rcvNxt ∧ m.ackn = s.sndUna ∧ m.data = [] then act (·.retransmitRequest m)
      else if m.seq > s.rcvNxt ∧ s.acceptable m then outOfOrderP m
      else if m.seq = s.rcvNxt ∧ s.acceptable m ∧ m.data = [] then processAckP fsm m
      else skip
    else if isRst m then
      if m.seq = s.rcvNxt then changeStateP .closed else skip
    else skip
  | .sys .close => act fun s => { s with closes := true }
  | .sys _ => skip

/-- session.py:1521-1570: `_tcp_fsm_last_ack`, in the session `s`. -/
def fsmLastAckP (s : Sess) : Input → Prog
  | .timer => retransmitTimeoutP ;; transmitDataP
  | .packet m =>
    if isAck m then
      if m.ackn = s.sndNxt ∧ s.acceptable m then changeStateP .closed else skip
    else if isRstAck m then
      if m.seq = s.rcvNxt ∧ s.acceptable m then changeStateP .closed else skip
    else skip
  | .sys _ => skip

/-- session.py:1587-1611: `tcp_fsm`, with its own recursion to a given depth.  In LISTEN, CLOSING and TIME_WAIT a run touches nothing that is
shared but the state. -/
def fsmP : Nat → Input → Prog
  | 0, _ => done (some .nonTermination)
  | n + 1, i => look fun s =>
    match s.state with
    | .closed => fsmClosedP i
    | .listen => call (·.fsmListen i)
    | .synSent => fsmSynSentP (fun m => fsmP n (.packet m)) s i
    | .synRcvd => fsmSynRcvdP (fun m => fsmP n (.packet m)) s i
    | .established => fsmEstablishedP (fun m => fsmP n (.packet m)) s i
    | .finWait1 => fsmFinWait1P (fun m => fsmP n (.packet m)) s i
    | .finWait2 => fsmFinWait2P (fun m => fsmP n (.packet m)) s i
    | .closing => call (·.fsmClosing i)
    | .closeWait => fsmCloseWaitP (fun m => fsmP n (.packet m)) s i
    | .lastAck => fsmLastAckP s i
    | .timeWait => call (·.fsmTimeWait i)

/-- A session and the application's calls that are under way.  `s.readers`: calls of `receive` that have taken the semaphore. -/
structure Conc where
  s : Sess
  /-- calls of `send` that have found the connection open (session.py:414) and have not put their bytes -/
  senders : List Bytes := []
  /-- calls of `receive` that have found the buffer empty (session.py:435) and have not looked at the state -/
  empty : Nat := 0
  /-- calls of `receive` that have got to session.py:440 -/
  takers : Nat := 0
  /-- calls of `receive` that have taken their bytes (session.py:446-447), each with whether bytes were left -/
  taken : List Bool := []
  /-- calls of `connect` that have got past the semaphore (session.py:397) -/
  conn1 : Nat := 0
  /-- calls of `connect` that have found the connection not established (session.py:399) -/
  conn2 : Nat := 0
  /-- calls of `connect` that have got to session.py:404 -/
  conn3 : Nat := 0
  /-- calls of `connect` that have found the connection not established there -/
  conn4 : Nat := 0

/-- A step of a thread of the application. -/
inductive App where
  /-- session.py:414 -/
  | sendTest (d : Bytes)
  /-- session.py:415-417, of the k-th call under way -/
  | sendPut (k : Nat)
  /-- session.py:431 -/
  | recvAcquire
  /-- session.py:435: the buffer -/
  | recvLook
  /-- session.py:435-439: the state -/
  | recvState
  /-- session.py:440-447 -/
  | recvTake (n : Option Nat)
  /-- session.py:451-455, of the k-th call under way -/
  | recvRelease (k : Nat)
  /-- session.py:397 -/
  | connAcquire
  /-- session.py:399 -/
  | connState
  /-- session.py:400-402 -/
  | connRefused
  /-- session.py:404 -/
  | connState'
  /-- session.py:405-407, and the end of `connect` -/
  | connTimeout

namespace Conc

/-- One step of the application.  A call that is not under way does nothing. -/
def app (c : Conc) : App → Conc
  | .sendTest d =>
    if c.s.state = .established ∨ c.s.state = .closeWait then { c with senders := c.senders ++ [d] }
    else { c with s := c.s.emit .rejected }
  | .sendPut k =>
    match c.senders[k]? with
    | none => c
    | some d => { c with s := { c.s with tx := c.s.tx ++ d, out := c.s.out ++ [.accepted d] }, senders := c.senders.eraseIdx k }
  | .recvAcquire => { c with s := c.s.recvAcquire }
  | .recvLook =>
    if c.s.readers = 0 then c
    else if c.s.rx = [] then { c with s := { c.s with readers := c.s.readers - 1 }, empty := c.empty + 1 }
    else { c with s := { c.s with readers := c.s.readers - 1 }, takers := c.takers + 1 }
  | .recvState =>
    if c.empty = 0 then c
    else if c.s.state = .closeWait ∨ c.s.state = .closed then { c with s := c.s.emit (.received []), empty := c.empty - 1 }
    else { c with empty := c.empty - 1, takers := c.takers + 1 }
  | .recvTake n =>
    if c.takers = 0 then c
    else
      let k := match n with
        | none => c.s.rx.length
        | some n => min n c.s.rx.length
      { c with
        s := { c.s with rx := c.s.rx.drop k, out := c.s.out ++ [.received (c.s.rx.take k)] }
        takers := c.takers - 1
        taken := c.taken ++ [decide (c.s.rx.drop k ≠ [])] }
  | .recvRelease k =>
    match c.taken[k]? with
    | none => c
    | some b =>
      let c := { c with taken := c.taken.eraseIdx k }
      if b ∨ c.s.state = .closeWait ∨ c.s.state = .closed then { c with s := { c.s with evRx := c.s.evRx + 1 } } else c
  | .connAcquire =>
    if c.s.evConnect = 0 then c else { c with s := { c.s with evConnect := c.s.evConnect - 1 }, conn1 := c.conn1 + 1 }
  | .connState =>
    if c.conn1 = 0 then c
    else if c.s.state ≠ .established then { c with conn1 := c.conn1 - 1, conn2 := c.conn2 + 1 }
    else { c with conn1 := c.conn1 - 1, conn3 := c.conn3 + 1 }
  | .connRefused =>
    if c.conn2 = 0 then c
    else if c.s.err = .refused then { c with s := c.s.emit (.connected .refused), conn2 := c.conn2 - 1 }
    else { c with conn2 := c.conn2 - 1, conn3 := c.conn3 + 1 }
  | .connState' =>
    if c.conn3 = 0 then c
    else if c.s.state ≠ .established then { c with conn3 := c.conn3 - 1, conn4 := c.conn4 + 1 }
    else { c with s := c.s.emit (.connected .none), conn3 := c.conn3 - 1 }
  | .connTimeout =>
    if c.conn4 = 0 then c
    else if c.s.err = .timeout then { c with s := c.s.emit (.connected .timeout), conn4 := c.conn4 - 1 }
    else { c with s := c.s.emit (.connected .none), conn4 := c.conn4 - 1 }

def apps (c : Conc) (l : List App) : Conc := l.foldl app c

/-- A run of `tcp_fsm` between whose steps the application makes the given steps: the k-th list before the k-th step.  What is left, and
the exception. -/
def weave : Prog → List (List App) → Conc → Conc × List (List App) × Option PyErr
  | .done e, l, c => (c, l, e)
  | .step f k, l, c =>
    let c := c.apps (l.headD [])
    weave (k c.s) l.tail { c with s := f c.s }

end Conc

/-- What other threads than the application's do. -/
inductive Work where
  /-- a received segment is handed to the session -/
  | segment (m : TcpMd)
  /-- `close` is called (by the application; it is a run of `tcp_fsm`) -/
  | close
  /-- the session's timer method runs -/
  | timer
  /-- the timers count down one millisecond -/
  | clock
  /-- something else has added or removed the key of the session's socket in `stack.sockets` -/
  | table (b : Bool)

namespace Conc

/-- A run of `tcp_fsm`, and what the application does during and after it. -/
def fsm (c : Conc) (i : Input) (l : List (List App)) : Conc :=
  match weave (fsmP (c.s.ooo.length + 1) i) l c with
  | (c, l, none) => c.apps l.flatten
  | (c, l, some e) => { c with s := c.s.emit (.raised e) }.apps l.flatten

/-- One piece of work, and what the application does during and after it. -/
def step (c : Conc) : Work × List (List App) → Conc
  | (.segment m, l) => c.fsm (.packet m) l
  | (.close, l) => c.fsm (.sys .close) l
  | (.timer, l) => c.fsm .timer l
  | (.clock, l) => { c with s := c.s.clock }.apps l.flatten
  | (.table b, l) => { c with s := { c.s with registered := b } }.apps l.flatten

/-- A history with thread switches. -/
def run (c : Conc) (h : List (Work × List (List App))) : Conc := h.foldl step c

/-- A session after `connect` or `listen` was called, as `Sess.opened`. -/
def opened (active : Bool) (iss : Nat) (lip : IpAddress) (lport : Nat) (rip : IpAddress) (rport : Nat) : Conc :=
  { s := Sess.opened active iss lip lport rip rport }

end Conc
end Sess
end Verif
