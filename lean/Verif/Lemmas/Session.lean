import Verif.Model.Session
import Verif.Lemmas.Dict
/-!
What a call of `tcp_fsm` does, as a path of small steps (`Micro`).  An invariant of sessions is proved for the small steps; the
recursion through the out-of-order queue and the exceptions, which may cut a call short anywhere, are dealt with here once.
-/
namespace Verif.Sess

/-- `transmitPacket` when it does not raise. -/
def sentAs (s : Sess) (seq : Nat) (syn ack fin rst : Bool) (data : Bytes) : Sess :=
  let ackn := if ack then s.rcvNxt else 0
  let s := s.emit (.sent ⟨syn, ack, fin, rst, seq, ackn, data⟩)
  let nxt := seq + data.length + syn.toNat + fin.toNat
  let s := { s with
    rcvUna := s.rcvNxt
    sndNxt := nxt
    sndMax := max s.sndMax nxt
    seqMod := s.seqMod + syn.toNat + fin.toNat
    sndFin := if fin then nxt else s.sndFin }
  let s := if s.state = .established then s.setTimer .delayedAck 100 else s
  if data ≠ [] ∨ syn ∨ fin then
    let c := match s.txTmo.get? seq with
      | none => 0
      | some c => c + 1
    { s with txTmo := s.txTmo.set seq c, timers := s.timers.set (.retransmit seq) (1000 * 2 ^ c) }
  else s

theorem transmitPacket_eq (s : Sess) (seq : Option Nat) (syn ack fin rst : Bool) (data : Bytes) :
    s.transmitPacket seq syn ack fin rst data =
      if seq.getD s.sndNxt ≤ 0xFFFFFFFF ∧ (if ack then s.rcvNxt else 0) ≤ 0xFFFFFFFF then
        ok (s.sentAs (seq.getD s.sndNxt) syn ack fin rst data)
      else ⟨s, some .assertionError⟩ := by
  unfold transmitPacket sentAs
  dsimp only
  by_cases h : seq.getD s.sndNxt ≤ 0xFFFFFFFF ∧ (if ack then s.rcvNxt else 0) ≤ 0xFFFFFFFF
  · rw [if_neg (by simpa using h), if_pos h]
    split <;> rfl
  · rw [if_pos (by simpa using h), if_neg h]

section sentAs
variable (s : Sess) (seq : Nat) (syn ack fin rst : Bool) (data : Bytes)

/-- The counters after a transmission. -/
def tmoAfter (s : Sess) (seq : Nat) (syn fin : Bool) (data : Bytes) : Dict Nat Nat :=
  if data ≠ [] ∨ syn ∨ fin then
    s.txTmo.set seq (match s.txTmo.get? seq with
      | none => 0
      | some c => c + 1)
  else s.txTmo

theorem sentAs_eq : s.sentAs seq syn ack fin rst data =
    { s with
      out := s.out ++ [.sent ⟨syn, ack, fin, rst, seq, if ack then s.rcvNxt else 0, data⟩]
      rcvUna := s.rcvNxt
      sndNxt := seq + data.length + syn.toNat + fin.toNat
      sndMax := max s.sndMax (seq + data.length + syn.toNat + fin.toNat)
      seqMod := s.seqMod + syn.toNat + fin.toNat
      sndFin := if fin then seq + data.length + syn.toNat + fin.toNat else s.sndFin
      txTmo := s.tmoAfter seq syn fin data
      timers := (s.sentAs seq syn ack fin rst data).timers } := by
  unfold sentAs tmoAfter emit setTimer
  dsimp only
  split <;> split <;> rfl

@[simp] theorem sentAs_state : (s.sentAs seq syn ack fin rst data).state = s.state := by rw [sentAs_eq]
@[simp] theorem sentAs_rx : (s.sentAs seq syn ack fin rst data).rx = s.rx := by rw [sentAs_eq]
@[simp] theorem sentAs_tx : (s.sentAs seq syn ack fin rst data).tx = s.tx := by rw [sentAs_eq]
@[simp] theorem sentAs_rcvIni : (s.sentAs seq syn ack fin rst data).rcvIni = s.rcvIni := by rw [sentAs_eq]
@[simp] theorem sentAs_rcvNxt : (s.sentAs seq syn ack fin rst data).rcvNxt = s.rcvNxt := by rw [sentAs_eq]
@[simp] theorem sentAs_rcvUna : (s.sentAs seq syn ack fin rst data).rcvUna = s.rcvNxt := by rw [sentAs_eq]
@[simp] theorem sentAs_sndIni : (s.sentAs seq syn ack fin rst data).sndIni = s.sndIni := by rw [sentAs_eq]
@[simp] theorem sentAs_sndNxt :
    (s.sentAs seq syn ack fin rst data).sndNxt = seq + data.length + syn.toNat + fin.toNat := by rw [sentAs_eq]
@[simp] theorem sentAs_sndMax :
    (s.sentAs seq syn ack fin rst data).sndMax = max s.sndMax (seq + data.length + syn.toNat + fin.toNat) := by rw [sentAs_eq]
@[simp] theorem sentAs_sndUna : (s.sentAs seq syn ack fin rst data).sndUna = s.sndUna := by rw [sentAs_eq]
@[simp] theorem sentAs_sndFin : (s.sentAs seq syn ack fin rst data).sndFin =
    if fin then seq + data.length + syn.toNat + fin.toNat else s.sndFin := by rw [sentAs_eq]
@[simp] theorem sentAs_sndMss : (s.sentAs seq syn ack fin rst data).sndMss = s.sndMss := by rw [sentAs_eq]
@[simp] theorem sentAs_sndWnd : (s.sentAs seq syn ack fin rst data).sndWnd = s.sndWnd := by rw [sentAs_eq]
@[simp] theorem sentAs_sndEwn : (s.sentAs seq syn ack fin rst data).sndEwn = s.sndEwn := by rw [sentAs_eq]
@[simp] theorem sentAs_sndWsc : (s.sentAs seq syn ack fin rst data).sndWsc = s.sndWsc := by rw [sentAs_eq]
@[simp] theorem sentAs_seqMod :
    (s.sentAs seq syn ack fin rst data).seqMod = s.seqMod + syn.toNat + fin.toNat := by rw [sentAs_eq]
@[simp] theorem sentAs_evRx : (s.sentAs seq syn ack fin rst data).evRx = s.evRx := by rw [sentAs_eq]
@[simp] theorem sentAs_evConnect : (s.sentAs seq syn ack fin rst data).evConnect = s.evConnect := by rw [sentAs_eq]
@[simp] theorem sentAs_closes : (s.sentAs seq syn ack fin rst data).closes = s.closes := by rw [sentAs_eq]
@[simp] theorem sentAs_ooo : (s.sentAs seq syn ack fin rst data).ooo = s.ooo := by rw [sentAs_eq]
@[simp] theorem sentAs_err : (s.sentAs seq syn ack fin rst data).err = s.err := by rw [sentAs_eq]
@[simp] theorem sentAs_registered : (s.sentAs seq syn ack fin rst data).registered = s.registered := by rw [sentAs_eq]
@[simp] theorem sentAs_readers : (s.sentAs seq syn ack fin rst data).readers = s.readers := by rw [sentAs_eq]
@[simp] theorem sentAs_txReq : (s.sentAs seq syn ack fin rst data).txReq = s.txReq := by rw [sentAs_eq]
@[simp] theorem sentAs_rxReq : (s.sentAs seq syn ack fin rst data).rxReq = s.rxReq := by rw [sentAs_eq]
@[simp] theorem sentAs_txTmo : (s.sentAs seq syn ack fin rst data).txTmo = s.tmoAfter seq syn fin data := by rw [sentAs_eq]
@[simp] theorem sentAs_out : (s.sentAs seq syn ack fin rst data).out =
    s.out ++ [.sent ⟨syn, ack, fin, rst, seq, if ack then s.rcvNxt else 0, data⟩] := by rw [sentAs_eq]

end sentAs

/-- A bare ACK. -/
abbrev ackAs (s : Sess) : Sess := s.sentAs s.sndNxt false true false false []

/-- `changeState`, without its exception. -/
def moveAs (s : Sess) (st : FsmState) : Sess := (s.changeState st).s

theorem moveAs_eq (s : Sess) (st : FsmState) : s.moveAs st =
    { s with
      state := st
      registered := if st = .closed then false else s.registered
      out := s.out ++ ([.moved s.state st] ++ if st = .closed ∧ s.registered then [.unregistered] else []) } := by
  unfold moveAs changeState ok
  dsimp only
  by_cases h : st = .closed
  · by_cases hr : s.registered = true
    · simp [h, hr]
    · simp [h, Bool.eq_false_iff.2 hr]
  · simp [h]

theorem changeState_ok {s : Sess} {st : FsmState} (h : st ≠ .closed) : s.changeState st = ok (s.moveAs st) := by
  unfold moveAs changeState ok
  simp [h]

section moveAs
variable (s : Sess) (st : FsmState)
@[simp] theorem moveAs_state : (s.moveAs st).state = st := by rw [moveAs_eq]
@[simp] theorem moveAs_rx : (s.moveAs st).rx = s.rx := by rw [moveAs_eq]
@[simp] theorem moveAs_tx : (s.moveAs st).tx = s.tx := by rw [moveAs_eq]
@[simp] theorem moveAs_rcvIni : (s.moveAs st).rcvIni = s.rcvIni := by rw [moveAs_eq]
@[simp] theorem moveAs_rcvNxt : (s.moveAs st).rcvNxt = s.rcvNxt := by rw [moveAs_eq]
@[simp] theorem moveAs_rcvUna : (s.moveAs st).rcvUna = s.rcvUna := by rw [moveAs_eq]
@[simp] theorem moveAs_sndIni : (s.moveAs st).sndIni = s.sndIni := by rw [moveAs_eq]
@[simp] theorem moveAs_sndNxt : (s.moveAs st).sndNxt = s.sndNxt := by rw [moveAs_eq]
@[simp] theorem moveAs_sndMax : (s.moveAs st).sndMax = s.sndMax := by rw [moveAs_eq]
@[simp] theorem moveAs_sndUna : (s.moveAs st).sndUna = s.sndUna := by rw [moveAs_eq]
@[simp] theorem moveAs_sndFin : (s.moveAs st).sndFin = s.sndFin := by rw [moveAs_eq]
@[simp] theorem moveAs_sndMss : (s.moveAs st).sndMss = s.sndMss := by rw [moveAs_eq]
@[simp] theorem moveAs_sndWnd : (s.moveAs st).sndWnd = s.sndWnd := by rw [moveAs_eq]
@[simp] theorem moveAs_sndEwn : (s.moveAs st).sndEwn = s.sndEwn := by rw [moveAs_eq]
@[simp] theorem moveAs_sndWsc : (s.moveAs st).sndWsc = s.sndWsc := by rw [moveAs_eq]
@[simp] theorem moveAs_seqMod : (s.moveAs st).seqMod = s.seqMod := by rw [moveAs_eq]
@[simp] theorem moveAs_evRx : (s.moveAs st).evRx = s.evRx := by rw [moveAs_eq]
@[simp] theorem moveAs_evConnect : (s.moveAs st).evConnect = s.evConnect := by rw [moveAs_eq]
@[simp] theorem moveAs_closes : (s.moveAs st).closes = s.closes := by rw [moveAs_eq]
@[simp] theorem moveAs_ooo : (s.moveAs st).ooo = s.ooo := by rw [moveAs_eq]
@[simp] theorem moveAs_err : (s.moveAs st).err = s.err := by rw [moveAs_eq]
@[simp] theorem moveAs_readers : (s.moveAs st).readers = s.readers := by rw [moveAs_eq]
@[simp] theorem moveAs_txReq : (s.moveAs st).txReq = s.txReq := by rw [moveAs_eq]
@[simp] theorem moveAs_rxReq : (s.moveAs st).rxReq = s.rxReq := by rw [moveAs_eq]
@[simp] theorem moveAs_txTmo : (s.moveAs st).txTmo = s.txTmo := by rw [moveAs_eq]
@[simp] theorem moveAs_timers : (s.moveAs st).timers = s.timers := by rw [moveAs_eq]
@[simp] theorem moveAs_registered : (s.moveAs st).registered = if st = .closed then false else s.registered := by rw [moveAs_eq]
@[simp] theorem moveAs_out : (s.moveAs st).out =
    s.out ++ ([.moved s.state st] ++ if st = .closed ∧ s.registered then [.unregistered] else []) := by rw [moveAs_eq]
end moveAs

/-- The session is told that retransmission has failed. -/
def failAs (s : Sess) : Sess :=
  let s := if s.state = .established ∨ s.state = .finWait1 ∨ s.state = .finWait2 ∨ s.state = .closeWait then
      { s with err := .timeout, evRx := s.evRx + 1 }
    else s
  if s.state = .synSent then { s with err := .timeout, evConnect := s.evConnect + 1 } else s

theorem failAs_eq (s : Sess) : s.failAs =
    { s with
      err := s.failAs.err
      evRx := s.failAs.evRx
      evConnect := s.failAs.evConnect } := by
  unfold failAs
  dsimp only
  split <;> split <;> rfl

/-- The session after retransmission has failed. -/
def abortAs (s : Sess) : Sess := ((s.sentAs s.sndUna false true false true []).failAs).moveAs .closed

theorem abortAs_eq (s : Sess) : s.abortAs =
    { s with
      err := (s.sentAs s.sndUna false true false true []).failAs.err
      evRx := (s.sentAs s.sndUna false true false true []).failAs.evRx
      evConnect := (s.sentAs s.sndUna false true false true []).failAs.evConnect
      timers := (s.sentAs s.sndUna false true false true []).timers
      rcvUna := s.rcvNxt
      sndNxt := s.sndUna
      sndMax := max s.sndMax s.sndUna
      state := .closed
      registered := false
      out := s.out ++ [.sent ⟨false, true, false, true, s.sndUna, s.rcvNxt, []⟩, .moved s.state .closed] ++
        if s.registered then [.unregistered] else [] } := by
  rw [abortAs, moveAs_eq, failAs_eq, sentAs_eq]
  simp [tmoAfter]

/-- Parameters taken from a SYN. -/
def paramsAs (s : Sess) (m : TcpMd) : Sess :=
  { s with
    sndMss := min m.mss 1460
    sndWnd := m.win * s.sndWsc
    sndWsc := peerScale m
    rcvIni := m.seq
    sndEwn := min m.mss 1460 }

/-- The listening session takes a connection. -/
def synAs (s : Sess) (m : TcpMd) : Sess :=
  { s.paramsAs m with
    out := s.out ++ [.spawned]
    lip := m.lip
    lport := m.lport
    rip := m.rip
    rport := m.rport
    registered := true
    rcvNxt := m.seq + 1 }

theorem ackUpdate_eq (s : Sess) (m : TcpMd) : s.ackUpdate m =
    { s with
      sndUna := max s.sndUna m.ackn
      sndNxt := if s.sndNxt < max s.sndUna m.ackn ∧ max s.sndUna m.ackn ≤ s.sndMax then max s.sndUna m.ackn else s.sndNxt
      rcvNxt := m.seq + m.data.length + m.syn.toNat + m.fin.toNat
      rx := s.rx ++ m.data
      evRx := if m.data ≠ [] ∧ s.evRx = 0 then 1 else s.evRx
      tx := s.tx.drop ((max s.sndUna m.ackn : Nat) - s.seqMod).toNat
      seqMod := s.seqMod + ((max s.sndUna m.ackn : Nat) - s.seqMod).toNat
      sndWnd := m.win * s.sndWsc
      sndEwn := min (s.sndEwn * 2) (m.win * s.sndWsc)
      txReq := s.txReq.filter (fun e => ¬ e.1 < m.ackn)
      txTmo := s.txTmo.filter (fun e => ¬ e.1 < m.ackn)
      rxReq := s.rxReq.filter (fun e => ¬ e.1 < m.seq + m.data.length + m.syn.toNat + m.fin.toNat) } := by
  unfold ackUpdate enqueueRx txUna
  dsimp only
  by_cases h : m.data = []
  · simp [h]
  · simp [h]

section ackUpdate
variable (s : Sess) (m : TcpMd)
@[simp] theorem ackUpdate_state : (s.ackUpdate m).state = s.state := by rw [ackUpdate_eq]
@[simp] theorem ackUpdate_ooo : (s.ackUpdate m).ooo = s.ooo := by rw [ackUpdate_eq]
@[simp] theorem ackUpdate_sndFin : (s.ackUpdate m).sndFin = s.sndFin := by rw [ackUpdate_eq]
@[simp] theorem ackUpdate_sndUna : (s.ackUpdate m).sndUna = max s.sndUna m.ackn := by rw [ackUpdate_eq]
@[simp] theorem ackUpdate_rcvNxt : (s.ackUpdate m).rcvNxt = m.seq + m.data.length + m.syn.toNat + m.fin.toNat := by rw [ackUpdate_eq]
@[simp] theorem ackUpdate_out : (s.ackUpdate m).out = s.out := by rw [ackUpdate_eq]
@[simp] theorem ackUpdate_rcvUna : (s.ackUpdate m).rcvUna = s.rcvUna := by rw [ackUpdate_eq]
end ackUpdate

@[simp] theorem paramsAs_state (s : Sess) (m : TcpMd) : (s.paramsAs m).state = s.state := rfl

/-- A segment is kept. -/
def storeAs (s : Sess) (m : TcpMd) (c : Nat) : Sess := { s with ooo := s.ooo.set m.seq m, rxReq := s.rxReq.set s.rcvNxt c }

/-- The bounds asserted by `_transmit_data`. -/
def inWindow (s : Sess) : Prop := s.sndUna ≤ s.sndNxt ∧ s.sndNxt ≤ s.sndUna + s.sndEwn

/-- How much `_transmit_data` sends. -/
def sendLen (s : Sess) : Int :=
  min (min (s.sndMss : Int) ((s.sndEwn : Int) - s.txNxt)) ((s.tx.length : Int) - s.txNxt)

/-- The states in which the timer handler looks at the retransmission timer. -/
def Retransmits (st : FsmState) : Prop :=
  st = .synSent ∨ st = .synRcvd ∨ st = .established ∨ st = .finWait1 ∨ st = .closeWait ∨ st = .lastAck

/-- The states in which a bare ACK is sent. -/
def Acks (st : FsmState) : Prop :=
  st = .synSent ∨ st = .established ∨ st = .finWait1 ∨ st = .finWait2 ∨ st = .closeWait

/-- Small steps.  `Q` holds of the segments that arrive; `G` turns on a fact about queued segments and the FIN, for those
invariants that can supply it. -/
inductive Micro (Q : TcpMd → Prop) (G : Prop) : Sess → Sess → Prop
  | reset {s : Sess} {c : Nat} (h : Retransmits s.state) (hc : s.txTmo.get? s.sndUna = some c) (hc3 : c ≠ 3)
      (he : s.expired (.retransmit s.sndUna) = true) :
      Micro Q G s { s with
        sndEwn := s.sndMss
        sndNxt := s.sndUna
        seqMod := if s.sndUna = s.sndIni ∨ s.sndUna = s.sndFin then s.seqMod - 1 else s.seqMod }
  | abort {s : Sess} (h : Retransmits s.state) (hc : s.txTmo.get? s.sndUna = some 3)
      (he : s.expired (.retransmit s.sndUna) = true) (hs : s.sndUna ≤ 0xFFFFFFFF) (ha : s.rcvNxt ≤ 0xFFFFFFFF) :
      Micro Q G s s.abortAs
  | abortMove {s : Sess} {st : FsmState} {t : Dict TimerName Int}
      (h : (s.state = .established ∧ st = .finWait1) ∨ (s.state = .closeWait ∧ st = .lastAck))
      (hc : s.txTmo.get? s.sndUna = some 3) (hcl : s.closes = true) (htx : s.tx = [])
      (ht : t = s.abortAs.timers ∨ t = s.abortAs.timers.set .delayedAck 100) (hs : s.sndUna ≤ 0xFFFFFFFF)
      (ha : s.rcvNxt ≤ 0xFFFFFFFF) :
      Micro Q G s ({ s.abortAs with timers := t }.moveAs st)
  | synOut {s : Sess} (h : s.state = .synSent) (hn : s.sndNxt = s.sndIni) (hw : s.inWindow) (hs : s.sndNxt ≤ 0xFFFFFFFF) :
      Micro Q G s (s.sentAs s.sndNxt true false false false [])
  | synAckOut {s : Sess} (h : s.state = .synRcvd) (hn : s.sndNxt = s.sndIni) (hw : s.inWindow) (hs : s.sndNxt ≤ 0xFFFFFFFF)
      (ha : s.rcvNxt ≤ 0xFFFFFFFF) : Micro Q G s (s.sentAs s.sndNxt true true false false [])
  | dataOut {s : Sess} (h : s.state = .established ∨ s.state = .closeWait) (hw : s.inWindow)
      (hr : (s.tx.length : Int) - s.txNxt ≠ 0) (hl : s.sendLen ≠ 0) (hs : s.sndNxt ≤ 0xFFFFFFFF) (ha : s.rcvNxt ≤ 0xFFFFFFFF) :
      Micro Q G s (s.sentAs s.sndNxt false true false false (pySlice s.tx s.txNxt (s.txNxt + s.sendLen)))
  | finOut {s : Sess} (h : s.state = .finWait1 ∨ s.state = .lastAck) (hw : s.inWindow) (hn : s.sndNxt ≠ s.sndFin)
      (hs : s.sndNxt ≤ 0xFFFFFFFF) (ha : s.rcvNxt ≤ 0xFFFFFFFF) : Micro Q G s (s.sentAs s.sndNxt false true true false [])
  | ackOut {s : Sess} (h : Acks s.state) (hs : s.sndNxt ≤ 0xFFFFFFFF) (ha : s.rcvNxt ≤ 0xFFFFFFFF)
      (hz : s.state = .synSent → s.rcvNxt ≠ 0) : Micro Q G s s.ackAs
  | timerSet {s : Sess} (h : s.state = .established ∨ s.state = .closeWait ∨ s.state = .closed) (ha : s.rcvNxt ≤ s.rcvUna)
      {n : TimerName} {v : Int} (hv : n = .delayedAck ∧ v = 100) : Micro Q G s (s.setTimer n v)
  | finClose {s : Sess} (h : s.state = .established) (hc : s.closes = true) (ht : s.tx = []) : Micro Q G s (s.moveAs .finWait1)
  | lastClose {s : Sess} (h : s.state = .closeWait) (hc : s.closes = true) (ht : s.tx = []) : Micro Q G s (s.moveAs .lastAck)
  | dup {s : Sess} {m : TcpMd} (hq : Q m) (h : s.state = .established ∨ s.state = .closeWait) (hf : isAck m = true)
      (hm : m.seq = s.rcvNxt ∧ m.ackn = s.sndUna ∧ m.data = []) : Micro Q G s (s.retransmitRequest m)
  | store {s : Sess} {m : TcpMd} {c : Nat} (hq : Q m) (h : s.state = .established ∨ s.state = .closeWait) (hf : isAck m = true)
      (hm : m.seq > s.rcvNxt ∧ s.sndUna ≤ m.ackn ∧ m.ackn ≤ s.sndMax) :
      Micro Q G s (s.storeAs m c)
  | pop {s : Sess} {k : Nat} (hk : k ≤ s.rcvNxt) : Micro Q G s { s with ooo := s.ooo.erase k }
  | synIn {s : Sess} {m : TcpMd} (hq : Q m) (h : s.state = .listen) (hf : isSyn m = true) (hm : m.ackn = 0 ∧ m.data = []) :
      Micro Q G s ((s.synAs m).moveAs .synRcvd)
  | synAckIn {s : Sess} {m : TcpMd} (hq : Q m) (h : s.state = .synSent) (hf : isSynAck m = true)
      (hm : m.ackn = s.sndNxt ∧ m.data = []) : Micro Q G s ((s.paramsAs m).ackUpdate m)
  | establish {s : Sess} {m : TcpMd} (hq : Q m) (h : s.state = .synSent) (hf : isSynAck m = true) (hr : s.rcvNxt = m.seq + 1)
      (ha : m.ackn ≤ s.sndUna) (hx : G → m.ackn = s.sndUna) (hu : s.rcvUna = s.rcvNxt)
      (hp : s.sndMss = min m.mss 1460 ∧ s.sndWsc = peerScale m ∧ s.sndWnd = m.win * peerScale m)
      (hg : ∃ g : Seg, .sent g ∈ s.out ∧ g.ack = true ∧ g.ackn = s.rcvNxt) :
      Micro Q G s { s.moveAs .established with evConnect := s.evConnect + 1 }
  | ackIn {s : Sess} {m : TcpMd} (hq : Q m) (h : s.state = .synRcvd) (hf : isAck m = true)
      (hm : m.seq = s.rcvNxt ∧ m.ackn = s.sndNxt ∧ m.data = []) : Micro Q G s (s.ackUpdate m)
  | establish' {s : Sess} {m : TcpMd} (hq : Q m) (h : s.state = .synRcvd) (hf : isAck m = true) (ha : m.ackn ≤ s.sndUna)
      (hx : G → m.ackn = s.sndUna) (hp : s.sndWnd = m.win * s.sndWsc) :
      Micro Q G s { (s.moveAs .established).emit .queued with evConnect := s.evConnect + 1 }
  | refused {s : Sess} {m : TcpMd} (hq : Q m) (h : s.state = .synSent) (hf : isRstAck m = true)
      (hm : m.seq = 0 ∧ m.ackn = s.sndNxt) :
      Micro Q G s { s.moveAs .closed with err := .refused, evConnect := (s.moveAs .closed).evConnect + 1 }
  | closes {s : Sess} (h : s.state = .established ∨ s.state = .closeWait) : Micro Q G s { s with closes := true }
  | finEarly {s : Sess} (h : s.state = .synRcvd) : Micro Q G s (s.moveAs .finWait1)
  /-- an acceptable segment with nothing but ACK -/
  | dataIn {s : Sess} {m : TcpMd} (hq : Q m)
      (h : s.state = .established ∨ s.state = .finWait1 ∨ s.state = .finWait2 ∨ (s.state = .closeWait ∧ m.data = []))
      (hf : isAck m = true) (hm : m.seq = s.rcvNxt ∧ s.sndUna ≤ m.ackn ∧ m.ackn ≤ s.sndMax) : Micro Q G s (s.ackUpdate m)
  /-- an acceptable segment with FIN and ACK -/
  | finIn {s : Sess} {m : TcpMd} (hq : Q m) (h : s.state = .established ∨ s.state = .finWait1 ∨ s.state = .finWait2)
      (hf : isFinAck m = true) (hm : m.seq = s.rcvNxt ∧ s.sndUna ≤ m.ackn ∧ m.ackn ≤ s.sndMax) : Micro Q G s (s.ackUpdate m)
  | toCloseWait {s : Sess} {m : TcpMd} (hq : Q m) (h : s.state = .established) (hf : isFinAck m = true)
      (hm : m.seq + m.data.length + 1 ≤ s.rcvNxt) : Micro Q G s ({ s with evRx := s.evRx + 1 }.moveAs .closeWait)
  | toFinWait2 {s : Sess} {m : TcpMd} (hq : Q m) (h : s.state = .finWait1 ∨ s.state = .finWait2) (hf : isAck m = true)
      (ha : s.sndFin ≤ m.ackn) (hu : m.ackn ≤ s.sndUna) : Micro Q G s (s.moveAs .finWait2)
  | toTimeWait {s : Sess} {m : TcpMd} (hq : Q m) (h : s.state = .finWait1 ∨ s.state = .finWait2) (hf : isFinAck m = true)
      (hm : m.seq + m.data.length + 1 ≤ s.rcvNxt) : Micro Q G s ((s.moveAs .timeWait).setTimer .timeWait 30000)
  | toClosing {s : Sess} {m : TcpMd} (hq : Q m) (h : s.state = .finWait1 ∨ (s.state = .finWait2 ∧ (G → s.sndFin = 0)))
      (hf : isFinAck m = true) (ha : m.ackn < s.sndFin)
      (hm : m.seq + m.data.length + 1 ≤ s.rcvNxt) : Micro Q G s (s.moveAs .closing)
  | closingAck {s : Sess} {m : TcpMd} (hq : Q m) (h : s.state = .closing) (hf : isAck m = true)
      (hm : m.ackn = s.sndNxt ∧ s.sndUna ≤ m.ackn ∧ m.ackn ≤ s.sndMax) :
      Micro Q G s (({ s with sndUna := m.ackn }.moveAs .timeWait).setTimer .timeWait 30000)
  /-- every other way to CLOSED; `b` says whether a reader is woken -/
  | shut {s : Sess} {b : Bool} (h : s.state ≠ .closed) (hb : b = true → s.state = .established) :
      Micro Q G s ({ s with evRx := s.evRx + b.toNat }.moveAs .closed)

/-- Any number of small steps. -/
inductive Path (Q : TcpMd → Prop) (G : Prop) : Sess → Sess → Prop
  | refl {s : Sess} : Path Q G s s
  | tail {a b c : Sess} : Path Q G a b → Micro Q G b c → Path Q G a c

variable {Q : TcpMd → Prop} {G : Prop}

theorem Micro.mono {Q' : TcpMd → Prop} {a b : Sess} (hQ : ∀ m, Q m → Q' m) (h : Micro Q G a b) : Micro Q' G a b := by
  cases h
  case reset h1 h2 h3 h4 => exact .reset h1 h2 h3 h4
  case abort h1 h2 h3 h4 h5 => exact .abort h1 h2 h3 h4 h5
  case abortMove h1 h2 h3 h4 h5 h6 h7 => exact .abortMove h1 h2 h3 h4 h5 h6 h7
  case synOut h1 h2 h3 h4 => exact .synOut h1 h2 h3 h4
  case synAckOut h1 h2 h3 h4 h5 => exact .synAckOut h1 h2 h3 h4 h5
  case dataOut h1 h2 h3 h4 h5 h6 => exact .dataOut h1 h2 h3 h4 h5 h6
  case finOut h1 h2 h3 h4 h5 => exact .finOut h1 h2 h3 h4 h5
  case ackOut h1 h2 h3 h4 => exact .ackOut h1 h2 h3 h4
  case timerSet h1 h2 h3 h4 h5 => exact .timerSet (by assumption) (by assumption) (by assumption)
  case finClose h1 h2 h3 => exact .finClose h1 h2 h3
  case lastClose h1 h2 h3 => exact .lastClose h1 h2 h3
  case dup q h1 h2 h3 => exact .dup (hQ _ q) h1 h2 h3
  case store q h1 h2 h3 => exact .store (hQ _ q) h1 h2 h3
  case pop h1 => exact .pop h1
  case synIn q h1 h2 h3 => exact .synIn (hQ _ q) h1 h2 h3
  case synAckIn q h1 h2 h3 => exact .synAckIn (hQ _ q) h1 h2 h3
  case establish q h1 h2 h3 h4 h5 h6 h7 h8 => exact .establish (hQ _ q) h1 h2 h3 h4 h5 h6 h7 h8
  case ackIn q h1 h2 h3 => exact .ackIn (hQ _ q) h1 h2 h3
  case establish' q h1 h2 h3 h4 h5 => exact .establish' (hQ _ q) h1 h2 h3 h4 h5
  case refused q h1 h2 h3 => exact .refused (hQ _ q) h1 h2 h3
  case closes h1 => exact .closes h1
  case finEarly h1 => exact .finEarly h1
  case dataIn q h1 h2 h3 => exact .dataIn (hQ _ q) h1 h2 h3
  case finIn q h1 h2 h3 => exact .finIn (hQ _ q) h1 h2 h3
  case toCloseWait q h1 h2 h3 => exact .toCloseWait (hQ _ q) h1 h2 h3
  case toFinWait2 q h1 h2 h3 h4 => exact .toFinWait2 (hQ _ q) h1 h2 h3 h4
  case toTimeWait q h1 h2 h3 => exact .toTimeWait (hQ _ q) h1 h2 h3
  case toClosing q h1 h2 h3 h4 => exact .toClosing (hQ _ q) h1 h2 h3 h4
  case closingAck q h1 h2 h3 => exact .closingAck (hQ _ q) h1 h2 h3
  case shut h1 h2 => exact .shut h1 h2

theorem Path.trans {a b c : Sess} (h₁ : Path Q G a b) (h₂ : Path Q G b c) : Path Q G a c := by
  induction h₂ with
  | refl => exact h₁
  | tail _ m ih => exact ih.tail m

theorem Micro.path {a b : Sess} (h : Micro Q G a b) : Path Q G a b := Path.refl.tail h

/-- An invariant of the small steps holds along a path. -/
theorem Path.keeps {P : Sess → Prop} (hP : ∀ a b, P a → Micro Q G a b → P b) {a b : Sess} (h : Path Q G a b) (ha : P a) : P b := by
  induction h with
  | refl => exact ha
  | tail _ m ih => exact hP _ _ ih m

/-- The out-of-order queue holds segments with nothing but ACK, under their sequence numbers; it is empty until the session is
established. -/
structure QueueOk (Q : TcpMd → Prop) (G : Prop) (s : Sess) : Prop where
  each : ∀ e ∈ s.ooo, e.1 = e.2.seq ∧ isAck e.2 = true ∧ Q e.2
  early : s.state = .listen ∨ s.state = .synSent ∨ s.state = .synRcvd → s.ooo = []
  fin : G → s.state = .finWait1 → ∀ e ∈ s.ooo, e.2.ackn < s.sndFin ∨ s.sndFin = 0
  syn : G → s.state = .synSent ∨ s.state = .synRcvd → s.sndUna ≤ s.sndNxt

/-- What holds when `tcp_fsm` is called with a segment out of the queue. -/
structure InnerOk (Q : TcpMd → Prop) (G : Prop) (s : Sess) (m : TcpMd) : Prop where
  state : s.state = .established ∨ s.state = .finWait1 ∨ s.state = .finWait2 ∨ s.state = .closeWait
  ack : isAck m = true
  q : Q m
  seq : m.seq = s.rcvNxt
  queue : QueueOk Q G s
  fin : G → s.state = .finWait1 → m.ackn < s.sndFin ∨ s.sndFin = 0

/-- What such a call does. -/
structure Inner (Q : TcpMd → Prop) (G : Prop) (s s' : Sess) : Prop where
  path : Path Q G s s'
  state : s'.state = s.state ∨ (s.state = .finWait1 ∧ s'.state = .finWait2 ∧ (G → s.sndFin = 0))
  rcv : s.rcvNxt ≤ s'.rcvNxt
  fin : s'.sndFin = s.sndFin
  una : s.sndUna ≤ s'.sndUna

theorem Inner.refl (s : Sess) : Inner Q G s s := ⟨.refl, .inl rfl, Nat.le_refl _, rfl, Nat.le_refl _⟩

def RecOk (Q : TcpMd → Prop) (G : Prop) (rec : Sess → TcpMd → Res) : Prop := ∀ s m, InnerOk Q G s m → Inner Q G s (rec s m).s

theorem isAck_flags {m : TcpMd} (h : isAck m = true) : m.ack = true ∧ m.syn = false ∧ m.rst = false ∧ m.fin = false := by
  simpa [isAck, and_assoc] using h

theorem isFinAck_flags {m : TcpMd} (h : isFinAck m = true) : m.ack = true ∧ m.syn = false ∧ m.rst = false ∧ m.fin = true := by
  have : m.fin = true ∧ m.ack = true ∧ m.syn = false ∧ m.rst = false := by simpa [isFinAck, and_assoc] using h
  grind

theorem isSynAck_flags {m : TcpMd} (h : isSynAck m = true) : m.ack = true ∧ m.syn = true ∧ m.rst = false ∧ m.fin = false := by
  have : m.syn = true ∧ m.ack = true ∧ m.fin = false ∧ m.rst = false := by simpa [isSynAck, and_assoc] using h
  grind

theorem isSyn_flags {m : TcpMd} (h : isSyn m = true) : m.ack = false ∧ m.syn = true ∧ m.rst = false ∧ m.fin = false := by
  have : m.syn = true ∧ m.ack = false ∧ m.fin = false ∧ m.rst = false := by simpa [isSyn, and_assoc] using h
  grind

theorem isRstAck_flags {m : TcpMd} (h : isRstAck m = true) : m.ack = true ∧ m.syn = false ∧ m.rst = true ∧ m.fin = false := by
  have : m.rst = true ∧ m.ack = true ∧ m.fin = false ∧ m.syn = false := by simpa [isRstAck, and_assoc] using h
  grind

theorem isRst_flags {m : TcpMd} (h : isRst m = true) : m.ack = false ∧ m.syn = false ∧ m.rst = true ∧ m.fin = false := by
  have : m.rst = true ∧ m.ack = false ∧ m.fin = false ∧ m.syn = false := by simpa [isRst, and_assoc] using h
  grind

theorem acceptable_iff {s : Sess} {m : TcpMd} : s.acceptable m = true ↔ s.sndUna ≤ m.ackn ∧ m.ackn ≤ s.sndMax := by
  simp [acceptable]

/-- Processing an acceptable segment, with the queue behind it. -/
theorem processAck_inner {rec : Sess → TcpMd → Res} (hrec : RecOk Q G rec) {s : Sess} {m : TcpMd} (hq : QueueOk Q G s)
    (hst : s.state = .established ∨ s.state = .finWait1 ∨ s.state = .finWait2 ∨ s.state = .closeWait) :
    Inner Q G (s.ackUpdate m) (processAck rec s m).s := by
  unfold processAck
  dsimp only
  split
  · exact Inner.refl _
  · rename_i p hp
    have hmem := Dict.get?_mem hp
    simp only [ackUpdate_ooo, ackUpdate_rcvNxt] at hmem
    obtain ⟨h1, h2, h3⟩ := hq.each _ hmem
    have hI : InnerOk Q G { s.ackUpdate m with ooo := (s.ackUpdate m).ooo.erase (s.ackUpdate m).rcvNxt } p := by
      refine ⟨by simpa using hst, h2, h3, ?_, ⟨?_, ?_, ?_, ?_⟩, ?_⟩
      · dsimp only at h1; simp [← h1]
      · intro e he
        simp only [ackUpdate_ooo] at he
        exact hq.each e (List.mem_filter.1 he).1
      · intro h
        simp only [ackUpdate_state] at h
        rcases h with h | h | h <;> simp [h] at hst
      · intro hG h e he
        simp only [ackUpdate_state, ackUpdate_ooo, ackUpdate_sndFin] at h he ⊢
        exact hq.fin hG h e (List.mem_filter.1 he).1
      · intro _ h
        simp only [ackUpdate_state] at h
        rcases h with h | h <;> simp [h] at hst
      · intro hG h
        simp only [ackUpdate_state, ackUpdate_sndFin] at h ⊢
        exact hq.fin hG h _ hmem
    have := hrec _ _ hI
    exact ⟨(Micro.path (.pop (Nat.le_refl _))).trans this.path, this.state, this.rcv, this.fin, this.una⟩

/-- A transmission goes through or raises. -/
theorem transmit_cases (s : Sess) (seq : Option Nat) (syn ack fin rst : Bool) (data : Bytes) :
    (s.transmitPacket seq syn ack fin rst data = ok (s.sentAs (seq.getD s.sndNxt) syn ack fin rst data) ∧
      seq.getD s.sndNxt ≤ 0xFFFFFFFF ∧ (ack = true → s.rcvNxt ≤ 0xFFFFFFFF)) ∨
    s.transmitPacket seq syn ack fin rst data = ⟨s, some .assertionError⟩ := by
  rw [transmitPacket_eq]
  by_cases h : seq.getD s.sndNxt ≤ 0xFFFFFFFF ∧ (if ack then s.rcvNxt else 0) ≤ 0xFFFFFFFF
  · left
    refine ⟨if_pos h, h.1, fun ha => ?_⟩
    have := h.2
    rwa [if_pos ha] at this
  · right
    exact if_neg h

/-- Whether or not a bare ACK could be sent. -/
theorem transmitAck_cases (s : Sess) :
    s.transmitPacket none false true false false [] = ok s.ackAs ∧ s.sndNxt ≤ 0xFFFFFFFF ∧ s.rcvNxt ≤ 0xFFFFFFFF ∨
    s.transmitPacket none false true false false [] = ⟨s, some .assertionError⟩ := by
  rw [transmitPacket_eq]
  by_cases h : s.sndNxt ≤ 0xFFFFFFFF ∧ s.rcvNxt ≤ 0xFFFFFFFF
  · left
    exact ⟨if_pos (by simpa using h), h⟩
  · right
    exact if_neg (by simpa using h)

@[simp] theorem next_ok (s : Sess) (k : Sess → Res) : (ok s).next k = k s := rfl
@[simp] theorem next_exc (s : Sess) (e : PyErr) (k : Sess → Res) : (Res.mk s (some e)).next k = ⟨s, some e⟩ := rfl
@[simp] theorem ok_s (s : Sess) : (ok s).s = s := rfl

theorem next_cases (r : Res) (k : Sess → Res) : (r.next k).s = r.s ∨ (r.next k) = k r.s := by
  rcases r with ⟨s, _ | e⟩
  · right; rfl
  · left; rfl

/-- The common end of the handlers: perhaps an ACK. -/
theorem ackThen {s : Sess} (c : Prop) [Decidable c] (ha : Acks s.state) (hs : s.state ≠ .synSent) :
    ∃ s' e, (if c then s.transmitPacket none false true false false [] else ok s) = ⟨s', e⟩ ∧ (s' = s ∨ s' = s.ackAs) ∧
      Path Q G s s' := by
  by_cases hc : c
  · rw [if_pos hc]
    rcases transmitAck_cases s with ⟨h, h1, h2⟩ | h
    · exact ⟨_, _, h, .inr rfl, (Micro.ackOut ha h1 h2 (fun x => absurd x hs)).path⟩
    · exact ⟨_, _, h, .inl rfl, .refl⟩
  · rw [if_neg hc]
    exact ⟨_, _, rfl, .inl rfl, .refl⟩

theorem recOk_fuel (n : Nat) : RecOk Q G (fun s m => fsmFuel n s (.packet m)) := by
  induction n with
  | zero => intro s m _; exact Inner.refl s
  | succ n ih =>
    intro s m h
    show Inner Q G s (fsmWith (fun s m => fsmFuel n s (.packet m)) s (.packet m)).s
    obtain ⟨fa, fs, fr, ff⟩ := isAck_flags h.ack
    have hsy : isSynAck m = false := by simp [isSynAck, fs]
    have hfa : isFinAck m = false := by simp [isFinAck, ff]
    have hra : isRstAck m = false := by simp [isRstAck, fr]
    have hr : isRst m = false := by simp [isRst, fr]
    have hgt : ¬ m.seq > s.rcvNxt := by rw [h.seq]; omega
    have upd : ∀ s' : Sess, Inner Q G (s.ackUpdate m) s' → (s.sndUna ≤ m.ackn ∧ m.ackn ≤ s.sndMax) →
        (s.state = .established ∨ s.state = .finWait1 ∨ s.state = .finWait2 ∨ (s.state = .closeWait ∧ m.data = [])) →
        Inner Q G s s' := by
      intro s' hi hacc hst
      refine ⟨(Micro.dataIn h.q hst h.ack ⟨h.seq, hacc⟩).path.trans hi.path, by simpa using hi.state, ?_, by simpa using hi.fin, ?_⟩
      · have := hi.rcv
        simp only [ackUpdate_rcvNxt] at this
        have h2 := h.seq
        omega
      · have := hi.una
        simp only [ackUpdate_sndUna] at this
        omega
    have stepThen : ∀ a b : Sess, Inner Q G s a → Path Q G a b → b.state = a.state → b.rcvNxt = a.rcvNxt → b.sndFin = a.sndFin →
        b.sndUna = a.sndUna → Inner Q G s b := by
      intro a b hi hp h1 h2 h3 h4
      exact ⟨hi.path.trans hp, by rw [h1]; exact hi.state, by rw [h2]; exact hi.rcv, by rw [h3]; exact hi.fin, by rw [h4]; exact hi.una⟩
    unfold fsmWith
    rcases h.state with hst | hst | hst | hst
    · rw [hst]
      dsimp only [fsmEstablished]
      rw [h.ack]
      by_cases hw : s.rcvNxt ≤ m.seq ∧ m.seq + m.data.length ≤ s.rcvNxt + 65535
      · rw [if_neg (by simpa using hw)]
        simp only [if_true, if_neg (show ¬ (m.seq > s.rcvNxt ∧ s.acceptable m = true) from fun x => hgt x.1)]
        split
        · rename_i hc
          refine ⟨(Micro.dup h.q (.inl hst) h.ack hc).path, .inl ?_, ?_, ?_, ?_⟩ <;>
          · simp only [retransmitRequest, ok_s]; split <;> simp
        · split
          · rename_i hc
            exact upd _ (processAck_inner ih h.queue h.state) (acceptable_iff.1 hc.2) (.inl hst)
          · exact Inner.refl s
      · rw [if_pos (by simpa using hw)]
        exact Inner.refl s
    · rw [hst]
      dsimp only [fsmFinWait1]
      rw [h.ack]
      simp only [if_true]
      split
      · rename_i hc
        have hi := upd _ (processAck_inner ih h.queue h.state) (acceptable_iff.1 hc.2) (.inr (.inl hst))
        have hi0 := processAck_inner (m := m) ih h.queue h.state
        generalize processAck (fun s m => fsmFuel n s (.packet m)) s m = r at hi hi0 ⊢
        rcases r with ⟨a, _ | e⟩
        · have hast : a.state = .finWait1 ∨ a.state = .finWait2 := by
            rcases hi.state with x | x
            · left; rw [x, hst]
            · right; exact x.2.1
          obtain ⟨b, e, hb, hbs, hbp⟩ := ackThen (Q := Q) (G := G) (s := a) (m.data ≠ [])
            (by rcases hast with x | x <;> simp [Acks, x]) (by rcases hast with x | x <;> simp [x])
          change Inner Q G s (Res.next (if m.data ≠ [] then a.transmitPacket none false true false false [] else ok a) fun s =>
            if m.ackn ≥ s.sndFin then s.changeState .finWait2 else ok s).s
          rw [hb]
          have hib : Inner Q G s b := by
            rcases hbs with x | x
            · rw [x]; exact hi
            · exact stepThen a b hi hbp (by rw [x]; simp) (by rw [x]; simp) (by rw [x]; simp) (by rw [x]; simp)
          rcases e with _ | e
          · simp only [Res.next]
            split
            · rename_i hge
              rw [changeState_ok (by simp)]
              have hfb : b.sndFin = s.sndFin := hib.fin
              have hbst : b.state = .finWait1 ∨ b.state = .finWait2 := by
                rcases hbs with x | x <;> (rw [x]; simpa using hast)
              have hbu : m.ackn ≤ b.sndUna := by
                have h1 := hi0.una
                have h2 : b.sndUna = a.sndUna := by rcases hbs with x | x <;> (rw [x]; try simp)
                simp only [ackUpdate_sndUna] at h1
                rw [h2]; omega
              refine ⟨hib.path.trans (Micro.toFinWait2 h.q hbst h.ack hge hbu).path, .inr ⟨hst, by simp, ?_⟩, by simpa using hib.rcv,
                by simpa using hib.fin, by simpa using hib.una⟩
              intro hG
              rcases h.fin hG hst with x | x
              · rw [hfb] at hge; omega
              · exact x
            · exact hib
          · exact hib
        · exact hi
      · exact Inner.refl s
    · rw [hst]
      dsimp only [fsmFinWait2]
      rw [h.ack, hfa, hra]
      simp only [true_and, Bool.false_eq_true, false_and, if_false]
      split
      · rename_i hc
        have hi := upd _ (processAck_inner ih h.queue h.state) (acceptable_iff.1 hc.2) (.inr (.inr (.inl hst)))
        generalize processAck (fun s m => fsmFuel n s (.packet m)) s m = r at hi ⊢
        rcases r with ⟨a, _ | e⟩
        · have hast : a.state = .finWait2 := by
            rcases hi.state with x | x
            · rw [x, hst]
            · exact x.2.1
          obtain ⟨b, e, hb, hbs, hbp⟩ := ackThen (Q := Q) (G := G) (s := a) (m.data ≠ []) (by simp [Acks, hast]) (by simp [hast])
          change Inner Q G s (if m.data ≠ [] then a.transmitPacket none false true false false [] else ok a).s
          rw [hb]
          rcases hbs with x | x
          · rw [x]; exact hi
          · exact stepThen a b hi hbp (by rw [x]; simp) (by rw [x]; simp) (by rw [x]; simp) (by rw [x]; simp)
        · exact hi
      · exact Inner.refl s
    · rw [hst]
      dsimp only [fsmCloseWait]
      rw [h.ack]
      simp only [if_true, if_neg (show ¬ (m.seq > s.rcvNxt ∧ s.acceptable m = true) from fun x => hgt x.1)]
      split
      · rename_i hc
        refine ⟨(Micro.dup h.q (.inr hst) h.ack hc).path, .inl ?_, ?_, ?_, ?_⟩ <;>
        · simp only [retransmitRequest, ok_s]; split <;> simp
      · split
        · rename_i hc
          exact upd _ (processAck_inner ih h.queue h.state) (acceptable_iff.1 hc.2.1) (.inr (.inr (.inr ⟨hst, hc.2.2⟩)))
        · exact Inner.refl s

/-! ### The timer -/

theorem retransmitTimeout_cases {s : Sess} (h : Retransmits s.state) :
    (s.retransmitTimeout = ok s ∨ s.retransmitTimeout = ⟨s, some .assertionError⟩) ∨
    (∃ s', s.retransmitTimeout = ok s' ∧ Micro Q G s s' ∧ s'.state = s.state ∧ s'.closes = s.closes ∧ s'.tx = s.tx) ∨
    (∃ e, s.retransmitTimeout = ⟨s.abortAs, e⟩ ∧ (s.txTmo.get? s.sndUna = some 3 ∧ s.sndUna ≤ 0xFFFFFFFF ∧ s.rcvNxt ≤ 0xFFFFFFFF) ∧ Micro Q G s s.abortAs) := by
  unfold retransmitTimeout
  cases hc : s.txTmo.get? s.sndUna with
  | none => exact .inl (.inl rfl)
  | some c =>
    dsimp only
    by_cases he : s.expired (.retransmit s.sndUna) = true
    · rw [if_pos he]
      by_cases h3 : c = 3
      · subst h3
        rw [if_pos rfl]
        rcases transmit_cases s (some s.sndUna) false true false true [] with ⟨ht, h1, h2⟩ | ht
        · right; right
          rw [ht]
          simp only [Option.getD_some] at h1 ⊢
          refine ⟨((s.sentAs s.sndUna false true false true []).failAs.changeState .closed).exc, ?_, ⟨trivial, h1, h2 rfl⟩,
            Micro.abort h hc he h1 (h2 rfl)⟩
          rw [next_ok]
          rfl
        · rw [ht]
          exact .inl (.inr rfl)
      · rw [if_neg h3]
        exact .inr (.inl ⟨_, rfl, Micro.reset h hc h3 he, rfl, rfl, rfl⟩)
    · rw [if_neg he]
      exact .inl (.inl rfl)

theorem transmitData_cases (s : Sess) :
    (s.transmitData = ok s ∨ ∃ e, s.transmitData = ⟨s, some e⟩) ∨
    (∃ s', s.transmitData = ok s' ∧ Micro Q G s s' ∧ s'.state = s.state ∧ s'.closes = s.closes ∧ s'.tx = s.tx ∧ s.state ≠ .closed) := by
  unfold transmitData
  by_cases hw : s.sndUna ≤ s.sndNxt ∧ s.sndNxt ≤ s.sndUna + s.sndEwn
  · rw [if_neg (by simpa using hw)]
    by_cases h1 : s.state = .synSent ∧ s.sndNxt = s.sndIni
    · rw [if_pos h1]
      rcases transmit_cases s none true false false false [] with ⟨ht, b1, b2⟩ | ht
      · exact .inr ⟨_, ht, Micro.synOut h1.1 h1.2 hw b1, by simp, by simp, by simp, by simp [h1.1]⟩
      · exact .inl (.inr ⟨_, ht⟩)
    · rw [if_neg h1]
      by_cases h2 : s.state = .synRcvd ∧ s.sndNxt = s.sndIni
      · rw [if_pos h2]
        rcases transmit_cases s none true true false false [] with ⟨ht, b1, b2⟩ | ht
        · exact .inr ⟨_, ht, Micro.synAckOut h2.1 h2.2 hw b1 (b2 rfl), by simp, by simp, by simp, by simp [h2.1]⟩
        · exact .inl (.inr ⟨_, ht⟩)
      · rw [if_neg h2]
        dsimp only
        by_cases h3 : (s.state = .established ∨ s.state = .closeWait) ∧ (s.tx.length : Int) - s.txNxt ≠ 0
        · rw [if_pos h3]
          change (((if s.sendLen ≠ 0 then _ else _) = _) ∨ ∃ e, (if s.sendLen ≠ 0 then _ else _) = _) ∨
            ∃ s', (if s.sendLen ≠ 0 then _ else _) = _ ∧ _
          by_cases h4 : s.sendLen ≠ 0
          · simp only [if_pos h4]
            rcases transmit_cases s none false true false false (pySlice s.tx s.txNxt (s.txNxt + s.sendLen)) with ⟨ht, b1, b2⟩ | ht
            · exact .inr ⟨_, ht, Micro.dataOut h3.1 hw h3.2 h4 b1 (b2 rfl), by simp, by simp, by simp,
                by rcases h3.1 with x | x <;> simp [x]⟩
            · exact .inl (.inr ⟨_, ht⟩)
          · simp only [if_neg h4]
            exact .inl (.inl trivial)
        · rw [if_neg h3]
          by_cases h5 : (s.state = .finWait1 ∨ s.state = .lastAck) ∧ s.sndNxt ≠ s.sndFin
          · rw [if_pos h5]
            rcases transmit_cases s none false true true false [] with ⟨ht, b1, b2⟩ | ht
            · exact .inr ⟨_, ht, Micro.finOut h5.1 hw h5.2 b1 (b2 rfl), by simp, by simp, by simp,
                by rcases h5.1 with x | x <;> simp [x]⟩
            · exact .inl (.inr ⟨_, ht⟩)
          · rw [if_neg h5]
            exact .inl (.inl rfl)
  · rw [if_pos (by simpa using hw)]
    exact .inl (.inr ⟨_, rfl⟩)

theorem transmitData_path (s : Sess) : Path Q G s s.transmitData.s ∧ s.transmitData.s.state = s.state ∧
    s.transmitData.s.closes = s.closes ∧ s.transmitData.s.tx = s.tx := by
  rcases transmitData_cases (Q := Q) (G := G) s with (h | ⟨e, h⟩) | ⟨s', h, hm, h1, h2, h3, _⟩
  · rw [h]; exact ⟨.refl, rfl, rfl, rfl⟩
  · rw [h]; exact ⟨.refl, rfl, rfl, rfl⟩
  · rw [h]; exact ⟨hm.path, h1, h2, h3⟩

/-- The timer handler of four states. -/
theorem timer_path {s : Sess} (h : Retransmits s.state) :
    Path Q G s (s.retransmitTimeout.next fun s => s.transmitData).s := by
  rcases retransmitTimeout_cases (Q := Q) (G := G) h with (h | h) | ⟨s', h, hm, _⟩ | ⟨e, h, _, hm⟩
  · rw [h]; exact (transmitData_path s).1
  · rw [h]; exact .refl
  · rw [h]; exact hm.path.trans (transmitData_path s').1
  · rw [h]
    rcases e with _ | e
    · exact hm.path.trans (transmitData_path _).1
    · exact hm.path

theorem delayedAck_path {s : Sess} (h : s.state = .established ∨ s.state = .closeWait) :
    Path Q G s s.delayedAck.s ∧ s.delayedAck.s.state = s.state ∧ s.delayedAck.s.closes = s.closes ∧ s.delayedAck.s.tx = s.tx := by
  unfold delayedAck
  split
  · obtain ⟨b, e, hb, hbs, hbp⟩ := ackThen (Q := Q) (G := G) (s := s) (s.rcvNxt > s.rcvUna)
      (by rcases h with x | x <;> simp [Acks, x]) (by rcases h with x | x <;> simp [x])
    by_cases hgt : s.rcvNxt > s.rcvUna
    · rw [if_pos hgt]
      rcases transmitAck_cases s with ⟨ht, h1, h2⟩ | ht
      · rw [ht]
        simp only [next_ok, ok_s]
        refine ⟨(Path.tail (Micro.ackOut (by rcases h with x | x <;> simp [Acks, x]) h1 h2 (by rcases h with x | x <;> simp [x])).path
          (Micro.timerSet ?_ ?_ ⟨rfl, rfl⟩)), by simp [setTimer], by simp [setTimer], by simp [setTimer]⟩
        · rcases h with x | x <;> simp [x]
        · simp
      · rw [ht]
        exact ⟨.refl, rfl, rfl, rfl⟩
    · rw [if_neg hgt]
      simp only [next_ok, ok_s]
      exact ⟨(Micro.timerSet (by rcases h with x | x <;> simp [x]) (by omega) ⟨rfl, rfl⟩).path, rfl, rfl, rfl⟩
  · exact ⟨.refl, rfl, rfl, rfl⟩

@[simp] theorem abortAs_state (s : Sess) : s.abortAs.state = .closed := by rw [abortAs_eq]
@[simp] theorem abortAs_closes (s : Sess) : s.abortAs.closes = s.closes := by rw [abortAs_eq]
@[simp] theorem abortAs_tx (s : Sess) : s.abortAs.tx = s.tx := by rw [abortAs_eq]
@[simp] theorem abortAs_rcvNxt (s : Sess) : s.abortAs.rcvNxt = s.rcvNxt := by rw [abortAs_eq]
@[simp] theorem abortAs_rcvUna (s : Sess) : s.abortAs.rcvUna = s.rcvNxt := by rw [abortAs_eq]

/-- The timer handler of the two states in which data flows. -/
theorem timer_path' {s : Sess} {st : FsmState}
    (h : (s.state = .established ∧ st = .finWait1) ∨ (s.state = .closeWait ∧ st = .lastAck)) :
    Path Q G s (s.retransmitTimeout.next fun s =>
      s.transmitData.next fun s =>
      s.delayedAck.next fun s =>
      if s.closes = true ∧ s.tx = [] then s.changeState st else ok s).s := by
  have hst : s.state = .established ∨ s.state = .closeWait := by
    rcases h with x | x
    · exact .inl x.1
    · exact .inr x.1
  have hne : st ≠ .closed := by rcases h with x | x <;> simp [x.2]
  have rest : ∀ a : Sess, a.state = s.state → Path Q G a (a.transmitData.next fun s =>
      s.delayedAck.next fun s =>
      if s.closes = true ∧ s.tx = [] then s.changeState st else ok s).s := by
    intro a ha
    obtain ⟨p1, q1, _, _⟩ := transmitData_path (Q := Q) (G := G) a
    generalize a.transmitData = r at p1 q1 ⊢
    rcases r with ⟨b, _ | e⟩
    · have hb : b.state = .established ∨ b.state = .closeWait := by
        have : b.state = s.state := by rw [← ha]; exact q1
        rw [this]; exact hst
      obtain ⟨p2, q2, _, _⟩ := delayedAck_path (Q := Q) (G := G) hb
      change Path Q G a (b.delayedAck.next fun s => if s.closes = true ∧ s.tx = [] then s.changeState st else ok s).s
      generalize b.delayedAck = r' at p2 q2 ⊢
      rcases r' with ⟨c, _ | e⟩
      · have hcs : c.state = s.state := by rw [← ha, ← q1]; exact q2
        change Path Q G a (if c.closes = true ∧ c.tx = [] then c.changeState st else ok c).s
        refine (Path.trans p1 p2).trans ?_
        change Path Q G c _
        split
        · rename_i hcl
          rw [changeState_ok hne]
          rcases h with x | x
          · rw [x.2]; exact (Micro.finClose (by rw [hcs, x.1]) hcl.1 hcl.2).path
          · rw [x.2]; exact (Micro.lastClose (by rw [hcs, x.1]) hcl.1 hcl.2).path
        · exact .refl
      · exact Path.trans p1 p2
    · exact p1
  rcases retransmitTimeout_cases (Q := Q) (G := G) (s := s) (by rcases hst with x | x <;> simp [Retransmits, x]) with
    (h1 | h1) | ⟨s', h1, hm, hs', _⟩ | ⟨e, h1, hc, hm⟩
  · rw [h1]; exact rest s rfl
  · rw [h1]; exact .refl
  · rw [h1]; exact hm.path.trans (rest s' hs')
  · rw [h1]
    rcases e with _ | e
    · change Path Q G s (s.abortAs.transmitData.next fun s =>
        s.delayedAck.next fun s =>
        if s.closes = true ∧ s.tx = [] then s.changeState st else ok s).s
      rcases transmitData_cases (Q := Q) (G := G) s.abortAs with (h2 | ⟨e, h2⟩) | ⟨_, _, _, _, _, _, hf⟩
      · rw [h2]
        change Path Q G s (s.abortAs.delayedAck.next fun s => if s.closes = true ∧ s.tx = [] then s.changeState st else ok s).s
        have hd : s.abortAs.delayedAck = ok s.abortAs ∨ s.abortAs.delayedAck = ok (s.abortAs.setTimer .delayedAck 100) := by
          unfold delayedAck
          split
          · rw [if_neg (by simp)]; exact .inr rfl
          · exact .inl rfl
        have key : ∀ t : Dict TimerName Int, (t = s.abortAs.timers ∨ t = s.abortAs.timers.set .delayedAck 100) → Path Q G s { s.abortAs with timers := t } →
            Path Q G s (if s.abortAs.closes = true ∧ s.abortAs.tx = [] then { s.abortAs with timers := t }.changeState st
              else ok { s.abortAs with timers := t }).s := by
          intro t ht hp
          split
          · rename_i hcl
            rw [changeState_ok hne]
            simp only [abortAs_closes, abortAs_tx] at hcl
            exact (Micro.abortMove h hc.1 hcl.1 hcl.2 ht hc.2.1 hc.2.2).path
          · exact hp
        rcases hd with hd | hd
        · rw [hd]; exact key s.abortAs.timers (.inl rfl) hm.path
        · rw [hd]
          refine key _ (.inr rfl) (Path.tail hm.path (Micro.timerSet (by simp) (by simp) ⟨rfl, rfl⟩))
      · rw [h2]; exact hm.path
      · simp at hf
    · exact hm.path

/-! ### Segments and calls -/

theorem shut_path {s : Sess} (h : s.state ≠ .closed) : Path Q G s (s.changeState .closed).s :=
  (Micro.shut (b := false) h (by simp)).path

theorem synSent_path {rec : Sess → TcpMd → Res} {s : Sess} {m : TcpMd} (hq : QueueOk Q G s) (hm : Q m) (hst : s.state = .synSent) :
    Path Q G s (s.fsmSynSent rec (.packet m)).s := by
  have hooo : s.ooo = [] := hq.early (by simp [hst])
  unfold fsmSynSent
  dsimp only
  by_cases h1 : isSynAck m = true ∧ m.ackn = s.sndNxt ∧ m.data = []
  · rw [if_pos h1]
    have hp : processAck rec (s.paramsAs m) m = ok ((s.paramsAs m).ackUpdate m) := by
      unfold processAck
      dsimp only
      have : ((s.paramsAs m).ackUpdate m).ooo = [] := by rw [ackUpdate_ooo]; exact hooo
      rw [this]
      rfl
    change Path Q G s ((processAck rec (s.paramsAs m) m).next fun s => _).s
    rw [hp, next_ok]
    have p1 : Path Q G s ((s.paramsAs m).ackUpdate m) := (Micro.synAckIn hm hst h1.1 h1.2).path
    have hst' : ((s.paramsAs m).ackUpdate m).state = .synSent := by rw [ackUpdate_state]; exact hst
    rcases transmitAck_cases ((s.paramsAs m).ackUpdate m) with ⟨ht, b1, b2⟩ | ht
    · rw [ht, next_ok, changeState_ok (by simp), next_ok]
      refine (p1.tail (Micro.ackOut (by rw [hst']; exact .inl rfl) b1 b2 (fun _ => by simp [isSynAck_flags h1.1]))).tail (Micro.establish hm (by simpa using hst') h1.1 ?_ ?_ ?_ ?_ ?_ ?_)
      · simp [isSynAck_flags h1.1, h1.2.2]
      · simp; omega
      · intro hG
        have h2 : s.sndUna ≤ s.sndNxt := hq.syn hG (.inl hst)
        have h3 : (s.paramsAs m).sndUna = s.sndUna := rfl
        simp only [sentAs_sndUna, ackUpdate_sndUna, h3]
        omega
      · simp
      · rw [ackAs, sentAs_eq, ackUpdate_eq]
        exact ⟨rfl, rfl, rfl⟩
      · rw [ackAs, sentAs_out]
        exact ⟨_, List.mem_append_right _ (List.mem_singleton.2 rfl), rfl, by simp⟩
    · rw [ht]; exact p1
  · rw [if_neg h1, if_neg (by simp; intro h _ _ h'; simp [h] at h')]
    split
    · rename_i h3
      split
      · rename_i h4
        by_cases hr : s.registered = true
        · have : s.changeState .closed = ok (s.moveAs .closed) := by
            unfold moveAs changeState; simp [hr, ok]
          rw [this]
          exact (Micro.refused hm hst h3 h4).path
        · have : s.changeState .closed = ⟨s.moveAs .closed, some .keyError⟩ := by
            unfold moveAs changeState; simp [hr]
          rw [this]
          exact (Micro.shut (b := false) (by simp [hst]) (by simp)).path
      · exact .refl
    · exact .refl

theorem synRcvd_path {rec : Sess → TcpMd → Res} {s : Sess} {m : TcpMd} (hq : QueueOk Q G s) (hm : Q m) (hst : s.state = .synRcvd) :
    Path Q G s (s.fsmSynRcvd rec (.packet m)).s := by
  have hooo : s.ooo = [] := hq.early (by simp [hst])
  have hne : s.state ≠ .closed := by simp [hst]
  unfold fsmSynRcvd
  dsimp only
  split
  · rename_i h1
    have hp : processAck rec s m = ok (s.ackUpdate m) := by
      unfold processAck
      dsimp only
      rw [ackUpdate_ooo, hooo]
      rfl
    rw [hp, next_ok, changeState_ok (by simp), next_ok]
    refine ((Micro.ackIn hm hst h1.1 h1.2).path).tail (Micro.establish' hm (by simpa using hst) h1.1 (by simp; omega) ?_ (by rw [ackUpdate_eq]))
    intro hG
    have h2 : s.sndUna ≤ s.sndNxt := hq.syn hG (.inr hst)
    rw [ackUpdate_sndUna]
    omega
  · split
    · split
      · exact shut_path hne
      · exact .refl
    · split
      · split
        · exact shut_path hne
        · exact .refl
      · exact .refl

theorem established_path {rec : Sess → TcpMd → Res} (hrec : RecOk Q G rec) {s : Sess} {m : TcpMd} (hq : QueueOk Q G s) (hm : Q m)
    (hst : s.state = .established) : Path Q G s (s.fsmEstablished rec (.packet m)).s := by
  have hne : s.state ≠ .closed := by simp [hst]
  unfold fsmEstablished
  dsimp only
  split
  · exact .refl
  · split
    · rename_i hf
      split
      · rename_i hc
        exact (Micro.dup hm (.inl hst) hf hc).path
      · split
        · rename_i hc
          unfold outOfOrder
          dsimp only
          have p1 := (Micro.store (Q := Q) (G := G) (c := (s.rxReq.get? s.rcvNxt).getD 0 + 1) hm (.inl hst) hf
            ⟨hc.1, acceptable_iff.1 hc.2⟩).path
          obtain ⟨b, e, hb, _, hbp⟩ := ackThen (Q := Q) (G := G) (s := s.storeAs m ((s.rxReq.get? s.rcvNxt).getD 0 + 1)) ((s.rxReq.get? s.rcvNxt).getD 0 + 1 ≤ 2)
            (by simp [Acks, hst, storeAs]) (by simp [hst, storeAs])
          exact (congrArg (fun r : Res => Path Q G s r.s) hb).mpr (p1.trans hbp)
        · split
          · rename_i hc
            exact (Micro.dataIn hm (.inl hst) hf ⟨hc.1, acceptable_iff.1 hc.2⟩).path.trans
              (processAck_inner hrec hq (.inl hst)).path
          · exact .refl
    · split
      · rename_i hf
        split
        · rename_i hc
          have p1 := (Micro.finIn (Q := Q) (G := G) hm (.inl hst) hf ⟨hc.1, acceptable_iff.1 hc.2⟩).path
          have hi := processAck_inner (m := m) hrec hq (.inl hst)
          generalize processAck rec s m = r at hi ⊢
          have p2 := p1.trans hi.path
          rcases r with ⟨a, _ | e⟩
          · have hast : a.state = .established := by
              rcases hi.state with x | x
              · rw [x]; simpa using hst
              · have := x.1; simp [hst] at this
            have har : m.seq + m.data.length + 1 ≤ a.rcvNxt := by
              have := hi.rcv
              simpa [isFinAck_flags hf] using this
            change Path Q G s ((if m.data ≠ [] then a.transmitPacket none false true false false [] else ok a).next fun s =>
              { s with evRx := s.evRx + 1 }.changeState .closeWait).s
            obtain ⟨b, e, hb, hbs, hbp⟩ := ackThen (Q := Q) (G := G) (s := a) (m.data ≠ []) (by simp [Acks, hast]) (by simp [hast])
            rw [hb]
            have hbst : b.state = .established ∧ b.rcvNxt = a.rcvNxt := by rcases hbs with x | x <;> simp [x, hast]
            rcases e with _ | e
            · simp only [Res.next]
              rw [changeState_ok (by simp)]
              exact (p2.trans hbp).tail (Micro.toCloseWait hm hbst.1 hf (by rw [hbst.2]; exact har))
            · exact p2.trans hbp
          · exact p2
        · exact .refl
      · split
        · split
          · exact (Micro.shut (b := true) hne (by simp [hst])).path
          · exact .refl
        · exact .refl

theorem finWait1_path {rec : Sess → TcpMd → Res} (hrec : RecOk Q G rec) {s : Sess} {m : TcpMd} (hq : QueueOk Q G s) (hm : Q m)
    (hst : s.state = .finWait1) : Path Q G s (s.fsmFinWait1 rec (.packet m)).s := by
  have hne : s.state ≠ .closed := by simp [hst]
  unfold fsmFinWait1
  dsimp only
  split
  · rename_i hf
    split
    · rename_i hc
      have p1 := (Micro.dataIn (Q := Q) (G := G) hm (.inr (.inl hst)) hf ⟨hc.1, acceptable_iff.1 hc.2⟩).path
      have hi := processAck_inner (m := m) hrec hq (.inr (.inl hst))
      generalize processAck rec s m = r at hi ⊢
      have p2 := p1.trans hi.path
      rcases r with ⟨a, _ | e⟩
      · have hast : a.state = .finWait1 ∨ a.state = .finWait2 := by
          rcases hi.state with x | x
          · rw [x]; simp [hst]
          · exact .inr x.2.1
        have hau : m.ackn ≤ a.sndUna := by
          have := hi.una
          simp only [ackUpdate_sndUna] at this
          omega
        change Path Q G s ((if m.data ≠ [] then a.transmitPacket none false true false false [] else ok a).next fun s =>
          if m.ackn ≥ s.sndFin then s.changeState .finWait2 else ok s).s
        obtain ⟨b, e, hb, hbs, hbp⟩ := ackThen (Q := Q) (G := G) (s := a) (m.data ≠ [])
          (by rcases hast with x | x <;> simp [Acks, x]) (by rcases hast with x | x <;> simp [x])
        rw [hb]
        have hbst : (b.state = .finWait1 ∨ b.state = .finWait2) ∧ b.sndUna = a.sndUna := by
          rcases hbs with x | x <;> simp [x, hast]
        rcases e with _ | e
        · simp only [Res.next]
          split
          · rename_i hge
            rw [changeState_ok (by simp)]
            exact (p2.trans hbp).tail (Micro.toFinWait2 hm hbst.1 hf hge (by rw [hbst.2]; exact hau))
          · exact p2.trans hbp
        · exact p2.trans hbp
      · exact p2
    · exact .refl
  · split
    · rename_i hf
      split
      · rename_i hc
        have p1 := (Micro.finIn (Q := Q) (G := G) hm (.inr (.inl hst)) hf ⟨hc.1, acceptable_iff.1 hc.2⟩).path
        have hi := processAck_inner (m := m) hrec hq (.inr (.inl hst))
        generalize processAck rec s m = r at hi ⊢
        have p2 := p1.trans hi.path
        rcases r with ⟨a, _ | e⟩
        · have hast : a.state = .finWait1 ∨ (a.state = .finWait2 ∧ (G → a.sndFin = 0)) := by
            rcases hi.state with x | x
            · rw [x]; simp [hst]
            · refine .inr ⟨x.2.1, ?_⟩
              rw [hi.fin]; exact x.2.2
          have har : m.seq + m.data.length + 1 ≤ a.rcvNxt := by
            have := hi.rcv
            simpa [isFinAck_flags hf] using this
          change Path Q G s ((a.transmitPacket none false true false false []).next fun s =>
            if m.ackn ≥ s.sndFin then (s.changeState .timeWait).next fun s => ok (s.setTimer .timeWait 30000)
            else s.changeState .closing).s
          rcases transmitAck_cases a with ⟨ht, b1, b2⟩ | ht
          · rw [ht, next_ok]
            have p3 := p2.tail (Micro.ackOut (by rcases hast with x | x <;> simp [Acks, x]) b1 b2 (by rcases hast with x | x <;> simp [x]))
            split
            · rw [changeState_ok (by simp), next_ok]
              refine p3.tail (Micro.toTimeWait hm ?_ hf (by simpa using har))
              rcases hast with x | x <;> simp [x]
            · rename_i hlt
              rw [changeState_ok (by simp)]
              exact p3.tail (Micro.toClosing hm (by simpa using hast) hf (by simpa using hlt) (by simpa using har))
          · rw [ht]; exact p2
        · exact p2
      · exact .refl
    · split
      · split
        · exact shut_path hne
        · exact .refl
      · exact .refl

theorem finWait2_path {rec : Sess → TcpMd → Res} (hrec : RecOk Q G rec) {s : Sess} {m : TcpMd} (hq : QueueOk Q G s) (hm : Q m)
    (hst : s.state = .finWait2) : Path Q G s (s.fsmFinWait2 rec (.packet m)).s := by
  have hne : s.state ≠ .closed := by simp [hst]
  unfold fsmFinWait2
  dsimp only
  split
  · rename_i hc
    have p1 := (Micro.dataIn (Q := Q) (G := G) hm (.inr (.inr (.inl hst))) hc.1 ⟨hc.2.1, acceptable_iff.1 hc.2.2⟩).path
    have hi := processAck_inner (m := m) hrec hq (.inr (.inr (.inl hst)))
    generalize processAck rec s m = r at hi ⊢
    have p2 := p1.trans hi.path
    rcases r with ⟨a, _ | e⟩
    · have hast : a.state = .finWait2 := by
        rcases hi.state with x | x
        · rw [x]; simp [hst]
        · exact x.2.1
      change Path Q G s (if m.data ≠ [] then a.transmitPacket none false true false false [] else ok a).s
      obtain ⟨b, e, hb, hbs, hbp⟩ := ackThen (Q := Q) (G := G) (s := a) (m.data ≠ []) (by simp [Acks, hast]) (by simp [hast])
      rw [hb]
      exact p2.trans hbp
    · exact p2
  · split
    · rename_i hc
      have p1 := (Micro.finIn (Q := Q) (G := G) hm (.inr (.inr hst)) hc.1 ⟨hc.2.1, acceptable_iff.1 hc.2.2⟩).path
      have hi := processAck_inner (m := m) hrec hq (.inr (.inr (.inl hst)))
      generalize processAck rec s m = r at hi ⊢
      have p2 := p1.trans hi.path
      rcases r with ⟨a, _ | e⟩
      · have hast : a.state = .finWait2 := by
          rcases hi.state with x | x
          · rw [x]; simp [hst]
          · exact x.2.1
        have har : m.seq + m.data.length + 1 ≤ a.rcvNxt := by
          have := hi.rcv
          simpa [isFinAck_flags hc.1] using this
        change Path Q G s ((a.transmitPacket none false true false false []).next fun s =>
          (s.changeState .timeWait).next fun s => ok (s.setTimer .timeWait 30000)).s
        rcases transmitAck_cases a with ⟨ht, b1, b2⟩ | ht
        · rw [ht, next_ok, changeState_ok (by simp), next_ok]
          exact (p2.tail (Micro.ackOut (by simp [Acks, hast]) b1 b2 (by simp [hast]))).tail
            (Micro.toTimeWait hm (by simp [hast]) hc.1 (by simpa using har))
        · rw [ht]; exact p2
      · exact p2
    · split
      · split
        · exact shut_path hne
        · exact .refl
      · exact .refl

theorem closeWait_path {rec : Sess → TcpMd → Res} (hrec : RecOk Q G rec) {s : Sess} {m : TcpMd} (hq : QueueOk Q G s) (hm : Q m)
    (hst : s.state = .closeWait) : Path Q G s (s.fsmCloseWait rec (.packet m)).s := by
  have hne : s.state ≠ .closed := by simp [hst]
  unfold fsmCloseWait
  dsimp only
  split
  · rename_i hf
    split
    · rename_i hc
      exact (Micro.dup hm (.inr hst) hf hc).path
    · split
      · rename_i hc
        unfold outOfOrder
        dsimp only
        have p1 := (Micro.store (Q := Q) (G := G) (c := (s.rxReq.get? s.rcvNxt).getD 0 + 1) hm (.inr hst) hf
          ⟨hc.1, acceptable_iff.1 hc.2⟩).path
        obtain ⟨b, e, hb, _, hbp⟩ := ackThen (Q := Q) (G := G) (s := s.storeAs m ((s.rxReq.get? s.rcvNxt).getD 0 + 1)) ((s.rxReq.get? s.rcvNxt).getD 0 + 1 ≤ 2)
          (by simp [Acks, hst, storeAs]) (by simp [hst, storeAs])
        exact (congrArg (fun r : Res => Path Q G s r.s) hb).mpr (p1.trans hbp)
      · split
        · rename_i hc
          exact (Micro.dataIn hm (.inr (.inr (.inr ⟨hst, hc.2.2⟩))) hf ⟨hc.1, acceptable_iff.1 hc.2.1⟩).path.trans
            (processAck_inner hrec hq (.inr (.inr (.inr hst)))).path
        · exact .refl
  · split
    · split
      · exact shut_path hne
      · exact .refl
    · exact .refl

/-- What `tcp_fsm` may be called with once the session is open. -/
def InputOk (Q : TcpMd → Prop) : Input → Prop
  | .packet m => Q m
  | .sys c => c = .close
  | .timer => True

/-- A call of `tcp_fsm` is a path of small steps. -/
theorem fsm_path {s : Sess} {i : Input} (hq : QueueOk Q G s) (hi : InputOk Q i) : Path Q G s (s.fsm i).s := by
  have hrec : RecOk Q G (fun a m => fsmFuel s.ooo.length a (.packet m)) := recOk_fuel _
  change Path Q G s (fsmWith (fun a m => fsmFuel s.ooo.length a (.packet m)) s i).s
  generalize (fun a m => fsmFuel s.ooo.length a (.packet m)) = rec at hrec ⊢
  unfold fsmWith
  cases hst : s.state with
  | closed =>
    cases i with
    | packet m => exact .refl
    | timer => exact .refl
    | sys c => obtain rfl : c = .close := hi; exact .refl
  | listen =>
    cases i with
    | packet m =>
      dsimp only [fsmListen]
      split
      · rename_i h
        rw [changeState_ok (by simp)]
        have hflag := isSyn_flags h.1
        have := (Micro.synIn (Q := Q) (G := G) hi hst h.1 h.2).path
        simpa [synAs, paramsAs, hflag, emit, ok] using this
      · exact .refl
    | timer => exact .refl
    | sys c => obtain rfl : c = .close := hi; exact shut_path (by simp [hst])
  | synSent =>
    cases i with
    | packet m => exact synSent_path hq hi hst
    | timer => exact timer_path (by simp [Retransmits, hst])
    | sys c => obtain rfl : c = .close := hi; exact shut_path (by simp [hst])
  | synRcvd =>
    cases i with
    | packet m => exact synRcvd_path hq hi hst
    | timer => exact timer_path (by simp [Retransmits, hst])
    | sys c =>
      obtain rfl : c = .close := hi
      change Path Q G s (s.changeState .finWait1).s
      rw [changeState_ok (by simp)]
      exact (Micro.finEarly hst).path
  | established =>
    cases i with
    | packet m => exact established_path hrec hq hi hst
    | timer => exact timer_path' (.inl ⟨hst, rfl⟩)
    | sys c => obtain rfl : c = .close := hi; exact (Micro.closes (.inl hst)).path
  | finWait1 =>
    cases i with
    | packet m => exact finWait1_path hrec hq hi hst
    | timer => exact timer_path (by simp [Retransmits, hst])
    | sys c => exact .refl
  | finWait2 =>
    cases i with
    | packet m => exact finWait2_path hrec hq hi hst
    | timer => exact .refl
    | sys c => exact .refl
  | closing =>
    cases i with
    | packet m =>
      dsimp only [fsmClosing]
      split
      · rename_i h
        rw [changeState_ok (by simp), next_ok]
        exact (Micro.closingAck hi hst h.1 ⟨h.2.1, acceptable_iff.1 h.2.2⟩).path
      · split
        · split
          · exact shut_path (by simp [hst])
          · exact .refl
        · exact .refl
    | timer => exact .refl
    | sys c => exact .refl
  | closeWait =>
    cases i with
    | packet m => exact closeWait_path hrec hq hi hst
    | timer => exact timer_path' (.inr ⟨hst, rfl⟩)
    | sys c => obtain rfl : c = .close := hi; exact (Micro.closes (.inr hst)).path
  | lastAck =>
    cases i with
    | packet m =>
      dsimp only [fsmLastAck]
      split
      · split
        · exact shut_path (by simp [hst])
        · exact .refl
      · split
        · split
          · exact shut_path (by simp [hst])
          · exact .refl
        · exact .refl
    | timer => exact timer_path (by simp [Retransmits, hst])
    | sys c => exact .refl
  | timeWait =>
    cases i with
    | packet m => exact .refl
    | timer =>
      dsimp only [fsmTimeWait]
      split
      · exact shut_path (by simp [hst])
      · exact .refl
    | sys c => exact .refl

end Verif.Sess
