import Verif.Model.Session
/-! What TCP sessions are expected to do, from what can be seen of them. -/
namespace Verif.Spec

/-- The segments sent, in order. -/
def sent (l : List Out) : List Seg := l.filterMap (fun o => match o with | .sent g => some g | _ => none)

/-- The segments with data, in order. -/
def dataSent (l : List Out) : List Seg := (sent l).filter (fun g => g.data ≠ [])

/-- The bytes that `send` has accepted, all of them in order. -/
def accepted (l : List Out) : Bytes := (l.filterMap (fun o => match o with | .accepted d => some d | _ => none)).flatten

/-- The bytes that `receive` has returned, all of them in order. -/
def received (l : List Out) : Bytes := (l.filterMap (fun o => match o with | .received d => some d | _ => none)).flatten

/-- The state changes, in order. -/
def moves (l : List Out) : List (FsmState × FsmState) :=
  l.filterMap (fun o => match o with | .moved a b => some (a, b) | _ => none)

/-- The segments that arrive in a history. -/
def arrivals (evs : List Sess.Ev) : List TcpMd := evs.filterMap (fun e => match e with | .segment m => some m | _ => none)

/-- The number of ticks of the clock (milliseconds) in a history. -/
def millis (evs : List Sess.Ev) : Nat := (evs.filter (fun e => match e with | .clock => true | _ => false)).length

/-- RFC 7323: the window that `m` advertises, on a connection that was opened with the peer's SYN `y`: the field of `m`, shifted
unless `m` is a SYN itself. -/
def advertised (y m : TcpMd) : Nat := if m.syn then m.win else m.win * 2 ^ (y.wscale.getD 0)

/-- `m` is a segment of a peer whose initial sequence number is `irs` and whose byte stream is `p`: its data are the bytes of
the stream at its place, a FIN is after the last byte, and a SYN has the initial number and no data. -/
structure SegmentOf (p : Bytes) (irs : Nat) (m : TcpMd) : Prop where
  syn : m.syn = true → m.seq = irs ∧ m.data = [] ∧ m.fin = false
  data : m.data ≠ [] → irs < m.seq ∧ (p.drop (m.seq - (irs + 1))).take m.data.length = m.data
  fin : m.fin = true → irs < m.seq ∧ m.seq + m.data.length = irs + 1 + p.length

/-- The TCP state diagram (RFC 9293 figure 5), with every abort to CLOSED. -/
inductive Edge : FsmState → FsmState → Prop
  | passiveOpen : Edge .closed .listen
  | activeOpen : Edge .closed .synSent
  | rcvSyn : Edge .listen .synRcvd
  | rcvSynSimultaneous : Edge .synSent .synRcvd
  | rcvSynAck : Edge .synSent .established
  | rcvAckOfSyn : Edge .synRcvd .established
  | closeSynRcvd : Edge .synRcvd .finWait1
  | close : Edge .established .finWait1
  | rcvFin : Edge .established .closeWait
  | closeAfterFin : Edge .closeWait .lastAck
  | rcvAckOfFin : Edge .finWait1 .finWait2
  | rcvFinSimultaneous : Edge .finWait1 .closing
  | rcvFinAckOfFin : Edge .finWait1 .timeWait
  | rcvFinLater : Edge .finWait2 .timeWait
  | rcvAckClosing : Edge .closing .timeWait
  /-- CLOSE in LISTEN or SYN-SENT, the last ACK, the end of TIME-WAIT, and every abort -/
  | toClosed {a : FsmState} : a ≠ .closed → Edge a .closed

/-- A list of state changes that leads from one state to another, each change along an edge of the diagram or staying. -/
inductive Journey : FsmState → List (FsmState × FsmState) → FsmState → Prop
  | here {a : FsmState} : Journey a [] a
  | step {a b c : FsmState} {l : List (FsmState × FsmState)} :
      Journey a l b → (b = c ∨ Edge b c) → Journey a (l ++ [(b, c)]) c

/-- What can happen when receive calls run from beginning to end: anything else, or a whole call. -/
inductive Whole : List Sess.Ev → Prop
  | one {e : Sess.Ev} : e ≠ .recvAcquire → (∀ n, e ≠ .recvTake n) → Whole [e]
  | receive (n : Option Nat) : Whole [.recvAcquire, .recvTake n]

/-- What receive calls have returned, one by one. -/
def returned (l : List Out) : List Bytes :=
  l.filterMap fun
    | .received d => some d
    | _ => none

/-- How connect calls have ended. -/
def outcomes (l : List Out) : List ConnError :=
  l.filterMap fun
    | .connected e => some e
    | _ => none

/-- How often a segment with this number, that has to be acknowledged, was sent. -/
def transmissions (q : Nat) (l : List Out) : Nat :=
  ((sent l).filter fun g => g.seq = q ∧ (g.data ≠ [] ∨ g.syn ∨ g.fin)).length

/-- A segment with nothing in it but the acknowledgement of the numbers below `q`. -/
def BareAck (q : Nat) (m : TcpMd) : Prop := m.ack = true ∧ m.syn = false ∧ m.fin = false ∧ m.rst = false ∧ m.data = [] ∧ m.ackn = q

/-- Calls of the application on an open connection. -/
inductive Call : Sess.Ev → Prop
  | send (d : Bytes) : Call (.send d)
  | recvAcquire : Call .recvAcquire
  | recvTake (n : Option Nat) : Call (.recvTake n)
  | connectReturn : Call .connectReturn

/-- A millisecond in which nothing arrives: the timers count down, then the session's timer method runs; the application may call
in between. -/
inductive Quiet : List Sess.Ev → Prop
  | ms {a b : List Sess.Ev} : (∀ e ∈ a, Call e) → (∀ e ∈ b, Call e) → Quiet (.clock :: (a ++ .timer :: b))

end Verif.Spec
