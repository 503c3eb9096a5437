import Verif.Model.TcpStack
/-! What the properties about listening sockets and their connections mean. -/
namespace Verif.Spec
open TcpStack

/-- The sockets that `accept` on `l` has returned, in order. -/
def accepts (log : List TcpNote) (l : Nat) : List Nat :=
  log.filterMap fun
    | .accepted l' c => if l' = l then some c else none
    | _ => none

/-- The socket of a connection that came in through listening socket `l`, when the note says that it was established. -/
def inboundNote (t : TcpStack) (l : Nat) : TcpNote → Option Nat
  | .did i (.moved .synRcvd .established) => if t.parent (t.sockOf i) = some l then some (t.sockOf i) else none
  | _ => none

/-- The sockets of the connections that came in through listening socket `l` and were established, in the order in which they
were. -/
def inbound (t : TcpStack) (l : Nat) : List Nat := t.log.filterMap (inboundNote t l)

/-- What a call of an application means for the session it is made on. -/
def asked : Call → Sess.Ev
  | .send d => .send d
  | .recvAcquire => .recvAcquire
  | .recvTake n => .recvTake n
  | .close => .close
  | .connectReturn => .connectReturn

/-- What an event is for session `i`: ticks of the clock are for every session, calls and timers for the session they name,
segments for the session they are handed to.  A method of a session finds its socket registered or not (`table`). -/
def portion (t : TcpStack) (i : Nat) (e : TcpStack.Ev) : List Sess.Ev :=
  match t.conns[i]? with
  | none => []
  | some c =>
    match e with
    | .clock => [.clock]
    | .call j k => if j = i then [.table (t.has c.sock), asked k] else []
    | .timer j => if j = i then [.table (t.has c.sock), .timer] else []
    | .segment m _ => if t.route m = some i then [.table (t.has c.sock), .segment m] else []
    | _ => []

/-- One event of a history: the state after it, and what has happened to session `i` so far. -/
def share (i : Nat) (a : TcpStack × List Sess.Ev) (e : TcpStack.Ev) : TcpStack × List Sess.Ev :=
  (a.1.step e, a.2 ++ portion a.1 i e)

/-- The history of session `i` in a history of all. -/
def historyOf (evs : List TcpStack.Ev) (i : Nat) : List Sess.Ev := (evs.foldl (share i) (TcpStack.empty, [])).2

/-- What could be seen of session `i`. -/
def seenOf (log : List TcpNote) (i : Nat) : List Out :=
  log.filterMap fun
    | .did j o => if j = i then some o else none
    | _ => none

/-- The session of socket `r` and its number. -/
def SessionIs (t : TcpStack) (r i : Nat) (s : Sess) : Prop := t.session r = some i ∧ t.conns[i]? = some ⟨s, r⟩

/-- Socket `r` listens, under the key `id`. -/
def Listens (t : TcpStack) (r : Nat) (id : SockId) : Prop :=
  t.idOf r = some id ∧ t.ss.table.get? id = some r ∧ ∃ i s, SessionIs t r i s ∧ s.state = .listen

end Verif.Spec
