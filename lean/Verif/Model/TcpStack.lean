import Verif.Model.Session
/-!
All TCP sockets and sessions together: `/repo/pytcp/protocols/tcp/socket.py`, `/repo/pytcp/protocols/tcp/session.py` where it
reaches outside the session, and the delivery of segments in `/repo/pytcp/protocols/tcp/phrx.py`.

* Socket and session objects live in lists; a reference is an index.  The ids of the sockets and `stack.sockets` are those of
  `Model/Socket.lean`; UDP sockets are left out (they matter here only for which automatic port is free).
* A session does not know the table: before each call of one of its methods `registered` is set from the table, and what the call
  did that concerns the table, the sockets or other sessions (`Out.unregistered`, `Out.spawned`, `Out.queued`) is done to them
  after it, in order.  The code does it on the way; nothing in between looks at it.
* An application's call on a socket reads `_tcp_session` and then calls the session; another thread may replace `_tcp_session`
  in between.  So the events here are calls on sessions, of any session that exists.
* Timers are each session's own.  In the code they are named after the four addresses and ports.  Sessions that differ in these
  do not meet each other's timers (`C108_timers_apart`); a session can meet timers that an earlier session with the same
  addresses and ports has left behind (`C108_leftover_witness`), and that is not modelled here.
* `log` is the model's own: what can be seen of the sessions and of `accept`, oldest first.
-/
namespace Verif

/-- A session, with its `_socket` (session.py:187). -/
structure TcpConn where
  s : Sess
  sock : Nat

/-- What can be seen. -/
inductive TcpNote where
  /-- session `i` did this -/
  | did (i : Nat) (o : Out)
  /-- `accept` on the first socket returned the second -/
  | accepted (l c : Nat)
  deriving DecidableEq

structure TcpStack where
  ss : Socks
  conns : List TcpConn
  /-- `_tcp_session` of a socket -/
  session : Nat → Option Nat
  /-- `_parent_socket` of a socket -/
  parent : Nat → Option Nat
  /-- `_tcp_accept` of a socket -/
  queue : Nat → List Nat
  /-- the value of the semaphore `_event_tcp_session_established` of a socket -/
  permits : Nat → Nat
  log : List TcpNote

/-- `f` with a new value at `k`. -/
def upd {α : Type} (f : Nat → α) (k : Nat) (v : α) : Nat → α := fun x => if x = k then v else f x

namespace TcpStack

def empty : TcpStack := ⟨⟨[], []⟩, [], fun _ => none, fun _ => none, fun _ => [], fun _ => 0, []⟩

/-- The id of a socket. -/
def idOf (t : TcpStack) (r : Nat) : Option SockId := (t.ss.socks[r]?).map (·.id)

/-- `stack.sockets` has the key of this socket. -/
def has (t : TcpStack) (r : Nat) : Bool :=
  match t.idOf r with
  | none => false
  | some id => t.ss.table.has id

/-- A session is made for the socket, by `connect` (tcp/socket.py:236-249) or `listen` (269-284); session.py:186-190: it takes the
socket's addresses and ports. -/
def openOn (t : TcpStack) (r : Nat) (id : SockId) (active : Bool) (iss : Nat) : TcpStack :=
  { t with
    conns := t.conns ++ [⟨Sess.opened active iss id.lip id.lport id.rip id.rport, r⟩]
    session := upd t.session r (some t.conns.length)
    log := t.log ++ (Sess.opened active iss id.lip id.lport id.rip id.rport).out.map (.did t.conns.length) }

/-- session.py:868-893, tcp/socket.py:84-92: a listening session `i`, as `c` until now, has got a SYN that has made it `c.s`'s
successor `s`.  Its socket gets a new listening session, with the random number `iss`; the session gets a new socket. -/
def spawn (t : TcpStack) (i : Nat) (c : TcpConn) (s : Sess) (iss : Nat) : TcpStack :=
  let t := t.openOn c.sock ⟨c.s.lip.family, .stream, c.s.lip, c.s.lport, c.s.rip, c.s.rport⟩ false iss
  let (ss, r) := t.ss.accepted ⟨s.lip.family, .stream, s.lip, s.lport, s.rip, s.rport⟩
  { t with
    ss := ss
    conns := t.conns.set i ⟨s, r⟩
    session := upd t.session r (some i)
    parent := upd t.parent r (some c.sock) }

/-- session.py:484-485: `stack.sockets.pop(str(self._socket))`. -/
def unregister (t : TcpStack) (r : Nat) : TcpStack := { t with ss := t.ss.gone r }

/-- session.py:1055-1056.  A session gets to SYN_RCVD only from LISTEN, so its socket
has a parent (`C61_accept`). -/
def enqueue (t : TcpStack) (r : Nat) : TcpStack :=
  match t.parent r with
  | none => t
  | some p => { t with queue := upd t.queue p (t.queue p ++ [r]), permits := upd t.permits p (t.permits p + 1) }

/-- The `_socket` of session `i` now. -/
def sockOf (t : TcpStack) (i : Nat) : Nat :=
  match t.conns[i]? with
  | none => 0
  | some c => c.sock

/-- What a session did, to everything outside it. -/
def effect (i : Nat) (c : TcpConn) (s : Sess) (iss : Nat) (t : TcpStack) (o : Out) : TcpStack :=
  let t := match o with
    | .spawned => t.spawn i c s iss
    | .unregistered => t.unregister (t.sockOf i)
    | .queued => t.enqueue (t.sockOf i)
    | _ => t
  { t with log := t.log ++ [.did i o] }

/-- A method of session `i` is called. -/
def act (t : TcpStack) (i : Nat) (ev : Sess.Ev) (iss : Nat) : TcpStack :=
  match t.conns[i]? with
  | none => t
  | some c =>
    let s := { c.s with registered := t.has c.sock }.step ev
    (s.out.drop c.s.out.length).foldl (effect i c s iss) { t with conns := t.conns.set i ⟨s, c.sock⟩ }

/-- What an application can call on a session through its socket (tcp/socket.py:307-363, and session.py:397, the end of `connect`). -/
inductive Call where
  | send (d : Bytes)
  | recvAcquire
  | recvTake (n : Option Nat)
  | close
  | connectReturn

def Call.ev : Call → Sess.Ev
  | .send d => .send d
  | .recvAcquire => .recvAcquire
  | .recvTake n => .recvTake n
  | .close => .close
  | .connectReturn => .connectReturn

/-- What can happen.  `iss` is the random initial sequence number of the session that is made, if one is made. -/
inductive Ev where
  | socket (f : Family)
  | bind (st : Stack) (r : Nat) (addr : Option IpAddress) (port : Int) (choice : Nat)
  | connect (st : Stack) (r : Nat) (addr : Option IpAddress) (port : Int) (choice : Nat) (iss : Nat)
  | listen (r : Nat) (iss : Nat)
  | accept (r : Nat)
  | call (i : Nat) (c : Call)
  /-- a segment is received -/
  | segment (m : TcpMd) (iss : Nat)
  /-- all timers count down -/
  | clock
  /-- the timer method of session `i` runs -/
  | timer (i : Nat)

/-- tcp/phrx.py:96-153, tcp/socket.py:365-370: the session that a received segment is handed to, if any (the RST sent when
there is no socket is `Rx.tcp`'s). -/
def route (t : TcpStack) (m : TcpMd) : Option Nat := (Rx.tcpMatch t.ss m).bind t.session

/-- tcp/socket.py:286-305: `accept`; a call that waits is an event that has not happened yet. -/
def accept (t : TcpStack) (r : Nat) : TcpStack :=
  if t.permits r = 0 then t
  else
    let t := { t with permits := upd t.permits r (t.permits r - 1) }
    match t.queue r with
    | [] => t
    | c :: q => { t with queue := upd t.queue r q, log := t.log ++ [.accepted r c] }

/-- One event. -/
def step (t : TcpStack) : Ev → TcpStack
  | .socket f => { t with ss := (t.ss.create f .stream).1 }
  | .bind st r a p c => { t with ss := (t.ss.bind st r a p c).1 }
  | .connect st r a p c iss =>
    let (ss, res) := t.ss.connect st r a p c
    let t := { t with ss := ss }
    match res, t.idOf r with
    | .ok _, some id => t.openOn r id true iss
    | _, _ => t
  | .listen r iss =>
    match t.idOf r with
    | none => t
    | some id =>
      let t := { t with ss := (t.ss.listen r).1 }
      t.openOn r id false iss
  | .accept r => t.accept r
  | .call i c => t.act i c.ev 0
  | .segment m iss =>
    match t.route m with
    | none => t
    | some i => t.act i (.segment m) iss
  | .clock => { t with conns := t.conns.map (fun c => { c with s := c.s.clock }) }
  | .timer i => t.act i .timer 0

/-- A history, from the start of the stack. -/
def run (evs : List Ev) : TcpStack := evs.foldl step empty

end TcpStack
end Verif
