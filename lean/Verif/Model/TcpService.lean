import Verif.Model.TcpEcho
import Verif.Model.TcpStack
/-!
The TCP echo service among the examples with all its connections (`/repo/examples/lib/tcp_service.py`, `/repo/examples/tcp_echo_service.py`), on a
host with all its other sockets and sessions: the thread that accepts, and a thread per connection.

Simplifications: `start` has been called, once; what a thread does between two calls on a socket is one step with the call; a call that waits
is a step that changes nothing; what is printed is left out.  The service's address is what its text denotes (`ip_version`), if it denotes one.
-/
namespace Verif.TcpService
open TcpEcho Echo

/-- examples/lib/tcp_service.py:53-66: what the service is made with. -/
structure Config where
  addr : Option IpAddress
  port : Int

/-- A connection's thread: its socket, and where it is. -/
structure Worker where
  sock : Nat
  pc : Pc
  deriving DecidableEq

/-- Where the service's own thread is. -/
inductive Main where
  /-- before its socket is made -/
  | socket
  /-- before `bind`, `listen` or `accept` on this socket -/
  | bind (r : Nat)
  | listen (r : Nat)
  | accept (r : Nat)
  /-- `__thread_service` has returned -/
  | ended
  /-- an exception, which nothing catches: the thread has ended -/
  | died
  deriving DecidableEq

structure Srv where
  t : TcpStack
  /-- `_run_thread` -/
  running : Bool
  main : Main
  workers : List Worker

/-- examples/lib/tcp_service.py:68-76: after `start`. -/
def init : Srv := ⟨TcpStack.empty, true, .socket, []⟩

/-- What can happen at the host. -/
inductive Step where
  /-- anything besides the service -/
  | net (e : TcpStack.Ev)
  /-- examples/lib/tcp_service.py:78-85: `stop` -/
  | stop
  /-- the service's own thread goes on, up to and with its next call; `st`, `choice`, `iss` as in `TcpStack.Ev` -/
  | main (st : Stack) (choice iss : Nat)
  /-- the thread of the `n`-th connection goes on, up to and with its next call -/
  | worker (n : Nat)

/-- examples/tcp_echo_service.py:68-135: the call on the socket that the thread of a connection makes next, if it makes one and does not wait. -/
def callOf (s : Sess) : Pc → Option TcpStack.Call
  | .hello => some (.send hello)
  | .test => none
  | .recv => if s.evRx = 0 then none else some .recvAcquire
  | .taking => some (.recvTake none)
  | .got d => some (.send (if d = [] then closedMsg else if asksEnd d then quitMsg else answer d))
  | .closing _ => some .close
  | .ended => none
  | .died => none

/-- The session of the `n`-th connection's thread, with its number, as a method of the session finds it (tcp/socket.py:116-121). -/
def sessionOf (v : Srv) (n : Nat) : Option (Worker × Nat × Sess) :=
  (v.workers[n]?).bind fun w => (v.t.session w.sock).bind fun i =>
    (v.t.conns[i]?).map fun c => (w, i, { c.s with registered := v.t.has c.sock })

/-- What a step is for the sockets and sessions. -/
def emits (g : Config) (v : Srv) : Step → Option TcpStack.Ev
  | .net e => some e
  | .stop => none
  | .main st choice iss =>
    match v.main with
    | .socket => g.addr.map fun a => .socket a.family
    | .bind r => some (.bind st r g.addr g.port choice)
    | .listen r => some (.listen r iss)
    | .accept r => some (.accept r)
    | .ended => none
    | .died => none
  | .worker n => (sessionOf v n).bind fun (w, i, s) => (callOf s w.pc).map (.call i)

/-- examples/lib/tcp_service.py:87-136: where the service's own thread is after its step.  `bind` may raise `OSError`, which is caught, with
`gaierror` among its kinds (lib/socket.py:64). -/
def mainAfter (g : Config) (v : Srv) (st : Stack) (choice : Nat) : Main :=
  match v.main with
  | .socket => match g.addr with
    | none => .ended
    | some _ => .bind v.t.ss.socks.length
  | .bind r => match (v.t.ss.bind st r g.addr g.port choice).2 with
    | .ok _ => .listen r
    | .error .osError => .ended
    | .error .gaiError => .ended
    | .error _ => .died
  | .listen r => .accept r
  | .accept r => if v.t.permits r = 0 then .accept r else match v.t.queue r with
    | [] => .died
    | _ :: _ => .accept r
  | .ended => .ended
  | .died => .died

/-- examples/lib/tcp_service.py:126-136: a thread is started for the connection that `accept` has returned. -/
def spawned (v : Srv) : List Worker :=
  match v.main with
  | .accept r => if v.t.permits r = 0 then [] else match v.t.queue r with
    | [] => []
    | c :: _ => [⟨c, .hello⟩]
  | _ => []

/-- One step. -/
def step (g : Config) (v : Srv) (s : Step) : Srv :=
  let t := match emits g v s with
    | none => v.t
    | some e => v.t.step e
  match s with
  | .net _ => { v with t := t }
  | .stop => { v with running := false }
  | .main st choice _ => { v with t := t, main := mainAfter g v st choice, workers := v.workers ++ spawned v }
  | .worker n =>
    match sessionOf v n with
    | none => v
    | some (w, _, s) => { v with t := t, workers := v.workers.set n ⟨w.sock, (turn v.running s w.pc).2⟩ }

/-- A history of the host. -/
def run (g : Config) (ss : List Step) : Srv := ss.foldl (step g) init

end Verif.TcpService
