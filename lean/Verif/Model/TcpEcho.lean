import Verif.Model.Echo
import Verif.Model.Session
/-!
The TCP echo service among the examples (`/repo/examples/tcp_echo_service.py`, `/repo/examples/lib/tcp_service.py`) on one connection: the
thread that `service` runs in, on the session that `accept` has given it.

Simplifications: what the thread does between two calls on the socket is one step with the call; what is printed is left out; the socket's
`send`, `recv` and `close` (tcp/socket.py:309-377) are the session's, with `TcpSessionError` of `send` become `BrokenPipeError`.
-/
namespace Verif.TcpEcho
open Echo

/-- examples/tcp_echo_service.py:77: the first message. -/
def hello : Bytes := ascii "***CLIENT OPEN / SERVICE OPEN***\n"
/-- examples/tcp_echo_service.py:89: the last message, when the client has closed. -/
def closedMsg : Bytes := ascii "***CLIENT CLOSED, SERVICE CLOSING***\n"
/-- examples/tcp_echo_service.py:102: the last message, when the client has asked for the end. -/
def quitMsg : Bytes := ascii "***CLIENT OPEN, SERVICE CLOSING***\n"

/-- examples/tcp_echo_service.py:97: `message.strip().lower() in {b"quit", b"close", b"bye", b"exit"}`. -/
def asksEnd (d : Bytes) : Bool :=
  [ascii "quit", ascii "close", ascii "bye", ascii "exit"].contains (lower (strip d))

/-- Where the thread is. -/
inductive Pc where
  /-- before the first message -/
  | hello
  /-- before the test of `_run_thread` -/
  | test
  /-- in `recv`, before the semaphore -/
  | recv
  /-- in `recv`, past the semaphore -/
  | taking
  /-- `recv` has returned this -/
  | got (d : Bytes)
  /-- before `close`; `again`: a `continue` follows, not a `break` -/
  | closing (again : Bool)
  /-- `service` has returned -/
  | ended
  /-- an exception, which nothing catches: the thread has ended -/
  | died
  deriving DecidableEq

/-- tcp/socket.py:309-336: `connected_socket.send(d)`, after which the thread is at `next`, unless it is raised `BrokenPipeError`. -/
def say (s : Sess) (d : Bytes) (next : Pc) : Sess × Pc :=
  (s.send d, if s.state = .established ∨ s.state = .closeWait then next else .died)

/-- What the call of `receive` that has just ended has returned. -/
def lastRead (s : Sess) : Bytes :=
  match s.out.getLast? with
  | some (.received d) => d
  | _ => []

/-- examples/tcp_echo_service.py:68-135: the thread goes on, up to and with its next call; `running` is what it finds in `_run_thread`. -/
def turn (running : Bool) (s : Sess) : Pc → Sess × Pc
  | .hello => say s hello .test
  | .test => (s, if running then .recv else .ended)
  | .recv => if s.evRx = 0 then (s, .recv) else (s.recvAcquire, .taking)
  | .taking => (s.recvTake none, .got (lastRead (s.recvTake none)))
  | .got d =>
    if d = [] then say s closedMsg (.closing false)
    else if asksEnd d then say s quitMsg (.closing true)
    else say s (answer d) .test
  | .closing again =>
    (s.step .close, match (s.fsm (.sys .close)).exc with | some _ => .died | none => if again then .test else .ended)
  | .ended => (s, .ended)
  | .died => (s, .died)

end Verif.TcpEcho
