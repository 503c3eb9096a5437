import Verif.Model.TcpEcho
import Verif.Model.Daytime
/-!
The TCP discard and daytime services among the examples (`/repo/examples/tcp_discard_service.py`, `/repo/examples/tcp_daytime_service.py`) on one
connection: the thread that `service` runs in, on the session that `accept` has given it.  The simplifications of `Model/TcpEcho.lean` hold here, too.
-/
namespace Verif.TcpDiscard
open TcpEcho (hello closedMsg quitMsg asksEnd lastRead)

/-- Where the thread is. -/
inductive Pc where
  /-- before the first message -/
  | hello
  /-- before the test of `_run_thread` -/
  | test
  /-- in `recv`, before the semaphore -/
  | recv
  /-- in `recv`, past the semaphore -/
  | taking
  /-- `recv` has returned this -/
  | got (d : Bytes)
  /-- before `close` in the loop; `again`: a `continue` follows, not a `break` -/
  | closing (again : Bool)
  /-- before `close` after the loop -/
  | last
  /-- `service` has returned -/
  | ended
  /-- an exception, which nothing catches: the thread has ended -/
  | died
  deriving DecidableEq

/-- tcp/socket.py:309-336: `connected_socket.send(d)`, after which the thread is at `next`, unless it is raised `BrokenPipeError`. -/
def say (s : Sess) (d : Bytes) (next : Pc) : Sess × Pc :=
  (s.send d, if s.state = .established ∨ s.state = .closeWait then next else .died)

/-- tcp/socket.py:357-363: `connected_socket.close()`, after which the thread is at `next`, unless an exception is raised. -/
def shut (s : Sess) (next : Pc) : Sess × Pc :=
  (s.step .close, match (s.fsm (.sys .close)).exc with | some _ => .died | none => next)

/-- examples/tcp_discard_service.py:67-118: the thread goes on, up to and with its next call; `running` is what it finds in `_run_thread`.  The
three texts are those of the echo service. -/
def turn (running : Bool) (s : Sess) : Pc → Sess × Pc
  | .hello => say s hello .test
  | .test => (s, if running then .recv else .last)
  | .recv => if s.evRx = 0 then (s, .recv) else (s.recvAcquire, .taking)
  | .taking => (s.recvTake none, .got (lastRead (s.recvTake none)))
  | .got d =>
    if d = [] then say s closedMsg (.closing false)
    else if asksEnd d then say s quitMsg (.closing true)
    else (s, .test)
  | .closing again => shut s (if again then .test else .last)
  | .last => shut s .ended
  | .ended => (s, .ended)
  | .died => (s, .died)

end Verif.TcpDiscard

namespace Verif.TcpDaytime
open Daytime

/-- Where the thread is. -/
inductive Pc where
  /-- before the first message -/
  | hello
  /-- before the test of the loop; this many messages are left (or any number, if it is negative) -/
  | test (left : Int)
  /-- before a message -/
  | saying (left : Int)
  /-- before `close` -/
  | closing
  /-- `service` has returned -/
  | ended
  /-- an exception, which nothing catches: the thread has ended -/
  | died
  deriving DecidableEq

/-- examples/tcp_daytime_service.py:92: a message, when `datetime.now()` gives `now`. -/
def line (now : Now) : Bytes := str now ++ [10]

/-- examples/tcp_daytime_service.py:77-111: the thread goes on, up to and with its next call, with what it finds in `_run_thread` and what the clock
says; `count` is `_message_count`.  `BrokenPipeError` of `send` in the loop is an `OSError`, which is caught.  The pause (:104) is left out: a
thread may take its time anyway. -/
def turn (count : Int) (i : Bool × Now) (s : Sess) : Pc → Sess × Pc
  | .hello => (s.send TcpEcho.hello, if s.state = .established ∨ s.state = .closeWait then .test count else .died)
  | .test n => (s, if i.1 ∧ n ≠ 0 then .saying n else .closing)
  | .saying n => (s.send (line i.2), if s.state = .established ∨ s.state = .closeWait then .test (min n (n - 1)) else .closing)
  | .closing => (s.step .close, match (s.fsm (.sys .close)).exc with | some _ => .died | none => .ended)
  | .ended => (s, .ended)
  | .died => (s, .died)

end Verif.TcpDaytime
