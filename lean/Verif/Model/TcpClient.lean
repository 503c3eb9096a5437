import Mathlib.Data.Nat.Log
import Verif.Model.TcpServices
/-! The TCP echo client, on its connection. -/
namespace Verif.TcpClient
open Echo

/-- Where the thread is. -/
inductive Pc where
  /-- in `connect`: the session has been opened, and is waited for -/
  | connecting
  /-- before the test of the loop; this many messages are left (or any number, if it is negative) -/
  | test (left : Int)
  /-- before a message -/
  | saying (left : Int)
  /-- before `close` -/
  | closing
  /-- the connection was not made, and the thread has returned -/
  | failed
  /-- the thread has returned after `close` -/
  | ended
  /-- an exception, which nothing catches: the thread has ended -/
  | died
  deriving DecidableEq

/-- Python's `f"{n:05}"`: at least five digits. -/
def five (n : Nat) : Bytes := Daytime.pad (max 5 (Nat.log 10 n + 1)) n

/-- examples/tcp_echo_client.py:146-149: the message; `size` is `_message_size`. -/
def message (size : Int) : Bytes :=
  ascii "[------START------] " ++ ((List.range (size - 2).toNat).map fun i => ascii "[------" ++ five (i + 1) ++ ascii "------] ").flatten ++
    ascii "[-------END-------]\n"

/-- examples/tcp_echo_client.py:130-169: the thread goes on, up to and with its next call.  The socket is bound, and `connect` has made the session
and called CONNECT (`Sess.opened true`); what `connect` raises when the session does not come to be established (tcp/socket.py:250-262) is an
`OSError`, and caught, as is `BrokenPipeError` of `send`.  The first argument is what the thread would find in `_run_thread`: it does not look at
it.  The pause (:163) and the printing are left out. -/
def turn (_running : Bool) (size count : Int) (s : Sess) : Pc → Sess × Pc
  | .connecting => (s.step .connectReturn,
      if s.evConnect = 0 then .connecting
      else if s.state ≠ .established ∧ (s.err = .refused ∨ s.err = .timeout) then .failed
      else .test count)
  | .test n => (s, if n ≠ 0 then .saying n else .closing)
  | .saying n => (s.send (message size), if s.state = .established ∨ s.state = .closeWait then .test (min n (n - 1)) else .closing)
  | .closing => (s.step .close, match (s.fsm (.sys .close)).exc with | some _ => .died | none => .ended)
  | .failed => (s, .failed)
  | .ended => (s, .ended)
  | .died => (s, .died)

end Verif.TcpClient
