import Verif.Model.TcpEcho
import Verif.Spec.Net
import Verif.Spec.Echo
/-! What the TCP echo service promises. -/
namespace Verif.Spec
open TcpEcho Echo

/-- What the stack does at an end of a connection, without the application. -/
inductive ByStack : Sess.Ev → Prop
  | segment (m : TcpMd) : ByStack (.segment m)
  | clock : ByStack .clock
  | timer : ByStack .timer
  | table (b : Bool) : ByStack (.table b)

/-- A client and the service, at the two ends of a connection that are `x` and `y` at first, may come to be `a` and `b`, with the
service's thread at `pc`.  Client and network are as in `Joined`; at the service's end the stack does what it does, and the thread of the
service, which is there once the connection is accepted, takes its turns.  Where `calm` holds, nothing happens at the service's end between
the two parts of a receive call (but its socket may be unregistered by others, which no receive call looks at). -/
inductive Served (calm : Prop) (x y : Sess) : Sess → Sess → Pc → Prop
  | start : Served calm x y x y .hello
  | client {a b : Sess} {pc : Pc} {e : Sess.Ev} : Served calm x y a b pc → Arrives b e → Served calm x y (a.step e) b pc
  | stack {a b : Sess} {pc : Pc} {e : Sess.Ev} : Served calm x y a b pc → ByStack e → Arrives a e →
      (calm → pc = .taking → ∃ r, e = .table r) →
      Served calm x y a (b.step e) pc
  | service {a b : Sess} {pc : Pc} (running : Bool) : Served calm x y a b pc → Out.queued ∈ b.out →
      Served calm x y a (turn running b pc).1 (turn running b pc).2

/-- `d` is one of the words that end the service, in any mix of small and capital letters, with white space around it. -/
def SaysEnd (d : Bytes) : Prop :=
  ∃ w ∈ [ascii "quit", ascii "close", ascii "bye", ascii "exit"], ∃ a c b, d = a ++ c ++ b ∧
    (∀ x ∈ a ++ b, x ∈ [32, 9, 10, 11, 12, 13]) ∧ c.length = w.length ∧ ∀ p ∈ c.zip w, p.1 = p.2 ∨ p.1 = p.2 - 32

/-- What the service sends for `d` that it has read. -/
inductive ReplyTo (d : Bytes) : Bytes → Prop
  | closed : d = [] → ReplyTo d (ascii "***CLIENT CLOSED, SERVICE CLOSING***\n")
  | ending : d ≠ [] → SaysEnd d → ReplyTo d (ascii "***CLIENT OPEN, SERVICE CLOSING***\n")
  | echo {x : Bytes} : d ≠ [] → ¬ SaysEnd d → EchoOf d x → ReplyTo d x

/-- The words with a meaning for the service. -/
def echoWords : List Bytes :=
  [ascii "quit", ascii "close", ascii "bye", ascii "exit", ascii "malpka", ascii "malpa", ascii "malpi"]

/-- What the service says first. -/
def greeting : Bytes := ascii "***CLIENT OPEN / SERVICE OPEN***\n"

/-- The session has been told to close, and will when all its data is out; or it has gone on from there. -/
def ClosesDown (s : Sess) : Prop :=
  s.closes = true ∨
  ¬ (s.state = .listen ∨ s.state = .synSent ∨ s.state = .synRcvd ∨ s.state = .established ∨ s.state = .closeWait)

end Verif.Spec
