import Verif.Model.TcpServices
import Verif.Spec.TcpEcho
import Verif.Spec.Daytime
/-! What the TCP discard and daytime services promise. -/
namespace Verif.Spec
open Echo Daytime

/-- As `Served`, with the discard service. -/
inductive Discarded (calm : Prop) (x y : Sess) : Sess → Sess → TcpDiscard.Pc → Prop
  | start : Discarded calm x y x y .hello
  | client {a b : Sess} {pc : TcpDiscard.Pc} {e : Sess.Ev} : Discarded calm x y a b pc → Arrives b e → Discarded calm x y (a.step e) b pc
  | stack {a b : Sess} {pc : TcpDiscard.Pc} {e : Sess.Ev} : Discarded calm x y a b pc → ByStack e → Arrives a e →
      (calm → pc = .taking → ∃ r, e = .table r) →
      Discarded calm x y a (b.step e) pc
  | service {a b : Sess} {pc : TcpDiscard.Pc} (running : Bool) : Discarded calm x y a b pc → Out.queued ∈ b.out →
      Discarded calm x y a (TcpDiscard.turn running b pc).1 (TcpDiscard.turn running b pc).2

/-- What the discard service sends for `d` that it has read. -/
inductive DiscardReply (d : Bytes) : Bytes → Prop
  | closed : d = [] → DiscardReply d (ascii "***CLIENT CLOSED, SERVICE CLOSING***\n")
  | ending : d ≠ [] → SaysEnd d → DiscardReply d (ascii "***CLIENT OPEN, SERVICE CLOSING***\n")
  | nothing : d ≠ [] → ¬ SaysEnd d → DiscardReply d []

/-- The words that end the service. -/
def endWords : List Bytes := [ascii "quit", ascii "close", ascii "bye", ascii "exit"]

/-- As `Served`, with the daytime service, made to send `count` messages (any number if it is negative); the last list is what the thread has found
at its turns, whether the service runs and the time. -/
inductive Timed (count : Int) (x y : Sess) : Sess → Sess → TcpDaytime.Pc → List (Bool × Now) → Prop
  | start : Timed count x y x y .hello []
  | client {a b : Sess} {pc : TcpDaytime.Pc} {l : List (Bool × Now)} {e : Sess.Ev} : Timed count x y a b pc l → Arrives b e →
      Timed count x y (a.step e) b pc l
  | stack {a b : Sess} {pc : TcpDaytime.Pc} {l : List (Bool × Now)} {e : Sess.Ev} : Timed count x y a b pc l → ByStack e → Arrives a e →
      Timed count x y a (b.step e) pc l
  | service {a b : Sess} {pc : TcpDaytime.Pc} {l : List (Bool × Now)} (i : Bool × Now) : Timed count x y a b pc l → Out.queued ∈ b.out →
      Timed count x y a (TcpDaytime.turn count i b pc).1 (TcpDaytime.turn count i b pc).2 (l ++ [i])

/-- `x` is this time on a line. -/
def TimeLine (n : Now) (x : Bytes) : Prop := ∃ y, TimeText n y ∧ x = y ++ [10]

end Verif.Spec
