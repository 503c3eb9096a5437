import Verif.Model.Threads
import Verif.Spec.Socket
/-! Sockets used by several threads: what happens to datagrams, and what a call should come to. -/
namespace Verif.Spec
open Threads

/-- A stack nobody has made a socket on. -/
def NoSockets (s : Threads.St) : Prop := s = { stack := s.stack }

/-- The datagrams put into the queue of the socket, in order. -/
def queuedFor (l : List Threads.Ev) (r : Nat) : List UdpMd := l.filterMap fun e => match e with
  | .queued r' m => if r' = r then some m else none
  | _ => none

/-- The datagrams that calls of `recv` and `recvfrom` on the socket have returned, in order. -/
def returnedBy (l : List Threads.Ev) (r : Nat) : List UdpMd := l.filterMap fun e => match e with
  | .got r' m => if r' = r then some m else none
  | _ => none

/-- The datagrams put into the queue of any socket, and those for which none was found. -/
def disposed (l : List Threads.Ev) : List UdpMd := l.filterMap fun e => match e with
  | .queued _ m => some m
  | .refused m => some m
  | _ => none

/-- The datagrams that have come. -/
def cameIn (xs : List Threads.Step) : List UdpMd := xs.filterMap fun e => match e with
  | .arrive m => some m
  | _ => none

/-- The datagrams the receive thread has begun with: those that came when it was not at another. -/
def begunWith (s : Threads.St) : List Threads.Step → List UdpMd
  | [] => []
  | e :: es => (match e with
      | .arrive m => if s.rx = .idle then [m] else []
      | _ => []) ++ begunWith (s.step e) es

/-- After `ys` the receive thread began with the datagram `m`, and after `xs` it is still at it. -/
structure Seeking (s : Threads.St) (xs ys : List Threads.Step) (m : UdpMd) : Prop where
  began : ys ++ [.arrive m] <+: xs
  idle : (s.run ys).rx = .idle
  busy : ∀ ws, ys ++ [.arrive m] <+: ws → ws <+: xs → (s.run ws).rx ≠ .idle

/-- At every moment from there to here. -/
def Throughout (s : Threads.St) (xs ys : List Threads.Step) (P : Threads.St → Prop) : Prop :=
  ∀ ws, ys <+: ws → ws <+: xs → P (s.run ws)

/-- The table has the socket under `p`, and no other under an id the datagram is looked up by before `p`. -/
def FoundUnder (ss : Socks) (m : UdpMd) (p : SockId) (r : Nat) : Prop :=
  ∃ before after, m.patterns = before ++ p :: after ∧ ss.table.get? p = some r ∧ ∀ q ∈ before, ss.table.get? q = none

/-- At some moment between. -/
def AtSomeTime (s : Threads.St) (xs ys : List Threads.Step) (P : Threads.St → Prop) : Prop :=
  ∃ ws, ys <+: ws ∧ ws <+: xs ∧ P (s.run ws)

/-- The step is not the application's closing the socket, nor its session's end, and no call on the socket that changes where it is is under way. -/
def LeftAlone (r : Nat) (s : Threads.St) (e : Threads.Step) : Prop :=
  e ≠ .close r ∧ e ≠ .gone r ∧ ∀ c ∈ s.calls, c.sock = r → ∃ x, c.pos = .done x

/-- A step that has nothing to do with which sockets there are and where: of the receive thread, or of a call of `recv` or `recvfrom`. -/
def Elsewhere : Threads.Step → Prop
  | .arrive _ => True
  | .rx => True
  | .acquire _ => True
  | .take _ => True
  | _ => False

/-- The same sockets in the same places, whatever waits in their queues. -/
def SamePlaces (a b : Socks) : Prop :=
  a.table = b.table ∧ a.socks.map (fun k => (k.id, k.unreachable, k.accepted)) = b.socks.map (fun k => (k.id, k.unreachable, k.accepted))

/-- How a call that came to `r` has ended. -/
def endOf : Py Unit → Threads.Res
  | .ok _ => .ok
  | .error e => .raised e

/-- `sendto` gives a socket without a port one: what should come of it. -/
def givenPort (ss : Socks) (r : Nat) (o : Sock) (choice : Nat) : Socks × Py Unit :=
  let out : Socks := { ss with table := ss.table.erase o.id }
  match out.pickLocalPort choice with
  | .error e => (out, .error e)
  | .ok p => (out.register r o { o.id with lport := p }, .ok ())

end Verif.Spec
