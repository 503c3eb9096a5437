import Verif.Model.TcpService
import Verif.Spec.Hosts
import Verif.Spec.TcpEcho
/-! The TCP echo service among all that happens at its host, and a client on another. -/
namespace Verif.Spec
open TcpService

/-- The socket that the service listens on, or will. -/
def door (v : Srv) : Option Nat :=
  match v.main with
  | .bind l => some l
  | .listen l => some l
  | .accept l => some l
  | _ => none

/-- Socket `r` is the listening socket `l` or that of a connection that came in through it. -/
def Its (t : TcpStack) (l r : Nat) : Prop := r = l ∨ t.parent r = some l

/-- Nobody else makes this a call on the service's sockets, when its listening socket is `l`. -/
def HandsOff (l : Nat) (t : TcpStack) : TcpStack.Ev → Prop
  | .bind _ r _ _ _ => ¬ Its t l r
  | .connect _ r _ _ _ _ => ¬ Its t l r
  | .listen r _ => ¬ Its t l r
  | .accept r => ¬ Its t l r
  | .call i _ => ¬ Its t l (t.sockOf i)
  | _ => True

/-- `ss` is a history of the service's host in which only the service uses its own sockets; but for that, anything may happen. -/
inductive Alone (g : Config) : List Step → Prop
  | start : Alone g []
  | snoc {ss : List Step} {s : Step} : Alone g ss →
      (∀ e, s = .net e → ∀ l, door (TcpService.run g ss) = some l → HandsOff l (TcpService.run g ss).t e) → Alone g (ss ++ [s])

/-- `xs` is a history of a client's host, and `ss` one of the service's host, with the network between them, as seen by the connection that is `k`
at the client's.  Anything may happen at the client's host; and at the service's host, but that only the service uses its own sockets.  Where
`calm` holds, the receive calls of the service's threads are not interrupted: what happens after the first part of one is its second part. -/
inductive Clients (calm : Prop) (g : Config) (k : Ends) : List TcpStack.Ev → List Step → Prop
  | start : Clients calm g k [] []
  | client {xs : List TcpStack.Ev} {ss : List Step} {e : TcpStack.Ev} : Clients calm g k xs ss → MayReach k (TcpService.run g ss).t e →
      Clients calm g k (xs ++ [e]) ss
  | service {xs : List TcpStack.Ev} {ss : List Step} {s : Step} : Clients calm g k xs ss →
      (∀ e, s = .net e → MayReach k.flip (TcpStack.run xs) e ∧ ∀ l, door (TcpService.run g ss) = some l → HandsOff l (TcpService.run g ss).t e) →
      (calm → ∀ n w, (TcpService.run g ss).workers[n]? = some w → w.pc = .taking → s = .worker n) →
      Clients calm g k xs (ss ++ [s])

/-- The `n`-th thread of the service serves session `j`, and is at `pc`. -/
def ThreadOf (v : Srv) (n j : Nat) (pc : TcpEcho.Pc) : Prop := ∃ r, v.workers[n]? = some ⟨r, pc⟩ ∧ v.t.session r = some j

end Verif.Spec
