import Verif.Spec.TcpStack
import Verif.Spec.Net
/-! Two hosts with all their sockets and sessions, one connection between them, and the network. -/
namespace Verif.Spec
open TcpStack

/-- The addresses and ports of a connection, as one of the hosts has them. -/
structure Ends where
  lip : IpAddress
  lport : Nat
  rip : IpAddress
  rport : Nat

/-- The same connection, as the other host has it. -/
def Ends.flip (k : Ends) : Ends := ⟨k.rip, k.rport, k.lip, k.lport⟩

/-- The session has these addresses and ports. -/
def Ends.of (k : Ends) (s : Sess) : Prop := s.lip = k.lip ∧ s.lport = k.lport ∧ s.rip = k.rip ∧ s.rport = k.rport

/-- The segment that arrives has these addresses and ports. -/
def Ends.on (k : Ends) (m : TcpMd) : Prop := m.lip = k.lip ∧ m.lport = k.lport ∧ m.rip = k.rip ∧ m.rport = k.rport

/-- What may happen at a host: anything at all, except that a segment with the addresses and ports of the connection `k` arrives only
if a session of the other host that has these addresses and ports has sent it, or it is a reset.  (The ports of segments that arrive
are never 0: the parser drops those.) -/
def MayReach (k : Ends) (other : TcpStack) (e : TcpStack.Ev) : Prop :=
  ∀ m iss, e = .segment m iss → (1 ≤ m.lport ∧ m.lport < 65536) ∧
    (k.on m → Resets m ∨ ∃ j d, other.conns[j]? = some d ∧ k.flip.of d.s ∧ ∃ g ∈ sent (seenOf other.log j), Carries g m)

/-- `xs` and `ys` are histories of two hosts with the network between them, as seen by the connection that is `k` on the first. -/
inductive Hosts (k : Ends) : List TcpStack.Ev → List TcpStack.Ev → Prop
  | start : Hosts k [] []
  | left {xs ys : List TcpStack.Ev} {e : TcpStack.Ev} : Hosts k xs ys → MayReach k (TcpStack.run ys) e → Hosts k (xs ++ [e]) ys
  | right {xs ys : List TcpStack.Ev} {e : TcpStack.Ev} : Hosts k xs ys → MayReach k.flip (TcpStack.run xs) e → Hosts k xs (ys ++ [e])

/-- Session `i` is the one session that has had these addresses and ports. -/
def Only (k : Ends) (t : TcpStack) (i : Nat) (s : Sess) : Prop :=
  (∃ r, t.conns[i]? = some ⟨s, r⟩) ∧ k.of s ∧ ∀ i' c', t.conns[i']? = some c' → k.of c'.s → i' = i

end Verif.Spec
