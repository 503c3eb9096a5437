import Verif.Model.Machine
import Verif.Spec.Hosts
import Verif.Spec.Origin
/-! Two machines, each with all its sockets, sessions and caches, and the Ethernet between them. -/
namespace Verif.Spec

/-- The frame says that the packet in it is from this address (RFC 791 section 3.1, RFC 8200 section 3). -/
def SaysFrom (F : Bytes) : IpAddress → Prop
  | .v4 a => be F 12 2 = 0x0800 ∧ be F 26 4 = a.int
  | .v6 a => be F 12 2 = 0x86DD ∧ be F 22 16 = a.int

/-- A machine that has just been started: there are no sockets and no fragments waiting, and nothing has been sent.  Its addresses, the
identifications it uses next and everything else may be anything. -/
structure Started (m : Machine) : Prop where
  tcp : m.tcp = TcpStack.empty
  wire : m.wire = []
  flows4 : m.host.node.flows4 = []
  flows6 : m.host.node.flows6 = []
  mtu : 72 ≤ m.host.stack.mtu

/-- What may happen at a machine: anything at all, except that a frame that says it is from the address `b` arrives only if the machine
which has that address has put it on the wire. -/
def MayArrive (b : IpAddress) (wire : List Bytes) (e : Machine.Ev) : Prop :=
  ∀ u t₀ t₁ t depth F iss, e = .frame u t₀ t₁ t depth F iss → SaysFrom F b → F ∈ wire

/-- `xs` and `ys` are histories of the machines `A`, which has the address `a`, and `B`, which has the address `b`.  The network may lose
frames, repeat them, delay them and change their order, and there may be any other machines on it. -/
inductive Ethernet (a b : IpAddress) (A B : Machine) : List Machine.Ev → List Machine.Ev → Prop
  | start : Ethernet a b A B [] []
  | left {xs ys : List Machine.Ev} {e : Machine.Ev} : Ethernet a b A B xs ys → MayArrive b (B.run ys).wire e → Ethernet a b A B (xs ++ [e]) ys
  | right {xs ys : List Machine.Ev} {e : Machine.Ev} : Ethernet a b A B xs ys → MayArrive a (A.run xs).wire e → Ethernet a b A B xs (ys ++ [e])

/-- Session `i` is the one session that has had these ports and this remote address. -/
def Sole (k : Ends) (t : TcpStack) (i : Nat) (s : Sess) : Prop :=
  (∃ r, t.conns[i]? = some ⟨s, r⟩) ∧ k.of s ∧
    ∀ i' c', t.conns[i']? = some c' → c'.s.lport = k.lport → c'.s.rip = k.rip → c'.s.rport = k.rport → i' = i

end Verif.Spec
