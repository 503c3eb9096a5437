import Verif.Model.Socket
/-! What the properties about sockets mean, and histories of socket calls. -/
namespace Verif.Spec

/-! ### Local endpoints -/

/-- Two local endpoints claim the same thing: same family, type and port, and the same address or a wildcard. -/
def Clash (a b : SockId) : Prop :=
  a.family = b.family ∧ a.type = b.type ∧ a.lport = b.lport ∧ (a.lip = b.lip ∨ a.lip.isUnspecified ∨ b.lip.isUnspecified)

instance (a b : SockId) : Decidable (Clash a b) := by unfold Clash; infer_instance

/-- Socket `r`, with state `s`, is in the table. -/
def Registered (ss : Socks) (r : Nat) (s : Sock) : Prop := ss.socks[r]? = some s ∧ ss.table.get? s.id = some r

/-- The documented range of automatically chosen ports: every second port from 32168 up to, not including, 60700. -/
def EphemeralPort (p : Nat) : Prop := 32168 ≤ p ∧ p < 60700 ∧ p % 2 = 0

/-! ### Which socket a datagram is for -/

/-- How specifically a UDP socket matches a datagram (`m.lip`, `m.lport`: its destination; `m.rip`, `m.rport`: its source):
0 connected to exactly this peer, 1 bound to the destination address, 2 bound to all addresses, 3 a socket bound to all
addresses that talks to the limited broadcast address (the DHCP client). -/
def udpRank (id : SockId) (m : UdpMd) : Option Nat :=
  if id.type = .stream ∨ id.family ≠ m.lip.family ∨ id.lport ≠ m.lport then none
  else if id.lip = m.lip ∧ id.rip = m.rip ∧ id.rport = m.rport then some 0
  else if id.lip = m.lip ∧ id.rip.isUnspecified ∧ id.rport = 0 then some 1
  else if id.lip.isUnspecified ∧ id.rip.isUnspecified ∧ id.rport = 0 then some 2
  else if id.lip.isUnspecified ∧ id.rip = .v4 ⟨0xFFFFFFFF, by decide⟩ ∧ id.rport = m.rport then some 3
  else none

/-- `r` is the most specific registered socket for `m`, and the only one as specific. -/
def MostSpecific (ss : Socks) (m : UdpMd) (r : Nat) : Prop :=
  ∃ s k, Registered ss r s ∧ udpRank s.id m = some k ∧
    ∀ r' s' k', Registered ss r' s' → udpRank s'.id m = some k' → r' = r ∨ k < k'

/-- No registered socket matches `m`. -/
def NoSocket (ss : Socks) (m : UdpMd) : Prop := ∀ r s, Registered ss r s → udpRank s.id m = none

/-! ### Histories -/

/-- What can happen to the sockets.  `child`: a connection request arrives at a listening TCP socket and a socket is made for
it.  `close`: the application closes a UDP socket, or the session of a TCP socket ends.  `arrive`: an accepted datagram
arrives.  `refuse`: an ICMP message arrives that says a datagram from `m.lip`, `m.lport` to `m.rip`, `m.rport` was not
deliverable. -/
inductive Op where
  | socket (f : Family) (t : SockType)
  | bind (r : Nat) (addr : Option IpAddress) (port : Int) (choice : Nat)
  | connect (r : Nat) (addr : Option IpAddress) (port : Int) (choice : Nat)
  | listen (r : Nat)
  | child (lip : IpAddress) (lport : Nat) (rip : IpAddress) (rport : Nat)
  | close (r : Nat)
  | send (r : Nat) (data : Bytes)
  | sendto (r : Nat) (data : Bytes) (addr : Option IpAddress) (port : Int) (choice : Nat)
  | recv (r : Nat)
  | recvfrom (r : Nat)
  | arrive (m : UdpMd)
  | refuse (m : UdpMd)

/-- The rest of the stack at the time of an event. -/
structure Env where
  stack : Stack
  links : Socks.Links

/-- What comes out of it. -/
inductive Res where
  | ref (r : Nat)
  | unit (x : Py Unit)
  | sent (x : Py (Nat × List Outgoing))
  | data (x : Py Bytes)
  | dataFrom (x : Py (Bytes × IpAddress × Nat))
  | to (r : Option Nat)

/-- One event. -/
def step (ss : Socks) (e : Env) : Op → Socks × Res
  | .socket f t => let (ss, r) := ss.create f t; (ss, .ref r)
  | .bind r a p c => let (ss, x) := ss.bind e.stack r a p c; (ss, .unit x)
  | .connect r a p c => let (ss, x) := ss.connect e.stack r a p c; (ss, .unit x)
  | .listen r => let (ss, x) := ss.listen r; (ss, .unit x)
  | .child l lp r rp => let (ss, r) := ss.accepted ⟨l.family, .stream, l, lp, r, rp⟩; (ss, .ref r)
  | .close r => (ss.close r, .unit (.ok ()))
  | .send r d => let (ss, _, x) := ss.send e.stack e.links r d; (ss, .sent x)
  | .sendto r d a p c => let (ss, _, x) := ss.sendto e.stack e.links r d a p c; (ss, .sent x)
  | .recv r => let (ss, x) := ss.recv r; (ss, .data x)
  | .recvfrom r => let (ss, x) := ss.recvfrom r; (ss, .dataFrom x)
  | .arrive m =>
    match ss.match? m with
    | some r => (ss.deliver r m, .to (some r))
    | none => (ss, .to none)
  | .refuse m =>
    match ss.match? m with
    | some r => (ss.notify r, .to (some r))
    | none => (ss, .to none)

/-- The state after a history, and what happened. -/
def run (h : List (Env × Op)) : Socks × List (Op × Res) :=
  h.foldl (fun a e => ((step a.1 e.1 e.2).1, a.2 ++ [(e.2, (step a.1 e.1 e.2).2)])) (⟨[], []⟩, [])

/-- A history in which no socket that was taken out of the table after it had a port is connected or made to listen again.
`ok ss op`: the event is fine in state `ss`. -/
def useOk (ss : Socks) : Op → Prop
  | .connect r _ _ _ | .listen r => ∀ s, ss.socks[r]? = some s → s.id.lport ≠ 0 → ss.table.get? s.id = some r
  | _ => True

def NoUseAfterClose (h : List (Env × Op)) : Prop := ∀ h₁ e h₂, h = h₁ ++ e :: h₂ → useOk (run h₁).1 e.2

/-! ### What a history says about one socket -/

/-- The datagrams delivered to `r`, in order. -/
def delivered (r : Nat) (tr : List (Op × Res)) : List UdpMd :=
  tr.filterMap fun
    | (.arrive m, .to (some r')) => if r' = r then some m else none
    | _ => none

/-- Whether the event is a `recv` or `recvfrom` on `r` that returned a datagram. -/
def isReceipt (r : Nat) : Op × Res → Bool
  | (.recv r', .data (.ok _)) => r' = r
  | (.recvfrom r', .dataFrom (.ok _)) => r' = r
  | _ => false

/-- How many datagrams were received from `r`. -/
def receipts (r : Nat) (tr : List (Op × Res)) : Nat := tr.countP (isReceipt r)

/-- The event tells `r` (a UDP socket of family `f`) that its peer is unreachable: an ICMP message, or an attempt to send or
connect to the unspecified address (which the code takes as such, unless the call already failed: port out of range, no port
free, no such socket). -/
def Marks (f : Family) (r : Nat) : Op × Res → Prop
  | (.refuse _, .to (some r')) => r' = r
  | (.connect r' (some a) _ _, .unit x) =>
    r' = r ∧ a.isUnspecified ∧ a.family = f ∧
      x ≠ .error .overflowError ∧ x ≠ .error .osError ∧ x ≠ .error .keyError
  | (.sendto r' _ (some a) _ _, .sent x) =>
    r' = r ∧ a.isUnspecified ∧ a.family = f ∧
      x ≠ .error .overflowError ∧ x ≠ .error .osError ∧ x ≠ .error .keyError
  | _ => False

/-- The event reports the unreachable peer to the application. -/
def Raises (r : Nat) : Op × Res → Prop
  | (.recv r', .data (.error .connectionRefused)) => r' = r
  | (.send r' _, .sent (.error .connectionRefused)) => r' = r
  | _ => False

/-- There is an unreported unreachable notification for `r`. -/
def Pending (f : Family) (r : Nat) (tr : List (Op × Res)) : Prop :=
  ∃ tr₁ e tr₂, tr = tr₁ ++ e :: tr₂ ∧ Marks f r e ∧ ∀ x ∈ tr₂, ¬ Raises r x

end Verif.Spec
