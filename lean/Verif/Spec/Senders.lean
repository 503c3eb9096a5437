import Verif.Model.Senders
import Verif.Spec.Frag
import Verif.Spec.Machine
/-! Packets sent in fragments by several threads: the calls, and what they queue. -/
namespace Verif.Spec
open Senders

/-- The transmit side before anything is sent. -/
structure Unused (s : Senders.St) : Prop where
  jobs : s.jobs = []
  out : s.out = []

/-- The k-th of the calls that send in fragments is under way, and is sending to `w`. -/
def UnderWay (s : Senders.St) (k : Nat) (w : Way) : Prop :=
  ∃ j, s.jobs[k]? = some j ∧ j.way = w ∧ ∀ r, j.pos ≠ .done r

/-- At some moment the k-th call, sending to `w`, and the k'-th, sending to `w'`, were both under way. -/
def Overlap (s : Senders.St) (xs : List Senders.Step) (k : Nat) (w : Way) (k' : Nat) (w' : Way) : Prop :=
  ∃ ys, ys <+: xs ∧ UnderWay (s.run ys) k w ∧ UnderWay (s.run ys) k' w'

/-- The counters are raised without a thread switch between reading and writing. -/
def RaisedAtOnce (xs : List Senders.Step) : Prop := ∀ k, .load k ∉ xs

/-- The address a packet is sent to. -/
def goal : Way → IpAddress
  | .v4 _ dst _ _ => .v4 dst
  | .v6 _ dst _ => .v6 dst

/-- Both over IPv4, or both over IPv6. -/
def SameVersion : Way → Way → Prop
  | .v4 .., .v4 .. => True
  | .v6 .., .v6 .. => True
  | _, _ => False

/-- The identification of a fragment as queued: that of the IPv4 header, or of the IPv6 fragment header. -/
def IsFragmentOf (o : Outgoing) (id : Nat) (f : Piece) : Way → Prop
  | .v4 src dst ttl proto => ∃ h, o.pkt = .ip4Frag h f.data ∧ h.src = src ∧ h.dst = dst ∧ h.ttl = ttl ∧ h.proto = proto ∧ h.id = id ∧
      h.offset = f.offset ∧ h.mf = f.mf
  | .v6 _ dst next => ∃ h, o.pkt = .ip6 h (Ip6Frag.carried next f.offset f.mf id f.data) ∧ h.dst = dst

/-- The fragments that the k-th call has queued, in order, with their identifications. -/
def queuedBy (s : Senders.St) (k : Nat) : List (Nat × Outgoing) :=
  s.out.filterMap fun x => match x.1 with
    | some (k', id) => if k' = k then some (id, x.2) else none
    | none => none

/-- Among these steps is a call to send `data` this way. -/
def ToldToSend (xs : List Senders.Step) (data : Bytes) : Way → Prop
  | .v4 _ dst ttl proto => ∃ arp src c ps, .ip4 arp src dst ttl c ∈ xs ∧ c.proto = proto ∧ c.assemble ps = .ok data
  | .v6 _ dst next => ∃ nd src hop c ps, .ip6 nd src dst hop c ∈ xs ∧ c.proto = next ∧ c.assemble ps = .ok data

/-- Among these steps is a call to send a packet of this protocol, with these bytes, to this address. -/
def Handed (xs : List Senders.Step) (dst : IpAddress) (proto : Nat) (data : Bytes) : Prop :=
  (∃ arp src d ttl c ps, .ip4 arp src d ttl c ∈ xs ∧ dst = .v4 d ∧ c.proto = proto ∧ c.assemble ps = .ok data) ∨
  (∃ nd src d hop c ps, .ip6 nd src d hop c ∈ xs ∧ dst = .v6 d ∧ c.proto = proto ∧ c.assemble ps = .ok data)

/-- No two calls that send in fragments to the same address are under way at the same time. -/
def OneAtATime (s : Senders.St) (xs : List Senders.Step) : Prop :=
  ∀ ys, ys <+: xs → ∀ k w k' w', UnderWay (s.run ys) k w → UnderWay (s.run ys) k' w' → goal w = goal w' → k = k'

/-- The packets handed to the IP layer by TCP and UDP: the length is as announced and fits the length fields; the others are not fragments
themselves. -/
def Sized (xs : List Senders.Step) : Prop :=
  ∀ c, ((∃ arp src dst ttl, .ip4 arp src dst ttl c ∈ xs) ∨ ∃ nd src dst hop, .ip6 nd src dst hop c ∈ xs) →
    c.proto ≠ 44 ∧ (c.proto = 6 ∨ c.proto = 17 → ∀ ps q, c.assemble ps = .ok q → q.length = c.len ∧ q.length < 65536)

/-- Among these steps is a call to send the packet `o`, which is queued whole. -/
def SentWhole (xs : List Senders.Step) (o : Outgoing) : Prop :=
  (∃ arp src dst ttl c h, .ip4 arp src dst ttl c ∈ xs ∧ o.pkt = .ip4 h c.toCarried ∧ h.dst = dst ∧ h.ttl = ttl) ∨
  (∃ nd src dst hop c h, .ip6 nd src dst hop c ∈ xs ∧ o.pkt = .ip6 h c.toCarried ∧ h.dst = dst ∧ h.hop = hop)

/-- What the k-th call does after it has begun, if it sends `n` fragments and no other thread does anything in between. -/
def restOf (k n : Nat) (arp : ArpLookup) (nd : NdLookup) : List Senders.Step :=
  .bump k :: ((List.replicate n [Senders.Step.build k, .emit k arp nd]).flatten ++ [.build k])

/-- From `s` to `t` one call has been made, which has queued `outs` and left the stack as `stk`; if it sent fragments, it has returned `st`. -/
def CameTo (s t : Senders.St) (stk : Stack) (st : TxStatus) (outs : List Outgoing) : Prop :=
  t.stack = stk ∧ t.out.map (·.2) = s.out.map (·.2) ++ outs ∧
  (t.jobs = s.jobs ∨ ∃ j : Job, t.jobs = s.jobs ++ [j] ∧ j.pos = .done (.ok st))

end Verif.Spec
