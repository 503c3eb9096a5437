import Verif.Spec.Wire
/-! Where the packets a stack handles come from, in terms of the frames it has received. -/
namespace Verif.Spec

/-- A stack that has received these frames, the latest last.  Only the fragments that wait for reassembly are carried from one frame to
the next: the clock, the addresses, the sockets and everything else may be anything each time. -/
inductive Received : List Bytes → Node → Prop
  | start (n : Node) : n.flows4 = [] → n.flows6 = [] → Received [] n
  | frame {past : List Bytes} {n n' : Node} (t₀ t₁ : Int) (d : Nat) (F : Bytes) : Received past n →
      n'.flows4 = (Rx.ether n t₀ t₁ d F).1.flows4 → n'.flows6 = (Rx.ether n t₀ t₁ d F).1.flows6 → Received (past ++ [F]) n'

/-- `q` is an IPv4 packet from `src` to `dst` that is part of a datagram with identification `id` and of protocol `proto`; its payload has
its place at `off` in it (RFC 791: the fragment offset, in units of eight bytes).  `more`: the datagram goes on after it. -/
def Frag4 (q : Bytes) (src dst : Ip4Address) (proto id off : Nat) (more : Bool) (payload : Bytes) : Prop :=
  Ip4Fields q src dst proto payload ∧ be q 4 2 = id ∧ off = be q 6 2 % 0x2000 * 8 ∧ more = bit q 6 5 ∧ (off ≠ 0 ∨ more = true)

/-- `q` is an IPv4 packet that is all of a datagram. -/
def Whole4 (q : Bytes) (src dst : Ip4Address) (proto : Nat) (payload : Bytes) : Prop :=
  Ip4Fields q src dst proto payload ∧ be q 6 2 % 0x2000 = 0 ∧ bit q 6 5 = false

/-- `payload` is put together from the pieces `ps`, each with its place: every byte is from a piece, where the piece has it, and the payload
ends where the last piece ends. -/
def Assembled (ps : List (Nat × Bytes)) (payload : Bytes) : Prop :=
  (∃ q ∈ ps, (∀ q' ∈ ps, q'.1 ≤ q.1) ∧ payload.length = q.1 + q.2.length) ∧
    ∀ i b, payload[i]? = some b → ∃ q ∈ ps, q.1 ≤ i ∧ q.2[i - q.1]? = some b

/-- `payload`, of protocol `proto`, from `src` to `dst`, is what a frame brought, or made of what the frames brought: there is then an
identification such that it is put together from the payloads of fragments with these addresses and this identification, each at its place;
one that ends the datagram was there, and so was the protocol. -/
def Made4 (past : List Bytes) (src dst : Ip4Address) (proto : Nat) (payload : Bytes) : Prop :=
  (∃ F ∈ past, be F 12 2 = 0x0800 ∧ Whole4 (F.drop 14) src dst proto payload) ∨
  ∃ id ps, (∃ F ∈ past, be F 12 2 = 0x0800 ∧ ∃ off more x, Frag4 (F.drop 14) src dst proto id off more x) ∧
    (∃ q ∈ ps, ∃ F ∈ past, be F 12 2 = 0x0800 ∧ ∃ pr x, Frag4 (F.drop 14) src dst pr id q.1 false x) ∧
    (∀ q ∈ ps, ∃ F ∈ past, be F 12 2 = 0x0800 ∧ ∃ pr more, Frag4 (F.drop 14) src dst pr id q.1 more q.2) ∧ Assembled ps payload

/-- `q` is an IPv6 packet from `src` to `dst` with a fragment header (RFC 8200 section 4.5) with these fields. -/
def Frag6 (q : Bytes) (src dst : Ip6Address) (next id off : Nat) (more : Bool) (payload : Bytes) : Prop :=
  ∃ hop p, Ip6Packet q src dst hop 44 p ∧ 8 ≤ p.length ∧ be p 0 1 = next ∧ be p 4 4 = id ∧ off = be p 2 2 / 8 * 8 ∧ more = bit p 3 0 ∧
    payload = p.drop 8

/-- The IPv6 packet `g` was in a frame, or its payload is put together from such packets: fragments with the same addresses and
identification (`ps`: the packet, its place and what it brings); one that ends it was there; and a fragment says which protocol it is. -/
inductive Made6 (past : List Bytes) : Bytes → Prop
  | frame (F : Bytes) : F ∈ past → be F 12 2 = 0x86DD → Made6 past (F.drop 14)
  | whole {g p q q' : Bytes} {src dst : Ip6Address} {hop next id off off' next' : Nat} {more : Bool} {x x' : Bytes} (ps : List (Bytes × Nat × Bytes)) :
      Ip6Packet g src dst hop next p →
      Made6 past q → Frag6 q src dst next id off more x →
      Made6 past q' → Frag6 q' src dst next' id off' false x' → (∃ y ∈ ps, y.2.1 = off') →
      (∀ y ∈ ps, Made6 past y.1) → (∀ y ∈ ps, ∃ next more, Frag6 y.1 src dst next id y.2.1 more y.2.2) →
      Assembled (ps.map (·.2)) p → Made6 past g

/-- The frames brought the stack `payload`, of IP protocol `proto`, with a checksum that is right for it. -/
inductive Brought (past : List Bytes) : IpAddress → IpAddress → Nat → Bytes → Prop
  | v4 {src dst : Ip4Address} {proto : Nat} {payload : Bytes} : Made4 past src dst proto payload →
      Valid (pseudoHdr4 src dst proto payload.length ++ payload) → Brought past (.v4 src) (.v4 dst) proto payload
  | v6 {src dst : Ip6Address} {hop next : Nat} {g payload : Bytes} : Made6 past g → Ip6Packet g src dst hop next payload →
      Valid (pseudoHdr6 src dst next payload.length ++ payload) → Brought past (.v6 src) (.v6 dst) next payload

/-- The stack takes packets sent to this address.  (Before an IPv4 address is configured it takes all.) -/
def TakenBy (n : Node) : IpAddress → Prop
  | .v4 d => n.stack.ip4Host = [] ∨ Listens4 n d
  | .v6 d => Listens6 n d

end Verif.Spec
