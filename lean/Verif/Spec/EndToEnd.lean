import Verif.Model.Wire
import Verif.Spec.Rx
/-! What it means that a datagram gets from one stack to another (C70). -/
namespace Verif.Spec

/-- A frame handed to the receiving stack: the clock readings of its handling, its bytes, and the sockets as they are at that
time (the application may do with them what it likes in between). -/
structure Arrival where
  t₀ : Int
  t₁ : Int
  frame : Bytes
  socks : Socks

/-- What the handling of each frame gives, in order.  An exception ends the receive thread: the frames after it are not
handled.  `depth` is how often an IPv6 packet may come out of reassembly as a fragment again. -/
def receiveAll (depth : Nat) : Node → List Arrival → List (Py (List Eff))
  | _, [] => []
  | n, x :: xs =>
    match Rx.ether { n with socks := x.socks } x.t₀ x.t₁ depth x.frame with
    | (n', .ok effs) => .ok effs :: receiveAll depth n' xs
    | (_, .error e) => [.error e]

/-- The clock never goes back: neither while the frames are handled, nor before (the times at which the receiver stored the
fragments it already has). -/
def ClockOk (n : Node) (xs : List Arrival) : Prop :=
  (xs.flatMap (fun x => [x.t₀, x.t₁])).Pairwise (· ≤ ·) ∧
  (∀ e ∈ n.flows4, ∀ x ∈ xs, e.2.timestamp ≤ x.t₀) ∧ (∀ e ∈ n.flows6, ∀ x ∈ xs, e.2.timestamp ≤ x.t₀)

/-- Which arrivals complete a datagram sent as `count` packets.  Each arrival is described by the number of the packet it
carries, or `none` for a frame that has nothing to do with the datagram.  An arrival completes the datagram when each packet
has arrived since it was last complete; `got` are those that have. -/
def completions (count : Nat) : List Nat → List (Option Nat) → List Bool
  | _, [] => []
  | got, none :: l => false :: completions count got l
  | got, some i :: l =>
    if ∀ j < count, j ∈ i :: got then true :: completions count [] l else false :: completions count (i :: got) l

/-- What handling an arrival that carries a part of the datagram `m` comes to: a delivery to the socket it is for, or, if there
is none, something else than a delivery, when the datagram is complete, and nothing otherwise. -/
def Outcome (m : UdpMd) (complete : Bool) (ss : Socks) (res : Py (List Eff)) : Prop :=
  match complete with
  | false => res = .ok []
  | true =>
    (∃ r, MostSpecific ss m r ∧ res = .ok [.udpDeliver r m]) ∨
    (NoSocket ss m ∧ ∃ effs, res = .ok effs ∧ ∀ r m', .udpDeliver r m' ∉ effs)

/-- Each arrival that carries one of the `count` packets, and is handled, has an outcome as in `R`: what becomes of it may depend
on whether it completes the datagram, and on the sockets at the time. -/
def Handled (count : Nat) (R : Bool → Socks → Py (List Eff) → Prop) (n : Node) (depth : Nat) (xs : List (Option Nat × Arrival)) : Prop :=
  ∀ (j i : Nat) x b res, xs[j]? = some (some i, x) → (completions count [] (xs.map (·.1)))[j]? = some b →
    (receiveAll depth n (xs.map (·.2)))[j]? = some res → R b x.socks res

/-- None of the other frames raises an exception when it is handled. -/
def OthersFine (n : Node) (depth : Nat) (xs : List (Option Nat × Arrival)) : Prop :=
  ∀ (j : Nat) x res, xs[j]? = some (none, x) → (receiveAll depth n (xs.map (·.2)))[j]? = some res → ∃ effs, res = .ok effs

/-- All arrivals are handled. -/
def AllHandled (n : Node) (depth : Nat) (xs : List (Option Nat × Arrival)) : Prop :=
  (receiveAll depth n (xs.map (·.2))).length = xs.length

/-- The bytes `d` are a UDP datagram with these ports and this payload (and some checksum). -/
def IsDatagram (sport dport : Nat) (data d : Bytes) : Prop :=
  ∃ c, d = bePack 2 sport ++ bePack 2 dport ++ bePack 2 (8 + data.length) ++ bePack 2 c ++ data

/-! ### IPv4 -/

/-- An address a host may use as a source: not multicast, not class E, not 255.255.255.255. -/
def OrdinarySource4 (a : Ip4Address) : Prop :=
  a.isMulticast = false ∧ a.isReserved = false ∧ a.isLimitedBroadcast = false

/-- The queued packet `o` is an IPv4 packet with header `h`. -/
def Ip4Of (o : Outgoing) (h : Ip4.Hdr) : Prop := ∃ b, o.pkt.assemble = .ok b ∧ Ip4.read b = .ok h

/-- The frame `F` is for the node and holds a valid IPv4 packet, whole or a fragment, with header `h`. -/
def HasIp4 (n : Node) (F : Bytes) (h : Ip4.Hdr) : Prop :=
  ∃ e, HoldsEther n F e ∧ e.type = 0x0800 ∧ Ip4.parse e.data = .ok none ∧ Ip4.read e.data = .ok h

/-- The frame `F`, arriving at the node, carries the queued packet `o`: link-layer addresses, padding, TTL, type of service and
IP options may differ. -/
def Carries4 (n : Node) (o : Outgoing) (F : Bytes) : Prop :=
  ∃ h h', Ip4Of o h ∧ HasIp4 n F h' ∧ h'.src = h.src ∧ h'.dst = h.dst ∧ h'.id = h.id ∧ h'.proto = h.proto ∧
    h'.offset = h.offset ∧ h'.mf = h.mf ∧ h'.dataCopy = h.dataCopy

/-- The packet is a fragment. -/
def IsFrag4 (h : Ip4.Hdr) : Prop := h.offset ≠ 0 ∨ h.mf = true

/-- The frame `F` is not a fragment with the same addresses and identification as one of the queued fragments. -/
def Unrelated4 (n : Node) (outs : List Outgoing) (F : Bytes) : Prop :=
  ∀ h', HasIp4 n F h' → IsFrag4 h' → ∀ o ∈ outs, ∀ h, Ip4Of o h → IsFrag4 h → (h'.src, h'.dst, h'.id) ≠ (h.src, h.dst, h.id)

/-- No fragment with the same addresses and identification as one of the queued fragments is waiting at the receiver. -/
def Fresh4 (n : Node) (outs : List Outgoing) : Prop :=
  ∀ o ∈ outs, ∀ h, Ip4Of o h → IsFrag4 h → n.flows4.get? (h.src, h.dst, h.id) = none

/-- A possible arrival of packets sent as `outs`, at the node `n`.  `tag` is the number of the packet it carries, or `none`. -/
def Possible4 (n : Node) (outs : List Outgoing) (x : Option Nat × Arrival) : Prop :=
  (∃ h, x.2.socks = (run h).1) ∧
  match x.1 with
  | some i => ∃ o, outs[i]? = some o ∧ Carries4 n o x.2.frame
  | none => Unrelated4 n outs x.2.frame

/-- For every receiver that listens to `dst` and every way in which frames, among them any number of copies of the packets `outs`
in any order, can arrive at it. -/
def EveryArrival4 (outs : List Outgoing) (dst : Ip4Address) (Q : Node → Nat → List (Option Nat × Arrival) → Prop) : Prop :=
  ∀ n depth xs, Listens4 n dst → Fresh4 n outs → ClockOk n (xs.map (·.2)) → (∀ x ∈ xs, Possible4 n outs x) → Q n depth xs

/-- The pseudo-header of RFC 768. -/
def pseudo4 (src dst : Ip4Address) (len : Nat) : Bytes := src.toBytes ++ dst.toBytes ++ [0, 17] ++ bePack 2 len

/-! ### IPv6 -/

/-- The queued packet `o` is an IPv6 packet with header `h`. -/
def Ip6Of (o : Outgoing) (h : Ip6.Hdr) : Prop := ∃ b, o.pkt.assemble = .ok b ∧ Ip6.read b = .ok h

/-- The frame `F` is for the node and holds a valid IPv6 packet with header `h`. -/
def HasIp6 (n : Node) (F : Bytes) (h : Ip6.Hdr) : Prop :=
  ∃ e, HoldsEther n F e ∧ e.type = 0x86DD ∧ Ip6.parse e.data = .ok none ∧ Ip6.read e.data = .ok h

/-- The packet is a fragment, with fragment header and data `x`. -/
def IsFrag6 (h : Ip6.Hdr) (x : Ip6Frag.Hdr) : Prop :=
  h.next = 44 ∧ Ip6Frag.parse h.rest = .ok none ∧ Ip6Frag.read h.rest h.dlen = .ok x

/-- The frame `F`, arriving at the node, carries the queued packet `o`: link-layer addresses, hop limit, traffic class and flow
label may differ. -/
def Carries6 (n : Node) (o : Outgoing) (F : Bytes) : Prop :=
  ∃ h h', Ip6Of o h ∧ HasIp6 n F h' ∧ h'.src = h.src ∧ h'.dst = h.dst ∧ h'.next = h.next ∧ h'.rest = h.rest

/-- The frame `F` is not a fragment with the same addresses and identification as one of the queued packets, nor a fragment of
something that is itself a fragment. -/
def Unrelated6 (n : Node) (outs : List Outgoing) (F : Bytes) : Prop :=
  ∀ h' x', HasIp6 n F h' → IsFrag6 h' x' → x'.next ≠ 44 ∧ ∀ o ∈ outs, ∀ h x, Ip6Of o h → IsFrag6 h x →
    (h'.src, h'.dst, x'.id) ≠ (h.src, h.dst, x.id)

/-- No fragment with the same addresses and identification as one of the queued packets is waiting at the receiver. -/
def Fresh6 (n : Node) (outs : List Outgoing) : Prop :=
  ∀ o ∈ outs, ∀ h x, Ip6Of o h → IsFrag6 h x → n.flows6.get? (h.src, h.dst, x.id) = none

/-- A possible arrival of packets sent as `outs`, at the node `n`. -/
def Possible6 (n : Node) (outs : List Outgoing) (x : Option Nat × Arrival) : Prop :=
  (∃ h, x.2.socks = (run h).1) ∧
  match x.1 with
  | some i => ∃ o, outs[i]? = some o ∧ Carries6 n o x.2.frame
  | none => Unrelated6 n outs x.2.frame

/-- For every receiver that listens to `dst` and every way in which frames can arrive at it. -/
def EveryArrival6 (outs : List Outgoing) (dst : Ip6Address) (Q : Node → Nat → List (Option Nat × Arrival) → Prop) : Prop :=
  ∀ n depth xs, 0 < depth → Listens6 n dst → Fresh6 n outs → ClockOk n (xs.map (·.2)) → (∀ x ∈ xs, Possible6 n outs x) →
    Q n depth xs

/-- The pseudo-header of RFC 8200. -/
def pseudo6 (src dst : Ip6Address) (len : Nat) : Bytes :=
  src.toBytes ++ dst.toBytes ++ bePack 4 len ++ [0, 0, 0, 17]

end Verif.Spec
