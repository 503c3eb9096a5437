import Verif.Spec.Wire
/-! Which frames, IP packets and TCP segments are in order, written from RFC 894, 791, 8200 and 9293; and what the code takes besides. -/
namespace Verif.Spec

/-- An Ethernet frame whose type field is a type, not a length. -/
def FrameInOrder (f : Bytes) : Prop := 14 ≤ f.length ∧ 0x0600 ≤ be f 12 2

/-- The options area of an IPv4 or TCP header, with `next` behind the header, as the code walks it.  The first four are those of `Options`.  The code
also takes an option whose length is 1: it goes on with the length, as if this were an option; and it looks for the length of an option whose kind
is the last byte of the header behind the header. -/
inductive Walks (next : Bytes) : Bytes → Prop
  | nil : Walks next []
  | eol (t : Bytes) : Walks next (0 :: t)
  | nop {t : Bytes} : Walks next t → Walks next (1 :: t)
  | opt {t : Bytes} (k n : UInt8) (v : Bytes) : 2 ≤ k.toNat → n.toNat = v.length + 2 → Walks next t → Walks next (k :: n :: (v ++ t))
  | one {t : Bytes} (k : UInt8) : 2 ≤ k.toNat → Walks next (1 :: t) → Walks next (k :: 1 :: t)
  | last {t : Bytes} (k : UInt8) : 2 ≤ k.toNat → next = 1 :: t → Walks next [k]

/-- An IPv4 packet, perhaps a fragment, and link-layer padding.  A time to live of 0 and a source in the upper half of the reserved block (see
`source`) are no reason to refuse it. -/
structure Ip4InOrder (p : Bytes) : Prop where
  length : 20 ≤ p.length
  version : be p 0 1 / 16 = 4
  header : 20 ≤ be p 0 1 % 16 * 4 ∧ be p 0 1 % 16 * 4 ≤ be p 2 2 ∧ be p 2 2 ≤ p.length
  checksum : Valid (p.take (be p 0 1 % 16 * 4))
  /-- not multicast, not reserved (RFC 1112 section 4), not 255.255.255.255; but the code does not take the odd addresses of 240.0.0.0/4 for reserved -/
  source : be p 12 1 < 224 ∨ (240 ≤ be p 12 1 ∧ be p 15 1 % 2 = 1 ∧ be p 12 4 ≠ 0xFFFFFFFF)
  /-- what must not be fragmented is not a fragment -/
  whole : bit p 6 6 = true → bit p 6 5 = false ∧ be p 6 2 % 0x2000 = 0
  options : Walks (p.drop (be p 0 1 % 16 * 4)) ((p.take (be p 0 1 % 16 * 4)).drop 20)

/-- An IPv6 packet with nothing behind it. -/
def Ip6InOrder (p : Bytes) : Prop := 40 ≤ p.length ∧ be p 0 1 / 16 = 6 ∧ be p 4 2 = p.length - 40 ∧ be p 7 1 ≠ 0 ∧ be p 8 1 ≠ 255

/-- A TCP segment with `pad` behind it. -/
structure TcpInOrder (p pad : Bytes) : Prop where
  length : 20 ≤ p.length
  header : 20 ≤ be p 12 1 / 16 * 4 ∧ be p 12 1 / 16 * 4 ≤ p.length
  sane : ¬ OddTcp p
  options : Walks (p.drop (be p 12 1 / 16 * 4) ++ pad) ((p.take (be p 12 1 / 16 * 4)).drop 20)

end Verif.Spec
