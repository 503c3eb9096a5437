import Verif.Model.Cksum
import Verif.Model.Addr
/-! IPv6 and its fragment header: `/repo/pytcp/protocols/ip6/{ps,fpa,fpp}.py`, `/repo/pytcp/protocols/ip6_ext_frag/{ps,fpa,fpp}.py`. -/
namespace Verif.Ip6

/-- Constructor arguments of `Ip6Assembler`, ip6/fpa.py:71-87. -/
structure Tx where
  src : Ip6Address
  dst : Ip6Address
  hop : Nat
  dscp : Nat
  ecn : Nat
  flow : Nat

/-- ip6/fpa.py:174-190 and ip6/fpp.py:215-236: 40 bytes summed as five 64-bit words. -/
def pshdrSum (src dst : Ip6Address) (dlen next : Nat) : Py Nat := do
  let l ← packL dlen
  let z1 ← packB 0
  let z2 ← packB 0
  let z3 ← packB 0
  let n ← packB next
  return wordSum 8 5 (src.toBytes ++ dst.toBytes ++ l ++ z1 ++ z2 ++ z3 ++ n)

/-- ip6/fpa.py:196-211.  In the second byte Python's `<<` binds tighter than `&`, which binds tighter than `|`:
`dscp & (0b11 << 6) | ecn << 4 | (flow & ...) >> 16`. -/
def header (h : Tx) (dlen next : Nat) : Py Bytes := do
  let b0 ← packB (6 <<< 4 ||| h.dscp >>> 4)
  let b1 ← packB ((h.dscp &&& (0b00000011 <<< 6)) ||| h.ecn <<< 4 ||| ((h.flow &&& 0b000011110000000000000000) >>> 16))
  let b2 ← packB ((h.flow &&& 0b000000001111111100000000) >>> 8)
  let b3 ← packB (h.flow &&& 0b000000000000000011111111)
  let l ← packH dlen
  let n ← packB next
  let hop ← packB h.hop
  return b0 ++ b1 ++ b2 ++ b3 ++ l ++ n ++ hop ++ h.src.toBytes ++ h.dst.toBytes

/-- ip6/fpa.py:71-120, 192-212: `Ip6Assembler(..., carried_packet=c)` and `assemble`. -/
def assemble (h : Tx) (c : Carried) : Py Bytes := do
  pyAssert (h.hop ≤ 0xFF)
  pyAssert (h.dscp ≤ 0x3F)
  pyAssert (h.ecn ≤ 0x03)
  pyAssert (h.flow ≤ 0xFFFFFF)
  pyAssert (c.proto == 58 || c.proto == 17 || c.proto == 6 || c.proto == 44 || c.proto == 255)
  let hdr ← header h c.len c.proto
  let ps ← pshdrSum h.src h.dst c.len c.proto
  let payload ← c.assemble ps
  return hdr ++ payload

/-- ip6/fpp.py:90-96 -/
def ver (f : Bytes) : Py Nat := do return (← idx f 0) >>> 4
/-- ip6/fpp.py:99-107 -/
def dscp (f : Bytes) : Py Nat := do
  return (((← idx f 0) &&& 0b00001111) <<< 2) ||| (((← idx f 1) &&& 0b11000000) >>> 6)
/-- ip6/fpp.py:110-116 -/
def ecn (f : Bytes) : Py Nat := do return ((← idx f 1) &&& 0b00110000) >>> 4
/-- ip6/fpp.py:119-129 -/
def flow (f : Bytes) : Py Nat := do
  return (((← idx f 1) &&& 0b00001111) <<< 16) ||| ((← idx f 2) <<< 8) ||| (← idx f 3)
/-- ip6/fpp.py:132-138 -/
def dlen (f : Bytes) : Py Nat := u16 f 4
/-- ip6/fpp.py:141-145 -/
def next (f : Bytes) : Py Nat := idx f 6
/-- ip6/fpp.py:148-152 -/
def hop (f : Bytes) : Py Nat := idx f 7
/-- ip6/fpp.py:155-161 -/
def src (f : Bytes) : Py Ip6Address := Ip6Address.ofBytes (slice f 8 24)
/-- ip6/fpp.py:164-170 -/
def dst (f : Bytes) : Py Ip6Address := Ip6Address.ofBytes (slice f 24 40)

/-- ip6/fpp.py:56-71, 238-275 -/
def parse (f : Bytes) : Py (Option String) := do
  if f.length < 40 then return some "IPv6 integrity - wrong packet length (I)"
  if (← u16 f 4) ≠ f.length - 40 then return some "IPv6 integrity - wrong packet length (II)"
  if (← ver f) ≠ 6 then return some "IPv6 sanity - 'ver' must be 6"
  if (← hop f) = 0 then return some "IPv6 sanity - 'hop' must not be 0"
  if (← src f).isMulticast then return some "IPv6 sanity - 'src' must not be multicast"
  return none

structure Hdr where
  dscp : Nat
  ecn : Nat
  flow : Nat
  dlen : Nat
  next : Nat
  hop : Nat
  src : Ip6Address
  dst : Ip6Address
  /-- ip6/fpp.py:187-193 -/
  headerCopy : Bytes
  /-- ip6/fpp.py:207-213 -/
  packetCopy : Bytes
  /-- ip6/fpp.py:216-236 -/
  pshdrSum : Nat
  /-- ip6/fpp.py:71 -/
  rest : Bytes

def read (f : Bytes) : Py Hdr := do
  let dl ← dlen f
  let n ← next f
  let s ← src f
  let d ← dst f
  return {
    dscp := ← dscp f, ecn := ← ecn f, flow := ← flow f, dlen := dl, next := n, hop := ← hop f, src := s, dst := d,
    headerCopy := f.take 40, packetCopy := f.take (40 + dl), pshdrSum := ← Ip6.pshdrSum s d dl n,
    rest := sliceFrom f 40 }

end Verif.Ip6

namespace Verif.Ip6Frag

/-- ip6_ext_frag/fpa.py:64-91, 114-127: `Ip6ExtFragAssembler(...)` and `assemble`. -/
def assemble (next offset : Nat) (mf : Bool) (id : Nat) (data : Bytes) : Py Bytes := do
  pyAssert (next == 58 || next == 17 || next == 6 || next == 255)
  let n ← packB next
  let z ← packB 0
  let o ← packH (offset ||| mf.toNat)
  let i ← packL id
  return n ++ z ++ o ++ i ++ data

/-- ip6_ext_frag/fpa.py:62, 93-96 -/
def carried (next offset : Nat) (mf : Bool) (id : Nat) (data : Bytes) : Carried :=
  { proto := 44, len := 8 + data.length, assemble := fun _ => assemble next offset mf id data }

/-- ip6_ext_frag/fpp.py:95-99 -/
def next (f : Bytes) : Py Nat := idx f 0
/-- ip6_ext_frag/fpp.py:102-110 -/
def offset (f : Bytes) : Py Nat := do return (← u16 f 2) &&& 0b1111111111111000
/-- ip6_ext_frag/fpp.py:113-117 -/
def flagMf (f : Bytes) : Py Bool := do return ((← idx f 3) &&& 0b00000001) != 0
/-- ip6_ext_frag/fpp.py:120-126 -/
def id (f : Bytes) : Py Nat := u32 f 4

/-- ip6_ext_frag/fpp.py:59-76, 180-203 -/
def parse (f : Bytes) : Py (Option String) := do
  if f.length < 8 then return some "IPv4 integrity - wrong packet length (I)"
  return none

structure Hdr where
  next : Nat
  offset : Nat
  mf : Bool
  id : Nat
  /-- ip6_ext_frag/fpp.py:161-169; `plen` is the IPv6 payload length. -/
  dataCopy : Bytes

def read (f : Bytes) (plen : Nat) : Py Hdr := do
  return { next := ← next f, offset := ← offset f, mf := ← flagMf f, id := ← id f, dataCopy := slice f 8 plen }

end Verif.Ip6Frag
