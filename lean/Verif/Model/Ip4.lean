import Verif.Model.Cksum
import Verif.Model.Addr
/-! IPv4: `/repo/pytcp/protocols/ip4/{ps,fpa,fpp}.py`. -/
namespace Verif.Ip4

/-- ip4/fpa.py:388-457: the two options the assembler knows. -/
inductive Opt where
  | eol
  | nop
  deriving DecidableEq

/-- ip4/fpa.py:411-415, 447-451 -/
def Opt.bytes : Opt → Bytes
  | .eol => [0]
  | .nop => [1]

/-- ip4/fpa.py:214-218 -/
def rawOptions (opts : List Opt) : Bytes := (opts.map Opt.bytes).flatten

/-- Constructor arguments of `Ip4Assembler` / `Ip4FragAssembler` (ip4/fpa.py:75-89, 251-265).  The whole-packet assembler
has `mf = false`, `offset = 0`; the fragment assembler has `df = false`. -/
structure Tx where
  src : Ip4Address
  dst : Ip4Address
  ttl : Nat
  dscp : Nat
  ecn : Nat
  id : Nat
  df : Bool
  mf : Bool
  offset : Nat
  options : List Opt
  proto : Nat

/-- ip4/fpa.py:123, 297 -/
def Tx.hlen (h : Tx) : Nat := 20 + (rawOptions h.options).length

/-- The assertions of both constructors, ip4/fpa.py:94-103, 270-279 -/
def Tx.asserts (h : Tx) : Py Unit := do
  pyAssert (h.ttl ≤ 0xFF)
  pyAssert (h.dscp ≤ 0x3F)
  pyAssert (h.ecn ≤ 0x03)
  pyAssert (h.id ≤ 0xFFFF)
  pyAssert (h.proto == 1 || h.proto == 17 || h.proto == 6 || h.proto == 255)

/-- The header with a zero checksum: ip4/fpa.py:224-239 (and 363-379).  `plen` is `self._plen`. -/
def header0 (h : Tx) (plen : Nat) : Py Bytes := do
  let b0 ← packB (4 <<< 4 ||| h.hlen >>> 2)
  let b1 ← packB (h.dscp <<< 2 ||| h.ecn)
  let pl ← packH plen
  let id ← packH h.id
  let fl ← packH (h.df.toNat <<< 14 ||| h.mf.toNat <<< 13 ||| h.offset >>> 3)
  let ttl ← packB h.ttl
  let pr ← packB h.proto
  let ck ← packH 0
  return b0 ++ b1 ++ pl ++ id ++ fl ++ ttl ++ pr ++ ck ++ h.src.toBytes ++ h.dst.toBytes ++ rawOptions h.options

/-- ip4/fpa.py:197-211 and ip4/fpp.py:307-325: the pseudo-header, 12 bytes summed as three 32-bit words. -/
def pshdrSum (src dst : Ip4Address) (proto dlen : Nat) : Py Nat := do
  let z ← packB 0
  let p ← packB proto
  let l ← packH dlen
  return wordSum 4 3 (src.toBytes ++ dst.toBytes ++ z ++ p ++ l)

/-- ip4/fpa.py:75-124, 220-241: `Ip4Assembler(..., carried_packet=c)` and `assemble`.  (The header goes into the buffer
first, its checksum is computed over `frame[:hlen]`, then the carried packet fills `frame[hlen:]`.) -/
def assemble (h : Tx) (c : Carried) : Py Bytes := do
  h.asserts
  let hdr ← header0 h (h.hlen + c.len)
  let hdr ← packIntoH hdr 10 (inetCksum hdr)
  let ps ← pshdrSum h.src h.dst h.proto c.len
  let payload ← c.assemble ps
  return hdr ++ payload

/-- ip4/fpa.py:251-298, 359-380: `Ip4FragAssembler(..., data=data)` and `assemble`. -/
def assembleFrag (h : Tx) (data : Bytes) : Py Bytes := do
  h.asserts
  let hdr ← header0 h (h.hlen + data.length)
  let hdr ← packIntoH hdr 10 (inetCksum hdr)
  return hdr ++ data

/-- ip4/fpp.py:103-109 -/
def ver (f : Bytes) : Py Nat := do return (← idx f 0) >>> 4
/-- ip4/fpp.py:112-118 -/
def hlen (f : Bytes) : Py Nat := do return ((← idx f 0) &&& 0b00001111) <<< 2
/-- ip4/fpp.py:121-127 -/
def dscp (f : Bytes) : Py Nat := do return ((← idx f 1) &&& 0b11111100) >>> 2
/-- ip4/fpp.py:130-136 -/
def ecn (f : Bytes) : Py Nat := do return (← idx f 1) &&& 0b00000011
/-- ip4/fpp.py:139-145 -/
def plen (f : Bytes) : Py Nat := u16 f 2
/-- ip4/fpp.py:148-154 -/
def id (f : Bytes) : Py Nat := u16 f 4
/-- ip4/fpp.py:157-161 -/
def flagDf (f : Bytes) : Py Bool := do return ((← idx f 6) &&& 0b01000000) != 0
/-- ip4/fpp.py:164-168 -/
def flagMf (f : Bytes) : Py Bool := do return ((← idx f 6) &&& 0b00100000) != 0
/-- ip4/fpp.py:171-179 -/
def offset (f : Bytes) : Py Nat := do return ((← u16 f 6) &&& 0b0001111111111111) <<< 3
/-- ip4/fpp.py:182-186 -/
def ttl (f : Bytes) : Py Nat := idx f 8
/-- ip4/fpp.py:189-193 -/
def proto (f : Bytes) : Py Nat := idx f 9
/-- ip4/fpp.py:205-211 -/
def src (f : Bytes) : Py Ip4Address := Ip4Address.ofBytes (slice f 12 16)
/-- ip4/fpp.py:214-220 -/
def dst (f : Bytes) : Py Ip4Address := Ip4Address.ofBytes (slice f 16 20)

/-- ip4/fpp.py:410-460: parsed options. -/
inductive RxOpt where
  | eol
  | nop
  | unk (kind len : Nat) (data : Bytes)
  deriving DecidableEq

/-- ip4/fpp.py:232-247: the loop of the `options` property.  `fuel` bounds the number of iterations; a loop that
is still running when it ends is reported as `nonTermination`. -/
def optionsLoop (f : Bytes) (hlen : Nat) : Nat → Nat → Py (List RxOpt)
  | fuel, optr =>
    if optr < hlen then
      match fuel with
      | 0 => .error .nonTermination
      | fuel + 1 => do
        let k ← idx f optr
        if k = 0 then return [.eol]
        else if k = 1 then
          return .nop :: (← optionsLoop f hlen fuel (optr + 1))
        else
          let l ← idx f (optr + 1)
          return .unk k l (slice (sliceFrom f optr) 2 l) :: (← optionsLoop f hlen fuel (optr + l))
    else .ok []

/-- ip4/fpp.py:222-249 -/
def options (f : Bytes) : Py (List RxOpt) := do
  let hl ← hlen f
  optionsLoop f hl (hl + 1) 20

/-- ip4/fpp.py:347-364: the option walk of the integrity check. -/
def optionCheck (f : Bytes) (hlen : Nat) : Nat → Nat → Py (Option String)
  | fuel, optr =>
    if optr < hlen then
      match fuel with
      | 0 => .error .nonTermination
      | fuel + 1 => do
        let k ← idx f optr
        if k = 0 then return none
        else if k = 1 then
          if optr + 1 > hlen then return some "IPv4 integrity - wrong option length (I)"
          else optionCheck f hlen fuel (optr + 1)
        else if optr + 1 > hlen then return some "IPv4 integrity - wrong option length (II)"
        else
          let l ← idx f (optr + 1)
          if l = 0 then return some "IPv4 integrity - wrong option length (III)"
          else if optr + l > hlen then return some "IPv4 integrity - wrong option length (IV)"
          else optionCheck f hlen fuel (optr + l)
    else .ok none

/-- ip4/fpp.py:327-364 -/
def integrity (f : Bytes) : Py (Option String) := do
  if f.length < 20 then return some "IPv4 integrity - wrong packet length (I)"
  let hl ← hlen f
  let pl ← plen f
  if ¬ (20 ≤ hl ∧ hl ≤ pl ∧ pl ≤ f.length) then return some "IPv4 integrity - wrong packet length (II)"
  if inetCksum (f.take hl) ≠ 0 then return some "IPv4 integriy - wrong packet checksum"
  optionCheck f hl (hl + 1) 20

/-- ip4/fpp.py:366-402 (`IP4_OPTION_PACKET_DROP` is False, but `self.options` is still evaluated). -/
def sanity (f : Bytes) : Py (Option String) := do
  if (← ver f) ≠ 4 then return some "IP sanityi - 'ver' must be 4"
  if (← ver f) = 0 then return some "IP sanity - 'ttl' must be greater than 0"
  if (← src f).isMulticast then return some "IP sanity - 'src' must not be multicast"
  if (← src f).isReserved then return some "IP sanity - 'src' must not be reserved"
  if (← src f).isLimitedBroadcast then return some "IP sanity - 'src' must not be limited broadcast"
  if (← flagDf f) && (← flagMf f) then
    return some "IP sanity - 'flag_df' and 'flag_mf' must not be set simultaneously"
  if (← offset f) ≠ 0 ∧ (← flagDf f) = true then
    return some "IP sanity - 'offset' must be 0 when 'df_flag' is set"
  let _ ← options f
  return none

/-- ip4/fpp.py:67-82 -/
def parse (f : Bytes) : Py (Option String) := do
  match ← integrity f with
  | some e => return some e
  | none => sanity f

/-- The parsed packet: what handlers read (ip4/phrx.py, tcp, udp, icmp4) plus the remaining header fields. -/
structure Hdr where
  hlen : Nat
  dscp : Nat
  ecn : Nat
  plen : Nat
  id : Nat
  df : Bool
  mf : Bool
  offset : Nat
  ttl : Nat
  proto : Nat
  src : Ip4Address
  dst : Ip4Address
  options : List RxOpt
  /-- `plen - hlen`, ip4/fpp.py:261-267 -/
  dlen : Nat
  /-- ip4/fpp.py:270-276 -/
  headerCopy : Bytes
  /-- ip4/fpp.py:290-296 -/
  dataCopy : Bytes
  /-- ip4/fpp.py:299-305 -/
  packetCopy : Bytes
  /-- ip4/fpp.py:308-325 -/
  pshdrSum : Nat
  /-- ip4/fpp.py:82: what is left of the frame for the next parser (trailing link-layer padding included). -/
  rest : Bytes

def read (f : Bytes) : Py Hdr := do
  let hl ← hlen f
  let pl ← plen f
  let s ← src f
  let d ← dst f
  let p ← proto f
  return {
    hlen := hl, dscp := ← dscp f, ecn := ← ecn f, plen := pl, id := ← id f, df := ← flagDf f, mf := ← flagMf f,
    offset := ← offset f, ttl := ← ttl f, proto := p, src := s, dst := d, options := ← options f,
    dlen := pl - hl, headerCopy := f.take 20, dataCopy := slice f hl pl, packetCopy := f.take pl,
    pshdrSum := ← Ip4.pshdrSum s d p (pl - hl), rest := sliceFrom f hl }

end Verif.Ip4
