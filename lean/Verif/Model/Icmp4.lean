import Verif.Model.Cksum
/-! ICMPv4: `/repo/pytcp/protocols/icmp4/{ps,fpa,fpp}.py`. -/
namespace Verif.Icmp4

/-- The messages `Icmp4Assembler.__init__` (icmp4/fpa.py:62-102) builds; every other type/code is refused by its
final `assert False`.  `portUnreachable` keeps the first 520 bytes only (line 93). -/
inductive Msg where
  | echoReply (id seq : Nat) (data : Bytes)
  | portUnreachable (data : Bytes)
  | echoRequest (id seq : Nat) (data : Bytes)
  deriving DecidableEq

/-- icmp4/fpa.py:163-174 and 195-207: the two echo branches. -/
def assembleEcho (type id seq : Nat) (data : Bytes) : Py Bytes := do
  pyAssert (id ≤ 0xFFFF)
  pyAssert (seq ≤ 0xFFFF)
  let t ← packB type
  let c ← packB 0
  let z ← packH 0
  let i ← packH id
  let s ← packH seq
  let frame := t ++ c ++ z ++ i ++ s ++ data
  packIntoH frame 2 (inetCksum frame)

/-- icmp4/fpa.py:157-209 -/
def assemble : Msg → Py Bytes
  | .echoReply id seq data => assembleEcho 0 id seq data
  | .portUnreachable data => do
    let data := data.take 520
    let t ← packB 3
    let c ← packB 3
    let z ← packH 0
    let r ← packL 0
    let frame := t ++ c ++ z ++ r ++ data
    packIntoH frame 2 (inetCksum frame)
  | .echoRequest id seq data => assembleEcho 8 id seq data

/-- icmp4/fpa.py:104-121 -/
def len : Msg → Nat
  | .echoReply _ _ data => 8 + data.length
  | .portUnreachable data => 8 + (data.take 520).length
  | .echoRequest _ _ data => 8 + data.length

def carried (m : Msg) : Carried := { proto := 1, len := len m, assemble := fun _ => assemble m }

/-- icmp4/fpp.py:106-110 -/
def type (f : Bytes) : Py Nat := idx f 0
/-- icmp4/fpp.py:113-117 -/
def code (f : Bytes) : Py Nat := idx f 1
/-- icmp4/fpp.py:129-136 -/
def ecId (f : Bytes) : Py Nat := do
  let t ← type f
  pyAssert (t == 8 || t == 0)
  u16 f 4
/-- icmp4/fpp.py:139-146 -/
def ecSeq (f : Bytes) : Py Nat := do
  let t ← type f
  pyAssert (t == 8 || t == 0)
  u16 f 6
/-- icmp4/fpp.py:149-156 -/
def ecData (f : Bytes) (plen : Nat) : Py Bytes := do
  let t ← type f
  pyAssert (t == 8 || t == 0)
  return slice f 8 plen
/-- icmp4/fpp.py:159-166 -/
def unData (f : Bytes) (plen : Nat) : Py Bytes := do
  let t ← type f
  pyAssert (t == 3)
  return slice f 8 plen

/-- icmp4/fpp.py:63-77, 184-243; `plen` is `packet_rx.ip4.dlen`. -/
def parse (f : Bytes) (plen : Nat) : Py (Option String) := do
  if inetCksum (f.take plen) ≠ 0 then return some "ICMPv4 integrity - wrong packet checksum"
  if ¬ (4 ≤ plen ∧ plen ≤ f.length) then return some "ICMPv4 integrity - wrong packet length (I)"
  let t ← idx f 0
  if t = 8 ∨ t = 0 then
    if ¬ (8 ≤ plen ∧ plen ≤ f.length) then return some "ICMPv6 integrity - wrong packet length (II)"
  else if t = 3 then
    if ¬ (12 ≤ plen ∧ plen ≤ f.length) then return some "ICMPv6 integrity - wrong packet length (II)"
  let t ← type f
  if t = 8 ∨ t = 0 then
    if (← code f) ≠ 0 then return some "ICMPv4 sanity - 'code' should be set to 0 (RFC 792)"
  if t = 3 then
    if 15 < (← code f) then return some "ICMPv4 sanity - 'code' must be set to [0-15] (RFC 792)"
  return none

/-- What the log line (icmp4/fpp.py:85-103) and the handler (icmp4/phrx.py) read from an accepted packet. -/
inductive Hdr where
  | echo (type code id seq : Nat) (data : Bytes)
  | unreachable (code : Nat) (data : Bytes)
  | other (type code : Nat)
  deriving DecidableEq

def read (f : Bytes) (plen : Nat) : Py Hdr := do
  let t ← type f
  let c ← code f
  if t = 0 ∨ t = 8 then
    return .echo t c (← ecId f) (← ecSeq f) (← ecData f plen)
  else if t = 3 then
    return .unreachable c (← unData f plen)
  else
    return .other t c

end Verif.Icmp4
