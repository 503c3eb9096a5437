import Verif.Model.Dict
import Verif.Model.Ip4
import Verif.Model.Ip6
/-! Reassembly: `/repo/pytcp/protocols/ip4/phrx.py:60-130` and `/repo/pytcp/protocols/ip6_ext_frag/phrx.py:53-123`.

The two functions are the same text up to the key and to how the header of the whole packet is made, so they share
`defrag`.  `time()` (float seconds) is an integer number of microseconds; it is read once for the clean-up (the code
reads it once per stored flow) and once for the time stamp. -/
namespace Verif.Frag

/-- The dictionary kept per flow, ip4/phrx.py:90-95, ip6_ext_frag/phrx.py:84-91 -/
structure Flow where
  header : Bytes
  timestamp : Int
  last : Bool
  data : Dict Nat Bytes

/-- `IP4_FRAG_FLOW_TIMEOUT`, `IP6_FRAG_FLOW_TIMEOUT`: 5 s (config.py) -/
def timeout : Int := 5000000

/-- ip4/phrx.py:68-73, ip6_ext_frag/phrx.py:61-66 -/
def cleanup {K : Type} (flows : Dict K Flow) (now : Int) : Dict K Flow :=
  flows.filter (fun e => e.2.timestamp - now < timeout)

/-- ip4/phrx.py:102-106, ip6_ext_frag/phrx.py:98-102: `none` when there is a gap, else the final `data_len`. -/
def walk : Nat → List (Nat × Bytes) → Option Nat
  | len, [] => some len
  | len, (o, d) :: l => if o > len then none else walk (o + d.length) l

/-- ip4/phrx.py:111-117, ip6_ext_frag/phrx.py:107-113 -/
def fill : Bytes → List (Nat × Bytes) → Py Bytes
  | b, [] => .ok b
  | b, (o, d) :: l =>
    match packIntoBytes b o d with
    | .error e => .error e
    | .ok b => fill b l

/-- ip4/phrx.py:84-97, ip6_ext_frag/phrx.py:78-93: the flow after the fragment has been recorded. -/
def record {K : Type} [DecidableEq K] (flows : Dict K Flow) (now : Int) (key : K) (header : Bytes) (offset : Nat) (mf : Bool)
    (data : Bytes) : Flow :=
  let fl := match flows.get? key with
    | some fl => { fl with data := fl.data.set offset data }
    | none => { header := header, timestamp := now, last := false, data := [(offset, data)] }
  if mf then fl else { fl with last := true }

/-- ip4/phrx.py:60-130, ip6_ext_frag/phrx.py:53-123.  `finish header data` makes the whole packet; at that point the flow
has been deleted, while an error in `fill` leaves it stored. -/
def defrag {K : Type} [DecidableEq K] (finish : Bytes → Bytes → Py Bytes) (flows : Dict K Flow) (t₀ t₁ : Int) (key : K)
    (header : Bytes) (offset : Nat) (mf : Bool) (data : Bytes) : Dict K Flow × Py (Option Bytes) :=
  let flows := cleanup flows t₀
  let fl := record flows t₁ key header offset mf data
  let flows := flows.set key fl
  if fl.last = false then (flows, .ok none)
  else
    match walk 0 fl.data.sortedItems with
    | none => (flows, .ok none)
    | some len =>
      match fill (List.replicate len 0) fl.data.sortedItems with
      | .error e => (flows, .error e)
      | .ok d => (flows.erase key, (finish fl.header d).map some)

/-- ip4/phrx.py:119-123 -/
def finishIp4 (header data : Bytes) : Py Bytes := do
  let h ← setIdx header 0 0x45
  let h ← packIntoH h 2 (20 + data.length)
  let h ← setIdx h 6 0
  let h ← setIdx h 7 0
  let h ← setIdx h 10 0
  let h ← setIdx h 11 0
  let h ← packIntoH h 10 (inetCksum h)
  return h ++ data

/-- ip6_ext_frag/phrx.py:115-117; `next` is that of the fragment that completed the packet. -/
def finishIp6 (next : Nat) (header data : Bytes) : Py Bytes := do
  let h ← packIntoH header 4 data.length
  let h ← setIdx h 6 (UInt8.ofNat next)
  return h ++ data

/-- The key of an IPv4 flow, ip4/phrx.py:82 -/
abbrev Key4 := Ip4Address × Ip4Address × Nat
/-- The key of an IPv6 flow, ip6_ext_frag/phrx.py:76 -/
abbrev Key6 := Ip6Address × Ip6Address × Nat

/-- ip4/phrx.py:60-130.  The result is the frame of the reassembled packet; the code also runs `Ip4Parser` on it (see
`_phrx_ip4`). -/
def defragIp4 (flows : Dict Key4 Flow) (t₀ t₁ : Int) (p : Ip4.Hdr) : Dict Key4 Flow × Py (Option Bytes) :=
  defrag finishIp4 flows t₀ t₁ (p.src, p.dst, p.id) p.headerCopy p.offset p.mf p.dataCopy

/-- ip6_ext_frag/phrx.py:53-123 -/
def defragIp6 (flows : Dict Key6 Flow) (t₀ t₁ : Int) (p : Ip6.Hdr) (x : Ip6Frag.Hdr) :
    Dict Key6 Flow × Py (Option Bytes) :=
  defrag (finishIp6 x.next) flows t₀ t₁ (p.src, p.dst, x.id) p.headerCopy x.offset x.mf x.dataCopy

end Verif.Frag
