import Verif.Model.Cksum
/-! UDP: `/repo/pytcp/protocols/udp/{ps,fpa,fpp}.py`. -/
namespace Verif.Udp

/-- udp/fpa.py:55-74, 95-111: `UdpAssembler(...)` and `assemble(frame, pshdr_sum)`. -/
def assemble (sport dport : Nat) (data : Bytes) (pshdrSum : Nat) : Py Bytes := do
  pyAssert (sport ≤ 0xFFFF)
  pyAssert (dport ≤ 0xFFFF)
  let plen := 8 + data.length
  let s ← packH sport
  let d ← packH dport
  let l ← packH plen
  let c ← packH 0
  let frame := s ++ d ++ l ++ c ++ data
  packIntoH frame 6 (inetCksum frame pshdrSum)

/-- udp/fpa.py:52-53, 76-80; `ip4_proto` and `ip6_next` are both 17. -/
def carried (sport dport : Nat) (data : Bytes) : Carried :=
  { proto := 17, len := 8 + data.length, assemble := assemble sport dport data }

/-- udp/fpp.py:89-95 -/
def sport (f : Bytes) : Py Nat := u16 f 0
/-- udp/fpp.py:98-104 -/
def dport (f : Bytes) : Py Nat := u16 f 2
/-- udp/fpp.py:107-113 -/
def plen (f : Bytes) : Py Nat := u16 f 4
/-- udp/fpp.py:125-131 -/
def data (f : Bytes) : Py Bytes := do return slice f 8 (← plen f)

/-- udp/fpp.py:56-74, 169-205.  `ipDlen` is `packet_rx.ip.dlen` and `pshdrSum` is `packet_rx.ip.pshdr_sum`. -/
def parse (f : Bytes) (ipDlen pshdrSum : Nat) : Py (Option String) := do
  if inetCksum (f.take ipDlen) pshdrSum ≠ 0 then return some "UDP integrity - wrong packet checksum"
  if ¬ (8 ≤ ipDlen ∧ ipDlen ≤ f.length) then return some "UDP integrity - wrong packet length (I)"
  let pl ← u16 f 4
  if ¬ (8 ≤ pl ∧ pl = ipDlen ∧ ipDlen ≤ f.length) then return some "UDP integrity - wrong packet length (II)"
  if (← sport f) = 0 then return some "UDP sanity - 'udp_sport' must be greater than 0"
  if (← dport f) = 0 then return some "UDP sanity - 'udp_dport' must be greater then 0"
  return none

structure Hdr where
  sport : Nat
  dport : Nat
  plen : Nat
  data : Bytes

/-- the fields read by udp/phrx.py and the log line -/
def read (f : Bytes) : Py Hdr := do
  return { sport := ← sport f, dport := ← dport f, plen := ← plen f, data := ← data f }

end Verif.Udp
