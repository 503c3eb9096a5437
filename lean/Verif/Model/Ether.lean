import Verif.Model.Addr
/-! Ethernet: `/repo/pytcp/protocols/ether/{ps,fpa,fpp}.py`. -/
namespace Verif.Ether

/-- ether/ps.py:54-57 -/
def typeArp : Nat := 0x0806
def typeIp4 : Nat := 0x0800
def typeIp6 : Nat := 0x86DD
def typeRaw : Nat := 0xFFFF

/-- ether/fpa.py:64-98 and 150-162: `EtherAssembler(src, dst, carried_packet)` followed by `assemble`.
`payload` is what the carried packet assembles to. -/
def assemble (src dst : MacAddress) (type : Nat) (payload : Bytes) : Py Bytes := do
  pyAssert (type == typeArp || type == typeIp4 || type == typeIp6 || type == typeRaw)
  let t ← packH type
  return dst.toBytes ++ src.toBytes ++ t ++ payload

/-- ether/fpp.py:92-98 -/
def dst (f : Bytes) : Py MacAddress := MacAddress.ofBytes (slice f 0 6)
/-- ether/fpp.py:101-107 -/
def src (f : Bytes) : Py MacAddress := MacAddress.ofBytes (slice f 6 12)
/-- ether/fpp.py:110-116 -/
def type (f : Bytes) : Py Nat := u16 f 12
/-- ether/fpp.py:74 and 128-134: the rest of the frame. -/
def data (f : Bytes) : Bytes := sliceFrom f 14

/-- ether/fpp.py:60-74, 154-174: `EtherParser(packet_rx)`; the value is `packet_rx.parse_failed` (`none` for `""`).
Both `config` checks are on, as in config.py. -/
def parse (f : Bytes) : Py (Option String) := do
  if f.length < 14 then return some "ETHER integrity - wrong packet length (I)"
  if (← type f) < 0x0600 then return some "ETHER sanity - 'ether_type' must be greater than 0x0600"
  return none

/-- The fields the receive handler and the log line read after a successful parse. -/
structure Hdr where
  dst : MacAddress
  src : MacAddress
  type : Nat
  data : Bytes

/-- Reading all of them, ether/fpp.py:82-116. -/
def read (f : Bytes) : Py Hdr := do
  return { dst := ← dst f, src := ← src f, type := ← type f, data := data f }

end Verif.Ether
