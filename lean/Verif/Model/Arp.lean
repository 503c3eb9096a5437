import Verif.Model.Addr
/-! ARP: `/repo/pytcp/protocols/arp/{ps,fpa,fpp}.py`. -/
namespace Verif.Arp

/-- arp/fpa.py:55-129: `ArpAssembler(...)` and `assemble`. -/
def assemble (sha : MacAddress) (spa : Ip4Address) (tha : MacAddress) (tpa : Ip4Address) (oper : Nat) : Py Bytes := do
  pyAssert (oper == 1 || oper == 2)
  let hrtype ← packH 1
  let prtype ← packH 0x0800
  let hrlen ← packB 6
  let prlen ← packB 4
  let op ← packH oper
  return hrtype ++ prtype ++ hrlen ++ prlen ++ op ++ sha.toBytes ++ spa.toBytes ++ tha.toBytes ++ tpa.toBytes

/-- arp/fpp.py:94-100 -/
def hrtype (f : Bytes) : Py Nat := u16 f 0
/-- arp/fpp.py:103-109 -/
def prtype (f : Bytes) : Py Nat := u16 f 2
/-- arp/fpp.py:112-116 -/
def hrlen (f : Bytes) : Py Nat := idx f 4
/-- arp/fpp.py:119-123 -/
def prlen (f : Bytes) : Py Nat := idx f 5
/-- arp/fpp.py:126-132 -/
def oper (f : Bytes) : Py Nat := u16 f 6
/-- arp/fpp.py:135-141 -/
def sha (f : Bytes) : Py MacAddress := MacAddress.ofBytes (slice f 8 14)
/-- arp/fpp.py:144-150 -/
def spa (f : Bytes) : Py Ip4Address := Ip4Address.ofBytes (slice f 14 18)
/-- arp/fpp.py:153-159 -/
def tha (f : Bytes) : Py MacAddress := MacAddress.ofBytes (slice f 18 24)
/-- arp/fpp.py:162-168 -/
def tpa (f : Bytes) : Py Ip4Address := Ip4Address.ofBytes (slice f 24 28)

/-- arp/fpp.py:58-69, 179-217 -/
def parse (f : Bytes) : Py (Option String) := do
  if f.length < 28 then return some "ARP integrity - wrong packet length (I)"
  if (← hrtype f) ≠ 1 then return some "ARP sanity - 'arp_hrtype' must be 1"
  if (← prtype f) ≠ 0x0800 then return some "ARP sanity - 'arp_prtype' must be 0x0800"
  if (← hrlen f) ≠ 6 then return some "ARP sanity - 'arp_hrlen' must be 6"
  if (← prlen f) ≠ 4 then return some "ARP sanity - 'arp_prlen' must be 4"
  let op ← oper f
  if ¬ (op = 1 ∨ op = 2) then return some "ARP sanity - 'oper' must be [1-2]"
  return none

/-- the fields used by the handler (arp/phrx.py) -/
structure Hdr where
  oper : Nat
  sha : MacAddress
  spa : Ip4Address
  tha : MacAddress
  tpa : Ip4Address
  deriving DecidableEq

def read (f : Bytes) : Py Hdr := do
  return { oper := ← oper f, sha := ← sha f, spa := ← spa f, tha := ← tha f, tpa := ← tpa f }

end Verif.Arp
