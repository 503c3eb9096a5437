import Verif.Model.Py
/-! Model of `inet_cksum` (`/repo/pytcp/lib/ip_helper.py:49-64`). -/
namespace Verif

/-- `sum(struct.unpack("!<n><w>", data))`: the sum of the first `n` big-endian words of `k` bytes
(`L` is `k = 4`, `Q` is `k = 8`), as used at ip_helper.py:54 and :56. -/
def wordSum (k : Nat) : Nat → Bytes → Nat
  | 0, _ => 0
  | n + 1, b => beNat (b.take k) + wordSum k n (b.drop k)

/-- ip_helper.py:53-61: everything of `inet_cksum` before the 32-bit fold. -/
def cksumAcc (data : Bytes) (init : Nat) : Nat :=
  let dlen := data.length
  if dlen = 20 then
    init + wordSum 4 5 data
  else
    let cksum := init + wordSum 8 (dlen >>> 3) data
    let remainder := dlen &&& 7
    let cksum :=
      if remainder ≠ 0 then
        cksum + (beNat (data.drop (dlen - remainder)) <<< ((8 - remainder) <<< 3))
      else cksum
    (cksum >>> 64) + (cksum &&& 0xFFFFFFFFFFFFFFFF)

/-- `inet_cksum(data, init)`, ip_helper.py:49-64.  Python's `~x & 0xFFFF` is written
`0xFFFF ^^^ (x &&& 0xFFFF)` (the same number for every `x ≥ 0`). -/
def inetCksum (data : Bytes) (init : Nat := 0) : Nat :=
  let cksum := cksumAcc data init
  let cksum := (cksum >>> 32) + (cksum &&& 0xFFFFFFFF)
  let cksum := (cksum >>> 16) + (cksum &&& 0xFFFF)
  0xFFFF ^^^ ((cksum + (cksum >>> 16)) &&& 0xFFFF)

end Verif
