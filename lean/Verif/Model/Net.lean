import Verif.Lemmas.Mask
/-!
Model of the network and host classes: `Ip4Network`, `Ip6Network`, `Ip4Host`, `Ip6Host`
(`/repo/pytcp/lib/ip4_address.py:303-473`, `ip6_address.py:297-468`, `ip_address.py:313-516`).
-/
namespace Verif

/-- ip4_address.py:276-280: `Ip4Mask("/n")` for a decimal `n`; rejected unless `n in range(33)`. -/
def Ip4Mask.ofPrefix (n : Nat) : Py Ip4Mask :=
  if h : n ≤ 32 then
    .ok ⟨onesThenZeros 32 n, by rw [onesThenZeros_eq _ _ h]; exact prefixMask_lt 32 n,
      by rw [onesThenZeros_eq _ _ h, validateBits_iff _ _ (prefixMask_lt 32 n)]; exact ⟨n, h, rfl⟩⟩
  else .error .formatError

/-- ip6_address.py:272-276: `Ip6Mask("/n")`; rejected unless `n in range(129)`. -/
def Ip6Mask.ofPrefix (n : Nat) : Py Ip6Mask :=
  if h : n ≤ 128 then
    .ok ⟨onesThenZeros 128 n, by rw [onesThenZeros_eq _ _ h]; exact prefixMask_lt 128 n,
      by rw [onesThenZeros_eq _ _ h, validateBits_iff _ _ (prefixMask_lt 128 n)]; exact ⟨n, h, rfl⟩⟩
  else .error .formatError

/-- ip4_address.py:303-349; every constructor stores `address & mask`. -/
structure Ip4Network where
  address : Ip4Address
  mask : Ip4Mask
  masked : address.int &&& mask.int = address.int
  deriving DecidableEq

/-- ip6_address.py:297-340. -/
structure Ip6Network where
  address : Ip6Address
  mask : Ip6Mask
  masked : address.int &&& mask.int = address.int
  deriving DecidableEq

theorem and_and_self (a b : Nat) : (a &&& b) &&& b = a &&& b := by
  rw [Nat.and_assoc, Nat.and_self]

/-- ip4_address.py:319-328: constructor from `(Ip4Address, Ip4Mask)`. -/
def Ip4Network.ofMask (a : Ip4Address) (m : Ip4Mask) : Ip4Network :=
  ⟨⟨a.int &&& m.int, Nat.and_lt_two_pow _ m.lt⟩, m, and_and_self _ _⟩

/-- ip6_address.py:313-322. -/
def Ip6Network.ofMask (a : Ip6Address) (m : Ip6Mask) : Ip6Network :=
  ⟨⟨a.int &&& m.int, Nat.and_lt_two_pow _ m.lt⟩, m, and_and_self _ _⟩

/-- ip4_address.py:366-370: `int(address) + (~int(mask) & 0xFFFFFFFF)`, the argument of the constructor call.
`~m & (2^k-1)` is written `(2^k-1) ^^^ m` (equal for `0 ≤ m < 2^k`). -/
def Ip4Network.lastInt (n : Ip4Network) : Nat := n.address.int + (0xFFFFFFFF ^^^ n.mask.int)
/-- ip4_address.py:366-370. -/
def Ip4Network.last (n : Ip4Network) : Py Ip4Address := Ip4Address.ofInt (n.lastInt : Int)
/-- ip4_address.py:373-377. -/
def Ip4Network.broadcast (n : Ip4Network) : Py Ip4Address := n.last

/-- ip6_address.py:357-364. -/
def Ip6Network.lastInt (n : Ip6Network) : Nat :=
  n.address.int + (0xFFFFFFFFFFFFFFFFFFFFFFFFFFFFFFFF ^^^ n.mask.int)
/-- ip6_address.py:357-364. -/
def Ip6Network.last (n : Ip6Network) : Py Ip6Address := Ip6Address.ofInt (n.lastInt : Int)

/-- ip_address.py:351-360: `address in network` (the version check is the Lean type). -/
def Ip4Network.contains (n : Ip4Network) (a : Ip4Address) : Bool :=
  n.address.int ≤ a.int && a.int ≤ n.lastInt
/-- ip_address.py:351-360. -/
def Ip6Network.contains (n : Ip6Network) (a : Ip6Address) : Bool :=
  n.address.int ≤ a.int && a.int ≤ n.lastInt

/-- ip4_address.py:380-473. -/
structure Ip4Host where
  address : Ip4Address
  network : Ip4Network
  gateway : Option Ip4Address
  deriving DecidableEq

/-- ip6_address.py:381-468. -/
structure Ip6Host where
  address : Ip6Address
  network : Ip6Network
  gateway : Option Ip6Address
  deriving DecidableEq

/-- ip4_address.py:406-411: constructor from `(Ip4Address, Ip4Network)`; membership is not checked. -/
def Ip4Host.ofNetwork (a : Ip4Address) (n : Ip4Network) : Ip4Host := ⟨a, n, none⟩
/-- ip4_address.py:412-417: constructor from `(Ip4Address, Ip4Mask)`. -/
def Ip4Host.ofMask (a : Ip4Address) (m : Ip4Mask) : Ip4Host := ⟨a, Ip4Network.ofMask a m, none⟩
/-- ip6_address.py:406-411. -/
def Ip6Host.ofNetwork (a : Ip6Address) (n : Ip6Network) : Ip6Host := ⟨a, n, none⟩
/-- ip6_address.py:412-417. -/
def Ip6Host.ofMask (a : Ip6Address) (m : Ip6Mask) : Ip6Host := ⟨a, Ip6Network.ofMask a m, none⟩

/-- ip4_address.py:456-473: the `gateway` setter. -/
def Ip4Host.setGateway (h : Ip4Host) : Option Ip4Address → Py Ip4Host
  | none => .ok { h with gateway := none }
  | some g =>
    if !h.network.contains g then .error .gatewayError
    else if g = h.network.address then .error .gatewayError
    else
      match h.network.broadcast with
      | .error e => .error e
      | .ok b =>
        if g = b then .error .gatewayError
        else if g = h.address then .error .gatewayError
        else .ok { h with gateway := some g }

/-- `Ip6Network("fe80::/10")`. -/
def ip6LinkLocalNet : Ip6Network :=
  ⟨⟨0xFE800000000000000000000000000000, by decide⟩,
   ⟨0xFFC00000000000000000000000000000, by decide,
     by rw [validateBits_iff _ _ (by decide)]; exact ⟨10, by decide, by decide⟩⟩, by decide⟩

/-- ip6_address.py:456-468: the `gateway` setter. -/
def Ip6Host.setGateway (h : Ip6Host) : Option Ip6Address → Py Ip6Host
  | none => .ok { h with gateway := none }
  | some g =>
    if !ip6LinkLocalNet.contains g then .error .gatewayError
    else .ok { h with gateway := some g }

/-- ip6_address.py:366-378: `eui64`.  Python's `^` is applied to the parenthesised `|` chain, in which `&` binds
tighter than `|`. -/
def Ip6Network.eui64 (n : Ip6Network) (mac : MacAddress) : Py Ip6Host := do
  pyAssert (n.mask.len == 64)
  let interfaceId :=
    (((mac.int &&& 0xFFFFFF000000) <<< 16) ||| (mac.int &&& 0xFFFFFF) ||| 0xFFFE000000) ^^^ 0x0200000000000000
  let a ← Ip6Address.ofInt ((n.address.int ||| interfaceId : Nat) : Int)
  let m ← Ip6Mask.ofPrefix 64
  return Ip6Host.ofMask a m

end Verif
