import Verif.Model.AddrText
/-!
Equality and hashes of addresses, masks, networks and hosts, as the code defines them: `__eq__` compares `repr`.  The other modules compare the values.
-/
namespace Verif

/-- The objects of `lib/mac_address.py`, `lib/ip4_address.py` and `lib/ip6_address.py`. -/
inductive AddrObj where
  | mac (m : MacAddress)
  | ip4 (a : Ip4Address)
  | ip6 (a : Ip6Address)
  | mask4 (m : Ip4Mask)
  | mask6 (m : Ip6Mask)
  | net4 (n : Ip4Network)
  | net6 (n : Ip6Network)
  | host4 (h : Ip4Host)
  | host6 (h : Ip6Host)

namespace AddrObj

/-- `str(x)`: mac_address.py:89-93, ip4_address.py:123-127, ip6_address.py:134-137, ip_address.py:249-253, 327-331, 442-446. -/
def str : AddrObj → Text
  | .mac m => m.toText
  | .ip4 a => a.toText
  | .ip6 a => a.toText
  | .mask4 m => maskText m.len
  | .mask6 m => maskText m.len
  | .net4 n => n.toText
  | .net6 n => n.toText
  | .host4 h => h.toText
  | .host6 h => h.toText

/-- The name before the parenthesis in `repr(x)`: mac_address.py:99, ip_address.py:91, 259, 337, 452. -/
def kind : AddrObj → Text
  | .mac _ => "MacAddress".toList
  | .ip4 _ => "Ip4Address".toList
  | .ip6 _ => "Ip6Address".toList
  | .mask4 _ => "Ip4Mask".toList
  | .mask6 _ => "Ip6Mask".toList
  | .net4 _ => "Ip4Network".toList
  | .net6 _ => "Ip6Network".toList
  | .host4 _ => "Ip4Host".toList
  | .host6 _ => "Ip6Host".toList

/-- `repr(x)`: mac_address.py:95-99, ip_address.py:87-91, 255-259, 333-337, 448-452. -/
def repr (x : AddrObj) : Text := x.kind ++ '(' :: '\'' :: (x.str ++ ['\'', ')'])

/-- `x == y`: mac_address.py:118-122, ip_address.py:81-85, 267-271, 339-343, 454-458. -/
def eq (x y : AddrObj) : Bool := x.repr == y.repr

/-- What `hash(x)` makes of the result of `__hash__`, for non-negative numbers: one that does not fit into 64 bits with a sign is reduced. -/
def slotHash (n : Nat) : Nat := if n < 2 ^ 63 then n else n % (2 ^ 61 - 1)

/-- `hash(x)`: mac_address.py:124-128, ip_address.py:93-97, 273-277, 345-349, 460-464. -/
def hash : AddrObj → Nat
  | .mac m => slotHash m.int
  | .ip4 a => slotHash a.int
  | .ip6 a => slotHash a.int
  | .mask4 m => slotHash m.int
  | .mask6 m => slotHash m.int
  | .net4 n => slotHash (slotHash n.address.int ^^^ slotHash n.mask.int)
  | .net6 n => slotHash (slotHash n.address.int ^^^ slotHash n.mask.int)
  | .host4 h => slotHash (slotHash h.address.int ^^^ slotHash (slotHash h.network.address.int ^^^ slotHash h.network.mask.int))
  | .host6 h => slotHash (slotHash h.address.int ^^^ slotHash (slotHash h.network.address.int ^^^ slotHash h.network.mask.int))

end AddrObj
end Verif
