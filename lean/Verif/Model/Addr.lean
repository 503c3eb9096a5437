import Verif.Model.Py
/-!
Model of the address classes: `/repo/pytcp/lib/mac_address.py`, `ip_address.py`, `ip4_address.py`,
`ip6_address.py`.  The integer attribute is kept together with the range its constructors establish.
`__eq__` of the code compares `repr`; the model compares integers (`Props/AddrText.lean` proves that the
printed forms of distinct addresses of each class differ).  Text forms are in `Model/AddrText.lean`.
-/
namespace Verif

/-- mac_address.py:47-177, attribute `_address`. -/
structure MacAddress where
  int : Nat
  lt : int < 2 ^ 48
  deriving DecidableEq, Repr

/-- ip4_address.py:82-236, attribute `_address`. -/
structure Ip4Address where
  int : Nat
  lt : int < 2 ^ 32
  deriving DecidableEq, Repr

/-- ip6_address.py:89-231, attribute `_address`. -/
structure Ip6Address where
  int : Nat
  lt : int < 2 ^ 128
  deriving DecidableEq, Repr

/-! ### MacAddress -/

/-- mac_address.py:59-62, :87: constructor from an `int` (`address in range(281474976710656)`). -/
def MacAddress.ofInt (n : Int) : Py MacAddress :=
  if h : 0 ≤ n ∧ n < 281474976710656 then .ok ⟨n.toNat, by omega⟩ else .error .formatError

/-- mac_address.py:64-68, :87: constructor from a bytes-like object. -/
def MacAddress.ofBytes (b : Bytes) : Py MacAddress :=
  if b.length = 6 then do
    let v1 ← unpackBE 2 (slice b 0 2)
    let v2 ← unpackBE 2 (slice b 2 4)
    let v3 ← unpackBE 2 (slice b 4 6)
    MacAddress.ofInt (((v1 <<< 32) + (v2 <<< 16) + v3 : Nat) : Int)
  else .error .formatError

/-- mac_address.py:101-110: `__bytes__`. -/
def MacAddress.toBytes (m : MacAddress) : Bytes :=
  bePack 2 ((m.int >>> 32) &&& 0xFFFF) ++ bePack 2 ((m.int >>> 16) &&& 0xFFFF) ++ bePack 2 (m.int &&& 0xFFFF)

/-- mac_address.py:131-135. -/
def MacAddress.isUnspecified (m : MacAddress) : Bool := m.int == 0
/-- mac_address.py:152-156 (`in range(a, b)` is `a ≤ x < b`). -/
def MacAddress.isMulticastIp4 (m : MacAddress) : Bool := 1101088686080 ≤ m.int && m.int < 1101105463296
/-- mac_address.py:159-163. -/
def MacAddress.isMulticastIp6 (m : MacAddress) : Bool := 56294136348672 ≤ m.int && m.int < 56298431315968
/-- mac_address.py:166-170. -/
def MacAddress.isMulticastIp6SolicitedNode (m : MacAddress) : Bool :=
  56298414538752 ≤ m.int && m.int < 56298431315968
/-- mac_address.py:173-177. -/
def MacAddress.isBroadcast (m : MacAddress) : Bool := m.int == 281474976710655
/-- mac_address.py:138-149. -/
def MacAddress.isUnicast (m : MacAddress) : Bool :=
  m.int != 0
    && !(1101088686080 ≤ m.int && m.int < 1101105463296)
    && !(56294136348672 ≤ m.int && m.int < 56298431315968)
    && m.int != 281474976710655

/-! ### Ip4Address -/

/-- ip4_address.py:97-100, :121: constructor from an `int` (`address & 0xFF_FF_FF_FF == address`; a negative
Python int is never equal to its masked value). -/
def Ip4Address.ofInt : Int → Py Ip4Address
  | .ofNat n =>
    if h : n &&& 0xFFFFFFFF = n then
      .ok ⟨n, by rw [← h]; exact Nat.and_lt_two_pow n (by decide)⟩
    else .error .formatError
  | .negSucc _ => .error .formatError

/-- ip4_address.py:102-105, :121: constructor from a bytes-like object. -/
def Ip4Address.ofBytes (b : Bytes) : Py Ip4Address :=
  if b.length = 4 then do
    let v ← unpackBE 4 b
    Ip4Address.ofInt (v : Int)
  else .error .formatError

/-- ip4_address.py:129-133: `__bytes__`. -/
def Ip4Address.toBytes (a : Ip4Address) : Bytes := bePack 4 a.int

/-- ip_address.py:121-125. -/
def Ip4Address.isUnspecified (a : Ip4Address) : Bool := a.int == 0
/-- ip4_address.py:154-160. -/
def Ip4Address.isLinkLocal (a : Ip4Address) : Bool := a.int &&& 0xFFFF0000 == 0xA9FE0000
/-- ip4_address.py:163-170. -/
def Ip4Address.isLoopback (a : Ip4Address) : Bool := a.int &&& 0xFF000000 == 0x7F000000
/-- ip4_address.py:173-179. -/
def Ip4Address.isMulticast (a : Ip4Address) : Bool := a.int &&& 0xF0000000 == 0xE0000000
/-- ip4_address.py:182-193. -/
def Ip4Address.isPrivate (a : Ip4Address) : Bool :=
  a.int &&& 0xFF000000 == 0x0A000000 || a.int &&& 0xFFF00000 == 0xAC100000 || a.int &&& 0xFFFF0000 == 0xC0A80000
/-- ip4_address.py:196-202 (the mask constant is the code's). -/
def Ip4Address.isReserved (a : Ip4Address) : Bool := a.int &&& 0xF0000001 == 0xF0000000
/-- ip4_address.py:205-209. -/
def Ip4Address.isLimitedBroadcast (a : Ip4Address) : Bool := a.int == 0xFFFFFFFF
/-- ip4_address.py:212-219. -/
def Ip4Address.isInvalid (a : Ip4Address) : Bool := a.int != 0x00000000 && a.int &&& 0xFF000000 == 0x00000000
/-- ip4_address.py:136-151. -/
def Ip4Address.isGlobal (a : Ip4Address) : Bool :=
  !(a.isUnspecified || a.isInvalid || a.isLinkLocal || a.isLoopback || a.isMulticast || a.isPrivate
    || a.isReserved || a.isLimitedBroadcast)
/-- ip_address.py:128-139. -/
def Ip4Address.isUnicast (a : Ip4Address) : Bool :=
  a.isGlobal || a.isPrivate || a.isLinkLocal || a.isLoopback

/-- ip4_address.py:229-236: `multicast_mac` (asserts `is_multicast`; Python's `|` binds looser than `&`). -/
def Ip4Address.multicastMac (a : Ip4Address) : Py MacAddress := do
  pyAssert a.isMulticast
  MacAddress.ofInt ((0x01005E000000 ||| (a.int &&& 0x7FFFFF) : Nat) : Int)

/-- `Ip4Address(0)`. -/
def Ip4Address.zero : Ip4Address := ⟨0, by decide⟩

/-! ### Ip6Address -/

/-- ip6_address.py:104-107, :132: constructor from an `int`. -/
def Ip6Address.ofInt : Int → Py Ip6Address
  | .ofNat n =>
    if h : n &&& 0xFFFFFFFFFFFFFFFFFFFFFFFFFFFFFFFF = n then
      .ok ⟨n, by rw [← h]; exact Nat.and_lt_two_pow n (by decide)⟩
    else .error .formatError
  | .negSucc _ => .error .formatError

/-- ip6_address.py:109-113, :132: constructor from a bytes-like object (`struct.unpack("!LLLL")`). -/
def Ip6Address.ofBytes (b : Bytes) : Py Ip6Address :=
  if b.length = 16 then do
    let v1 ← unpackBE 4 (slice b 0 4)
    let v2 ← unpackBE 4 (slice b 4 8)
    let v3 ← unpackBE 4 (slice b 8 12)
    let v4 ← unpackBE 4 (slice b 12 16)
    Ip6Address.ofInt (((v1 <<< 96) + (v2 <<< 64) + (v3 <<< 32) + v4 : Nat) : Int)
  else .error .formatError

/-- ip6_address.py:139-148: `__bytes__`. -/
def Ip6Address.toBytes (a : Ip6Address) : Bytes :=
  bePack 4 ((a.int >>> 96) &&& 0xFFFFFFFF) ++ bePack 4 ((a.int >>> 64) &&& 0xFFFFFFFF)
    ++ bePack 4 ((a.int >>> 32) &&& 0xFFFFFFFF) ++ bePack 4 (a.int &&& 0xFFFFFFFF)

/-- ip_address.py:121-125. -/
def Ip6Address.isUnspecified (a : Ip6Address) : Bool := a.int == 0
/-- ip6_address.py:151-155. -/
def Ip6Address.isLoopback (a : Ip6Address) : Bool := a.int == 1
/-- ip6_address.py:158-165. -/
def Ip6Address.isGlobal (a : Ip6Address) : Bool :=
  a.int &&& 0xE0000000000000000000000000000000 == 0x20000000000000000000000000000000
/-- ip6_address.py:168-175. -/
def Ip6Address.isPrivate (a : Ip6Address) : Bool :=
  a.int &&& 0xFE000000000000000000000000000000 == 0xFC000000000000000000000000000000
/-- ip6_address.py:178-185. -/
def Ip6Address.isLinkLocal (a : Ip6Address) : Bool :=
  a.int &&& 0xFFC00000000000000000000000000000 == 0xFE800000000000000000000000000000
/-- ip6_address.py:188-195. -/
def Ip6Address.isMulticast (a : Ip6Address) : Bool :=
  a.int &&& 0xFF000000000000000000000000000000 == 0xFF000000000000000000000000000000
/-- ip6_address.py:198-205. -/
def Ip6Address.isSolicitedNodeMulticast (a : Ip6Address) : Bool :=
  a.int &&& 0xFFFFFFFFFFFFFFFFFFFFFFFFFF000000 == 0xFF0200000000000000000001FF000000
/-- ip_address.py:128-139. -/
def Ip6Address.isUnicast (a : Ip6Address) : Bool :=
  a.isGlobal || a.isPrivate || a.isLinkLocal || a.isLoopback

/-- ip6_address.py:208-214 (`int(Ip6Address("ff02::1:ff00:0"))` is the constant). -/
def Ip6Address.solicitedNodeMulticast (a : Ip6Address) : Py Ip6Address :=
  Ip6Address.ofInt (((a.int &&& 0xFFFFFF) ||| 0xFF0200000000000000000001FF000000 : Nat) : Int)

/-- ip6_address.py:217-224: `multicast_mac`. -/
def Ip6Address.multicastMac (a : Ip6Address) : Py MacAddress := do
  pyAssert a.isMulticast
  MacAddress.ofInt ((0x333300000000 ||| (a.int &&& 0xFFFFFFFF) : Nat) : Int)

/-- `Ip6Address(0)`. -/
def Ip6Address.zero : Ip6Address := ⟨0, by decide⟩

/-! ### Masks -/

/-- `f"{m:0<w>b}"`: the `w` binary digits of `m`, most significant first (for `m < 2^w`). -/
def bitString (w m : Nat) : List Bool := (List.range w).map (fun i => m.testBit (w - 1 - i))

/-- `_validate_bits`, ip4_address.py:254-262 (`w = 32`) and ip6_address.py:249-257 (`w = 128`):
no "1" after the first "0".  (`index` raising `ValueError`, i.e. no "0" at all, gives `True`; here the
remaining string is then empty.) -/
def validateBits (w m : Nat) : Bool := !((bitString w m).dropWhile (· == true)).any (· == true)

/-- ip4_address.py:239-300: a constructed mask. -/
structure Ip4Mask where
  int : Nat
  lt : int < 2 ^ 32
  valid : validateBits 32 int = true
  deriving DecidableEq

/-- ip6_address.py:234-294: a constructed mask. -/
structure Ip6Mask where
  int : Nat
  lt : int < 2 ^ 128
  valid : validateBits 128 int = true
  deriving DecidableEq

/-- ip4_address.py:264-268, :294: constructor from an `int`. -/
def Ip4Mask.ofInt : Int → Py Ip4Mask
  | .ofNat n =>
    if h : n &&& 0xFFFFFFFF = n then
      if hv : validateBits 32 n = true then
        .ok ⟨n, by rw [← h]; exact Nat.and_lt_two_pow n (by decide), hv⟩
      else .error .formatError
    else .error .formatError
  | .negSucc _ => .error .formatError

/-- ip4_address.py:270-274, :294: constructor from a bytes-like object. -/
def Ip4Mask.ofBytes (b : Bytes) : Py Ip4Mask :=
  if b.length = 4 then do
    let v ← unpackBE 4 b
    Ip4Mask.ofInt (v : Int)
  else .error .formatError

/-- `int("1" * n + "0" * (w - n), 2)` for `0 ≤ n ≤ w`, as in ip4_address.py:279 and ip6_address.py:275. -/
def onesThenZeros (w n : Nat) : Nat :=
  (List.replicate n true ++ List.replicate (w - n) false).foldl (fun acc b => 2 * acc + b.toNat) 0

/-- ip4_address.py:296-300: `__bytes__`. -/
def Ip4Mask.toBytes (m : Ip4Mask) : Bytes := bePack 4 m.int

/-- ip6_address.py:259-263, :282: constructor from an `int`. -/
def Ip6Mask.ofInt : Int → Py Ip6Mask
  | .ofNat n =>
    if h : n &&& 0xFFFFFFFFFFFFFFFFFFFFFFFFFFFFFFFF = n then
      if hv : validateBits 128 n = true then
        .ok ⟨n, by rw [← h]; exact Nat.and_lt_two_pow n (by decide), hv⟩
      else .error .formatError
    else .error .formatError
  | .negSucc _ => .error .formatError

/-- `IpMask.__len__`, ip_address.py:279-283: the number of "1" digits. -/
def maskLen (w m : Nat) : Nat := (bitString w m).countP (· == true)

def Ip4Mask.len (m : Ip4Mask) : Nat := maskLen 32 m.int
def Ip6Mask.len (m : Ip6Mask) : Nat := maskLen 128 m.int

end Verif
