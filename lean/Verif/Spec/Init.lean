import Verif.Model.Init
import Verif.Spec.Addrs
import Verif.Spec.AddrText
import Verif.Spec.WireNd
/-! What the property about making and starting the stack means. -/
namespace Verif.Spec

/-- What the user wants: a MAC address or the one of the configuration; for IPv4 and IPv6 each an address with the length of its prefix
and a gateway or none, or automatic configuration. -/
structure Wish where
  mac : Option MacAddress
  ip4 : Option (Ip4Address × Nat × Option Ip4Address)
  ip6 : Option (Ip6Address × Nat × Option Ip6Address)

/-- The arguments of the constructor that say so; `j4` and `j6`: what is given for the gateways where no address is given. -/
def Wish.args (w : Wish) (j4 j6 : Option Text) : InitArgs where
  mac := w.mac.map (·.toText)
  ip4 := w.ip4.map fun x => x.1.toText ++ '/' :: decimal x.2.1
  gw4 := match w.ip4 with
    | some x => x.2.2.map (·.toText)
    | none => j4
  ip6 := w.ip6.map fun x => x.1.toText ++ '/' :: decimal x.2.1
  gw6 := match w.ip6 with
    | some x => x.2.2.map (·.toText)
    | none => j6

/-- `g` can be the gateway of `a/n`: another address of the network, not its first and not its last. -/
def Usable4 (a : Ip4Address) (n : Nat) (g : Ip4Address) : Prop :=
  cidr 32 a.int n g.int ∧ g.int % 2 ^ (32 - n) ≠ 0 ∧ g.int % 2 ^ (32 - n) ≠ 2 ^ (32 - n) - 1 ∧ g ≠ a

/-- For IPv6 it must be link-local. -/
def Usable6 (g : Ip6Address) : Prop := cidr 128 (hextet 0xFE80) 10 g.int

instance (a : Ip4Address) (n : Nat) (g : Ip4Address) : Decidable (Usable4 a n g) := inferInstanceAs (Decidable (_ ∧ _))
instance (g : Ip6Address) : Decidable (Usable6 g) := inferInstanceAs (Decidable (cidr _ _ _ _))

/-- The wish makes sense. -/
def Wish.Proper (w : Wish) : Prop :=
  (∀ x ∈ w.ip4, x.2.1 ≤ 32 ∧ ∀ g ∈ x.2.2, Usable4 x.1 x.2.1 g) ∧ (∀ x ∈ w.ip6, x.2.1 ≤ 128 ∧ ∀ g ∈ x.2.2, Usable6 g)

/-- `h` is `a/n` with this gateway. -/
def Configured4 (h : Ip4Host) (x : Ip4Address × Nat × Option Ip4Address) : Prop :=
  h.address = x.1 ∧ h.network.mask.len = x.2.1 ∧ (∀ b : Ip4Address, h.network.contains b = true ↔ cidr 32 x.1.int x.2.1 b.int) ∧ h.gateway = x.2.2

def Configured6 (h : Ip6Host) (x : Ip6Address × Nat × Option Ip6Address) : Prop :=
  h.address = x.1 ∧ h.network.mask.len = x.2.1 ∧ (∀ b : Ip6Address, h.network.contains b = true ↔ cidr 128 x.1.int x.2.1 b.int) ∧ h.gateway = x.2.2

/-- `h` is the link-local host of this MAC address. -/
def LinkLocalOf (mac : MacAddress) (h : Ip6Host) : Prop :=
  h.address.toBytes = [0xFE, 0x80, 0, 0, 0, 0, 0, 0] ++ modifiedEui64 mac.toBytes ∧ h.network.mask.len = 64 ∧ h.gateway = none

/-- The constructor's arguments, read one by one: each is a text of the right form, and the gateways (if not empty, and if there is an
address) can be gateways. -/
def Readable (x : InitArgs) : Prop :=
  (∀ t ∈ x.mac, ∃ m, MacAddress.ofText t = .ok m) ∧
  (∀ t ∈ x.ip4, ∃ h, Ip4Host.ofText t = .ok h ∧
    ∀ u ∈ x.gw4, u ≠ [] → ∃ g, Ip4Address.ofText u = .ok g ∧ Usable4 h.address h.network.mask.len g) ∧
  (∀ t ∈ x.ip6, ∃ h, Ip6Host.ofText t = .ok h ∧ ∀ u ∈ x.gw6, u ≠ [] → ∃ g, Ip6Address.ofText u = .ok g ∧ Usable6 g)

end Verif.Spec
