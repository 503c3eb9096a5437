import Verif.Model.AddrObj
import Verif.Spec.AddrText
/-! Specification vocabulary for C109: when two address objects denote the same. -/
namespace Verif.Spec

/-- Objects of one sort that denote the same: the same address, the same mask, a network with the same address and mask, a host with the same address
in the same network (its gateway does not count). -/
def Denote : AddrObj → AddrObj → Prop
  | .mac a, .mac b => a.int = b.int
  | .ip4 a, .ip4 b => a.int = b.int
  | .ip6 a, .ip6 b => a.int = b.int
  | .mask4 a, .mask4 b => a.int = b.int
  | .mask6 a, .mask6 b => a.int = b.int
  | .net4 a, .net4 b => a.address.int = b.address.int ∧ a.mask.int = b.mask.int
  | .net6 a, .net6 b => a.address.int = b.address.int ∧ a.mask.int = b.mask.int
  | .host4 a, .host4 b => a.address.int = b.address.int ∧ a.network.address.int = b.network.address.int ∧ a.network.mask.int = b.network.mask.int
  | .host6 a, .host6 b => a.address.int = b.address.int ∧ a.network.address.int = b.network.address.int ∧ a.network.mask.int = b.network.mask.int
  | _, _ => False

/-- A host lies in its network. -/
def InPlace : AddrObj → Prop
  | .host4 h => h.network.contains h.address = true
  | .host6 h => h.network.contains h.address = true
  | _ => True

end Verif.Spec
