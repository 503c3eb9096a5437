import Verif.Model.Addrs
import Verif.Spec.Addr
/-! What the properties about the addresses of the stack mean. -/
namespace Verif
namespace Addrs

/-- What can be done to the IPv6 addresses. -/
inductive Op where
  | assign (h : Ip6Host)
  | remove (h : Ip6Host)
  | join (g : Ip6Address)
  | leave (g : Ip6Address)

def step (a : Addrs) : Op → Addrs
  | .assign h => (a.assignIp6 h).1
  | .remove h => (a.removeIp6 h).1
  | .join g => (a.joinGroup g).1
  | .leave g => (a.leaveGroup g).1

def run (mac : MacAddress) (ops : List Op) : Addrs := ops.foldl step (start mac)

end Addrs

namespace Spec
open Addrs

/-- RFC 4291 2.7.1: ff02::1:ff00:0/104 and the low 24 bits of the address. -/
def solicitedNode (a : Ip6Address) : Ip6Address := ⟨0xFF0200000000000000000001FF000000 + a.int % 2 ^ 24, by omega⟩

/-- RFC 2464 7: 33:33 and the low 32 bits of the group. -/
def groupMac (g : Ip6Address) : MacAddress := ⟨0x333300000000 + g.int % 2 ^ 32, by omega⟩

/-- Hosts are the same if address and length of the mask are. -/
def SameHost (x y : Ip6Host) : Prop := x.address = y.address ∧ x.network.mask.len = y.network.mask.len

instance (x y : Ip6Host) : Decidable (SameHost x y) := inferInstanceAs (Decidable (_ ∧ _))

/-- The addresses that are assigned and the groups that were joined on their own, after one more operation.  No result if a group is
joined that is none, or one left that was not joined. -/
def hold : Option (List Ip6Host × List Ip6Address) → Op → Option (List Ip6Host × List Ip6Address)
  | none, _ => none
  | some (hs, gs), .assign h => some (hs ++ [h], gs)
  | some (hs, gs), .remove h => some (hs.eraseP (fun x => SameHost h x), gs)
  | some (hs, gs), .join g => if g.isMulticast then some (hs, gs ++ [g]) else none
  | some (hs, gs), .leave g => if g ∈ gs then some (hs, gs.erase g) else none

/-- The addresses that are assigned and the groups that were joined on their own, after a history. -/
def holdings (ops : List Op) : Option (List Ip6Host × List Ip6Address) := ops.foldl hold (some ([], []))

/-- How often an advertisement for this address is in what is heard. -/
def adverts (c : Ip6Address) (l : List Heard) : Nat := l.countP fun
  | .advert t => t = c
  | _ => false

/-- Addresses are asked for one after the other, from step `n` on: in its first step of four nobody knows of it yet, in the next two
an advertisement is in time, in the last it is late.  These get no advertisement in time. -/
def winners (σ : Nat → List Heard) : Nat → List Ip6Host → List Ip6Host
  | _, [] => []
  | n, h :: l => (if Heard.advert h.address ∈ σ (n + 1) ++ σ (n + 2) then [] else [h]) ++ winners σ (n + 4) l

/-- Nobody answers twice, or late. -/
def Orderly (σ : Nat → List Heard) : Nat → List Ip6Host → Prop
  | _, [] => True
  | n, h :: l => adverts h.address (σ (n + 1) ++ σ (n + 2)) ≤ 1 ∧ Heard.advert h.address ∉ σ (n + 3) ∧ Orderly σ (n + 4) l

/-- The host that a router's prefix gives, by RFC 4862 and RFC 4291, appendix A: the prefix and the interface identifier that
comes from the MAC address; the router is its gateway. -/
def HostOf (mac : MacAddress) (p : Ip6Network × Ip6Address) (h : Ip6Host) : Prop :=
  h.address.toBytes = p.1.address.toBytes.take 8 ++ modifiedEui64 mac.toBytes ∧ h.network = p.1 ∧ h.gateway = some p.2

/-- The prefixes of the last router advertisement in what is heard, or `p` if there is none. -/
def routerPrefixes (p : List (Ip6Network × Ip6Address)) (l : List Heard) : List (Ip6Network × Ip6Address) :=
  l.foldl (fun p x => match x with
    | .router q => q
    | _ => p) p

end Spec
end Verif
