import Verif.Spec.Wire
import Verif.Spec.Addrs
import Verif.Model.Rx
/-! Neighbour discovery messages as bytes (RFC 4861). -/
namespace Verif.Spec

/-- `p` is a neighbour discovery message of this type, with `size` bytes before its options. -/
structure IsNd (type size : Nat) (p : Bytes) (opts : List (Nat × Bytes)) : Prop where
  length : size ≤ p.length
  hasType : be p 0 1 = type
  options : NdOptions (p.drop size) opts

/-- Prefix options are long enough and their prefixes not too long. -/
def GoodPrefixes (opts : List (Nat × Bytes)) : Prop := ∀ v, (3, v) ∈ opts → 30 ≤ v.length ∧ be v 0 1 ≤ 128

/-- The link-layer (MAC) address in the first option of this type, as a number. -/
def firstMac (k : Nat) (opts : List (Nat × Bytes)) : Option Nat := (opts.find? (·.1 == k)).map fun o => be o.2 0 6

/-- Loopback, global unicast, unique local or link-local (RFC 4291, RFC 4193). -/
def Unicast6 (a : Ip6Address) : Prop :=
  a.int = 1 ∨ cidr 128 (hextet 0x2000) 3 a.int ∨ cidr 128 (hextet 0xFC00) 7 a.int ∨ cidr 128 (hextet 0xFE80) 10 a.int

/-- ff02::1 -/
def allNodes6 : Ip6Address := ⟨0xFF020000000000000000000000000001, by decide⟩

/-- A solicitation for `target` that a host must believe (RFC 4861 sections 4.3 and 7.1.1). -/
def GoodNs (src dst : Ip6Address) (hop : Nat) (p : Bytes) (target : Ip6Address) (opts : List (Nat × Bytes)) : Prop :=
  be p 1 1 = 0 ∧ hop = 255 ∧ (src.int = 0 ∨ Unicast6 src) ∧ (dst = target ∨ dst = solicitedNode target) ∧ Unicast6 target ∧
    (src.int = 0 → firstMac 1 opts = none)

/-- An advertisement that a host must believe (sections 4.4 and 7.1.2); bit 6 of byte 4 is the solicited flag. -/
def GoodNa (src dst : Ip6Address) (hop : Nat) (p : Bytes) : Prop :=
  be p 1 1 = 0 ∧ hop = 255 ∧ Unicast6 src ∧ ((bit p 4 6 = true ∧ Unicast6 dst) ∨ dst = allNodes6)

/-- A router advertisement that a host must believe (sections 4.2 and 6.1.2). -/
def GoodRa (src dst : Ip6Address) (hop : Nat) (p : Bytes) : Prop :=
  be p 1 1 = 0 ∧ hop = 255 ∧ cidr 128 (hextet 0xFE80) 10 src.int ∧ (Unicast6 dst ∨ dst = allNodes6)

/-- The prefixes of 64 bits that are for address configuration (section 4.6.2: the value is the prefix length, a byte whose bit 6 is the
autonomous flag, lifetimes, and the prefix from byte 14 on), as numbers of 64 bits. -/
def autoPrefixes (opts : List (Nat × Bytes)) : List Nat :=
  opts.filterMap fun o => if o.1 = 3 ∧ be o.2 0 1 = 64 ∧ bit o.2 1 6 = true then some (be o.2 14 8) else none

/-- The router advertisements heard during start-up come from received frames. -/
def FromFrames (σ : Nat → List Heard) : Prop :=
  ∀ k q, .router q ∈ σ k → ∃ n t₀ t₁ d F n' l, Rx.ether n t₀ t₁ d F = (n', .ok l) ∧ .routerPrefixes q ∈ l

end Verif.Spec
