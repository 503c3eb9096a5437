/-! Specification vocabulary for addresses, independent of the code. -/
namespace Verif.Spec

/-- `x` lies in the `w`-bit CIDR block `p/n`: the first `n` of the `w` bits agree. -/
def cidr (w p n x : Nat) : Prop := x / 2 ^ (w - n) = p / 2 ^ (w - n)

instance (w p n x : Nat) : Decidable (cidr w p n x) := inferInstanceAs (Decidable (_ = _))

/-- dotted quad -/
def dot (a b c d : Nat) : Nat := ((a * 256 + b) * 256 + c) * 256 + d

/-- the first group of an IPv6 address followed by zeros: `g::` -/
def hextet (g : Nat) : Nat := g * 2 ^ 112

/-- Modified EUI-64 interface identifier of a 6-byte MAC (RFC 4291, appendix A). -/
def modifiedEui64 : List UInt8 → List UInt8
  | [a, b, c, d, e, f] => [a ^^^ 2, b, c, 0xFF, 0xFE, d, e, f]
  | l => l

end Verif.Spec
