import Verif.Model.Dhcp
/-! What the properties about DHCP mean. -/
namespace Verif.Spec
open Dhcp

/-- An option of RFC 2132: code, length, data. -/
structure Tlv where
  code : Nat
  data : Bytes

def Tlv.bytes (t : Tlv) : Bytes := UInt8.ofNat t.code :: UInt8.ofNat t.data.length :: t.data

/-- What RFC 2132 says about its data, for the options that the parser knows. -/
def Tlv.WellFormed (t : Tlv) : Prop :=
  0 < t.code ∧ t.code < 255 ∧ t.data.length < 256 ∧
  (t.code = 1 → ∃ m : Ip4Mask, t.data = m.toBytes) ∧
  (t.code = 3 ∨ t.code = 6 → t.data.length % 4 = 0) ∧
  (t.code = 12 ∨ t.code = 15 → ∃ s : String, t.data = encode s) ∧
  (t.code = 50 ∨ t.code = 51 ∨ t.code = 54 → t.data.length = 4) ∧
  (t.code = 53 → t.data.length = 1)

/-- A text of ASCII characters. -/
def Ascii (s : String) : Prop := ∀ c ∈ s.toList, c.toNat < 128

end Verif.Spec
