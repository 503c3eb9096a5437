/-!
Specification of the Internet checksum, written from RFC 1071 and independent of the code:
16-bit big-endian words, an odd last byte padded with zero on the right, added in one's
complement arithmetic (end-around carry).
-/
namespace Verif.Spec

/-- The 16-bit words of a byte string. -/
def words16 : List UInt8 → List Nat
  | [] => []
  | [a] => [a.toNat * 256]
  | a :: b :: rest => (a.toNat * 256 + b.toNat) :: words16 rest

/-- One's complement addition of two 16-bit numbers: add, then add the carry back in. -/
def ocAdd (a b : Nat) : Nat :=
  if a + b < 65536 then a + b else a + b - 65536 + 1

/-- One's complement sum of a list of 16-bit numbers. -/
def ocSum (ws : List Nat) : Nat := ws.foldl ocAdd 0

/-- The checksum RFC 1071 prescribes for a byte string: the complement of the sum. -/
def rfc1071 (b : List UInt8) : Nat := 65535 - ocSum (words16 b)

/-- A block that contains its checksum is valid when its one's complement sum is all ones. -/
def Valid (b : List UInt8) : Prop := ocSum (words16 b) = 65535

/-- A block arriving under a pseudo-header whose words add up to `init` (modulo 65535) verifies: the one's complement
sum of everything is the non-zero representation of zero. -/
def Verifies (init : Nat) (b : List UInt8) : Prop :=
  65535 ∣ init + (words16 b).sum ∧ 0 < init + (words16 b).sum

end Verif.Spec
