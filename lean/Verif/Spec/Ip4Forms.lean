import Verif.Spec.Addr
import Verif.Spec.AddrText
/-! Texts of IPv4 addresses. -/
namespace Verif.Spec

/-- There is no white space in `s`, and no NUL character. -/
def Unbroken (s : List Char) : Prop := ∀ c ∈ s, c.toNat ≠ 0 ∧ c.toNat ≠ 32 ∧ ¬ (9 ≤ c.toNat ∧ c.toNat ≤ 13)

/-- What is between the dots of `s` does not begin with 0, unless it is 0. -/
def NoLeadingZeros (s : List Char) : Prop := ∀ p ∈ s.splitOn '.', p.head? = some '0' → p = ['0']

/-- `s` is a.b.c.d, in decimal, with numbers below 256, and `v` is the number of this address. -/
def DottedQuad (s : List Char) (v : Nat) : Prop :=
  ∃ a b c d, a < 256 ∧ b < 256 ∧ c < 256 ∧ d < 256 ∧ s = dotted a b c d ∧ v = dot a b c d

end Verif.Spec
