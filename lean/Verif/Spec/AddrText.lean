/-! Specification vocabulary for the text forms of addresses, independent of the code. -/
namespace Verif.Spec

/-- The value of a hexadecimal digit of either case. -/
def hexValue (c : Char) : Option Nat := "0123456789abcdef".toList.idxOf? c.toLower

/-- The code points Python counts as white space. -/
def blanks : List Nat :=
  [9, 10, 11, 12, 13, 28, 29, 30, 31, 32, 0x85, 0xA0, 0x1680, 0x2000, 0x2001, 0x2002, 0x2003, 0x2004, 0x2005, 0x2006, 0x2007, 0x2008,
   0x2009, 0x200A, 0x2028, 0x2029, 0x202F, 0x205F, 0x3000]

/-- Nothing but white space. -/
def Blank (s : List Char) : Prop := ∀ c ∈ s, c.toNat ∈ blanks

/-- `t` is six pairs of hexadecimal digits with `:` or `-` between them, and the pairs are the bytes `b`. -/
def MacForm (t : List Char) (b : List UInt8) : Prop :=
  t.length = 17 ∧ b.length = 6 ∧
  (∀ i < 5, t[3 * i + 2]? = some ':' ∨ t[3 * i + 2]? = some '-') ∧
  ∀ i < 6, ∃ hi lo, (t[3 * i]?).bind hexValue = some hi ∧ (t[3 * i + 1]?).bind hexValue = some lo ∧
    b[i]? = some (UInt8.ofNat (16 * hi + lo))

/-- The decimal number `n`. -/
def decimal (n : Nat) : List Char := (toString n).toList

/-- `a.b.c.d` -/
def dotted (a b c d : Nat) : List Char := decimal a ++ '.' :: (decimal b ++ '.' :: (decimal c ++ '.' :: decimal d))

end Verif.Spec
