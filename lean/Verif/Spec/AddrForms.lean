import Verif.Spec.AddrText
/-! The text forms of IPv6 addresses in RFC 4291, section 2.2. -/
namespace Verif.Spec

/-- `t` is a number of one to four hexadecimal digits, and its value is `w`. -/
def HexGroup (t : List Char) (w : Nat) : Prop :=
  1 ≤ t.length ∧ t.length ≤ 4 ∧ ∃ vs : List Nat, t.map hexValue = vs.map some ∧ w = vs.foldl (fun a v => 16 * a + v) 0

/-- `t` is such numbers with `:` between them, of which the last two may be given as `a.b.c.d` (if `quad`); they are the bytes `bs`. -/
inductive Hextets (quad : Bool) : List Char → List Nat → Prop
  | one {t : List Char} {w : Nat} : HexGroup t w → Hextets quad t [w / 256, w % 256]
  | dotted {a b c d : Nat} : quad = true → a < 256 → b < 256 → c < 256 → d < 256 → Hextets quad (dotted a b c d) [a, b, c, d]
  | more {t s : List Char} {w : Nat} {bs : List Nat} : HexGroup t w → Hextets quad s bs → Hextets quad (t ++ ':' :: s) (w / 256 :: w % 256 :: bs)

/-- The same, or nothing at all. -/
def SomeHextets (quad : Bool) (t : List Char) (bs : List Nat) : Prop := t = [] ∧ bs = [] ∨ Hextets quad t bs

/-- `s` is a text of the IPv6 address of these sixteen bytes: all of them, or with `::` once, for the zeros that are left out (at least a group). -/
inductive Ip6Text : List Char → List Nat → Prop
  | full {s : List Char} {bs : List Nat} : Hextets true s bs → bs.length = 16 → Ip6Text s bs
  | short {pre post : List Char} {ps qs : List Nat} : SomeHextets false pre ps → SomeHextets true post qs → ps.length + qs.length < 16 →
      Ip6Text (pre ++ ':' :: ':' :: post) (ps ++ List.replicate (16 - (ps.length + qs.length)) 0 ++ qs)

end Verif.Spec
