import Verif.Spec.AddrObj
import Verif.Props.AddrText
/-! C109: equality and hashes of addresses, masks, networks and hosts. -/
namespace Verif
open Spec

namespace AddrObj

theorem paren_inj {a b c d : Text} (ha : '(' ∉ a) (hb : '(' ∉ b) (h : a ++ '(' :: c = b ++ '(' :: d) : a = b ∧ c = d := by
  induction a generalizing b with
  | nil =>
    cases b with
    | nil => simpa using h
    | cons y b => simp at h hb; exact absurd h.1 hb.1
  | cons x a ih =>
    cases b with
    | nil => simp at h ha; exact absurd h.1.symm ha.1
    | cons y b =>
      simp at h ha hb
      obtain ⟨h1, h2⟩ := ih ha.2 hb.2 h.2
      exact ⟨by rw [h.1, h1], h2⟩

/-- The sorts, numbered. -/
def sort : AddrObj → Fin 9
  | .mac _ => 0
  | .ip4 _ => 1
  | .ip6 _ => 2
  | .mask4 _ => 3
  | .mask6 _ => 4
  | .net4 _ => 5
  | .net6 _ => 6
  | .host4 _ => 7
  | .host6 _ => 8

def kindOf (i : Fin 9) : Text :=
  (["MacAddress".toList, "Ip4Address".toList, "Ip6Address".toList, "Ip4Mask".toList, "Ip6Mask".toList, "Ip4Network".toList, "Ip6Network".toList,
    "Ip4Host".toList, "Ip6Host".toList].getD i.val [])

theorem kind_eq (x : AddrObj) : x.kind = kindOf x.sort := by cases x <;> rfl
theorem kindOf_noParen : ∀ i, '(' ∉ kindOf i := by decide +kernel
theorem kindOf_inj : ∀ i j, kindOf i = kindOf j → i = j := by decide +kernel

theorem repr_inj {x y : AddrObj} : x.repr = y.repr ↔ x.sort = y.sort ∧ x.str = y.str := by
  constructor
  · intro h
    unfold repr at h
    rw [kind_eq, kind_eq] at h
    obtain ⟨h1, h2⟩ := paren_inj (kindOf_noParen _) (kindOf_noParen _) h
    injection h2 with _ h2
    exact ⟨kindOf_inj _ _ h1, List.append_cancel_right h2⟩
  · rintro ⟨h1, h2⟩
    unfold repr
    rw [kind_eq, kind_eq, h1, h2]

end AddrObj

theorem mask4_str {a b : Ip4Mask} (h : maskText a.len = maskText b.len) : a = b := by
  injection h with _ h
  have hn := decText_inj h
  have h1 := a.prefix_len.2
  rw [hn, b.prefix_len.2] at h1; injection h1 with h1; exact h1.symm

theorem mask6_str {a b : Ip6Mask} (h : maskText a.len = maskText b.len) : a = b := by
  injection h with _ h
  have hn := decText_inj h
  have h1 := a.prefix_len.2
  rw [hn, b.prefix_len.2] at h1; injection h1 with h1; exact h1.symm

/-- Same sort and same text, said of the values. -/
theorem same_iff (x y : AddrObj) (hx : InPlace x) (hy : InPlace y) : (x.sort = y.sort ∧ x.str = y.str) ↔ Denote x y := by
  have m (a b : MacAddress) : a.int = b.int ↔ a = b := ⟨fun h => by cases a; cases b; simp_all, fun h => by rw [h]⟩
  have a4 (a b : Ip4Address) : a.int = b.int ↔ a = b := ⟨fun h => by cases a; cases b; simp_all, fun h => by rw [h]⟩
  have a6 (a b : Ip6Address) : a.int = b.int ↔ a = b := ⟨fun h => by cases a; cases b; simp_all, fun h => by rw [h]⟩
  have m4 (a b : Ip4Mask) : a.int = b.int ↔ a = b := ⟨fun h => by cases a; cases b; simp_all, fun h => by rw [h]⟩
  have m6 (a b : Ip6Mask) : a.int = b.int ↔ a = b := ⟨fun h => by cases a; cases b; simp_all, fun h => by rw [h]⟩
  have n4 (a b : Ip4Network) : a.address = b.address ∧ a.mask = b.mask ↔ a = b :=
    ⟨fun h => by cases a; cases b; simp_all, fun h => by rw [h]; exact ⟨rfl, rfl⟩⟩
  have n6 (a b : Ip6Network) : a.address = b.address ∧ a.mask = b.mask ↔ a = b :=
    ⟨fun h => by cases a; cases b; simp_all, fun h => by rw [h]; exact ⟨rfl, rfl⟩⟩
  cases x <;> cases y
  case mac.mac a b =>
    simp only [AddrObj.sort, AddrObj.str, Denote, true_and, m]
    exact ⟨(C04_mac_str a).2 b, fun h => by rw [h]⟩
  case ip4.ip4 a b =>
    simp only [AddrObj.sort, AddrObj.str, Denote, true_and, a4]
    exact ⟨C05_ip4_text.2.2.2 a b, fun h => by rw [h]⟩
  case ip6.ip6 a b =>
    simp only [AddrObj.sort, AddrObj.str, Denote, true_and, a6]
    exact ⟨C06_ip6_text.2 a b, fun h => by rw [h]⟩
  case mask4.mask4 a b =>
    simp only [AddrObj.sort, AddrObj.str, Denote, true_and, m4]
    exact ⟨mask4_str, fun h => by rw [h]⟩
  case mask6.mask6 a b =>
    simp only [AddrObj.sort, AddrObj.str, Denote, true_and, m6]
    exact ⟨mask6_str, fun h => by rw [h]⟩
  case net4.net4 a b =>
    simp only [AddrObj.sort, AddrObj.str, Denote, true_and, a4, m4, n4]
    exact ⟨C77_ip4_text.2.2.2.2 a b, fun h => by rw [h]⟩
  case net6.net6 a b =>
    simp only [AddrObj.sort, AddrObj.str, Denote, true_and, a6, m6, n6]
    exact ⟨C77_ip6_text.2.2.2.2 a b, fun h => by rw [h]⟩
  case host4.host4 a b =>
    simp only [AddrObj.sort, AddrObj.str, Denote, true_and, a4, m4, n4]
    exact C77_host_str.1 a b hx hy
  case host6.host6 a b =>
    simp only [AddrObj.sort, AddrObj.str, Denote, true_and, a6, m6, n6]
    exact C77_host_str.2 a b hx hy
  all_goals exact ⟨fun h => absurd h.1 (by simp only [AddrObj.sort]; decide), fun h => h.elim⟩

/-- C109: `==` on addresses, masks, networks and hosts, of any sorts, says whether they are of one sort and denote the same. -/
theorem C109_equal (x y : AddrObj) (hx : InPlace x) (hy : InPlace y) : x.eq y = true ↔ Denote x y := by
  rw [← same_iff x y hx hy, ← AddrObj.repr_inj]
  unfold AddrObj.eq
  exact beq_iff_eq

/-- C109: what is equal has the same hash, so that dictionaries and sets find it. -/
theorem C109_hash (x y : AddrObj) (hx : InPlace x) (hy : InPlace y) (h : x.eq y = true) : x.hash = y.hash := by
  have h := (C109_equal x y hx hy).mp h
  cases x <;> cases y <;> simp only [Denote] at h <;> simp only [AddrObj.hash, h]

/-- C109: equality is that: reflexive, symmetric and transitive. -/
theorem C109_equivalence (x y z : AddrObj) : x.eq x = true ∧ (x.eq y = true → y.eq x = true) ∧ (x.eq y = true → y.eq z = true → x.eq z = true) := by
  unfold AddrObj.eq
  simp only [beq_iff_eq]
  exact ⟨trivial, Eq.symm, Eq.trans⟩

namespace Example.AddrObj
open Verif.AddrObj

def a : Ip4Address := ⟨dot 10 0 1 7, by decide⟩
def a6 : Ip6Address := ⟨dot 10 0 1 7, by decide⟩
def m24 : Ip4Mask := ⟨0xFFFFFF00, by decide, by decide +kernel⟩
def n : Ip4Network := ⟨⟨dot 10 0 1 0, by decide⟩, m24, by decide +kernel⟩
def n' : Ip4Network := ⟨⟨dot 10 0 2 0, by decide⟩, m24, by decide +kernel⟩

example : (AddrObj.ip4 a).repr = "Ip4Address('10.0.1.7')".toList := by decide +kernel
example : (AddrObj.host4 ⟨a, n, none⟩).repr = "Ip4Host('10.0.1.7/24')".toList := by decide +kernel
example : InPlace (.host4 ⟨a, n, none⟩) ∧ InPlace (.host4 ⟨a, n, some ⟨dot 10 0 1 1, by decide⟩⟩) := by
  constructor <;> · show _ = true; decide +kernel
example : (AddrObj.host4 ⟨a, n, none⟩).eq (.host4 ⟨a, n, some ⟨dot 10 0 1 1, by decide⟩⟩) = true := by decide +kernel
example : (AddrObj.ip4 a).eq (.ip6 a6) = false ∧ (AddrObj.ip4 a).hash = (AddrObj.ip6 a6).hash := by decide +kernel
example : (AddrObj.ip6 ⟨2 ^ 127 + 1, by decide⟩).hash = 33 := by decide +kernel

end Example.AddrObj

/-- C109: a host made with a network it does not lie in is equal to one in another network, with another hash. -/
theorem C109_out_of_place_witness : ∃ x y : AddrObj, x.eq y = true ∧ ¬ Denote x y ∧ x.hash ≠ y.hash :=
  ⟨.host4 ⟨Example.AddrObj.a, Example.AddrObj.n, none⟩, .host4 ⟨Example.AddrObj.a, Example.AddrObj.n', none⟩, by decide +kernel,
    fun h => absurd h.2.1 (by decide +kernel), by decide +kernel⟩

end Verif
