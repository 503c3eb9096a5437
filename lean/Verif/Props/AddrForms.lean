import Verif.Lemmas.AddrFormsRx
/-! Property C111: exactly which texts are IPv6 addresses, and of which. -/
namespace Verif
open Spec

theorem hextets_facts {q : Bool} {s : Text} {bs : List Nat} (h : Hextets q s bs) : (∀ b ∈ bs, b < 256) ∧ '\x00' ∉ s := by
  induction h with
  | one g =>
    have g := (hexGroup_iff _ _).1 g
    have := g.lt
    exact ⟨by simp; omega, fun h => absurd (g.2.2.1 _ h) (by decide)⟩
  | @dotted a b c d _ _ _ _ _ =>
    refine ⟨by simp; omega, fun h => ?_⟩
    rw [← dotted_eq] at h
    rcases dotText_chars a b c d _ h with h | h
    · exact absurd h (by decide)
    · exact absurd h (by decide)
  | more g _ ih =>
    have g := (hexGroup_iff _ _).1 g
    have := g.lt
    refine ⟨?_, ?_⟩
    · intro b hb
      rcases List.mem_cons.1 hb with rfl | hb
      · omega
      rcases List.mem_cons.1 hb with rfl | hb
      · omega
      · exact ih.1 b hb
    · intro h
      rcases List.mem_append.1 h with h | h
      · exact absurd (g.2.2.1 _ h) (by decide)
      · rcases List.mem_cons.1 h with h | h
        · exact absurd h (by decide)
        · exact ih.2 h

theorem ip6Text_facts {s : Text} {bs : List Nat} (h : Ip6Text s bs) : bs.length = 16 ∧ (∀ b ∈ bs, b < 256) ∧ '\x00' ∉ s := by
  have some : ∀ {q : Bool} {s : Text} {bs : List Nat}, SomeHextets q s bs → (∀ b ∈ bs, b < 256) ∧ '\x00' ∉ s := by
    rintro q s bs (⟨rfl, rfl⟩ | h)
    · simp
    · exact hextets_facts h
  cases h with
  | full h hl => exact ⟨hl, hextets_facts h⟩
  | short h1 h2 h3 =>
    obtain ⟨a1, b1⟩ := some h1
    obtain ⟨a2, b2⟩ := some h2
    refine ⟨by simp; omega, ?_, ?_⟩
    · intro b hb
      simp only [List.mem_append, List.mem_replicate] at hb
      rcases hb with (hb | ⟨-, rfl⟩) | hb
      · exact a1 b hb
      · decide
      · exact a2 b hb
    · intro h
      rcases List.mem_append.1 h with h | h
      · exact b1 h
      · rcases List.mem_cons.1 h with h | h
        · exact absurd h (by decide)
        rcases List.mem_cons.1 h with h | h
        · exact absurd h (by decide)
        · exact b2 h

theorem bytes_back {bs : List Nat} (h : ∀ b ∈ bs, b < 256) : (bs.map UInt8.ofNat).map UInt8.toNat = bs := by
  rw [List.map_map]
  refine (List.map_congr_left fun b hb => ?_).trans (List.map_id _)
  have := h b hb
  simp [UInt8.toNat_ofNat']
  omega

theorem ip6Text_addr {s : Text} {bs : List Nat} (h : Ip6Text s bs) : ∃ x : Ip6Address, x.toBytes.map UInt8.toNat = bs := by
  obtain ⟨hl, hlt, -⟩ := ip6Text_facts h
  have hl' : (bs.map UInt8.ofNat).length = 16 := by simpa using hl
  refine ⟨⟨beNat (bs.map UInt8.ofNat), by have := beNat_lt (bs.map UInt8.ofNat); rw [hl'] at this; omega⟩, ?_⟩
  rw [Ip6Address.toBytes_eq]
  have e := bePack_beNat (bs.map UInt8.ofNat)
  rw [hl'] at e
  simp only
  rw [e, bytes_back hlt]

/-- **C111** For every text and every IPv6 address: `Ip6Address(text)` is that address exactly if the text is one of the RFC 4291 forms of it -
except the forms that end in a dotted number and have no `::`.  Every other text is refused with the format error (or, if it holds a NUL, with
the format error or the `ValueError` of the system call).

Partial, because RFC 4291's `x:x:x:x:x:x:d.d.d.d` should be accepted too; see `C111_quad_witness`. -/
theorem C111_ip6_text_partial (s : List Char) :
    (∀ x : Ip6Address, Ip6Address.ofText s = .ok x ↔ Ip6Text s (x.toBytes.map UInt8.toNat) ∧ ('.' ∈ s → [':', ':'] <:+: s)) ∧
    (∀ e, Ip6Address.ofText s = .error e → e = .formatError ∨ e = .valueError ∧ '\x00' ∈ s) := by
  constructor
  · intro x
    constructor
    · intro h
      unfold Ip6Address.ofText at h
      split at h
      case isFalse => cases h
      case isTrue hs =>
        split at h
        · cases h
        · split at h
          case h_2 => cases h
          case h_1 b hb =>
            have ht := (inetPton6_iff s b).1 hb
            obtain ⟨hl, hlt, -⟩ := (ip6Text_facts ht)
            have hl' : (b.map UInt8.ofNat).length = 16 := by simpa using hl
            have e : x.toBytes = b.map UInt8.ofNat := by
              rw [Ip6Address.ofBytes_ok _ hl'] at h
              cases h
              rw [Ip6Address.toBytes_eq]
              conv_rhs => rw [← bePack_beNat (b.map UInt8.ofNat), hl']
            rw [e, bytes_back hlt]
            exact ⟨ht, (search6_iff ht).1 hs⟩
    · rintro ⟨ht, hd⟩
      unfold Ip6Address.ofText
      rw [if_pos ((search6_iff ht).2 hd), if_neg (by simpa using (ip6Text_facts ht).2.2), (inetPton6_iff s _).2 ht]
      simp only
      rw [List.map_map]
      have : x.toBytes.map (UInt8.ofNat ∘ UInt8.toNat) = x.toBytes := by
        refine (List.map_congr_left fun b _ => ?_).trans (List.map_id _)
        simp
      rw [this, Ip6Address.ofBytes_toBytes]
  · intro e h
    unfold Ip6Address.ofText at h
    split at h
    · split at h
      case isTrue h0 =>
        cases h
        exact .inr ⟨rfl, by simpa using h0⟩
      case isFalse =>
        split at h
        case h_1 b hb =>
          have ht := (inetPton6_iff s b).1 hb
          rw [Ip6Address.ofBytes_ok _ (by simpa using (ip6Text_facts ht).1)] at h
          cases h
        case h_2 => cases h; exact .inl rfl
    · cases h; exact .inl rfl

/-- **C111**, the deviation: for all six groups and all four numbers, the text `x:x:x:x:x:x:d.d.d.d` is a text of an IPv6 address in RFC 4291
(2.2, form 3) and is refused. -/
theorem C111_quad_witness (t : Fin 6 → List Char) (w : Fin 6 → Nat) (h : ∀ i, HexGroup (t i) (w i)) (a b c d : Nat) (ha : a < 256) (hb : b < 256)
    (hc : c < 256) (hd : d < 256) :
    let s := t 0 ++ ':' :: (t 1 ++ ':' :: (t 2 ++ ':' :: (t 3 ++ ':' :: (t 4 ++ ':' :: (t 5 ++ ':' :: dotted a b c d)))))
    (∃ x : Ip6Address, Ip6Text s (x.toBytes.map UInt8.toNat)) ∧ Ip6Address.ofText s = .error .formatError := by
  intro s
  have hx : Hextets true s _ := .more (h 0) (.more (h 1) (.more (h 2) (.more (h 3) (.more (h 4) (.more (h 5) (.dotted rfl ha hb hc hd))))))
  have ht : Ip6Text s _ := .full hx rfl
  have hdot : '.' ∈ s := by simp [s, dotted]
  refine ⟨?_, ?_⟩
  · obtain ⟨x, hx⟩ := ip6Text_addr ht
    exact ⟨x, by rw [hx]; exact ht⟩
  · unfold Ip6Address.ofText
    rw [if_neg]
    intro hs
    obtain ⟨u, h1, h2 | h2⟩ := search_eats ip6Rx_eats s hs
    · have := (hextets_dot hx).2 hdot
      have := h1.sublist.count_le ':'
      simp at *
      omega
    · obtain ⟨x, y, e⟩ := h2.trans h1
      exact hextets_gap hx x y (by rw [← e]; simp)

namespace Example.AddrForms
/-- both sides of the equivalence hold of texts of the two forms -/
example : ∃ x : Ip6Address, Ip6Address.ofText "2001:DB8::0:1".toList = .ok x ∧ x.toText = "2001:db8::1".toList := by
  refine ⟨⟨0x20010db8000000000000000000000001, by decide⟩, ?_, ?_⟩ <;> decide +kernel
example : ∃ x : Ip6Address, Ip6Address.ofText "::ffff:10.0.1.7".toList = .ok x := ⟨⟨0xffff0a000107, by decide⟩, by decide +kernel⟩
example : Ip6Text "1:2:3:4:5:6:7:8".toList [0, 1, 0, 2, 0, 3, 0, 4, 0, 5, 0, 6, 0, 7, 0, 8] := (inetPton6_iff _ _).1 (by decide +kernel)
example : ¬ ∃ b, Ip6Text "1::2::3".toList b := by
  rintro ⟨b, h⟩
  have h := (inetPton6_iff _ _).2 h
  exact absurd (h.symm.trans (by decide +kernel : inetPton6 "1::2::3".toList = none)) (by simp)
example : Ip6Address.ofText "1:2:3:4:5:6:1.2.3.4".toList = .error .formatError := by decide +kernel
end Example.AddrForms

end Verif
