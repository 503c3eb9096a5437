import Verif.Lemmas.Ip4Forms
/-! Property C113: exactly which texts are IPv4 addresses, and of which. -/
namespace Verif
open Spec

/-- A text without white space, NUL and leading zeros is taken as an IPv4 address if and only if it is a dotted quad, and then as the
address with these four numbers; any other such text is refused as badly formed.  What is missing: texts with white space or leading zeros
are not refused (`C113_blank_witness`, `C113_zero_witness`), and NUL gives another exception. -/
theorem C113_ip4_text_partial (s : List Char) (h1 : Unbroken s) (h2 : NoLeadingZeros s) :
    (∀ x : Ip4Address, Ip4Address.ofText s = .ok x ↔ DottedQuad s x.int) ∧
    ((¬ ∃ v, DottedQuad s v) → Ip4Address.ofText s = .error .formatError) := by
  have fwd : ∀ a b c d, a < 256 → b < 256 → c < 256 → d < 256 → ∀ h : dot a b c d < 2 ^ 32,
      Ip4Address.ofText (dotted a b c d) = .ok ⟨dot a b c d, h⟩ := by
    intro a b c d ha hb hc hd h
    rw [← dotText_eq, Ip4Address.ofText_dot _ _ _ _ ha hb hc hd]
    exact Ip4Address.ofInt_ok _ h
  have lt : ∀ a b c d, a < 256 → b < 256 → c < 256 → d < 256 → dot a b c d < 2 ^ 32 := by
    intro a b c d ha hb hc hd; unfold dot; omega
  have back : (¬ ∃ v, DottedQuad s v) → Ip4Address.ofText s = .error .formatError := by
    intro h
    refine ip4_refused s h1 h2 ?_
    rintro ⟨a, b, c, d, ha, hb, hc, hd, e⟩
    exact h ⟨_, a, b, c, d, ha, hb, hc, hd, by rw [e, dotText_eq], rfl⟩
  refine ⟨fun x => ⟨fun h => ?_, ?_⟩, back⟩
  · by_cases hq : ∃ v, DottedQuad s v
    · obtain ⟨v, a, b, c, d, ha, hb, hc, hd, rfl, rfl⟩ := hq
      rw [fwd a b c d ha hb hc hd (lt _ _ _ _ ha hb hc hd)] at h
      injection h with h
      exact ⟨a, b, c, d, ha, hb, hc, hd, rfl, by rw [← h]⟩
    · rw [back hq] at h; injection h
  · rintro ⟨a, b, c, d, ha, hb, hc, hd, rfl, e⟩
    rw [fwd a b c d ha hb hc hd (lt _ _ _ _ ha hb hc hd)]
    congr 1
    cases x
    simp at e
    simp [e]

theorem decText_zero (n : Nat) : (decText n).head? = some '0' → decText n = ['0'] := by
  have hne : ∀ n, 0 < n → (decText n).head? ≠ some '0' := by
    intro n
    induction n using Nat.strongRecOn with
    | ind n ih =>
      intro hn
      by_cases h : n < 10
      · have e : ∀ n < 10, 0 < n → (decText n).head? ≠ some '0' := by decide +kernel
        exact e n h hn
      · have := ih (n / 10) (by omega) (by omega)
        unfold decText at this ⊢
        rw [Nat.toDigits_eq_if (by decide), if_neg h]
        have ne := decText_ne (n / 10)
        unfold decText at ne
        cases hd : Nat.toDigits 10 (n / 10) with
        | nil => exact absurd hd ne
        | cons c t => rw [hd] at this; simpa using this
  intro h
  rcases Nat.eq_zero_or_pos n with rfl | hn
  · decide +kernel
  · exact absurd h (hne n hn)

/-- Every dotted quad is among the texts `C113_ip4_text_partial` speaks of. -/
theorem C113_covers (s : List Char) (v : Nat) (h : DottedQuad s v) : Unbroken s ∧ NoLeadingZeros s := by
  obtain ⟨a, b, c, d, -, -, -, -, rfl, -⟩ := h
  rw [← dotText_eq]
  constructor
  · intro x hx
    rcases dotText_chars _ _ _ _ _ hx with h | rfl
    · have e : ∀ c ∈ "0123456789abcdefABCDEF".toList, c.toNat ≠ 0 ∧ c.toNat ≠ 32 ∧ ¬ (9 ≤ c.toNat ∧ c.toNat ≤ 13) := by decide +kernel
      exact e x (isHex_mem (isDec_hex h))
    · decide
  · intro p hp
    have nd := fun n => dot_not_dec (decText_dec n)
    unfold dotText at hp
    rw [List.splitOn_append_cons_self_of_not_mem (nd a), List.splitOn_append_cons_self_of_not_mem (nd b),
      List.splitOn_append_cons_self_of_not_mem (nd c), List.splitOn_eq_singleton (nd d)] at hp
    simp at hp
    rcases hp with rfl | rfl | rfl | rfl <;> exact decText_zero _

/-- After a dotted quad and one white-space character the text may go on with anything (but NUL): it is taken as that address. -/
theorem C113_blank_witness (a b c d : Nat) (ha : a < 256) (hb : b < 256) (hc : c < 256) (hd : d < 256) (e : Char)
    (he : e.toNat = 32 ∨ (9 ≤ e.toNat ∧ e.toNat ≤ 13)) (t : List Char) (ht : '\x00' ∉ t) :
    ∃ x : Ip4Address, Ip4Address.ofText (dotted a b c d ++ e :: t) = .ok x ∧ x.int = dot a b c d := by
  have lt : dot a b c d < 2 ^ 32 := by unfold dot; omega
  refine ⟨⟨dot a b c d, lt⟩, ?_, rfl⟩
  rw [← dotText_eq, ip4_blank a b c d ha hb hc hd e he t ht]
  exact Ip4Address.ofInt_ok _ lt

/-- Leading zeros make a number octal, and 0x makes it hexadecimal, if only a dotted quad is found somewhere in the text: 010.0.0.1 is
taken as 8.0.0.1 and "0x1f 1.2.3.4" as 0.0.0.31. -/
theorem C113_zero_witness :
    Ip4Address.ofText "010.0.0.1".toList = .ok ⟨dot 8 0 0 1, by decide⟩ ∧
    Ip4Address.ofText "10.0.0.010".toList = .ok ⟨dot 10 0 0 8, by decide⟩ ∧
    Ip4Address.ofText "0x1f 1.2.3.4".toList = .ok ⟨dot 0 0 0 31, by decide⟩ ∧
    Ip4Address.ofText "09.0.0.1".toList = .error .formatError := by
  refine ⟨?_, ?_, ?_, ?_⟩ <;> decide +kernel

namespace Example.Ip4Forms

/-- a text refused, one refused for a number too great, one accepted -/
example : (Unbroken "10.0.0".toList ∧ NoLeadingZeros "10.0.0".toList) ∧ (Unbroken "10.0.0.256".toList ∧ NoLeadingZeros "10.0.0.256".toList) ∧
    (Unbroken "10.0.200.1".toList ∧ NoLeadingZeros "10.0.200.1".toList) ∧ DottedQuad "10.0.200.1".toList (dot 10 0 200 1) ∧
    Ip4Address.ofText "10.0.0.256".toList = .error .formatError := by
  unfold Unbroken NoLeadingZeros DottedQuad
  refine ⟨by decide +kernel, by decide +kernel, by decide +kernel, ⟨10, 0, 200, 1, by decide, by decide, by decide, by decide, ?_, rfl⟩, by decide +kernel⟩
  decide +kernel

end Example.Ip4Forms

end Verif
